import Verif.Spec.HashOrder
import Verif.Props.Alive

/-!
# C87: the visualizer with hash orders chosen anew each time
-/

namespace Verif.Props
open Spec Viz

variable {D : ℕ} {nm : LidarNoiseModel F32} {m m' m1 m2 : GridMap D F32 F32} {origin : Point D F32}
  {cloud : PointCloud D F32} {ord ord' : List (Cell D) → List (Cell D)}

/-! ## Integration does not look at the recorded cells -/

/-- The map with other recorded cells. -/
def withCells (m : GridMap D F32 F32) (l : List (Cell D)) : GridMap D F32 F32 := { m with changedCells := l }

lemma map_bind {α β γ : Type} (a : M α) (f : α → M β) (g : β → γ) :
    (a >>= f).map g = a >>= fun x => (f x).map g := by cases a <;> rfl

lemma bind_map {α β γ : Type} (a : M α) (g : α → β) (f : β → M γ) :
    (a.map g >>= f) = a >>= fun x => f (g x) := by cases a <;> rfl

lemma expandBounds_withCells (b : Bounds D F32) (v : F32) (l : List (Cell D)) :
    (withCells m l).expandBounds b v = (m.expandBounds b v).map fun m' => withCells m' l := by
  have e : (withCells m l).newCellBounds b = m.newCellBounds b := rfl
  unfold GridMap.expandBounds
  rw [e, map_bind]
  cases m.newCellBounds b with
  | error e => rfl
  | ok ncb =>
    rw [M.bind_ok, M.bind_ok]
    have e1 : (withCells m l).copyOld = m.copyOld := rfl
    have e2 : (withCells m l).bounds = m.bounds := rfl
    have e3 : (withCells m l).resolution = m.resolution := rfl
    rw [e1, e2, e3]
    by_cases h1 : ncb = CellBounds.fromBounds m.bounds m.resolution
    · simp only [if_pos h1]; rfl
    · simp only [if_neg h1]
      rw [map_bind]
      congr 1
      funext d
      by_cases h2 : m.bounds.beq Bounds.empty = true
      · simp only [if_pos h2]; rfl
      · simp only [if_neg h2]
        rw [map_bind]
        rfl

lemma upd_withCells (g : F32 → F32) (c : Cell D) (l : List (Cell D)) :
    upd g (withCells m l) c = (upd g m c).map fun m' => withCells m' l := by
  have e : (withCells m l).get c = m.get c := rfl
  unfold upd
  rw [e, map_bind]
  cases m.get c with
  | error e => rfl
  | ok v =>
    rw [M.bind_ok, M.bind_ok]
    unfold GridMap.set
    rw [map_bind]
    rfl

lemma foldUpd_withCells (g : F32 → F32) (l : List (Cell D)) : ∀ (cs : List (Cell D)) (m : GridMap D F32 F32),
    cs.foldlM (upd g) (withCells m l) = (cs.foldlM (upd g) m).map fun m' => withCells m' l
  | [], m => rfl
  | c :: cs, m => by
    rw [List.foldlM_cons, List.foldlM_cons, upd_withCells, bind_map, map_bind]
    congr 1
    funext m'
    exact foldUpd_withCells g l cs m'

/-- What the integration does to a map, told from the map without recorded cells. -/
lemma integrate_withCells (fuel : ℕ) (l : List (Cell D)) :
    nm.integratePointCloud ord fuel (withCells m l) origin cloud =
      (nm.integratePointCloud ord fuel (withCells m []) origin cloud).map
        fun m' => withCells m' (l ++ m'.changedCells) := by
  rw [integrate_unfold, integrate_unfold, expandBounds_withCells, expandBounds_withCells, bind_map, bind_map, map_bind]
  congr 1
  funext me
  rw [map_bind]
  congr 1
  funext fo
  rw [foldUpd_withCells, foldUpd_withCells, bind_map, bind_map, map_bind]
  congr 1
  funext a
  rw [foldUpd_withCells, foldUpd_withCells, bind_map, bind_map, map_bind]
  congr 1
  funext b
  have e : ∀ l, (withCells me l).trackChanges = me.trackChanges := fun _ => rfl
  rw [e, e]
  cases me.trackChanges
  · simp [withCells, Except.map]
  · simp [withCells, Except.map, GridMap.addChangedCells]

lemma sameButOrder_iff : SameButOrder m1 m2 ↔ m2 = withCells m1 m2.changedCells ∧
    m1.changedCells.Perm m2.changedCells := by
  obtain ⟨a1, a2, a3, a4, a5, a6⟩ := m1
  obtain ⟨b1, b2, b3, b4, b5, b6⟩ := m2
  constructor
  · rintro ⟨h1, h2, h3, h4, h5, h6⟩
    simp only at h1 h2 h3 h4 h5 h6
    subst h1 h2 h3 h4 h5
    exact ⟨rfl, h6⟩
  · rintro ⟨h1, h2⟩
    simp only [withCells, GridMap.mk.injEq] at h1
    obtain ⟨rfl, rfl, rfl, rfl, rfl, -⟩ := h1
    exact ⟨rfl, rfl, rfl, rfl, rfl, h2⟩

/-- The call returns with one order if with another, and then the results agree. -/
lemma integrates_any (h : SameButOrder m1 m2) (ho : IsOrder ord) (ho' : IsOrder ord')
    (hi : Integrates ord nm m1 origin cloud m') :
    ∃ m'', Integrates ord' nm m2 origin cloud m'' ∧ SameButOrder m' m'' := by
  obtain ⟨h1, h2⟩ := sameButOrder_iff.mp h
  obtain ⟨m3, a1, a2, a3, a4, a5, a6, a7⟩ := C39_order_irrelevant ho ho' hi
  obtain ⟨fuel, hi⟩ := hi
  obtain ⟨fuel', a1⟩ := a1
  have e1 : withCells m1 m1.changedCells = m1 := rfl
  rw [← e1, integrate_withCells] at a1
  cases hm : nm.integratePointCloud ord' fuel' (withCells m1 []) origin cloud with
  | error e => rw [hm] at a1; cases a1
  | ok m4 =>
    rw [hm] at a1
    cases a1
    refine ⟨withCells m4 (m2.changedCells ++ m4.changedCells), ⟨fuel', ?_⟩, ⟨a2.symm, a4.symm, a3.symm, a5.symm, a6.symm, ?_⟩⟩
    · rw [h1, integrate_withCells, hm]
      rfl
    · exact a7.symm.trans (h2.append_right _)

lemma upd_not_fuel {g : F32 → F32} {c : Cell D} : upd g m c ≠ .error .fuel := by
  intro h
  unfold upd GridMap.get GridMap.set NdArray.get NdArray.set at h
  split_ifs at h <;> simp [Bind.bind, Except.bind] at h

lemma foldUpd_not_fuel {g : F32 → F32} : ∀ (cs : List (Cell D)) (m : GridMap D F32 F32),
    cs.foldlM (upd g) m ≠ .error .fuel
  | [], m => by intro h; cases h
  | c :: cs, m => by
    rw [List.foldlM_cons]
    cases h : upd g m c with
    | error e => intro h'; cases h'; exact upd_not_fuel h
    | ok m' => exact foldUpd_not_fuel cs m'

/-- It runs out of fuel with one order if with another. -/
lemma fuel_any (h : SameButOrder m1 m2) {fuel : ℕ}
    (hi : nm.integratePointCloud ord fuel m1 origin cloud = .error .fuel) :
    nm.integratePointCloud ord' fuel m2 origin cloud = .error .fuel := by
  have e1 : withCells m1 m1.changedCells = m1 := rfl
  rw [(sameButOrder_iff.mp h).1, integrate_withCells]
  rw [← e1, integrate_withCells] at hi
  have hi' : nm.integratePointCloud ord fuel (withCells m1 []) origin cloud = .error .fuel := by
    cases hx : nm.integratePointCloud ord fuel (withCells m1 []) origin cloud with
    | ok m => rw [hx] at hi; cases hi
    | error e => rw [hx] at hi; injection hi with hi; rw [hi]
  suffices nm.integratePointCloud ord' fuel (withCells m1 []) origin cloud = .error .fuel by rw [this]; rfl
  rw [integrate_unfold] at hi' ⊢
  cases h1 : (withCells m1 []).expandBounds cloud.bounds (Scalar.lit 0) with
  | error e => rw [h1] at hi'; exact hi'
  | ok me =>
    rw [h1, M.bind_ok] at hi'
    rw [M.bind_ok]
    cases h2 : castRays fuel origin cloud me.bounds me.resolution nm.maxRange with
    | error e => rw [h2] at hi'; exact hi'
    | ok fo =>
      exfalso
      rw [h2, M.bind_ok] at hi'
      cases h3 : (ord fo.1).foldlM (upd nm.missValue) me with
      | error e => rw [h3] at hi'; cases hi'; exact foldUpd_not_fuel _ _ h3
      | ok a =>
        rw [h3, M.bind_ok] at hi'
        cases h4 : (ord fo.2).foldlM (upd nm.hitValue) a with
        | error e => rw [h4] at hi'; cases hi'; exact foldUpd_not_fuel _ _ h4
        | ok b => rw [h4] at hi'; cases hi'

lemma _root_.Verif.Spec.SameButOrder.symm (h : SameButOrder m1 m2) : SameButOrder m2 m1 :=
  ⟨h.data.symm, h.resolution.symm, h.bounds.symm, h.tileSize.symm, h.trackChanges.symm, h.changed.symm⟩

lemma _root_.Verif.Spec.SameButOrder.refl (m : GridMap D F32 F32) : SameButOrder m m := ⟨rfl, rfl, rfl, rfl, rfl, .refl _⟩

/-! ## The visualizer -/

section
variable {recs : ℕ → Point D F32 × PointCloud D F32} {n : ℕ} {m₀ : GridMap D F32 F32}
  {ord ord' : ℕ → List (Cell D) → List (Cell D)} {s s' s₀ : State (GridMap D F32 F32) (Cell D) (Point D F32)}

lemma track_same (h : SameButOrder m1 m2) : SameButOrder (m1.setTrackChanges true) (m2.setTrackChanges true) :=
  ⟨h.data, h.resolution, h.bounds, h.tileSize, rfl, h.changed⟩

lemma ret_any (h : SameButOrder m1 m2) (ho : ∀ r, IsOrder (ord r)) (ho' : ∀ r, IsOrder (ord' r)) {r : ℕ}
    (hi : (occOps nm recs ord).integrate r m1 = .ret m') :
    ∃ m'', (occOps nm recs ord').integrate r m2 = .ret m'' ∧ SameButOrder m' m'' := by
  obtain ⟨m'', h1, h2⟩ := integrates_any (track_same h) (ho r) (ho' r) (occOps_ret hi)
  exact ⟨m'', occOps_integrate h1, h2⟩

lemma panic_any (h : SameButOrder m1 m2) (ho : ∀ r, IsOrder (ord r)) (ho' : ∀ r, IsOrder (ord' r)) {r : ℕ}
    (hi : (occOps nm recs ord).integrate r m1 = .panic) : (occOps nm recs ord').integrate r m2 = .panic := by
  simp only [occOps] at hi ⊢
  split_ifs at hi with h1 h2
  have h1' : ¬ ∃ m' fuel, nm.integratePointCloud (ord' r) fuel (m2.setTrackChanges true) (recs r).1 (recs r).2 = .ok m' := by
    rintro ⟨m', hm⟩
    obtain ⟨m'', h3, -⟩ := integrates_any (track_same h.symm) (ho' r) (ho r) hm
    exact h1 ⟨m'', h3⟩
  rw [dif_neg h1', if_pos]
  obtain ⟨fuel, p, hp⟩ := h2
  cases hx : nm.integratePointCloud (ord' r) fuel (m2.setTrackChanges true) (recs r).1 (recs r).2 with
  | ok m => exact absurd ⟨m, fuel, hx⟩ h1'
  | error e =>
    cases e with
    | panic q => exact ⟨fuel, q, hx⟩
    | fuel =>
      rw [fuel_any (track_same h.symm) hx] at hp
      cases hp

/-- What the renderer makes of a list of cells depends only on which cells are in it. -/
lemma processCells_by_set {Map C Pt : Type} [DecidableEq C] {ops : MapOps Map C Pt} {m : Map} : ∀ (l : List C) (t : C → Option Pt),
    (∃ c ∈ l, ops.occupied m c = none) ∧ processCells ops m l t = none ∨
    (∀ c ∈ l, ops.occupied m c ≠ none) ∧ processCells ops m l t = some fun c =>
      if c ∈ l then (if ops.occupied m c = some true then (if (t c).isSome then t c else some (ops.point m c)) else none)
      else t c
  | [], t => .inr ⟨by simp, by simp [processCells]⟩
  | c :: l, t => by
    unfold processCells
    cases ho : ops.occupied m c with
    | none => exact .inl ⟨⟨c, List.mem_cons_self, ho⟩, rfl⟩
    | some b =>
      cases b
      · rcases processCells_by_set l (if (t c).isSome then Function.update t c none else t) with ⟨⟨d, h1, h2⟩, h3⟩ | ⟨h1, h2⟩
        · exact .inl ⟨⟨d, List.mem_cons_of_mem _ h1, h2⟩, h3⟩
        · refine .inr ⟨fun d hd => ?_, ?_⟩
          · rcases List.mem_cons.mp hd with rfl | hd
            · rw [ho]; simp
            · exact h1 d hd
          · simp only
            rw [h2]
            congr 1
            funext d
            by_cases hdc : d = c
            · subst hdc
              cases ht : t d <;> simp [ho, ht]
            · cases ht : t c <;> simp [hdc, Function.update_of_ne]
      · rcases processCells_by_set l (if (t c).isSome then t else Function.update t c (some (ops.point m c))) with ⟨⟨d, h1, h2⟩, h3⟩ | ⟨h1, h2⟩
        · exact .inl ⟨⟨d, List.mem_cons_of_mem _ h1, h2⟩, h3⟩
        · refine .inr ⟨fun d hd => ?_, ?_⟩
          · rcases List.mem_cons.mp hd with rfl | hd
            · rw [ho]; simp
            · exact h1 d hd
          · simp only
            rw [h2]
            congr 1
            funext d
            by_cases hdc : d = c
            · subst hdc
              cases ht : t d <;> simp [ho, ht]
            · cases ht : t c <;> simp [hdc, Function.update_of_ne]

lemma process_same (h : SameButOrder m1 m2) {l l' : List (Cell D)} (hl : l.Perm l') (t : Cell D → Option (Point D F32)) :
    processCells (occOps nm recs ord) m1 l t = processCells (occOps nm recs ord') m2 l' t := by
  have e1 : (occOps nm recs ord').occupied m2 = (occOps nm recs ord).occupied m1 := by
    funext c
    simp only [occOps, LidarNoiseModel.occupied, GridMap.get, h.data]
  have e2 : (occOps nm recs ord').point m2 = (occOps nm recs ord).point m1 := by
    funext c
    simp only [occOps, GridMap.pointFromCell, h.bounds, h.resolution]
  have a := processCells_by_set (ops := occOps nm recs ord) (m := m1) l t
  have b := processCells_by_set (ops := occOps nm recs ord') (m := m2) l' t
  rw [e1, e2] at b
  simp only [← hl.mem_iff] at b
  rcases a with ⟨⟨c, a1, a2⟩, a3⟩ | ⟨a1, a2⟩ <;> rcases b with ⟨⟨c', b1, b2⟩, b3⟩ | ⟨b1, b2⟩
  · rw [a3, b3]
  · exact absurd a2 (b1 c a1)
  · exact absurd b2 (a1 c' b1)
  · rw [a2, b2]

/-- C87: a step with some hash orders corresponds to a step with any others, from states that agree in everything but
the order of the recorded cells to such states. -/
theorem C87_step (h : SameView s s₀) (ho : ∀ r, IsOrder (ord r)) (ho' : ∀ r, IsOrder (ord' r))
    (hs : Step (occOps nm recs ord) n s s') : ∃ s₀', Step (occOps nm recs ord') n s₀ s₀' ∧ SameView s' s₀' := by
  obtain ⟨h1, h2, h3, h4, h5, h6, h7, h8, h9, h10, h11⟩ := h
  cases hs with
  | checkBusy a b => exact ⟨_, .checkBusy _ (h10 ▸ a) (h7 ▸ b), ⟨h1, h2, h3, h4, h5, h6, h7, h8, h9, h10, h11⟩⟩
  | checkDone a b => exact ⟨_, .checkDone _ (h10 ▸ a) (h7 ▸ b), ⟨h1, h2, h3, h4, h5, h6, h7, h8, h9, rfl, h11⟩⟩
  | lockCells a b c =>
    exact ⟨_, .lockCells _ (h10 ▸ a) (h5 ▸ b) (h6 ▸ c), ⟨h1, h2, h3, h4, rfl, h6, h7, h8, h9, rfl, h11⟩⟩
  | lockCellsPoisoned a b c =>
    exact ⟨_, .lockCellsPoisoned _ (h10 ▸ a) (h5 ▸ b) (h6 ▸ c), ⟨h1, h2, h3, h4, h5, h6, h7, h8, h9, rfl, h11⟩⟩
  | lockMap a b c =>
    exact ⟨_, .lockMap _ (h10 ▸ a) (h2 ▸ b) (h3 ▸ c), ⟨h1, rfl, h3, h4, h5, h6, h7, h8, h9, rfl, h11⟩⟩
  | lockMapPoisoned a b c =>
    exact ⟨_, .lockMapPoisoned _ (h10 ▸ a) (h2 ▸ b) (h3 ▸ c), ⟨h1, h2, h3, h4, rfl, rfl, h7, h8, h9, rfl, h11⟩⟩
  | process t a b =>
    rw [process_same (ord' := ord') h1 h4, h9] at b
    exact ⟨_, .process _ t (h10 ▸ a) b, ⟨h1, rfl, h3, .refl _, rfl, h6, h7, h8, rfl, rfl, h11⟩⟩
  | processPanic a b =>
    rw [process_same (ord' := ord') h1 h4, h9] at b
    exact ⟨_, .processPanic _ (h10 ▸ a) b, ⟨h1, rfl, rfl, h4, rfl, rfl, h7, h8, h9, rfl, h11⟩⟩
  | clearFlag a => exact ⟨_, .clearFlag _ (h10 ▸ a), ⟨h1, h2, h3, h4, h5, h6, rfl, h8, h9, rfl, h11⟩⟩
  | spawn a b =>
    refine ⟨_, .spawn _ (h10 ▸ a) (h8 ▸ b), ⟨h1, h2, h3, h4, h5, h6, h7, ?_, h9, rfl, ?_⟩⟩
    · simp only [h8]
    · simp only [h8, h11]
  | spawnPanic a b => exact ⟨_, .spawnPanic _ (h10 ▸ a) (h8 ▸ b), ⟨h1, h2, h3, h4, h5, h6, h7, h8, h9, rfl, h11⟩⟩
  | wLockMap k r a b c =>
    refine ⟨_, .wLockMap _ k r (h11 ▸ a) (h2 ▸ b) (h3 ▸ c), ⟨h1, rfl, h3, h4, h5, h6, h7, h8, h9, h10, ?_⟩⟩
    simp only [setW, h11]
  | wLockMapPoisoned k r a b c =>
    refine ⟨_, .wLockMapPoisoned _ k r (h11 ▸ a) (h2 ▸ b) (h3 ▸ c), ⟨h1, h2, h3, h4, h5, h6, h7, h8, h9, h10, ?_⟩⟩
    simp only [setW, h11]
  | wIntegrate k r m a b =>
    obtain ⟨m', c1, c2⟩ := ret_any h1 ho ho' b
    refine ⟨_, .wIntegrate _ k r m' (h11 ▸ a) c1, ⟨c2, h2, h3, h4, h5, h6, h7, h8, h9, h10, ?_⟩⟩
    simp only [setW, h11]
  | wIntegratePanic k r a b =>
    refine ⟨_, .wIntegratePanic _ k r (h11 ▸ a) (panic_any h1 ho ho' b),
      ⟨h1, rfl, rfl, h4, h5, h6, h7, h8, h9, h10, ?_⟩⟩
    simp only [setW, h11]
  | wLockCells k r a b c =>
    refine ⟨_, .wLockCells _ k r (h11 ▸ a) (h5 ▸ b) (h6 ▸ c), ⟨h1, h2, h3, h4, rfl, h6, h7, h8, h9, h10, ?_⟩⟩
    simp only [setW, h11]
  | wLockCellsPoisoned k r a b c =>
    refine ⟨_, .wLockCellsPoisoned _ k r (h11 ▸ a) (h5 ▸ b) (h6 ▸ c),
      ⟨h1, rfl, rfl, h4, h5, h6, h7, h8, h9, h10, ?_⟩⟩
    simp only [setW, h11]
  | wCopy k r a =>
    refine ⟨_, .wCopy _ k r (h11 ▸ a), ⟨h1, h2, h3, h1.changed, rfl, h6, h7, h8, h9, h10, ?_⟩⟩
    simp only [setW, h11]
  | wReset k r a =>
    refine ⟨_, .wReset _ k r (h11 ▸ a),
      ⟨⟨h1.data, h1.resolution, h1.bounds, h1.tileSize, rfl, .refl _⟩, h2, h3, h4, h5, h6, h7, h8, h9, h10, ?_⟩⟩
    simp only [setW, h11]
  | wSetFlag k r a =>
    refine ⟨_, .wSetFlag _ k r (h11 ▸ a), ⟨h1, h2, h3, h4, h5, h6, rfl, h8, h9, h10, ?_⟩⟩
    simp only [setW, h11]
  | wUnlock k r a =>
    refine ⟨_, .wUnlock _ k r (h11 ▸ a), ⟨h1, rfl, h3, h4, h5, h6, h7, h8, h9, h10, ?_⟩⟩
    simp only [setW, h11]

lemma _root_.Verif.Spec.SameView.refl (s : State (GridMap D F32 F32) (Cell D) (Point D F32)) : SameView s s :=
  ⟨.refl _, rfl, rfl, .refl _, rfl, rfl, rfl, rfl, rfl, rfl, rfl⟩

lemma _root_.Verif.Spec.SameView.symm (h : SameView s s₀) : SameView s₀ s :=
  ⟨h.map.symm, h.mapOwner.symm, h.mapPoisoned.symm, h.cells.symm, h.cellsOwner.symm, h.cellsPoisoned.symm,
    h.finished.symm, h.index.symm, h.tracked.symm, h.main.symm, h.workers.symm⟩

/-- C87: every state reached with hash orders chosen anew at every step agrees, in everything but the order of the
recorded cells, with one reached with the hash orders `ord'` all the time. -/
theorem C87_reach (ho' : ∀ r, IsOrder (ord' r)) (h : AnyReach nm recs n m₀ s) :
    ∃ s₀, Reach (occOps nm recs ord') n m₀ s₀ ∧ SameView s s₀ := by
  induction h with
  | init => exact ⟨_, .init, .refl _⟩
  | step s s' _ hs ih =>
    obtain ⟨s₀, h1, h2⟩ := ih
    obtain ⟨ord, ho, hs⟩ := hs
    obtain ⟨s₀', h3, h4⟩ := C87_step h2 ho ho' hs
    exact ⟨s₀', .step _ _ h1 h3, h4⟩

/-- Every step but an idle frame changes the place of a thread. -/
lemma step_moves {Map C Pt : Type} [DecidableEq C] {ops : MapOps Map C Pt} {s s' : State Map C Pt}
    (h : Step ops n s s') : s' = s ∨ s'.main ≠ s.main ∨ s'.workers ≠ s.workers := by
  have key : ∀ {k : ℕ} {pc pc' : WorkerPc} {r : ℕ}, s.workers[k]? = some (pc, r) → pc' ≠ pc →
      s.workers.set k (pc', r) ≠ s.workers := by
    intro k pc pc' r h1 h2 h3
    have h4 : k < s.workers.length := by
      by_contra hk
      rw [List.getElem?_eq_none (by omega)] at h1
      cases h1
    have h5 : (s.workers.set k (pc', r))[k]? = some (pc', r) := by simp [h4]
    rw [h3, h1] at h5
    injection h5 with h5
    injection h5 with h5
    exact h2 h5.symm
  cases h with
  | checkBusy => exact .inl rfl
  | checkDone a => right; left; rw [a]; simp
  | lockCells a => right; left; rw [a]; simp
  | lockCellsPoisoned a => right; left; rw [a]; simp
  | lockMap a => right; left; rw [a]; simp
  | lockMapPoisoned a => right; left; rw [a]; simp
  | process t a => right; left; rw [a]; simp
  | processPanic a => right; left; rw [a]; simp
  | clearFlag a => right; left; rw [a]; simp
  | spawn a => right; left; rw [a]; simp
  | spawnPanic a => right; left; rw [a]; simp
  | wLockMap k r a => exact .inr (.inr (key a (by decide)))
  | wLockMapPoisoned k r a => exact .inr (.inr (key a (by decide)))
  | wIntegrate k r m a => exact .inr (.inr (key a (by decide)))
  | wIntegratePanic k r a => exact .inr (.inr (key a (by decide)))
  | wLockCells k r a => exact .inr (.inr (key a (by decide)))
  | wLockCellsPoisoned k r a => exact .inr (.inr (key a (by decide)))
  | wCopy k r a => exact .inr (.inr (key a (by decide)))
  | wReset k r a => exact .inr (.inr (key a (by decide)))
  | wSetFlag k r a => exact .inr (.inr (key a (by decide)))
  | wUnlock k r a => exact .inr (.inr (key a (by decide)))

/-- C87: every infinite run with hash orders chosen anew at every step is matched, state by state, by one with the
hash orders `ord'` all the time; if the one is fair, so is the other. -/
theorem C87_runs (ho' : ∀ r, IsOrder (ord' r)) {σ : ℕ → State (GridMap D F32 F32) (Cell D) (Point D F32)}
    (h : AnyExecution nm recs n m₀ σ) :
    ∃ τ, Execution (occOps nm recs ord') n m₀ τ ∧ (∀ i, SameView (σ i) (τ i)) ∧
      (AnyFair nm recs n σ → Fair (occOps nm recs ord') n τ) := by
  have next : ∀ i (s₀ : State (GridMap D F32 F32) (Cell D) (Point D F32)), SameView (σ i) s₀ → ∃ s₀',
      (Step (occOps nm recs ord') n s₀ s₀' ∨ s₀' = s₀) ∧ SameView (σ (i + 1)) s₀' := by
    intro i s₀ hv
    rcases h.step i with ⟨ord, ho, hs⟩ | e
    · obtain ⟨s₀', h1, h2⟩ := C87_step hv ho ho' hs
      exact ⟨s₀', .inl h1, h2⟩
    · exact ⟨s₀, .inr rfl, by rw [e]; exact hv⟩
  choose f f1 f2 using next
  let τ : (i : ℕ) → { s₀ // SameView (σ i) s₀ } := fun i =>
    Nat.rec ⟨init m₀, by rw [h.start]; exact .refl _⟩ (fun i p => ⟨f i p.1 p.2, f2 i p.1 p.2⟩) i
  have hstep : ∀ i, Step (occOps nm recs ord') n (τ i).1 (τ (i + 1)).1 ∨ (τ (i + 1)).1 = (τ i).1 :=
    fun i => f1 i (τ i).1 (τ i).2
  refine ⟨fun i => (τ i).1, ⟨rfl, hstep⟩, fun i => (τ i).2, fun hf i hi => ?_⟩
  obtain ⟨t, ht, hne⟩ := hi
  obtain ⟨s', h1, h2⟩ := C87_step (ord' := ord') (τ i).2.symm ho' ho' ht
  obtain ⟨j, hij, hj⟩ := hf i ⟨s', ⟨ord', ho', h1⟩, by
    intro e
    rcases step_moves ht with h3 | h3 | h3
    · exact hne h3
    · exact h3 (by rw [h2.main, e, (τ i).2.main])
    · exact h3 (by rw [h2.workers, e, (τ i).2.workers])⟩
  refine ⟨j, hij, fun e => ?_⟩
  replace e : (τ (j + 1)).1 = (τ j).1 := e
  rcases h.step j with ⟨ord, ho, hs⟩ | e'
  · rcases step_moves hs with h3 | h3 | h3
    · exact hj h3
    · exact h3 (by rw [(τ (j + 1)).2.main, e, (τ j).2.main])
    · exact h3 (by rw [(τ (j + 1)).2.workers, e, (τ j).2.workers])
  · exact hj e'

variable {ρ : ℚ} {M N K : ℕ}

/-- C87: so C82 holds with hash orders chosen anew at every step: on clear recordings nothing ever panics, and every
fair run plays every number of scans and draws their changes. -/
theorem C87_plays {T : ℕ} (hD : D = 2 ∨ D = 3) (hn : 0 < n) (h0 : Placed m₀ CellBounds.empty ρ)
    (ht0 : m₀.changedCells = []) (hT : m₀.tileSize = T) (hlo : 1 / 2 ^ 20 ≤ ρ)
    (hhi : ρ ≤ 2 ^ 20) (hM1 : 1 ≤ M) (hN : N = M + T + 1) (hN18 : N ≤ 2 ^ 18)
    (hcl : ∀ r < n, ∃ x, ClearRec M N K T ρ x (recs r).1 (recs r).2) :
    (∀ s, AnyReach nm recs n m₀ s → Alive s ∧ ∃ s', AnyStep nm recs n s s' ∧ s' ≠ s) ∧
    ∀ σ, AnyExecution nm recs n m₀ σ → AnyFair nm recs n σ → ∀ k,
      ∃ i, (σ i).main = .clearFlag ∧ (σ i).workers.length = k := by
  have ho : ∀ r : ℕ, IsOrder ((fun _ l => l : ℕ → List (Cell D) → List (Cell D)) r) := fun _ l => .refl l
  constructor
  · intro s hs
    obtain ⟨s₀, h1, h2⟩ := C87_reach ho hs
    obtain ⟨h3, -, s₀', h5, h6⟩ := C82_visualizer hD hn h0 ht0 hT ho hlo hhi hM1 hN hN18 hcl h1
    obtain ⟨s', h7, h8⟩ := C87_step h2.symm ho ho h5
    refine ⟨?_, s', ⟨_, ho, h7⟩, fun e => ?_⟩
    · unfold Alive at h3 ⊢
      rw [h2.main, h2.workers]
      exact h3
    · rcases step_moves h5 with h9 | h9 | h9
      · exact h6 h9
      · exact h9 (by rw [h8.main, e, h2.main])
      · exact h9 (by rw [h8.workers, e, h2.workers])
  · intro σ hσ hf k
    obtain ⟨τ, h1, h2, h3⟩ := C87_runs ho hσ
    obtain ⟨i, h4, h5⟩ := C82_every_run hD hn h0 ht0 hT ho hlo hhi hM1 hN hN18 hcl h1 (h3 hf) k
    exact ⟨i, by rw [(h2 i).main, h4], by rw [(h2 i).workers, h5]⟩

/-- A fair run in which the hash sets are iterated backwards, and the states that it reaches; `C87_plays` and, from
iterating forwards, `C87_runs` and `C87_reach` apply to it. -/
example : ∃ σ, AnyExecution defaultNM clearRecs 1 smallMap σ ∧ AnyFair defaultNM clearRecs 1 σ ∧
    (∀ i, AnyReach defaultNM clearRecs 1 smallMap (σ i)) ∧
    (∃ i, (σ i).main = .clearFlag ∧ (σ i).workers.length = 9) ∧
    ∃ τ, Execution (occOps defaultNM clearRecs fun _ l => l) 1 smallMap τ ∧ ∀ i, SameView (σ i) (τ i) := by
  have ho : ∀ r : ℕ, IsOrder ((fun _ l => l.reverse : ℕ → List (Cell 2) → List (Cell 2)) r) := fun _ l => l.reverse_perm
  have ho' : ∀ r : ℕ, IsOrder ((fun _ l => l : ℕ → List (Cell 2) → List (Cell 2)) r) := fun _ l => .refl l
  have hgo := fun s hs => (C82_visualizer (nm := defaultNM) (recs := clearRecs) (n := 1) (K := 8) (N := 11)
    (.inl rfl) (by norm_num) smallMap_placed rfl rfl ho (by norm_num) (by norm_num) (M := 8) (by norm_num) rfl
    (by norm_num) (fun r _ => ⟨_, clearRecs_clear r⟩) (s := s) hs).2.2
  obtain ⟨σ, h1, h2⟩ := fair_exists hgo
  have h3 : AnyExecution defaultNM clearRecs 1 smallMap σ :=
    ⟨h1.start, fun i => (h1.step i).imp_left fun h => ⟨_, ho, h⟩⟩
  have h4 : AnyFair defaultNM clearRecs 1 σ := fun i _ => h2 i (hgo _ (exec_reach h1 i))
  refine ⟨σ, h3, h4, fun i => ?_, (C87_plays (K := 8) (N := 11) (.inl rfl) (by norm_num) smallMap_placed rfl rfl
    (by norm_num) (by norm_num) (M := 8) (by norm_num) rfl (by norm_num) (fun r _ => ⟨_, clearRecs_clear r⟩)).2 σ h3 h4 9, ?_⟩
  · induction i with
    | zero => rw [h3.start]; exact .init
    | succ i ih =>
      rcases h3.step i with h | h
      · exact .step _ _ ih h
      · rw [h]; exact ih
  · obtain ⟨τ, h5, h6, -⟩ := C87_runs ho' h3
    exact ⟨τ, h5, h6⟩

end

end Verif.Props
