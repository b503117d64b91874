import Verif.Props.CastRays
import Verif.Props.Expand
import Verif.Spec.Noise

/-!
# C37 – C43, C45: the occupancy map
-/

namespace Verif.Props
open Spec

variable {F A : Type} {D : ℕ} {f : Fmt}

/-! ## The caster reports machine cells -/

lemma castLoop_machine {c : RayCtx D (Fp f)} (he : MachineCell c.endCell) {n : ℕ} {cell : Cell D}
    {t : Point D (Fp f)} {ray e} (hc : MachineCell cell) (h : castLoop c n cell t = .ok (ray, e)) :
    (∀ x ∈ ray, MachineCell x) ∧ ∀ x, e = some x → MachineCell x := by
  induction n generalizing cell t ray e with
  | zero => simp [castLoop] at h
  | succ n ih =>
    simp only [castLoop] at h
    cases hd : selDim t with
    | none => simp [hd] at h
    | some dim =>
      simp only [hd, M.bind_eq_ok] at h
      obtain ⟨x, hx, h⟩ := h
      have hc' : MachineCell (Function.update cell dim x) := by
        intro i
        by_cases hi : i = dim
        · subst hi
          rw [Function.update_self]
          exact (isz_ok.mp hx).1 ▸ (isz_ok.mp hx).2
        · rw [Function.update_of_ne hi]; exact hc i
      split_ifs at h
      · cases h
        exact ⟨by simp, fun x hx => by cases hx; exact he⟩
      · cases h
        exact ⟨by simp, fun x hx => by cases hx⟩
      · rw [M.bind_eq_ok] at h
        obtain ⟨⟨rest, e'⟩, h1, h2⟩ := h
        cases h2
        obtain ⟨i1, i2⟩ := ih hc' h1
        refine ⟨fun y hy => ?_, i2⟩
        rcases List.mem_cons.mp hy with rfl | hy
        · exact hc'
        · exact i1 y hy

lemma cellFromPoint_machine (p o : Point D (Fp f)) (r : Fp f) : MachineCell (cellFromPoint p o r) :=
  fun _ => Fp.toInt_bounds _

lemma casts_machine {o p : Point D (Fp f)} {b : Bounds D (Fp f)} {r ml : Fp f} {ray e}
    (h : Casts o p b r ml ray e) : (∀ x ∈ ray, MachineCell x) ∧ ∀ x, e = some x → MachineCell x := by
  obtain ⟨n, h⟩ := h
  unfold castRay at h
  split_ifs at h
  dsimp only at h
  split_ifs at h
  · cases h
    exact ⟨by simp, fun x hx => by cases hx; exact cellFromPoint_machine _ _ _⟩
  · rw [M.bind_eq_ok] at h
    obtain ⟨⟨rest, e'⟩, h1, h2⟩ := h
    cases h2
    obtain ⟨i1, i2⟩ := castLoop_machine (cellFromPoint_machine _ _ _)
      (cellFromPoint_machine _ _ _) h1
    refine ⟨fun y hy => ?_, i2⟩
    rcases List.mem_cons.mp hy with rfl | hy
    · exact cellFromPoint_machine _ _ _
    · exact i1 y hy

lemma castsRays_machine {o : Point D (Fp f)} {cloud : PointCloud D (Fp f)} {b : Bounds D (Fp f)}
    {r ml : Fp f} {free occ} (h : CastsRays o cloud b r ml free occ) :
    (∀ x ∈ free, MachineCell x) ∧ ∀ x ∈ occ, MachineCell x := by
  constructor
  · intro x hx
    obtain ⟨⟨p, -, ray, e, hc, hm⟩, -⟩ := (C28_free h x).mp hx
    exact (casts_machine hc).1 x hm
  · intro x hx
    obtain ⟨p, -, ray, hc⟩ := (C28_occupied h x).mp hx
    exact (casts_machine hc).2 x rfl

/-! ## Updating the cells of a list -/

/-- One update of a cell. -/
def upd (g : A → A) (m : GridMap D F A) (c : Cell D) : M (GridMap D F A) := do
  let v ← m.get c
  m.set c (g v)

lemma upd_ok {g : A → A} {m m' : GridMap D F A} {c : Cell D} (hc : MachineCell c)
    (h : upd g m c = .ok m') :
    InGrid m c ∧ m' = { m with data := m'.data } ∧ m'.data.shape = m.data.shape ∧
    (∀ v, m.get c = .ok v → m'.get c = .ok (g v)) ∧
    ∀ c', MachineCell c' → c' ≠ c → m'.get c' = m.get c' := by
  unfold upd at h
  rw [M.bind_eq_ok] at h
  obtain ⟨v, hv, hs⟩ := h
  obtain ⟨d, hd, e⟩ := set_data hs
  have hg : InGrid m c := by
    by_contra hn
    rw [(C31_get m hc).2 hn] at hv
    cases hv
  refine ⟨hg, by rw [e], by rw [e]; exact (NdArray.set_shape hd).1, fun w hw => ?_, ?_⟩
  · rw [hv] at hw; cases hw
    exact (C31_get_set m m' hc hs).1
  · exact (C31_get_set m m' hc hs).2.1

lemma inGrid_congr {m m' : GridMap D F A} (h : m'.data.shape = m.data.shape) (c : Cell D) :
    InGrid m' c ↔ InGrid m c := by unfold InGrid; rw [h]

lemma foldUpd {g : A → A} {l : List (Cell D)} {m m' : GridMap D F A} (hl : l.Nodup)
    (hm : ∀ c ∈ l, MachineCell c) (h : l.foldlM (upd g) m = .ok m') :
    (∀ c ∈ l, InGrid m c) ∧ m' = { m with data := m'.data } ∧ m'.data.shape = m.data.shape ∧
    (∀ c ∈ l, ∀ v, m.get c = .ok v → m'.get c = .ok (g v)) ∧
    ∀ c, MachineCell c → c ∉ l → m'.get c = m.get c := by
  induction l generalizing m with
  | nil => cases h; exact ⟨by simp, rfl, rfl, by simp, fun _ _ _ => rfl⟩
  | cons a l ih =>
    rw [List.foldlM_cons, M.bind_eq_ok] at h
    obtain ⟨m1, h1, h2⟩ := h
    obtain ⟨hn, hl⟩ := List.nodup_cons.mp hl
    have ha := hm a List.mem_cons_self
    obtain ⟨u1, u2, u3, u4, u5⟩ := upd_ok ha h1
    obtain ⟨i1, i2, i3, i4, i5⟩ := ih hl (fun c hc => hm c (List.mem_cons_of_mem _ hc)) h2
    refine ⟨fun c hc => ?_, by rw [i2, u2], i3.trans u3, fun c hc v hv => ?_, fun c hc hcn => ?_⟩
    · rcases List.mem_cons.mp hc with rfl | hc
      · exact u1
      · exact (inGrid_congr u3 c).mp (i1 c hc)
    · rcases List.mem_cons.mp hc with rfl | hc
      · rw [i5 c ha hn]; exact u4 v hv
      · have hne : c ≠ a := fun e => hn (e ▸ hc)
        exact i4 c hc v (by rw [u5 c (hm c (List.mem_cons_of_mem _ hc)) hne]; exact hv)
    · rw [List.mem_cons, not_or] at hcn
      rw [i5 c hc hcn.2, u5 c hc hcn.1]

lemma foldUpd_ok {g : A → A} {l : List (Cell D)} {m : GridMap D F A}
    (hm : ∀ c ∈ l, MachineCell c) (hg : ∀ c ∈ l, InGrid m c) : ∃ m', l.foldlM (upd g) m = .ok m' := by
  induction l generalizing m with
  | nil => exact ⟨m, rfl⟩
  | cons a l ih =>
    have ha := hm a List.mem_cons_self
    obtain ⟨v, hv⟩ := (C31_get m ha).1 (hg a List.mem_cons_self)
    obtain ⟨m1, h1⟩ := (C31_set m (g v) ha).1 (hg a List.mem_cons_self)
    have hu : upd g m a = .ok m1 := by unfold upd; rw [hv, M.bind_ok, h1]
    obtain ⟨-, -, u3, -⟩ := upd_ok ha hu
    obtain ⟨m', h'⟩ := ih (m := m1) (fun c hc => hm c (List.mem_cons_of_mem _ hc))
      fun c hc => (inGrid_congr u3 c).mpr (hg c (List.mem_cons_of_mem _ hc))
    exact ⟨m', by rw [List.foldlM_cons, hu, M.bind_ok, h']⟩

/-- A fold of updates that succeeds or panics never runs out of fuel, and panics with an index error
if some cell is outside. -/
lemma foldUpd_panic {g : A → A} {l : List (Cell D)} {m : GridMap D F A}
    (hm : ∀ c ∈ l, MachineCell c) (hg : ¬ ∀ c ∈ l, InGrid m c) :
    l.foldlM (upd g) m = .error (.panic .index) := by
  induction l generalizing m with
  | nil => simp at hg
  | cons a l ih =>
    have ha := hm a List.mem_cons_self
    by_cases h1 : InGrid m a
    · obtain ⟨v, hv⟩ := (C31_get m ha).1 h1
      obtain ⟨m1, h2⟩ := (C31_set m (g v) ha).1 h1
      have hu : upd g m a = .ok m1 := by unfold upd; rw [hv, M.bind_ok, h2]
      obtain ⟨-, -, u3, -⟩ := upd_ok ha hu
      rw [List.foldlM_cons, hu, M.bind_ok]
      refine ih (fun c hc => hm c (List.mem_cons_of_mem _ hc)) fun h => hg fun c hc => ?_
      rcases List.mem_cons.mp hc with rfl | hc
      · exact h1
      · exact (inGrid_congr u3 c).mp (h c hc)
    · have hu : upd g m a = .error (.panic .index) := by
        unfold upd; rw [(C31_get m ha).2 h1]; rfl
      rw [List.foldlM_cons, hu]; rfl

/-! ## Two maps with the same values -/

lemma map_ext {m m' : GridMap D F A} (hs : m'.data.shape = m.data.shape)
    (h : ∀ c, MachineCell c → m'.get c = m.get c) : m'.data = m.data := by
  apply NdArray.ext_get hs
  intro ix hix
  have e : toNdIndex (fun i => (ix i : ℤ)) = ix := by
    funext i; simp [toNdIndex, usizeOfIsize]
  have := h (fun i => (ix i : ℤ)) fun i => by
    have h1 := hix i
    have h2 := m'.data.shape_le i
    change isizeMin ≤ (ix i : ℤ) ∧ (ix i : ℤ) ≤ isizeMax
    unfold isizeMin
    omega
  unfold GridMap.get at this
  rwa [e] at this

/-! ## C38 -/

variable {nm : LidarNoiseModel (Fp f)} {m m' : GridMap D (Fp f) (Fp f)} {origin : Point D (Fp f)}
  {cloud : PointCloud D (Fp f)} {ord : List (Cell D) → List (Cell D)}

lemma integrate_unfold {fuel : ℕ} : nm.integratePointCloud ord fuel m origin cloud = (do
    let me ← m.expandBounds cloud.bounds (Scalar.lit 0)
    let fo ← castRays fuel origin cloud me.bounds me.resolution nm.maxRange
    let m1 ← (ord fo.1).foldlM (upd nm.missValue) me
    let m2 ← (ord fo.2).foldlM (upd nm.hitValue) m1
    .ok (if me.trackChanges then m2.addChangedCells (ord fo.1 ++ ord fo.2) else m2)) := rfl

/-- Everything about one integration. -/
lemma integrate_spec (ho : IsOrder ord) (h : Integrates ord nm m origin cloud m') :
    ∃ me free occ, m.expandBounds cloud.bounds (Scalar.lit 0) = .ok me ∧
      CastsRays origin cloud me.bounds me.resolution nm.maxRange free occ ∧
      (∀ c ∈ free, InGrid me c) ∧ (∀ c ∈ occ, InGrid me c) ∧
      m' = { me with
        data := m'.data
        changedCells := if me.trackChanges then me.changedCells ++ (ord free ++ ord occ)
          else me.changedCells } ∧
      m'.data.shape = me.data.shape ∧
      (∀ c ∈ free, ∀ v, me.get c = .ok v → m'.get c = .ok (nm.missValue v)) ∧
      (∀ c ∈ occ, ∀ v, me.get c = .ok v → m'.get c = .ok (nm.hitValue v)) ∧
      ∀ c, MachineCell c → c ∉ free → c ∉ occ → m'.get c = me.get c := by
  obtain ⟨fuel, h⟩ := h
  rw [integrate_unfold, M.bind_eq_ok] at h
  obtain ⟨me, h1, h⟩ := h
  rw [M.bind_eq_ok] at h
  obtain ⟨⟨free, occ⟩, h2, h⟩ := h
  rw [M.bind_eq_ok] at h
  obtain ⟨m1, h3, h⟩ := h
  rw [M.bind_eq_ok] at h
  obtain ⟨m2, h4, h⟩ := h
  injection h with h
  have hcr : CastsRays origin cloud me.bounds me.resolution nm.maxRange free occ := ⟨fuel, h2⟩
  obtain ⟨n1, n2⟩ := castRays_nodup hcr
  obtain ⟨k1, k2⟩ := castsRays_machine hcr
  have hdj := C27_disjoint hcr
  have of := ho free
  have oo := ho occ
  obtain ⟨a1, a2, a3, a4, a5⟩ := foldUpd (of.nodup_iff.mpr n1)
    (fun c hc => k1 c (of.mem_iff.mp hc)) h3
  obtain ⟨b1, b2, b3, b4, b5⟩ := foldUpd (oo.nodup_iff.mpr n2)
    (fun c hc => k2 c (oo.mem_iff.mp hc)) h4
  simp only [of.mem_iff] at a1 a4 a5
  simp only [oo.mem_iff] at b1 b4 b5
  have hdata : m'.data = m2.data := by rw [← h]; split_ifs <;> rfl
  have hget : ∀ c, m'.get c = m2.get c := fun c => by unfold GridMap.get; rw [hdata]
  refine ⟨me, free, occ, h1, hcr, a1, fun c hc => (inGrid_congr a3 c).mp (b1 c hc), ?_, ?_, ?_, ?_, ?_⟩
  · rw [hdata, ← h, b2, a2]
    by_cases ht : me.trackChanges = true
    · simp only [ht, if_true, GridMap.addChangedCells]
    · simp only [ht, Bool.false_eq_true, if_false]
  · rw [hdata, b3, a3]
  · intro c hc v hv
    rw [hget, b5 c (k1 c hc) (hdj c hc)]
    exact a4 c hc v hv
  · intro c hc v hv
    rw [hget]
    refine b4 c hc v ?_
    rw [a5 c (k2 c hc) fun hf => hdj c hf hc]
    exact hv
  · intro c hc hf ho'
    rw [hget, b5 c hc ho', a5 c hc hf]

/-- C38: `integrate_point_cloud` first expands the map; then every free cell of the scan gets one miss,
every occupied cell one hit, every other cell keeps its value, and nothing else of the map changes
but the list of changed cells. All free and occupied cells are cells of the expanded grid. -/
theorem C38_integrate (ho : IsOrder ord) (h : Integrates ord nm m origin cloud m') :
    ∃ me free occ, m.expandBounds cloud.bounds (Fp.lit 0) = .ok me ∧
      CastsRays origin cloud me.bounds me.resolution nm.maxRange free occ ∧
      (∀ c ∈ free, ∃ v, me.get c = .ok v ∧ m'.get c = .ok ((v.add nm.miss).max nm.min)) ∧
      (∀ c ∈ occ, ∃ v, me.get c = .ok v ∧ m'.get c = .ok ((v.add nm.hit).min nm.max)) ∧
      (∀ c, MachineCell c → c ∉ free → c ∉ occ → m'.get c = me.get c) ∧
      m'.bounds = me.bounds ∧ m'.resolution = me.resolution ∧ m'.tileSize = me.tileSize ∧
      m'.trackChanges = me.trackChanges ∧ m'.data.shape = me.data.shape := by
  obtain ⟨me, free, occ, h1, h2, h3, h4, h5, h6, h7, h8, h9⟩ := integrate_spec ho h
  obtain ⟨k1, k2⟩ := castsRays_machine h2
  refine ⟨me, free, occ, h1, h2, fun c hc => ?_, fun c hc => ?_, h9, by rw [h5], by rw [h5],
    by rw [h5], by rw [h5], h6⟩
  · obtain ⟨v, hv⟩ := (C31_get me (k1 c hc)).1 (h3 c hc)
    exact ⟨v, hv, h7 c hc v hv⟩
  · obtain ⟨v, hv⟩ := (C31_get me (k2 c hc)).1 (h4 c hc)
    exact ⟨v, hv, h8 c hc v hv⟩

/-- C38: it returns exactly if expanding returns, every ray returns and every free or occupied cell is a
cell of the expanded grid. -/
theorem C38_returns_iff (ho : IsOrder ord) : (∃ m', Integrates ord nm m origin cloud m') ↔
    ∃ me free occ, m.expandBounds cloud.bounds (Fp.lit 0) = .ok me ∧
      CastsRays origin cloud me.bounds me.resolution nm.maxRange free occ ∧
      (∀ c ∈ free, InGrid me c) ∧ ∀ c ∈ occ, InGrid me c := by
  constructor
  · rintro ⟨m', h⟩
    obtain ⟨me, free, occ, h1, h2, h3, h4, -⟩ := integrate_spec ho h
    exact ⟨me, free, occ, h1, h2, h3, h4⟩
  · rintro ⟨me, free, occ, h1, h2, h3, h4⟩
    obtain ⟨k1, k2⟩ := castsRays_machine h2
    obtain ⟨n1, n2⟩ := castRays_nodup h2
    obtain ⟨fuel, h2⟩ := h2
    have of := ho free
    have oo := ho occ
    obtain ⟨m1, e1⟩ := foldUpd_ok (g := nm.missValue) (l := ord free) (m := me)
      (fun c hc => k1 c (of.mem_iff.mp hc)) fun c hc => h3 c (of.mem_iff.mp hc)
    obtain ⟨-, -, s1, -⟩ := foldUpd (of.nodup_iff.mpr n1) (fun c hc => k1 c (of.mem_iff.mp hc)) e1
    obtain ⟨m2, e2⟩ := foldUpd_ok (g := nm.hitValue) (l := ord occ) (m := m1)
      (fun c hc => k2 c (oo.mem_iff.mp hc))
      fun c hc => (inGrid_congr s1 c).mpr (h4 c (oo.mem_iff.mp hc))
    refine ⟨if me.trackChanges then m2.addChangedCells (ord free ++ ord occ) else m2, fuel, ?_⟩
    rw [integrate_unfold, show m.expandBounds cloud.bounds (Scalar.lit 0) = .ok me from h1, M.bind_ok,
      h2, M.bind_ok]
    simp only
    rw [e1, M.bind_ok, e2, M.bind_ok]

/-! ## C39, C40 -/

/-- C39: with any other hash order the call returns too, and the maps agree in everything except the
order of the newly recorded cells. -/
theorem C39_order_irrelevant {ord' : List (Cell D) → List (Cell D)} (ho : IsOrder ord)
    (ho' : IsOrder ord') (h : Integrates ord nm m origin cloud m') :
    ∃ m'', Integrates ord' nm m origin cloud m'' ∧ m''.data = m'.data ∧ m''.bounds = m'.bounds ∧
      m''.resolution = m'.resolution ∧ m''.tileSize = m'.tileSize ∧
      m''.trackChanges = m'.trackChanges ∧ m''.changedCells.Perm m'.changedCells := by
  obtain ⟨m'', h''⟩ := (C38_returns_iff ho').mpr ((C38_returns_iff ho).mp ⟨m', h⟩)
  refine ⟨m'', h'', ?_⟩
  obtain ⟨me, free, occ, h1, h2, h3, h4, h5, h6, h7, h8, h9⟩ := integrate_spec ho h
  obtain ⟨me', free', occ', g1, g2, g3, g4, g5, g6, g7, g8, g9⟩ := integrate_spec ho' h''
  rw [h1] at g1
  cases g1
  have e : free' = free ∧ occ' = occ := by
    obtain ⟨n, h2⟩ := h2
    obtain ⟨n', g2⟩ := g2
    have := castRays_mono h2 n'
    have h' := castRays_mono g2 n
    rw [Nat.add_comm, h'] at this
    injection this with this
    exact Prod.mk.inj this
  obtain ⟨rfl, rfl⟩ := e
  obtain ⟨k1, k2⟩ := castsRays_machine h2
  refine ⟨?_, by rw [g5, h5], by rw [g5, h5], by rw [g5, h5], by rw [g5, h5], ?_⟩
  · apply map_ext (g6.trans h6.symm)
    intro c hc
    by_cases hf : c ∈ free'
    · obtain ⟨v, hv⟩ := (C31_get me (k1 c hf)).1 (h3 c hf)
      rw [h7 c hf v hv, g7 c hf v hv]
    · by_cases hoc : c ∈ occ'
      · obtain ⟨v, hv⟩ := (C31_get me (k2 c hoc)).1 (h4 c hoc)
        rw [h8 c hoc v hv, g8 c hoc v hv]
      · rw [h9 c hc hf hoc, g9 c hc hf hoc]
  · rw [g5, h5]
    split_ifs
    · refine List.Perm.append_left _ (List.Perm.append ?_ ?_)
      · exact (ho' _).trans (ho _).symm
      · exact (ho' _).trans (ho _).symm
    · exact List.Perm.refl _

/-- C40: with tracking on, one integration appends to the list of changed cells each free or occupied
cell exactly once and nothing else, so every cell whose value differs from that in the expanded map
is among them. -/
theorem C40_tracked (ho : IsOrder ord) (h : Integrates ord nm m origin cloud m')
    (ht : m.trackChanges = true) :
    ∃ me free occ new, m.expandBounds cloud.bounds (Fp.lit 0) = .ok me ∧
      CastsRays origin cloud me.bounds me.resolution nm.maxRange free occ ∧
      m'.changedCells = m.changedCells ++ new ∧ new.Nodup ∧
      (∀ c, c ∈ new ↔ c ∈ free ∨ c ∈ occ) ∧
      ∀ c, MachineCell c → m'.get c ≠ me.get c → c ∈ new := by
  obtain ⟨me, free, occ, h1, h2, h3, h4, h5, h6, h7, h8, h9⟩ := integrate_spec ho h
  obtain ⟨-, -, c3, c4⟩ := C36_expandBounds h1
  have hmem : ∀ c, c ∈ ord free ++ ord occ ↔ c ∈ free ∨ c ∈ occ := fun c => by
    rw [List.mem_append, (ho free).mem_iff, (ho occ).mem_iff]
  refine ⟨me, free, occ, ord free ++ ord occ, h1, h2, ?_, ?_, hmem, fun c hc hne => ?_⟩
  · rw [h5, c3, ht, if_pos rfl, c4]
  · obtain ⟨n1, n2⟩ := castRays_nodup h2
    rw [List.nodup_append]
    refine ⟨(ho free).nodup_iff.mpr n1, (ho occ).nodup_iff.mpr n2, ?_⟩
    rintro a ha b hb rfl
    exact C27_disjoint h2 a ((ho free).mem_iff.mp ha) ((ho occ).mem_iff.mp hb)
  · rw [hmem]
    by_contra hcon
    rw [not_or] at hcon
    exact hne (h9 c hc hcon.1 hcon.2)

/-- C40: with tracking off nothing is recorded. -/
theorem C40_untracked (ho : IsOrder ord) (h : Integrates ord nm m origin cloud m')
    (ht : m.trackChanges = false) : m'.changedCells = m.changedCells := by
  obtain ⟨me, free, occ, h1, h2, h3, h4, h5, -⟩ := integrate_spec ho h
  obtain ⟨-, -, c3, c4⟩ := C36_expandBounds h1
  rw [h5, c3, ht]
  simp only [Bool.false_eq_true, if_false]
  exact c4

end Verif.Props
