import Verif.Spec.First
import Verif.Props.FirstViz
import Verif.Props.HashOrder
import Verif.Props.Flat

/-!
# C102: a first scan without a number
-/

namespace Verif.Props
open Spec Viz

section
variable {D : ℕ} {ρ : ℚ} {nm : LidarNoiseModel F32} {m : GridMap D F32 F32} {origin : Point D F32}
  {cloud : PointCloud D F32} {ord : List (Verif.Cell D) → List (Verif.Cell D)}

lemma allNan_bounds (h : ∀ p ∈ cloud.points, ∀ i, p i = .nan) : cloud.bounds = Bounds.empty := by
  unfold PointCloud.bounds
  have key : ∀ l : List (Point D F32), (∀ p ∈ l, ∀ i, p i = .nan) →
      l.foldl PointCloud.boundsStep (Bounds.empty : Bounds D F32) = Bounds.empty := by
    intro l
    induction l with
    | nil => intro _; rfl
    | cons p l ih =>
      intro hl
      rw [List.foldl_cons]
      have : PointCloud.boundsStep (Bounds.empty : Bounds D F32) p = Bounds.empty := by
        have hp : p = fun _ => .nan := funext fun i => hl p List.mem_cons_self i
        subst hp
        unfold PointCloud.boundsStep
        have hlt : ∀ i, Scalar.lt ((Bounds.empty : Bounds D F32).max i) (Fp.nan : F32) = false :=
          fun i => by cases (Bounds.empty : Bounds D F32).max i <;> rfl
        simp only [hlt]
        rfl
      rw [this]
      exact ih fun q hq => hl q (List.mem_cons_of_mem _ hq)
  exact key _ h

/-- A map without cells asked for the origin alone. -/
lemma expand_origin (hD : D ≤ 3) (hD0 : 0 < D) (hP : Placed m CellBounds.empty ρ) : ∃ me,
    m.expandBounds Bounds.empty (Fp.lit 0) = .ok me ∧ Placed me ⟨fun _ => 0, fun _ => m.tileSize⟩ ρ ∧
      ∀ c, InGrid me c → me.get c = .ok (Fp.lit 0) := by
  have hpos := hP.res.pos
  have z0 : |(0 : ℚ)| ≤ 2 ^ 18 * ρ := by rw [abs_zero]; positivity
  have hreq : Request (Bounds.empty : Bounds D F32) ρ :=
    fun i => ⟨0, 0, F32.zero_is, F32.zero_is, le_rfl, z0, z0⟩
  obtain ⟨me, ncb, e1, e2, e3, e4, e5⟩ := expand_spec hD hP hreq (Fp.lit 0 : F32)
  obtain ⟨_, g0, g1, g2, g3, g4, -⟩ := newCellBounds_spec hP hreq
  rw [e2] at g0; cases g0
  have dz : ∀ i : Fin D, (discCells m.resolution (Bounds.empty : Bounds D F32)).min i = 0 ∧
      (discCells m.resolution (Bounds.empty : Bounds D F32)).max i = 1 := by
    intro i
    change cellOf m.resolution (Bounds.discMin m.resolution (Fp.lit 0 : F32)) = 0 ∧
      cellOf m.resolution (Bounds.discMax m.resolution true (Fp.lit 0 : F32)) = 1
    constructor
    · refine le_antisymm ?_ (le_cellOf_discMin_of_le hP.res F32.zero_is z0 (by norm_num) (by simp))
      have := cellOf_discMin_le hP.res F32.zero_is z0
      have h1 := nonpos_of_mul_nonpos_left this hpos
      have h2 : (cellOf m.resolution (Bounds.discMin m.resolution (Fp.lit 0 : F32)) : ℚ) < ((1 : ℤ) : ℚ) := by
        push_cast; linarith
      have : cellOf m.resolution (Bounds.discMin m.resolution (Fp.lit 0 : F32)) < 1 := by exact_mod_cast h2
      omega
    · refine le_antisymm (cellOf_discMax_le hP.res F32.zero_is z0 (by norm_num) ?_) (one_le_discMax hP.res F32.zero_is le_rfl z0)
      push_cast
      nlinarith
  have htp : (1 : ℤ) ≤ m.tileSize := by exact_mod_cast hP.tile_pos
  have hbox : ncb = ⟨fun _ => 0, fun _ => m.tileSize⟩ := by
    have hs := g4 ⟨fun _ => 0, fun _ => m.tileSize⟩ (fun i => ⟨dvd_zero _, dvd_refl _⟩)
      (fun i => ⟨(dz i).1.symm ▸ le_rfl, by rw [(dz i).2]; exact htp⟩) fun h => absurd rfl h
    refine cellBounds_ext (fun i => hs i) fun i => ?_
    have h2 := g2 i
    rw [(dz i).1, (dz i).2] at h2
    refine ⟨h2.1, Int.le_of_dvd (by omega) (g1 i).2⟩
  subst hbox
  refine ⟨me, e1, e3, fun c hc => ?_⟩
  have hw := e5 c (fun i => by
    have h1 := hc i
    have h2 := e3.shape i
    dsimp only at h2 ⊢
    omega) (by
      intro h
      have := h ⟨0, hD0⟩
      simp only [CellBounds.empty] at this
      omega)
  unfold valueAt at hw
  simpa using hw

lemma zero_cell {cb : CellBounds D} {p : Point D F32} (hP : Placed m cb ρ) (h0 : ∀ i, cb.min i = 0) (hp : ∀ i, (p i).Is 0) :
    cellFromPoint p m.bounds.min m.resolution = fun _ => 0 := by
  funext i
  change cellCoordFromPointCoord (p i) (m.bounds.min i) m.resolution = 0
  have hb : (m.bounds.min i).Is 0 := by
    rw [hP.bounds]
    change (pointCoordFromCellCoord (cb.min i) (Fp.lit 0) m.resolution).Is 0
    rw [h0 i]
    have hci : (Scalar.ofInt 0 : F32).Is 0 := by
      have := Fp.is_ofInt (f := b32) (n := 0) (by norm_num)
      rw [Int.cast_zero] at this
      exact this
    have h1 := hci.mul hP.res.1 (by rw [zero_mul, Fmt.rnd_zero, abs_zero]; positivity)
    rw [zero_mul, Fmt.rnd_zero] at h1
    have h2 := h1.add F32.zero_is (by rw [add_zero, Fmt.rnd_zero, abs_zero]; positivity)
    rwa [add_zero, Fmt.rnd_zero] at h2
  rw [cellCoord_exact (z := 0) hb hP.res.1 hP.res.pos (hp i) (by simpa using Fmt.rep_zero) (by simp) Fmt.rep_zero]
  decide +kernel

/-- C102, the scan: if no coordinate of the first scan is a number and the sensor is at the world origin, the scan is
integrated; the map becomes the one tile (on each axis) above the origin, the sensor's own cell counts as hit and is
the only one listed as changed, and nothing else is known. -/
theorem C102_scan (hD : D = 2 ∨ D = 3) (hP : Placed m CellBounds.empty ρ) (ho : IsOrder ord)
    (hs : ∀ i, (origin i).Is 0) (hc : AllNan cloud) :
    ∃ m', Integrates ord nm m origin cloud m' ∧ Placed m' ⟨fun _ => 0, fun _ => m.tileSize⟩ ρ ∧
      m'.get (fun _ => 0) = .ok (((Fp.lit 0 : F32).add nm.hit).min nm.max) ∧
      (∀ c, c ≠ (fun _ => 0) → InGrid m' c → m'.get c = .ok (Fp.lit 0)) ∧
      (m.trackChanges = true → m'.changedCells = m.changedCells ++ [fun _ => 0]) := by
  obtain ⟨hne, hnan⟩ := hc
  obtain ⟨me, e1, e2, e3⟩ := expand_origin (by omega) (by omega) hP
  rw [← allNan_bounds hnan] at e1
  have hT := hP.tile_pos
  have hcast : ∀ p ∈ cloud.points, ∀ ray e, Casts origin p me.bounds me.resolution nm.maxRange ray e ↔
      ray = [] ∧ e = some (fun _ => 0) := by
    intro p hp ray e
    have h1 : cellFromPoint origin me.bounds.min me.resolution = fun _ => 0 := zero_cell e2 (fun _ => rfl) hs
    have h2 : cellFromPoint p me.bounds.min me.resolution = fun _ => 0 := by
      funext i
      change cellCoordFromPointCoord (p i) _ _ = 0
      rw [hnan p hp i, cellCoord_nan]
    unfold Casts castRay
    simp only [if_pos hD, h1, h2, if_true, Except.ok.injEq, Prod.mk.injEq, exists_const]
    exact ⟨fun h => ⟨h.1.symm, h.2.symm⟩, fun h => ⟨h.1.symm, h.2.symm⟩⟩
  obtain ⟨free, occ, hco⟩ := C28_returns_iff.mpr fun p hp => ⟨_, _, (hcast p hp _ _).mpr ⟨rfl, rfl⟩⟩
  have hfree : ∀ c, c ∉ free := by
    intro c hc
    obtain ⟨⟨p, hp, ray, e, h1, h2⟩, -⟩ := (C28_free hco c).mp hc
    rw [((hcast p hp _ _).mp h1).1] at h2
    cases h2
  have hocc : ∀ c, c ∈ occ ↔ c = fun _ => 0 := by
    intro c
    rw [C28_occupied hco c]
    constructor
    · rintro ⟨p, hp, ray, h⟩
      exact Option.some.inj ((hcast p hp _ _).mp h).2
    · rintro rfl
      obtain ⟨p, hp⟩ := List.exists_mem_of_ne_nil _ hne
      exact ⟨p, hp, [], (hcast p hp _ _).mpr ⟨rfl, rfl⟩⟩
  have hz : InGrid me (fun _ => 0) := fun i => by
    have h2 := e2.shape i
    dsimp only at h2 ⊢
    omega
  obtain ⟨m', hm'⟩ := (C38_returns_iff (nm := nm) (m := m) ho).mpr ⟨me, free, occ, e1, hco, fun c hc => absurd hc (hfree c),
    fun c hc => by rw [(hocc c).mp hc]; exact hz⟩
  refine ⟨m', hm', ?_⟩
  obtain ⟨me', free', occ', f1, f2, -, f4, f5, f6, f7, f8, -, f10⟩ := C38_integrate ho hm'
  rw [e1] at f1
  cases f1
  have hP' := placed_of_shape e2 f7 f6 f8 f10
  refine ⟨hP', ?_, fun c hc0 hc => ?_, fun ht => ?_⟩
  · obtain ⟨v, h1, h2⟩ := f4 (fun _ => 0) ((C28_occupied f2 _).mpr ((C28_occupied hco _).mp ((hocc _).mpr rfl)))
    rw [e3 _ hz] at h1
    cases h1
    exact h2
  · have hgc : InGrid me c := by unfold InGrid at hc ⊢; rw [f10] at hc; exact hc
    rw [f5 c ?_ ?_ ?_]
    · exact e3 c hgc
    · intro i
      have h1 := hgc i
      have h2 := e2.shape i
      have h3 := hP.tile_le
      dsimp only at h2
      unfold InIsize isizeMin isizeMax
      omega
    · intro h
      obtain ⟨⟨p, hp, ray, e, h1, h2⟩, -⟩ := (C28_free f2 c).mp h
      rw [((hcast p hp _ _).mp h1).1] at h2
      cases h2
    · exact fun h => hc0 ((hocc c).mp ((C28_occupied hco c).mpr ((C28_occupied f2 c).mp h)))

  · obtain ⟨me', free', occ', new, f1, f2, f3, f4, f5, -⟩ := C40_tracked ho hm' ht
    rw [e1] at f1
    cases f1
    have hnew : ∀ c, c ∈ new ↔ c = fun _ => 0 := by
      intro c
      rw [f5 c]
      constructor
      · rintro (h | h)
        · obtain ⟨⟨p, hp, ray, e, h1, h2⟩, -⟩ := (C28_free f2 c).mp h
          rw [((hcast p hp _ _).mp h1).1] at h2
          cases h2
        · exact (hocc c).mp ((C28_occupied hco c).mpr ((C28_occupied f2 c).mp h))
      · rintro rfl
        exact .inr ((C28_occupied f2 _).mpr ((C28_occupied hco _).mp ((hocc _).mpr rfl)))
    rw [f3]
    congr 1
    cases new with
    | nil => exact absurd ((hnew _).mpr rfl) (by simp)
    | cons a l =>
      obtain rfl := (hnew a).mp List.mem_cons_self
      cases l with
      | nil => rfl
      | cons b l =>
        obtain rfl := (hnew b).mp (List.mem_cons_of_mem _ List.mem_cons_self)
        simp at f4

end

section
variable {D M : ℕ} {ρ lam : ℚ} {nm : LidarNoiseModel F32} {recs : ℕ → Point D F32 × PointCloud D F32}
  {ord : ℕ → List (Verif.Cell D) → List (Verif.Cell D)} {n T : ℕ} {m₀ : GridMap D F32 F32} {d : Fin D} {k : ℤ}

/-- C102, the picture: until the second recording is started nothing is drawn but perhaps the sensor's own cell; and once
the first one has been drawn that cell is, provided one hit makes a cell count as occupied. -/
theorem C102_shown (hD : D = 2 ∨ D = 3) (hn : 0 < n) (h0 : Placed m₀ CellBounds.empty ρ)
    (ht0 : m₀.changedCells = []) (ho : ∀ r, IsOrder (ord r)) (hs : ∀ i, ((recs 0).1 i).Is 0) (hc : AllNan (recs 0).2)
    {s : State (GridMap D F32 F32) (Verif.Cell D) (Point D F32)} (hr : Reach (occOps nm recs ord) n m₀ s)
    (hl : s.workers.length ≤ 1) (hd : s.main ≠ .dead) :
    (∀ c, s.tracked c ≠ none → c = fun _ => 0) ∧
      (s.workers.length = 1 → s.main = .clearFlag ∨ s.main = .spawn →
        (s.tracked (fun _ => 0) ≠ none ↔ nm.threshold.lt (((Fp.lit 0 : F32).add nm.hit).min nm.max) = true)) := by
  have hP1 : Placed (m₀.setTrackChanges true) CellBounds.empty ρ := placed_of_shape h0 rfl rfl rfl rfl
  obtain ⟨m', e1, e2, e3, e4, e5⟩ := C102_scan (nm := nm) hD hP1 (ho 0) hs hc
  have e6 : m'.changedCells = [fun _ => 0] := by
    rw [e5 rfl]
    change m₀.changedCells ++ _ = _
    rw [ht0]; rfl
  obtain ⟨a1, a2⟩ := C102_first hn (occOps_integrate (ord := ord) e1) hr hl hd
  have hproc : ∀ t, processCells (occOps nm recs ord) ((occOps nm recs ord).reset m') ((occOps nm recs ord).changed m')
      (fun _ => none) = some t → (∀ c, t c ≠ none → c = fun _ => 0) ∧
        (t (fun _ => 0) ≠ none ↔ nm.threshold.lt (((Fp.lit 0 : F32).add nm.hit).min nm.max) = true) := by
    intro t ht
    have hch : (occOps nm recs ord).changed m' = [fun _ => 0] := e6
    have hocc : (occOps nm recs ord).occupied ((occOps nm recs ord).reset m') (fun _ => 0) =
        some (nm.threshold.lt (((Fp.lit 0 : F32).add nm.hit).min nm.max)) := by
      have hg : ((occOps nm recs ord).reset m').get (fun _ => 0) = m'.get (fun _ => 0) := rfl
      change (nm.occupied _ _).toOption = _
      unfold LidarNoiseModel.occupied
      rw [hg, e3]
      rfl
    rcases processCells_by_set (ops := occOps nm recs ord) (m := (occOps nm recs ord).reset m')
      ((occOps nm recs ord).changed m') (fun _ => none) with ⟨-, h2⟩ | ⟨-, h2⟩
    · rw [ht] at h2; cases h2
    · rw [ht] at h2
      cases h2
      rw [hch]
      simp only [List.mem_singleton, if_true, hocc]
      refine ⟨fun c hc => ?_, ?_⟩
      · by_contra hne
        rw [if_neg hne] at hc
        exact hc rfl
      · simp
  refine ⟨fun c hc => ?_, fun h1 h2 => (hproc _ (a2 h1 h2).2).2⟩
  rcases a1 with h | h
  · rw [h] at hc
    exact absurd rfl hc
  · exact (hproc _ h).1 c hc

lemma firstLost_scan (h : FirstLost M T ρ lam d k n recs) : NanScan M ρ (recs 0).1 (recs 0).2 (fun _ => 0) ∧
    Spec.Above d (k * T * ρ) (recs 0).2 := by
  obtain ⟨r, r1, r2, -⟩ := h.low
  obtain ⟨x, hx, -⟩ := h.scans r r1 r2
  have hpos : 0 < ρ := lt_of_lt_of_le (by norm_num) hx.res_lo
  have hnan := h.first.2
  have hno : ∀ p ∈ (recs 0).2.points, ∀ i y, ¬ (p i).Is y := by
    intro p hp i y hy
    have := Fp.notNaN_is hy
    rw [hnan p hp i] at this
    cases this
  exact ⟨⟨hx.res_lo, hx.res_hi, h.sensor, fun i => by rw [abs_zero]; positivity, fun p hp i => .inl (hnan p hp i),
    fun p hp _ i y hy => absurd hy (hno p hp i y)⟩, fun p hp y hy => absurd hy (hno p hp d y)⟩

lemma firstLost_all (h : FirstLost M T ρ lam d k n recs) {r : ℕ} (hr : r < n) :
    ∃ x, NanScan M ρ (recs r).1 (recs r).2 x ∧ Spec.Above d (k * T * ρ) (recs r).2 := by
  rcases Nat.eq_zero_or_pos r with rfl | h0
  · exact ⟨_, firstLost_scan h⟩
  · exact h.scans r h0 hr

/-- How far down the map reaches, after `j` scans. -/
def Reached (ρ : ℚ) (i : Fin D) (r₁ : ℕ) (j : ℕ) (m : GridMap D F32 F32) : Prop :=
  (j = 0 → Placed m CellBounds.empty ρ) ∧ (r₁ < j → ∃ cb, Placed m cb ρ ∧ cb.min i ≤ -2)

lemma reached_integrate (hD : D = 2 ∨ D = 3) (ho : ∀ r, IsOrder (ord r)) (h : FirstLost M T ρ lam d k n recs) {r₁ : ℕ} {i : Fin D}
    (hlow : ∃ p ∈ (recs r₁).2.points, ∃ y, (p i).Is y ∧ y ≤ -2 * ρ) {j : ℕ} (hj : j < n) {m m' : GridMap D F32 F32}
    (hm : MapAbove M T ρ d k m) (hl : Reached ρ i r₁ j m)
    (hi : (occOps nm recs ord).integrate j m = .ret m') : Reached ρ i r₁ (j + 1) m' := by
  refine ⟨fun h => by omega, fun hr => ?_⟩
  obtain ⟨x, hx, ha⟩ := firstLost_all h hj
  obtain ⟨⟨cb, hP, hlc, hcb⟩, hT', hch⟩ := hm
  have hM := h.M_hi
  have hI := occOps_ret hi
  have hpos := hP.res.pos
  have hP1 : Placed (m.setTrackChanges true) cb ρ := placed_of_shape hP rfl rfl rfl rfl
  have hT1 : (m.setTrackChanges true).tileSize = T := hT'
  obtain ⟨me, free, occ, e1, -, -, -, -, e6, e7, e8, -, e10⟩ := C38_integrate (ho j) hI
  obtain ⟨me', ncb, e1', q1, -, -, -, -, q6⟩ := nan_setup (by omega) hP1 h.M_lo (by omega) (by rw [hT1]; exact hlc) hx.coords h.k_le
    (by rw [hT1]; exact hcb) (by rw [hT1]; exact ha)
  rw [e1] at e1'
  cases e1'
  refine ⟨ncb, placed_of_shape q1 e7 e6 e8 e10, ?_⟩
  rcases Nat.lt_succ_iff_lt_or_eq.mp hr with hlt | rfl
  · obtain ⟨cb', hP', hle⟩ := hl.2 hlt
    obtain rfl : cb' = cb := by rw [← hP'.cells, hP.cells]
    have hne : cb' ≠ CellBounds.empty := by
      rintro rfl
      simp [CellBounds.empty] at hle
    exact (nan_grows (by omega) hP1 (by omega) hx.coords e1 q1 hne i).trans hle
  · obtain ⟨p, hp, y, hy, hle⟩ := hlow
    have h1 := (q6 p hp i y hy).trans hle
    have h2 : ((ncb.min i : ℤ) : ℚ) - 1 / 8 ≤ -2 := le_of_mul_le_mul_right h1 hpos
    have h3 : ((ncb.min i : ℤ) : ℚ) < ((-1 : ℤ) : ℚ) := by push_cast; linarith
    have : ncb.min i < -1 := by exact_mod_cast h3
    omega

/-- When the first recording comes round again. -/
lemma again_panics (hD : D = 2 ∨ D = 3) (ho : ∀ r, IsOrder (ord r)) (hml : nm.maxRange.Is lam)
    (h : FirstLost M T ρ lam d k n recs) {i : Fin D} (hid : i ≠ d) {m : GridMap D F32 F32} (hm : MapAbove M T ρ d k m)
    (hl : ∃ cb, Placed m cb ρ ∧ cb.min i ≤ -2) : (occOps nm recs ord).integrate 0 m = .panic := by
  obtain ⟨x, ha⟩ := firstLost_scan h
  obtain ⟨⟨cb, hP, hlc, hcb⟩, hT', hch⟩ := hm
  obtain ⟨cb', hP', hle⟩ := hl
  obtain rfl : cb' = cb := by rw [← hP'.cells, hP.cells]
  have hM := h.M_hi
  have hpos := hP.res.pos
  have hP1 : Placed (m.setTrackChanges true) cb' ρ := placed_of_shape hP rfl rfl rfl rfl
  have hT1 : (m.setTrackChanges true).tileSize = T := hT'
  obtain ⟨me, ncb, e1, -⟩ := nan_setup (by omega) hP1 h.M_lo (by omega) (by rw [hT1]; exact hlc) x.coords h.k_le
    (by rw [hT1]; exact hcb) (by rw [hT1]; exact ha)
  obtain ⟨p, hp⟩ := List.exists_mem_of_ne_nil _ h.first.1
  have hnan := h.first.2 p hp
  refine occOps_panic e1 (nan_panics hD hP1 h.M_lo (by rw [hT1]; exact hM) (by rw [hT1]; exact hlc) (ho 0) x h.last h.k_le
    (by rw [hT1]; exact hcb) (by rw [hT1]; exact ha) hml h.lam_lo h.lam_hi (by rw [hT1]; have := h.floor; linarith) hp
    ⟨i, hnan i⟩ (.inr ⟨i, hid, hnan i, ?_, ?_⟩))
  · rintro rfl
    simp [CellBounds.empty] at hle
  · have : ((cb'.min i : ℤ) : ℚ) + 2 ≤ 0 := by
      have : ((cb'.min i : ℤ) : ℚ) ≤ ((-2 : ℤ) : ℚ) := by exact_mod_cast hle
      push_cast at this; linarith
    exact mul_nonpos_of_nonpos_of_nonneg this hpos.le

lemma first_not_panic (hD : D = 2 ∨ D = 3) (ho : ∀ r, IsOrder (ord r)) (h : FirstLost M T ρ lam d k n recs)
    {m : GridMap D F32 F32} (hP : Placed m CellBounds.empty ρ) : (occOps nm recs ord).integrate 0 m ≠ .panic := by
  have hP1 : Placed (m.setTrackChanges true) CellBounds.empty ρ := placed_of_shape hP rfl rfl rfl rfl
  obtain ⟨m', e1, -⟩ := C102_scan (nm := nm) hD hP1 (ho 0) h.sensor h.first
  rw [occOps_integrate (ord := ord) e1]
  simp

/-- C102, the visualizer: the recordings are played once each, and then the first one again: no further one is started; the
worker that integrates it the second time never gets past integrating; the render thread does not panic; nor does the
worker that integrates it the first time. -/
theorem C102_visualizer (hD : D = 2 ∨ D = 3) (h0 : Placed m₀ CellBounds.empty ρ)
    (ht0 : m₀.changedCells = []) (hT : m₀.tileSize = T) (ho : ∀ r, IsOrder (ord r)) (hml : nm.maxRange.Is lam)
    (h : FirstLost M T ρ lam d k n recs)
    {s : State (GridMap D F32 F32) (Verif.Cell D) (Point D F32)} (hr : Reach (occOps nm recs ord) n m₀ s) :
    s.workers.length ≤ n + 1 ∧ (∀ pc r, s.workers[n]? = some (pc, r) → r = 0 ∧ NotPast pc) ∧ s.main ≠ .dead ∧
      ∀ r, s.workers[0]? ≠ some (.dead, r) := by
  obtain ⟨r₁, r1, r2, p, hp, i, hid, y, hy, hle⟩ := h.low
  have hn : 0 < n := by omega
  obtain ⟨a1, a2, a3, a4, -⟩ := C102_stuck (ops := occOps nm recs ord) (K := n)
    (I := fun j m => MapAbove M T ρ d k m ∧ Reached ρ i r₁ j m)
    (R := fun m c => MachineCell c ∧ InGrid m c) hn
    ⟨⟨⟨_, h0, .inl rfl, .inl rfl⟩, hT, by rw [ht0]; simp⟩, fun _ => h0, fun h => by omega⟩
    (fun j hj m m' hm hi => by
      rw [Nat.mod_eq_of_lt hj] at hi
      obtain ⟨x, hx, ha⟩ := firstLost_all h hj
      obtain ⟨b1, b2⟩ := mapAbove_integrate hD (ho j) h.M_lo h.M_hi h.k_le hx ha hm.1 hi
      exact ⟨⟨b1, reached_integrate hD ho h ⟨p, hp, y, hy, hle⟩ hj hm.1 hm.2 hi⟩, b2⟩)
    (fun j m hm => ⟨⟨(mapAbove_reset hm.1).1, fun hj => placed_of_shape (hm.2.1 hj) rfl rfl rfl rfl, fun hj => by
      obtain ⟨cb, c1, c2⟩ := hm.2.2 hj
      exact ⟨cb, placed_of_shape c1 rfl rfl rfl rfl, c2⟩⟩, (mapAbove_reset hm.1).2⟩)
    (fun j m hm c hc => hm.1.2.2 c hc) (fun m c hc => mapAbove_occupied hc)
    (fun m m' hm => by
      rw [Nat.mod_self, again_panics hD ho hml h hid hm.1 (hm.2.2 r2)]; simp) hr
  refine ⟨a1, fun pc r hw => ⟨?_, a2 pc r hw⟩, a3, fun r hw => ?_⟩
  · have := (C54_cyclic hr hn).2.2 n pc r hw
    rwa [Nat.mod_self] at this
  · obtain ⟨m, hm, hpan⟩ := a4 0 r hw
    rw [Nat.zero_mod] at hpan
    exact first_not_panic hD ho h (hm.2.1 rfl) hpan

/-- C102, the visualizer: in every fair run a worker panics, not the first one but at the latest the one that integrates the
first recording the second time, and from then on nothing new is drawn and no recording is started. -/
theorem C102_freezes (hD : D = 2 ∨ D = 3) (h0 : Placed m₀ CellBounds.empty ρ)
    (ht0 : m₀.changedCells = []) (hT : m₀.tileSize = T) (ho : ∀ r, IsOrder (ord r)) (hml : nm.maxRange.Is lam)
    (h : FirstLost M T ρ lam d k n recs)
    {σ : ℕ → State (GridMap D F32 F32) (Verif.Cell D) (Point D F32)} (he : Execution (occOps nm recs ord) n m₀ σ)
    (hf : Fair (occOps nm recs ord) n σ) :
    ∃ i : ℕ, (∃ k r' : ℕ, 0 < k ∧ k ≤ n ∧ (σ i).workers[k]? = some (.dead, r')) ∧ ∀ j, i ≤ j → (σ j).main = .check ∧
      (σ j).finished = false ∧ (σ j).tracked = (σ i).tracked ∧ (σ j).workers.length = (σ i).workers.length := by
  obtain ⟨r₁, r1, r2, p, hp, i, hid, y, hy, hle⟩ := h.low
  have hn : 0 < n := by omega
  obtain ⟨i, w, r', h1, h2, m, hm, hpan⟩ := C102_fair (ops := occOps nm recs ord) (K := n)
    (I := fun j m => MapAbove M T ρ d k m ∧ Reached ρ i r₁ j m)
    (R := fun m c => MachineCell c ∧ InGrid m c) hn
    ⟨⟨⟨_, h0, .inl rfl, .inl rfl⟩, hT, by rw [ht0]; simp⟩, fun _ => h0, fun h => by omega⟩
    (fun j hj m m' hm hi => by
      rw [Nat.mod_eq_of_lt hj] at hi
      obtain ⟨x, hx, ha⟩ := firstLost_all h hj
      obtain ⟨b1, b2⟩ := mapAbove_integrate hD (ho j) h.M_lo h.M_hi h.k_le hx ha hm.1 hi
      exact ⟨⟨b1, reached_integrate hD ho h ⟨p, hp, y, hy, hle⟩ hj hm.1 hm.2 hi⟩, b2⟩)
    (fun j m hm => ⟨⟨(mapAbove_reset hm.1).1, fun hj => placed_of_shape (hm.2.1 hj) rfl rfl rfl rfl, fun hj => by
      obtain ⟨cb, c1, c2⟩ := hm.2.2 hj
      exact ⟨cb, placed_of_shape c1 rfl rfl rfl rfl, c2⟩⟩, (mapAbove_reset hm.1).2⟩)
    (fun j m hm c hc => hm.1.2.2 c hc) (fun m c hc => mapAbove_occupied hc)
    (fun m hm => by rw [Nat.mod_self, again_panics hD ho hml h hid hm.1 (hm.2.2 r2)])
    (fun j hj m hm => by
      rw [Nat.mod_eq_of_lt hj]
      obtain ⟨⟨⟨cb, hP, hl, hcb⟩, hT', -⟩, -⟩ := hm
      obtain ⟨x, hx, ha⟩ := firstLost_all h hj
      have hP1 : Placed (m.setTrackChanges true) cb ρ := placed_of_shape hP rfl rfl rfl rfl
      have hT1 : (m.setTrackChanges true).tileSize = T := hT'
      have hM := h.M_hi
      obtain ⟨me, ncb, e1, -⟩ := nan_setup (by omega) hP1 h.M_lo (by omega) (by rw [hT1]; exact hl) hx.coords h.k_le
        (by rw [hT1]; exact hcb) (by rw [hT1]; exact ha)
      rcases nan_ends (nm := nm) (ord := ord j) hD hP1 h.M_lo (by rw [hT1]; exact hM) (by rw [hT1]; exact hl) (ho j)
        hx h.k_le (by rw [hT1]; exact hcb) (by rw [hT1]; exact ha) hml (lt_of_lt_of_le (by norm_num) h.lam_lo) h.lam_hi with
        ⟨m', hm'⟩ | hp
      · rw [occOps_integrate hm']; simp
      · rw [occOps_panic e1 hp]; simp) he hf
  refine ⟨i, ⟨w, r', ?_, h1, h2⟩, fun j hj => ?_⟩
  · refine Nat.pos_of_ne_zero ?_
    rintro rfl
    rw [Nat.zero_mod] at hpan
    exact first_not_panic hD ho h (hm.2.1 rfl) hpan
  have hst : Steps (occOps nm recs ord) n (σ i) (σ j) := by
    induction j, hj using Nat.le_induction with
    | base => exact .nil _
    | succ j hj ih =>
      rcases he.step j with h3 | h3
      · exact .step ih h3
      · rw [h3]; exact ih
  obtain ⟨b1, b2, b3, -, b5⟩ := C52_worker_panic_freezes (exec_reach he i) h2 hst
  exact ⟨b1, b2, b3, b5⟩

end

/-- A recording at the origin without a number, then one with a point three cells west of the origin. -/
def firstRecs (r : ℕ) : Point 2 F32 × PointCloud 2 F32 :=
  if r = 0 then (![Fp.lit 0, Fp.lit 0], PointCloud.fromPoints [![.nan, .nan]])
  else (nanSensor, PointCloud.fromPoints [![Fp.lit (-3), Fp.lit (1 / 4)]])

lemma firstRecs_sensor (i : Fin 2) : ((firstRecs 0).1 i).Is 0 := by revert i; decide +kernel

lemma firstRecs_nan : AllNan (firstRecs 0).2 := by
  have e : (firstRecs 0).2.points = [![.nan, .nan]] := C13_points_fromPoints _
  refine ⟨by rw [e]; simp, fun p hp i => ?_⟩
  rw [e, List.mem_singleton] at hp
  subst hp
  fin_cases i <;> rfl

lemma firstRecs_lost : FirstLost 60 2 1 60 1 (-1) 2 firstRecs := by
  have e : (((-1 : ℤ) : ℚ) * (2 : ℕ) * 1) = -2 := by norm_num
  have e1 : (firstRecs 1).2.points = [![Fp.lit (-3), Fp.lit (1 / 4)]] := C13_points_fromPoints _
  have hx : ∀ i, ((firstRecs 1).1 i).Is ((![5 / 2, 1 / 2] : Fin 2 → ℚ) i) := by decide +kernel
  have hy : ∀ i, ((![Fp.lit (-3), Fp.lit (1 / 4)] : Point 2 F32) i).Is ((![-3, 1 / 4] : Fin 2 → ℚ) i) := by
    decide +kernel
  refine ⟨by decide, by norm_num, by norm_num, by norm_num, firstRecs_sensor, firstRecs_nan, fun r h1 h2 => ?_,
    ⟨1, by norm_num, by norm_num, ![Fp.lit (-3), Fp.lit (1 / 4)], by rw [e1]; simp, 0, by decide, -3, hy 0, by norm_num⟩,
    by rw [e]; norm_num, by norm_num, by norm_num⟩
  obtain rfl : r = 1 := by omega
  refine ⟨![5 / 2, 1 / 2], ⟨by norm_num, by norm_num, hx, fun i => ?_, fun p hp i => ?_, fun p hp hb i y h => ?_⟩,
    fun p hp y hy' => ?_⟩
  · fin_cases i <;> norm_num [abs_le]
  · rw [e1, List.mem_singleton] at hp
    subst hp
    exact .inr ⟨_, hy i, by fin_cases i <;> norm_num [abs_le]⟩
  · rw [e1, List.mem_singleton] at hp
    subst hp
    obtain rfl := h.unique (hy i)
    right
    fin_cases i <;> norm_num [le_abs]
  · rw [e1, List.mem_singleton] at hp
    subst hp
    obtain rfl := hy'.unique (hy 1)
    rw [e]; norm_num

/-- The first scan marks the cell of its sensor. -/
example : ∃ m', Integrates (fun l => l) defaultNM smallMap (firstRecs 0).1 (firstRecs 0).2 m' ∧
    m'.get (fun _ => 0) = .ok (((Fp.lit 0 : F32).add defaultNM.hit).min defaultNM.max) := by
  obtain ⟨m', h1, -, h2, -⟩ := C102_scan (nm := defaultNM) (.inl rfl) smallMap_placed (fun l => List.Perm.refl l)
    firstRecs_sensor firstRecs_nan
  exact ⟨m', h1, h2⟩

/-- That cell is drawn before the second recording is started. -/
example {s : State (GridMap 2 F32 F32) (Verif.Cell 2) (Point 2 F32)}
    (hr : Reach (occOps defaultNM firstRecs fun _ l => l) 2 smallMap s) (hl : s.workers.length = 1)
    (hs : s.main = .spawn) : s.tracked (fun _ => 0) ≠ none :=
  ((C102_shown (.inl rfl) (by norm_num) smallMap_placed rfl (fun _ l => List.Perm.refl l) firstRecs_sensor
    firstRecs_nan hr hl.le (by rw [hs]; simp)).2 hl (.inr hs)).mpr (by decide +kernel)

/-- At most three recordings are started; the third, the first one over again, is not got past. -/
example {s : State (GridMap 2 F32 F32) (Verif.Cell 2) (Point 2 F32)}
    (hr : Reach (occOps defaultNM firstRecs fun _ l => l) 2 smallMap s) :
    s.workers.length ≤ 3 ∧ (∀ pc r, s.workers[2]? = some (pc, r) → r = 0 ∧ NotPast pc) ∧ s.main ≠ .dead ∧
      ∀ r, s.workers[0]? ≠ some (.dead, r) :=
  C102_visualizer (.inl rfl) smallMap_placed rfl rfl (fun _ l => List.Perm.refl l) (by decide +kernel)
    firstRecs_lost hr

/-- There are fair runs, and each of them ends with a worker that has panicked. -/
example : ∃ σ, Execution (occOps defaultNM firstRecs fun _ l => l) 2 smallMap σ ∧
    Fair (occOps defaultNM firstRecs fun _ l => l) 2 σ ∧
    ∃ i k r' : ℕ, 0 < k ∧ k ≤ 2 ∧ (σ i).workers[k]? = some (.dead, r') := by
  obtain ⟨σ, h1, h2⟩ := someFair_exists (occOps defaultNM firstRecs fun _ l => l) 2 smallMap
  obtain ⟨i, ⟨k, r', h3, h4, h5⟩, -⟩ := C102_freezes (.inl rfl) smallMap_placed rfl rfl
    (fun _ l => List.Perm.refl l) (by decide +kernel) firstRecs_lost h1 h2
  exact ⟨σ, h1, h2, i, k, r', h3, h4, h5⟩

end Verif.Props
