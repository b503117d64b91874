import Verif.Props.Repeat
import Verif.Props.NoPanic
import Verif.Spec.Order

/-!
# C67: the order of scans
-/

namespace Verif.Props
open Spec

section
variable {f : Fmt} {D : ℕ} {nm : LidarNoiseModel (Fp f)} {m m' m1 m2 : GridMap D (Fp f) (Fp f)}
  {ord : List (Cell D) → List (Cell D)}

/-- One scan that fits. -/
lemma fits_step {s : Point D (Fp f) × PointCloud D (Fp f)} (hf : Fits m s.2) (ho : IsOrder ord)
    (h : Integrates ord nm m s.1 s.2 m') :
    m'.bounds = m.bounds ∧ m'.resolution = m.resolution ∧ m'.tileSize = m.tileSize ∧
    m'.data.shape = m.data.shape ∧ ∀ c, MachineCell c → m'.get c = (m.get c).map fun v =>
      Seen.apply nm v (seen s.1 s.2 m.bounds m.resolution nm.maxRange c) := by
  obtain ⟨me, free, occ, g1, g2, g3, g4, g5, g6, g7, g8, g9⟩ := integrate_spec ho h
  rw [hf m rfl rfl rfl] at g1
  cases g1
  refine ⟨by rw [g5], by rw [g5], by rw [g5], g6, fun c hc => ?_⟩
  obtain ⟨s1, s2, s3⟩ := seen_eq g2 c
  by_cases hfr : c ∈ free
  · obtain ⟨v, hv⟩ := (C31_get m hc).1 (g3 c hfr)
    rw [s2 hfr, g7 c hfr v hv, hv]
    rfl
  · by_cases hoc : c ∈ occ
    · obtain ⟨v, hv⟩ := (C31_get m hc).1 (g4 c hoc)
      rw [s1 hoc, g8 c hoc v hv, hv]
      rfl
    · rw [s3 hfr hoc, g9 c hc hfr hoc]
      cases m.get c <;> rfl

lemma fits_congr {cloud : PointCloud D (Fp f)} (hb : m'.bounds = m.bounds) (hr : m'.resolution = m.resolution)
    (ht : m'.tileSize = m.tileSize) (hf : Fits m cloud) : Fits m' cloud :=
  fun m2 h1 h2 h3 => hf m2 (h1.trans hb) (h2.trans hr) (h3.trans ht)

/-- C67: scans that fit into the map: the value of every cell is what the scans, one after the other, make of it,
and each scan tells the same about the cell whenever it comes. -/
theorem C67_values {scans : List (Point D (Fp f) × PointCloud D (Fp f))} (hf : ∀ s ∈ scans, Fits m s.2)
    (h : Scans nm m scans m') :
    m'.bounds = m.bounds ∧ m'.resolution = m.resolution ∧ m'.tileSize = m.tileSize ∧
    m'.data.shape = m.data.shape ∧ ∀ c, MachineCell c → m'.get c = (m.get c).map fun v =>
      scans.foldl (fun v s => Seen.apply nm v (seen s.1 s.2 m.bounds m.resolution nm.maxRange c)) v := by
  induction h with
  | done m => exact ⟨rfl, rfl, rfl, rfl, fun c _ => by cases m.get c <;> rfl⟩
  | step ho h1 _ ih =>
    obtain ⟨p1, p2, p3, p4, p5⟩ := fits_step (hf _ List.mem_cons_self) ho h1
    obtain ⟨q1, q2, q3, q4, q5⟩ := ih fun s hs => fits_congr p1 p2 p3 (hf s (List.mem_cons_of_mem _ hs))
    refine ⟨q1.trans p1, q2.trans p2, q3.trans p3, q4.trans p4, fun c hc => ?_⟩
    rw [q5 c hc, p5 c hc, p1, p2]
    cases GridMap.get _ c <;> rfl

/-- A list of observations with no hit or no miss acts the same in any order. -/
lemma foldl_perm {l l' : List Seen} (hp : l.Perm l') (h : Seen.hit ∉ l ∨ Seen.miss ∉ l) (v : Fp f) :
    l.foldl (Seen.apply nm) v = l'.foldl (Seen.apply nm) v := by
  refine List.Perm.foldl_eq' hp (fun x hx y hy z => ?_) v
  cases x <;> cases y <;> first | rfl | exact absurd ‹_› (by tauto)

/-- C67: if the scans fit into the map, then whatever their order, the map ends up with the same bounds and, bit by
bit, the same value in every cell that does not have both hits and misses. -/
theorem C67_order {scans scans' : List (Point D (Fp f) × PointCloud D (Fp f))} (hp : scans.Perm scans')
    (hf : ∀ s ∈ scans, Fits m s.2) (h1 : Scans nm m scans m1) (h2 : Scans nm m scans' m2) :
    m1.bounds = m2.bounds ∧ m1.data.shape = m2.data.shape ∧
    ∀ c, MachineCell c → ¬ (SomeHit m nm.maxRange scans c ∧ SomeMiss m nm.maxRange scans c) →
      m1.get c = m2.get c := by
  obtain ⟨p1, p2, p3, p4, p5⟩ := C67_values hf h1
  obtain ⟨q1, q2, q3, q4, q5⟩ := C67_values (fun s hs => hf s (hp.mem_iff.mpr hs)) h2
  refine ⟨p1.trans q1.symm, p4.trans q4.symm, fun c hc hn => ?_⟩
  rw [p5 c hc, q5 c hc]
  congr 1
  funext v
  have e : ∀ l : List (Point D (Fp f) × PointCloud D (Fp f)),
      l.foldl (fun v s => Seen.apply nm v (seen s.1 s.2 m.bounds m.resolution nm.maxRange c)) v =
      (l.map fun s => seen s.1 s.2 m.bounds m.resolution nm.maxRange c).foldl (Seen.apply nm) v := fun l => by
    rw [List.foldl_map]
  rw [e, e]
  refine foldl_perm (hp.map _) ?_ v
  simp only [List.mem_map]
  by_contra hcon
  rw [not_or, not_not, not_not] at hcon
  exact hn hcon

/-- A scan that fits and was integrated once can be integrated into any map of the same shape. -/
lemma fits_returns {s : Point D (Fp f) × PointCloud D (Fp f)} (hf : Fits m s.2) (ho : IsOrder ord)
    (h : Integrates ord nm m1 s.1 s.2 m2) (hb1 : m1.bounds = m.bounds) (hr1 : m1.resolution = m.resolution)
    (ht1 : m1.tileSize = m.tileSize) (hs1 : m1.data.shape = m.data.shape)
    (hb : m'.bounds = m.bounds) (hr : m'.resolution = m.resolution)
    (ht : m'.tileSize = m.tileSize) (hs : m'.data.shape = m.data.shape)
    {ord' : List (Cell D) → List (Cell D)} (ho' : IsOrder ord') :
    ∃ m'', Integrates ord' nm m' s.1 s.2 m'' := by
  obtain ⟨me, free, occ, g1, g2, g3, g4, -⟩ := integrate_spec ho h
  rw [hf m1 hb1 hr1 ht1] at g1
  cases g1
  exact (C38_returns_iff ho').mpr ⟨m', free, occ, hf m' hb hr ht, by rw [hb, hr, ← hb1, ← hr1]; exact g2,
    fun c hc => (inGrid_congr (hs.trans hs1.symm) c).mpr (g3 c hc),
    fun c hc => (inGrid_congr (hs.trans hs1.symm) c).mpr (g4 c hc)⟩

/-- C67: scans that fit into the map and can be integrated in one order can be integrated in every order. -/
theorem C67_any_order {scans scans' : List (Point D (Fp f) × PointCloud D (Fp f))} (hp : scans.Perm scans')
    (hf : ∀ s ∈ scans, Fits m s.2) (h : Scans nm m scans m') : ∃ m'', Scans nm m scans' m'' := by
  have all : ∀ {m0 l m'}, Scans nm m0 l m' → (∀ s ∈ l, Fits m s.2) → m0.bounds = m.bounds →
      m0.resolution = m.resolution → m0.tileSize = m.tileSize → m0.data.shape = m.data.shape →
      ∀ s ∈ l, ∃ ord m1 m2, IsOrder ord ∧ Integrates ord nm m1 s.1 s.2 m2 ∧ m1.bounds = m.bounds ∧
        m1.resolution = m.resolution ∧ m1.tileSize = m.tileSize ∧ m1.data.shape = m.data.shape := by
    intro m0 l m' h
    induction h with
    | done m0 => intro _ _ _ _ _ s hs; cases hs
    | step ho h1 _ ih =>
      intro hf hb hr ht hs s hmem
      rcases List.mem_cons.mp hmem with rfl | hmem
      · exact ⟨_, _, _, ho, h1, hb, hr, ht, hs⟩
      · obtain ⟨p1, p2, p3, p4, -⟩ := fits_step (fits_congr hb hr ht (hf _ List.mem_cons_self)) ho h1
        exact ih (fun s hs => hf s (List.mem_cons_of_mem _ hs)) (p1.trans hb) (p2.trans hr) (p3.trans ht)
          (p4.trans hs) s hmem
  have hall := all h hf rfl rfl rfl rfl
  have key : ∀ (l : List (Point D (Fp f) × PointCloud D (Fp f))) (m0 : GridMap D (Fp f) (Fp f)), (∀ s ∈ l, s ∈ scans) →
      m0.bounds = m.bounds → m0.resolution = m.resolution → m0.tileSize = m.tileSize →
      m0.data.shape = m.data.shape → ∃ m'', Scans nm m0 l m'' := by
    intro l
    induction l with
    | nil => intro m0 _ _ _ _ _; exact ⟨m0, .done m0⟩
    | cons s l ih =>
      intro m0 hsub hb hr ht hs
      have hmem := hsub s List.mem_cons_self
      obtain ⟨ord, m1, m2, ho, hi, b1, r1, t1, s1⟩ := hall s hmem
      obtain ⟨m3, h3⟩ := fits_returns (hf s hmem) ho hi b1 r1 t1 s1 hb hr ht hs ho
      obtain ⟨p1, p2, p3, p4, -⟩ := fits_step (fits_congr hb hr ht (hf s hmem)) ho h3
      obtain ⟨m4, h4⟩ := ih m3 (fun s hs => hsub s (List.mem_cons_of_mem _ hs)) (p1.trans hb) (p2.trans hr)
        (p3.trans ht) (p4.trans hs)
      exact ⟨m4, .step ho h3 h4⟩
  exact key scans' m (fun s hs => hp.mem_iff.mpr hs) rfl rfl rfl rfl

end

section
variable {D : ℕ} {nm : LidarNoiseModel F32} {m m' m1 m2 : GridMap D F32 F32} {cb : CellBounds D} {ρ : ℚ}
  {ord : List (Cell D) → List (Cell D)}

/-- C67: clouds in the working range whose bounds, rounded outwards, lie in the box of a map made of whole tiles
fit. -/
theorem C67_fits {cloud : PointCloud D F32} (hP : Placed m cb ρ) (hc : CloudInRange cloud ρ)
    (ha : Aligned m.tileSize cb)
    (hin : ∀ b', cloud.bounds.discretized m.resolution true = .ok b' →
      CellSub (CellBounds.fromBounds b' m.resolution) cb) : Fits m cloud := by
  intro m' hb hr ht
  have hreq := request_of_cloud hP.res.pos hc
  have h0 : m'.newCellBounds cloud.bounds = m.newCellBounds cloud.bounds := by
    unfold GridMap.newCellBounds
    rw [hb, hr, ht]
  obtain ⟨ncb, e0, h3, h4, h5, h6, h7⟩ := newCellBounds_spec hP hreq
  have hd := hin _ (discretized_eq hP.res hreq)
  rw [fromBounds_eq _ hP.res.1 hP.res.pos] at hd
  have hsub := h6 cb ha hd fun _ i => ⟨le_rfl, le_rfl⟩
  have heq : ncb = cb := by
    by_cases he : cb = CellBounds.empty
    · ext i
      · have := hsub i; have := h7 i; rw [he] at *
        simp only [CellBounds.empty] at *; omega
      · have := hsub i; have := h7 i; rw [he] at *
        simp only [CellBounds.empty] at *; omega
    · ext i
      · exact le_antisymm (h5 he i).1 (hsub i).1
      · exact le_antisymm (hsub i).2 (h5 he i).2
  unfold GridMap.expandBounds
  rw [h0, e0, M.bind_ok]
  dsimp only
  rw [hb, hr, hP.cells, if_pos heq]

/-- The upper corner of the rounded bounds of a cloud is at least one cell from the world origin. -/
lemma one_le_discMax {r v : F32} {x : ℚ} (hr : Res r ρ) (hv : v.Is x) (h0 : 0 ≤ x) (hx : |x| ≤ 2 ^ 18 * ρ) :
    1 ≤ cellOf r (Bounds.discMax r true v) := by
  have hpos := hr.pos
  have h1 : (Fp.lit 1 : F32).Is ((1 : ℤ) : ℚ) := by rw [Int.cast_one]; decide +kernel
  have hρr : b32.Rep ρ := hr.1.rep
  have e1 := cellOf_scaled hr (k := 1) (by norm_num) h1
  have hone : ((Fp.lit 1 : F32).mul r).Is ρ := by
    have := h1.mul hr.1 (F32.noOvf_res (N := 1) hpos hr.2.2 (by norm_num) (by norm_num)
      (by rw [Int.cast_one, one_mul, abs_of_pos hpos]))
    rwa [Int.cast_one, one_mul, Fmt.rnd_of_rep hρr] at this
  rw [← e1]
  refine cellOf_mono hr.1 hpos ?_
  suffices ∃ y, (Bounds.discMax r true v).Is y ∧ ρ ≤ y by
    obtain ⟨y, hy, hle⟩ := this
    exact (Fp.FLe_is hone hy).mpr hle
  obtain ⟨c1, -, c3⟩ := floor_ceil_range hr hx
  have hq : |x / ρ| ≤ 2 ^ 18 := by rw [abs_div, abs_of_pos hpos, div_le_iff₀ hpos]; exact hx
  have hc := hv.div hr.1 hpos.ne' (F32.noOvf (hq.trans (by norm_num)))
  unfold Bounds.discMax
  dsimp only
  by_cases he : relativeEq (Scalar.div v r) (Scalar.round (Scalar.div v r)) = true
  · rw [if_pos he, if_pos rfl]
    have hs : |x + ρ| ≤ (2 ^ 18 + 1) * ρ := by
      have := abs_add_le x ρ
      rw [abs_of_pos hpos] at this
      linarith
    exact ⟨_, hv.add hr.1 (F32.noOvf_res hpos hr.2.2 (by norm_num) (by norm_num) hs),
      Fmt.le_rnd_of_rep hρr (by linarith)⟩
  · rw [if_neg he]
    have hc0 : 0 ≤ b32.rnd (x / ρ) := Fmt.le_rnd_of_rep Fmt.rep_zero (by positivity)
    have hcne : b32.rnd (x / ρ) ≠ 0 := fun h => he (relativeEq_int hc (k := 0) (by rw [h]; norm_num))
    have hk : 1 ≤ ⌈b32.rnd (x / ρ)⌉ := Int.one_le_ceil_iff.mpr (lt_of_le_of_ne hc0 (Ne.symm hcne))
    have hk' : |(⌈b32.rnd (x / ρ)⌉ : ℚ)| ≤ 2 ^ 18 := by exact_mod_cast c3
    have hkr : |(⌈b32.rnd (x / ρ)⌉ : ℚ) * ρ| ≤ 2 ^ 18 * ρ := by rw [abs_mul, abs_of_pos hpos]; gcongr
    refine ⟨_, hc.ceil.mul hr.1 (F32.noOvf_res hpos hr.2.2 (by norm_num) (by norm_num) hkr),
      Fmt.le_rnd_of_rep hρr ?_⟩
    have : (1 : ℚ) ≤ ⌈b32.rnd (x / ρ)⌉ := by exact_mod_cast hk
    nlinarith

lemma one_le_cloud {cloud : PointCloud D F32} (hr : Res m.resolution ρ) (hc : CloudInRange cloud ρ) (i : Fin D) :
    1 ≤ (discCells m.resolution cloud.bounds).max i := by
  obtain ⟨x, y, -, hy, -, -, hy'⟩ := request_of_cloud hr.pos hc i
  have := (C14_bounds_contain cloud i).2.1
  refine one_le_discMax hr hy ?_ hy'
  exact (Fp.FLe_is F32.zero_is hy).mp this

/-- What is true of the cells of a map after some scans. -/
structure Boxes (T : ℕ) (r : F32) (cb : CellBounds D) (clouds : List (PointCloud D F32)) (cb' : CellBounds D) :
    Prop where
  tiles : Aligned T cb'
  covers : ∀ c ∈ clouds, CellSub (discCells r c.bounds) cb'
  old : cb ≠ CellBounds.empty → CellSub cb cb'
  least : ∀ s, Aligned T s → (∀ c ∈ clouds, CellSub (discCells r c.bounds) s) →
    (cb ≠ CellBounds.empty → CellSub cb s) → CellSub cb' s

lemma boxes_step {cloud : PointCloud D F32} {origin : Point D F32} (hD : D ≤ 3) (hP : Placed m cb ρ)
    (hc : CloudInRange cloud ρ) (ho : IsOrder ord) (h : Integrates ord nm m origin cloud m') :
    ∃ cb', Placed m' cb' ρ ∧ m'.tileSize = m.tileSize ∧ m'.resolution = m.resolution ∧
      Boxes m.tileSize m.resolution cb [cloud] cb' := by
  obtain ⟨me, free, occ, h1, h2, h3, h4, h5, h6, h7, h8, h9, h10⟩ := C38_integrate ho h
  have hreq := request_of_cloud hP.res.pos hc
  obtain ⟨me', ncb, e1, e0, e2, -, -⟩ := expand_spec hD hP hreq (Fp.lit 0 : F32)
  rw [h1] at e1
  cases e1
  obtain ⟨ncb', h0', a1, a2, a3, a4, -⟩ := newCellBounds_spec hP hreq
  rw [e0] at h0'
  cases h0'
  obtain ⟨hres, ht, -⟩ := C36_expandBounds h1
  exact ⟨ncb, placed_of_shape e2 h7 h6 h8 h10, h8.trans ht, h7.trans hres, a1,
    fun c hc => by rw [List.mem_singleton.mp hc]; exact a2, a3,
    fun s b1 b2 b3 => a4 s b1 (b2 _ (List.mem_singleton_self _)) b3⟩

lemma boxes_scans (hD : D ≤ 3) (hP : Placed m cb ρ) {scans : List (Point D F32 × PointCloud D F32)}
    (hc : ∀ s ∈ scans, CloudInRange s.2 ρ) (hne : scans ≠ []) (h : Scans nm m scans m') :
    ∃ cb', Placed m' cb' ρ ∧ m'.tileSize = m.tileSize ∧ m'.resolution = m.resolution ∧
      Boxes m.tileSize m.resolution cb (scans.map Prod.snd) cb' := by
  induction h generalizing cb with
  | done m => exact absurd rfl hne
  | step ho h1 h2 ih =>
    rename_i m0 m1 m' ord s rest
    obtain ⟨cb1, p1, p2, p3, p4⟩ := boxes_step hD hP (hc _ List.mem_cons_self) ho h1
    by_cases hr : rest = []
    · subst hr
      cases h2
      exact ⟨cb1, p1, p2, p3, p4⟩
    · obtain ⟨cb', q1, q2, q3, q4⟩ := ih p1 (fun s hs => hc s (List.mem_cons_of_mem _ hs)) hr
      have hsub : CellSub cb1 cb' := by
        by_cases he : cb1 = CellBounds.empty
        · intro i
          have := one_le_cloud hP.res (hc s List.mem_cons_self) i
          have h6 := (p4.covers s.2 (List.mem_singleton_self _) i).2
          rw [he] at h6
          simp only [CellBounds.empty] at h6
          omega
        · exact q4.old he
      rw [p2, p3] at q4
      refine ⟨cb', q1, q2.trans p2, q3.trans p3, q4.tiles, ?_, ?_, ?_⟩
      · intro c hcm
        rcases List.mem_cons.mp hcm with rfl | hcm
        · intro i
          have h6 := p4.covers s.2 (List.mem_singleton_self _) i
          exact ⟨(hsub i).1.trans h6.1, h6.2.trans (hsub i).2⟩
        · exact q4.covers c hcm
      · intro he i
        have h6 := p4.old he i
        exact ⟨(hsub i).1.trans h6.1, h6.2.trans (hsub i).2⟩
      · intro b b1 b2 b3
        refine q4.least b b1 (fun c hcm => b2 c (List.mem_cons_of_mem _ hcm)) fun _ => ?_
        exact p4.least b b1 (fun c hcm => b2 c (by
          rw [List.mem_singleton.mp hcm]; exact List.mem_cons_self)) b3

/-- C67: with growth, too, the map ends up with the same bounds and size whatever the order of the scans. -/
theorem C67_bounds (hD : D ≤ 3) (hP : Placed m cb ρ) {scans scans' : List (Point D F32 × PointCloud D F32)}
    (hp : scans.Perm scans') (hc : ∀ s ∈ scans, CloudInRange s.2 ρ)
    (h1 : Scans nm m scans m1) (h2 : Scans nm m scans' m2) :
    m1.bounds = m2.bounds ∧ m1.data.shape = m2.data.shape := by
  by_cases hne : scans = []
  · subst hne
    obtain rfl := hp.nil_eq
    cases h1; cases h2
    exact ⟨rfl, rfl⟩
  · obtain ⟨cb1, p1, p2, p3, p4⟩ := boxes_scans hD hP hc hne h1
    obtain ⟨cb2, q1, q2, q3, q4⟩ := boxes_scans hD hP (fun s hs => hc s (hp.mem_iff.mpr hs))
      (fun h => hne (by subst h; exact hp.eq_nil)) h2
    have hmem : ∀ c, c ∈ scans.map Prod.snd ↔ c ∈ scans'.map Prod.snd := fun c => (hp.map _).mem_iff
    have e1 := p4.least cb2 q4.tiles (fun c hc => q4.covers c ((hmem c).mp hc)) q4.old
    have e2 := q4.least cb1 p4.tiles (fun c hc => p4.covers c ((hmem c).mpr hc)) p4.old
    have e : cb1 = cb2 := by
      ext i
      · exact le_antisymm (e2 i).1 (e1 i).1
      · exact le_antisymm (e1 i).2 (e2 i).2
    subst e
    refine ⟨by rw [p1.bounds, q1.bounds, p3, q3], ?_⟩
    funext i
    have := p1.shape i
    have := q1.shape i
    omega

/-- C67: after the scans all of them fit, so from then on their order no longer matters in the sense of
`C67_order`. -/
theorem C67_then_fits (hD : D ≤ 3) (hP : Placed m cb ρ) {scans : List (Point D F32 × PointCloud D F32)}
    (hc : ∀ s ∈ scans, CloudInRange s.2 ρ) (h : Scans nm m scans m') : ∀ s ∈ scans, Fits m' s.2 := by
  intro s hs
  obtain ⟨cb', p1, p2, p3, p4⟩ := boxes_scans hD hP hc (List.ne_nil_of_mem hs) h
  refine C67_fits p1 (hc s hs) (by rw [p2]; exact p4.tiles) fun b' hb' => ?_
  have hreq := request_of_cloud hP.res.pos (hc s hs)
  rw [p3, discretized_eq hP.res hreq] at hb'
  cases hb'
  rw [p3, fromBounds_eq _ hP.res.1 hP.res.pos]
  exact p4.covers s.2 (List.mem_map_of_mem hs)

/-- A noise model with narrow limits. -/
def narrowNM : LidarNoiseModel F32 := { defaultNM with hit := Fp.lit 1, miss := Fp.lit (-1), min := Fp.lit (-1 / 2), max := Fp.lit (1 / 2) }

def scanA : Point 2 F32 × PointCloud 2 F32 := (![Fp.lit 0, Fp.lit 0], PointCloud.fromPoints [![Fp.lit 1, Fp.lit 0]])
def scanB : Point 2 F32 × PointCloud 2 F32 := (![Fp.lit 0, Fp.lit 0], PointCloud.fromPoints [![Fp.lit 2, Fp.lit 0]])

lemma scansAB_range : ∀ s ∈ [scanA, scanB], CloudInRange s.2 1 := by
  intro s hs p hp i
  rcases List.mem_cons.mp hs with rfl | hs
  · rw [scanA, C13_points_fromPoints, List.mem_singleton] at hp
    subst hp
    refine ⟨![1, 0] i, ?_, ?_⟩ <;> revert i <;> decide +kernel
  · rw [List.mem_singleton.mp hs, scanB, C13_points_fromPoints, List.mem_singleton] at hp
    subst hp
    refine ⟨![2, 0] i, ?_, ?_⟩ <;> revert i <;> decide +kernel

/-- C67: in a whole map. Both scans fit; one sees a point in the cell (1, 0), the other looks through it; the value
of the cell depends on the order. -/
theorem C67_mixed_refuted : ∃ (m m1 m2 : GridMap 2 F32 F32) (v1 v2 : F32), (∀ s ∈ [scanA, scanB], Fits m s.2) ∧
    Scans narrowNM m [scanA, scanB] m1 ∧ Scans narrowNM m [scanB, scanA] m2 ∧
    m1.get ![1, 0] = .ok v1 ∧ m2.get ![1, 0] = .ok v2 ∧ v1 ≠ v2 := by
  have hr : Res (Fp.lit 1 : F32) 1 := ⟨by decide +kernel, by norm_num, by norm_num⟩
  obtain ⟨m, hm, hP⟩ := new_empty_placed (D := 2) (by norm_num) hr (t := 4) (by norm_num) (by norm_num) (Fp.lit 0 : F32)
  have h : (do
      let m : GridMap 2 F32 F32 ← GridMap.new (Fp.lit 1) Bounds.empty 4 (Fp.lit 0)
      let a ← narrowNM.integratePointCloud id 10 m scanA.1 scanA.2
      let ab ← narrowNM.integratePointCloud id 10 a scanB.1 scanB.2
      let a1 ← narrowNM.integratePointCloud id 10 ab scanA.1 scanA.2
      let m1 ← narrowNM.integratePointCloud id 10 a1 scanB.1 scanB.2
      let b1 ← narrowNM.integratePointCloud id 10 ab scanB.1 scanB.2
      let m2 ← narrowNM.integratePointCloud id 10 b1 scanA.1 scanA.2
      let v1 ← m1.get ![1, 0]
      let v2 ← m2.get ![1, 0]
      if v1 ≠ v2 then return () else .error .fuel) = Except.ok () := by decide +kernel
  rw [hm, M.bind_ok] at h
  simp only [M.bind_eq_ok] at h
  obtain ⟨a, ha, ab, hab, a1, ha1, m1, hm1, b1, hb1, m2, hm2, v1, hv1, v2, hv2, h⟩ := h
  have hne : v1 ≠ v2 := by
    intro hc
    rw [if_neg (not_not.mpr hc)] at h
    cases h
  exact ⟨ab, m1, m2, v1, v2, C67_then_fits (by norm_num) hP scansAB_range
      (.step (fun l => .refl l) ⟨10, ha⟩ (.step (fun l => .refl l) ⟨10, hab⟩ (.done _))),
    .step (fun l => .refl l) ⟨10, ha1⟩ (.step (fun l => .refl l) ⟨10, hm1⟩ (.done _)),
    .step (fun l => .refl l) ⟨10, hb1⟩ (.step (fun l => .refl l) ⟨10, hm2⟩ (.done _)), hv1, hv2, hne⟩

/-- Two scans that make a new map grow, in both orders: the hypotheses of `C67_bounds` and `C67_then_fits`. -/
example : ∃ (m m1 m2 : GridMap 2 F32 F32), Placed m CellBounds.empty 1 ∧ (∀ s ∈ [scanA, scanB], CloudInRange s.2 1) ∧
    Scans defaultNM m [scanA, scanB] m1 ∧ Scans defaultNM m [scanB, scanA] m2 := by
  have hr : Res (Fp.lit 1 : F32) 1 := ⟨by decide +kernel, by norm_num, by norm_num⟩
  obtain ⟨m, hm, hP⟩ := new_empty_placed (D := 2) (by norm_num) hr (t := 4) (by norm_num) (by norm_num) (Fp.lit 0 : F32)
  have h : (do
      let m : GridMap 2 F32 F32 ← GridMap.new (Fp.lit 1) Bounds.empty 4 (Fp.lit 0)
      let a ← defaultNM.integratePointCloud id 10 m scanA.1 scanA.2
      let _ ← defaultNM.integratePointCloud id 10 a scanB.1 scanB.2
      let b ← defaultNM.integratePointCloud id 10 m scanB.1 scanB.2
      let _ ← defaultNM.integratePointCloud id 10 b scanA.1 scanA.2
      return ()) = Except.ok () := by decide +kernel
  rw [hm, M.bind_ok] at h
  simp only [M.bind_eq_ok] at h
  obtain ⟨a, ha, m1, hm1, b, hb, m2, hm2, -⟩ := h
  exact ⟨m, m1, m2, hP, scansAB_range, .step (fun l => .refl l) ⟨10, ha⟩ (.step (fun l => .refl l) ⟨10, hm1⟩ (.done _)),
    .step (fun l => .refl l) ⟨10, hb⟩ (.step (fun l => .refl l) ⟨10, hm2⟩ (.done _))⟩

end
end Verif.Props
