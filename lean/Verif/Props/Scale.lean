import Verif.Lemmas.ScaleMap
import Verif.Props.OccMap

/-!
# C96: the unit of length does not matter

Measure everything — points, resolution, range limit — in a unit `2 ^ k` times smaller. Although every step of the program
rounds, the cells are the same cells, bit for bit, as long as the numbers are moderate (`Spec.Moderate`) in both units.
-/

namespace Verif.Props
open Verif.Spec Scalar

variable {k : ℤ} {D : ℕ}

/-- **C96** a ray in another unit passes the same cells and ends in the same cell, or panics in the same way. -/
theorem C96_ray (n : ℕ) {o o' e e' : Point D F32} {b b' : Bounds D F32} {r r' ml ml' : F32} (ho : RescaledPt k 20 o o')
    (he : RescaledPt k 20 e e') (hb : RescaledPt k 24 b.min b'.min) (hr : RescaledRes k r r') (hml : Rescaled k 20 ml ml') :
    castRay n o' e' b' r' ml' = castRay n o e b r ml := castRay_unit n ho he hb hr hml

/-- **C96** the free and the occupied cells of a scan are the same. -/
theorem C96_scan (n : ℕ) {o o' : Point D F32} {cloud cloud' : PointCloud D F32} {b b' : Bounds D F32} {r r' ml ml' : F32}
    (ho : RescaledPt k 20 o o') (hcl : RescaledCloud k cloud cloud') (hb : RescaledPt k 24 b.min b'.min)
    (hr : RescaledRes k r r') (hml : Rescaled k 20 ml ml') :
    castRays n o' cloud' b' r' ml' = castRays n o cloud b r ml := castRays_unit n ho hcl hb hr hml

/-- **C96** a new map is the same in the other unit. -/
theorem C96_new {nm nm' : LidarNoiseModel F32} {r r' : F32} (hr : RescaledRes k r r') {ts : ℕ} {o : OccupancyGridMap D F32}
    (h : OccupancyGridMap.new nm r ts = .ok o) :
    ∃ o', OccupancyGridMap.new nm' r' ts = .ok o' ∧ RescaledMap k o.gridMap o'.gridMap := by
  obtain ⟨ρ, hρ⟩ := Unit2.ofRescaled hr.1
  have h0 := hr.2
  rw [hρ.fst.val] at h0
  unfold OccupancyGridMap.new GridMap.new at h ⊢
  obtain ⟨g, h1, h2⟩ := M.bind_eq_ok.mp h
  obtain ⟨d, h3, h4⟩ := M.bind_eq_ok.mp h1
  cases h4
  cases h2
  have e : nm'.defaultCellValue = nm.defaultCellValue := rfl
  rw [ndarray_unit (.empty k 24) hρ h0, e, h3]
  exact ⟨_, rfl, rfl, hr, fun i => (Unit2.zero k (-60) 24).toRescaled, fun i => (Unit2.zero k (-60) 24).toRescaled, rfl, rfl, rfl⟩

/-- **C96** a scan makes the same of the same map: growth, cell values, recorded changes. -/
theorem C96_integrate {ord : List (Cell D) → List (Cell D)} {n : ℕ} {nm nm' : LidarNoiseModel F32} (hnm : RescaledNoise k nm nm')
    {m m' m1 : GridMap D F32 F32} (h : RescaledMap k m m') {o o' : Point D F32} (ho : RescaledPt k 20 o o')
    {cloud cloud' : PointCloud D F32} (hcl : RescaledCloud k cloud cloud')
    (hok : nm.integratePointCloud ord n m o cloud = .ok m1) (hs : SmallBounds k m1.bounds) :
    ∃ m1', nm'.integratePointCloud ord n m' o' cloud' = .ok m1' ∧ RescaledMap k m1 m1' :=
  integrate_unit hnm h ho hcl hok hs

/-- **C96** any number of scans: the run in the other unit exists, and its maps are the same maps throughout. -/
theorem C96_history {o o1 o' : OccupancyGridMap D F32} {hist : List (OccupancyGridMap D F32 × Point D F32 × PointCloud D F32)}
    (h : OccRuns o hist o1) (hnm : RescaledNoise k o.noiseModel o'.noiseModel) (ho : RescaledMap k o.gridMap o'.gridMap)
    {scans' : List (Point D F32 × PointCloud D F32)}
    (hs : List.Forall₂ (fun s s' => RescaledPt k 20 s.2.1 s'.1 ∧ RescaledCloud k s.2.2 s'.2) hist scans')
    (hb : ∀ s ∈ hist, SmallBounds k s.1.gridMap.bounds) :
    ∃ hist' o1', OccRuns o' hist' o1' ∧ hist'.map Prod.snd = scans' ∧
      List.Forall₂ (fun s s' => RescaledMap k s.1.gridMap s'.1.gridMap) hist hist' ∧
      RescaledMap k o1.gridMap o1'.gridMap ∧ RescaledNoise k o1.noiseModel o1'.noiseModel := by
  induction h generalizing o' scans' with
  | done o =>
    cases hs
    exact ⟨[], o', .done o', rfl, .nil, ho, hnm⟩
  | @step o o2 o3 ord fuel origin cloud rest hord hint _ ih =>
    obtain _ | ⟨⟨h1, h2⟩, hrest⟩ := hs
    rename_i s' _
    unfold OccupancyGridMap.integratePointCloud at hint
    obtain ⟨g, h3, h4⟩ := M.bind_eq_ok.mp hint
    cases h4
    have hsm := hb _ List.mem_cons_self
    obtain ⟨g', h5, h6⟩ := integrate_unit hnm ho h1 h2 h3 hsm
    obtain ⟨hist', o1', r1, r2, r3, r4, r5⟩ := ih (o' := { o' with gridMap := g' }) hnm h6 hrest fun s hs => hb s (List.mem_cons_of_mem _ hs)
    have h7 : o'.integratePointCloud ord fuel s'.1 s'.2 = .ok { o' with gridMap := g' } := by
      unfold OccupancyGridMap.integratePointCloud
      rw [h5]
      rfl
    refine ⟨({ o' with gridMap := g' }, s'.1, s'.2) :: hist', o1', OccRuns.step hord h7 r1, ?_, ?_, r4, r5⟩
    · rw [List.map_cons, r2]
    · exact List.Forall₂.cons h6 r3

/-- **C96** what a map in the other unit answers: the same values, occupancies and changed cells; the cell of a point is the
cell of the same point; and the point of a cell is the same point. -/
theorem C96_queries {o o' : OccupancyGridMap D F32} (hnm : RescaledNoise k o.noiseModel o'.noiseModel)
    (h : RescaledMap k o.gridMap o'.gridMap) (c : Cell D) :
    o'.get c = o.get c ∧ o'.occupied c = o.occupied c ∧ o'.getChangedCells = o.getChangedCells ∧
      (∀ p p', RescaledPt k 24 p p' → o'.cellFromPoint p' = o.cellFromPoint p) ∧
      ((∀ i, |c i| ≤ 2 ^ 63) → RescaledPt k 84 (o.pointFromCell c) (o'.pointFromCell c)) := by
  have e : ∀ c, o'.gridMap.get c = o.gridMap.get c := fun c => by unfold GridMap.get; rw [h.data]
  refine ⟨e c, ?_, h.changedCells, fun p p' hp => cellFromPoint_unit hp h.min h.resolution, fun hc i => ?_⟩
  · unfold OccupancyGridMap.occupied LidarNoiseModel.occupied
    rw [e, hnm.threshold]
  · obtain ⟨hB, ρ, hr, -⟩ := RescaledMap_unit h
    obtain ⟨q, hq⟩ := (hB i).1
    obtain ⟨s, hs⟩ := point_unit hq hr (hc i)
    exact hs.toRescaled

/-- **C96** the factor has to be a power of two: with a unit three times as small, the point 0.35 m, in cells of 0.1 m,
is in another cell. -/
theorem C96_three_refuted : ∃ p r : F32, cellCoordFromPointCoord ((Fp.lit 3).mul p) (Fp.lit 0) ((Fp.lit 3).mul r) ≠
    cellCoordFromPointCoord p (Fp.lit 0) r := ⟨Fp.lit 0.35, Fp.lit 0.1, by decide +kernel⟩

/-- A ray, its lengths multiplied by `s`: the end cell. -/
def tinyRay (s : ℚ) : M (Option (Cell 2)) := do
  let r ← castRay 20 ![Fp.lit 0, Fp.lit 0] ![Fp.lit (5 * s), Fp.lit (3 * s)]
    (⟨![Fp.lit 0, Fp.lit 0], ![Fp.lit (8 * s), Fp.lit (8 * s)]⟩ : Bounds 2 F32) (Fp.lit s) (Fp.lit (7 * s))
  .ok r.2

/-- **C96** and the numbers have to be moderate: a ray that, in metres, ends in the cell of its point misses it and is cut
off at the range limit if its lengths are given in a unit of `2 ^ 78` metres, since the square of its length is too small
for a float. -/
theorem C96_tiny_refuted : tinyRay 1 = .ok (some ![5, 3]) ∧ tinyRay (1 / 2 ^ 78) = .ok none := by
  constructor <;> decide +kernel

/-! ### Examples -/

/-- A test of `Rescaled` on concrete floats; `c` is `2 ^ k`. -/
def rescaledTest (c : ℚ) (B : ℕ) : F32 → F32 → Bool
  | .fin q _ _ _, .fin s _ _ _ => s = q * c ∧ |q| ≤ 2 ^ B ∧ |s| ≤ 2 ^ B ∧ (q * 2 ^ 60).den = 1 ∧ (s * 2 ^ 60).den = 1
  | _, _ => false

lemma rescaled_of_test {c : ℚ} {B : ℕ} {x y : F32} (hc : c = 2 ^ k) (h : rescaledTest c B x y = true) : Rescaled k B x y := by
  have g : ∀ q : ℚ, (q * 2 ^ 60).den = 1 → ∃ n : ℤ, q = n * 2 ^ (-60 : ℤ) := fun q hq => by
    refine ⟨(q * 2 ^ 60).num, ?_⟩
    have := Rat.coe_int_num_of_den_eq_one hq
    rw [this, mul_assoc]
    norm_num
  cases x with
  | fin q a b d =>
    cases y with
    | fin s a' b' d' =>
      unfold rescaledTest at h
      obtain ⟨rfl, h1, h2, h3, h4⟩ := of_decide_eq_true h
      subst hc
      exact ⟨q, ⟨_, _, _, rfl⟩, ⟨_, _, _, rfl⟩, ⟨by exact_mod_cast h1, g _ h3⟩, ⟨by exact_mod_cast h2, g _ h4⟩⟩
    | _ => cases h
  | _ => cases h

/-- A place and a scan in metres, and in eighths of a metre. -/
def mOrigin : Point 2 F32 := ![Fp.lit 0.3, Fp.lit 0.9]
def eOrigin : Point 2 F32 := ![(Fp.lit 0.3).mul (Fp.lit 8), (Fp.lit 0.9).mul (Fp.lit 8)]
def mCloud : PointCloud 2 F32 := .fromPoints [![Fp.lit 2.1, Fp.lit 1.05], ![Fp.lit (-1.3), Fp.lit (-0.7)]]
def eCloud : PointCloud 2 F32 := .fromPoints [![(Fp.lit 2.1).mul (Fp.lit 8), (Fp.lit 1.05).mul (Fp.lit 8)],
  ![(Fp.lit (-1.3)).mul (Fp.lit 8), (Fp.lit (-0.7)).mul (Fp.lit 8)]]
def eNM : LidarNoiseModel F32 := { defaultNM with maxRange := Fp.lit 480 }

lemma scale_origin : RescaledPt 3 20 mOrigin eOrigin := fun i => by
  obtain rfl | rfl : i = 0 ∨ i = 1 := by omega
  all_goals exact rescaled_of_test (c := 8) (B := 20) (by norm_num) (by decide +kernel)

lemma scale_cloud : RescaledCloud 3 mCloud eCloud := by
  refine .cons (fun i => ?_) (.cons (fun i => ?_) .nil)
  all_goals
    obtain rfl | rfl : i = 0 ∨ i = 1 := by omega
    all_goals exact rescaled_of_test (c := 8) (B := 20) (by norm_num) (by decide +kernel)

lemma scale_res : RescaledRes 3 (Fp.lit 0.1) ((Fp.lit 0.1).mul (Fp.lit 8)) :=
  ⟨rescaled_of_test (c := 8) (B := 20) (by norm_num) (by decide +kernel), by decide +kernel⟩

lemma scale_noise : RescaledNoise 3 defaultNM eNM :=
  ⟨rfl, rfl, rfl, rfl, rfl, rescaled_of_test (c := 8) (B := 20) (by norm_num) (by decide +kernel)⟩

/-- `C96_ray` and `C96_scan` on this scan: the rays pass 19 cells or more. -/
example : castRays 200 eOrigin eCloud ⟨fun _ => Fp.lit 0, fun _ => Fp.lit 8⟩ ((Fp.lit 0.1).mul (Fp.lit 8)) (Fp.lit 480) =
      castRays 200 mOrigin mCloud (⟨fun _ => Fp.lit 0, fun _ => Fp.lit 1⟩ : Bounds 2 F32) (Fp.lit 0.1) (Fp.lit 60) ∧
    (do let r ← castRays 200 mOrigin mCloud (⟨fun _ => Fp.lit 0, fun _ => Fp.lit 1⟩ : Bounds 2 F32) (Fp.lit 0.1) (Fp.lit 60)
        return (decide (19 ≤ r.1.length), r.2.length)) = Except.ok (true, 2) :=
  ⟨C96_scan 200 scale_origin scale_cloud (fun _ => (Unit2.zero 3 (-60) 24).toRescaled) scale_res
    scale_noise.maxRange, by decide +kernel⟩

/-- The bounds after a scan are moderate; decided on the concrete map. -/
def smallTest (b : Bounds 2 F32) : Bool :=
  decide (∀ i, |(b.min i).val| ≤ 2 ^ 24 ∧ |(b.min i).val * 8| ≤ 2 ^ 24 ∧ |(b.max i).val| ≤ 2 ^ 24 ∧ |(b.max i).val * 8| ≤ 2 ^ 24)

/-- `C96_new`, `C96_integrate`, `C96_history` and `C96_queries`: two scans into a new map. -/
example : ∃ o o1 o' o1' : OccupancyGridMap 2 F32, ∃ hist hist',
    OccupancyGridMap.new defaultNM (Fp.lit 0.1) 4 = .ok o ∧ OccRuns o hist o1 ∧ hist.length = 2 ∧
    OccupancyGridMap.new eNM ((Fp.lit 0.1).mul (Fp.lit 8)) 4 = .ok o' ∧ OccRuns o' hist' o1' ∧
    hist'.map Prod.snd = [(eOrigin, eCloud), (eOrigin, eCloud)] ∧
    RescaledMap 3 o1.gridMap o1'.gridMap ∧ ∀ c, o1'.occupied c = o1.occupied c := by
  have h : (do
      let o : OccupancyGridMap 2 F32 ← OccupancyGridMap.new defaultNM (Fp.lit 0.1) 4
      let o1 ← o.integratePointCloud id 200 mOrigin mCloud
      let o2 ← o1.integratePointCloud id 200 mOrigin mCloud
      return (smallTest o1.gridMap.bounds && smallTest o2.gridMap.bounds)) = Except.ok true := by decide +kernel
  obtain ⟨o, h1, h⟩ := M.bind_eq_ok.mp h
  obtain ⟨o1, h2, h⟩ := M.bind_eq_ok.mp h
  obtain ⟨o2, h3, h⟩ := M.bind_eq_ok.mp h
  have h4 : (smallTest o1.gridMap.bounds && smallTest o2.gridMap.bounds) = true := Except.ok.inj h
  rw [Bool.and_eq_true] at h4
  have sm : ∀ b : Bounds 2 F32, smallTest b = true → SmallBounds 3 b := fun b hb i => by
    have := of_decide_eq_true hb i
    norm_num at this ⊢
    exact this
  have hn : o.noiseModel = defaultNM := by
    obtain ⟨g, -, e⟩ := M.bind_eq_ok.mp h1
    cases e; rfl
  obtain ⟨o', g1, g2⟩ := C96_new (nm' := eNM) scale_res h1
  have hn' : o'.noiseModel = eNM := by
    obtain ⟨g, -, e⟩ := M.bind_eq_ok.mp g1
    cases e; rfl
  obtain ⟨hist', o1', r1, r2, -, r4, r5⟩ := C96_history (k := 3) (o' := o')
    (.step (fun l => .refl l) h2 (.step (fun l => .refl l) h3 (.done o2))) (by rw [hn, hn']; exact scale_noise) g2
    (scans' := [(eOrigin, eCloud), (eOrigin, eCloud)])
    (.cons ⟨scale_origin, scale_cloud⟩ (.cons ⟨scale_origin, scale_cloud⟩ .nil)) (by
      intro s hs
      simp only [List.mem_cons, List.not_mem_nil, or_false] at hs
      obtain rfl | rfl := hs
      exacts [sm _ h4.1, sm _ h4.2])
  exact ⟨o, o2, o', o1', _, hist', h1, .step (fun l => .refl l) h2 (.step (fun l => .refl l) h3 (.done o2)), rfl, g1, r1, r2, r4,
    fun c => (C96_queries r5 r4 c).2.1⟩

end Verif.Props
