import Verif.Props.History
import Verif.Spec.OccMap

/-!
# C41, C43 for the methods of the occupancy map itself, and the default model
-/

namespace Verif.Props
open Spec

variable {D : ℕ} {nm : LidarNoiseModel F32} {ρ : ℚ} {o o' : OccupancyGridMap D F32}

/-- C38, C43: the occupancy map's own methods are those of the noise model it was built with, applied to
its grid map: `integrate_point_cloud` returns, panics and runs for ever with them and keeps the noise
model; `occupied` gives the same answer or panic. -/
theorem C38_occupancy_map {F : Type} [Scalar F] (o : OccupancyGridMap D F)
    (ord : List (Cell D) → List (Cell D)) (fuel : ℕ) (origin : Point D F) (cloud : PointCloud D F) :
    (∀ o', o.integratePointCloud ord fuel origin cloud = .ok o' ↔
      o'.noiseModel = o.noiseModel ∧
      o.noiseModel.integratePointCloud ord fuel o.gridMap origin cloud = .ok o'.gridMap) ∧
    (∀ e, o.integratePointCloud ord fuel origin cloud = .error e ↔
      o.noiseModel.integratePointCloud ord fuel o.gridMap origin cloud = .error e) ∧
    ∀ c, o.occupied c = o.noiseModel.occupied o.gridMap c := by
  refine ⟨fun o' => ?_, fun e => ?_, fun c => rfl⟩
  · unfold OccupancyGridMap.integratePointCloud
    rw [M.bind_eq_ok]
    constructor
    · rintro ⟨g, h, h'⟩
      cases h'
      exact ⟨rfl, h⟩
    · rintro ⟨h1, h2⟩
      refine ⟨_, h2, ?_⟩
      rw [← h1]
  · unfold OccupancyGridMap.integratePointCloud
    cases o.noiseModel.integratePointCloud ord fuel o.gridMap origin cloud with
    | ok g =>
      rw [M.bind_ok]
      constructor <;> intro h <;> cases h
    | error e' =>
      constructor <;> intro h <;> cases h <;> rfl

lemma occRuns_history {F : Type} [Scalar F] {o o' : OccupancyGridMap D F} {hist}
    (h : OccRuns o hist o') :
    o'.noiseModel = o.noiseModel ∧ (∀ s ∈ hist, s.1.noiseModel = o.noiseModel) ∧
      History o.noiseModel o.gridMap (hist.map fun s => (s.1.gridMap, s.2)) o'.gridMap := by
  induction h with
  | done o => exact ⟨rfl, by simp, .done _⟩
  | @step o o1 o' ord fuel origin cloud rest ho h1 _ ih =>
    obtain ⟨e1, e2⟩ := ((C38_occupancy_map o ord fuel origin cloud).1 o1).mp h1
    obtain ⟨i1, i2, i3⟩ := ih
    rw [e1] at i1 i2 i3
    refine ⟨i1, fun s hs => ?_, .step ho ⟨fuel, e2⟩ i3⟩
    rcases List.mem_cons.mp hs with rfl | hs
    · exact e1
    · exact i2 s hs

/-- C41, C43: an occupancy map from `new`, after any calls of its `integrate_point_cloud` with in-range
clouds that all returned: `get` of a world cell of the map is what the scans, one after the other, make of
zero, `occupied` tells whether that is above the threshold, and both panic for every other cell. -/
theorem C41_occupancy_map (hD0 : 0 < D) (hD : D ≤ 3) {r : F32} {t : ℕ} (hr : Res r ρ)
    (ht : 1 ≤ t) (ht' : t ≤ 2 ^ 17) (ho : OccupancyGridMap.new nm r t = .ok o) {hist}
    (hc : ∀ s ∈ hist, CloudInRange s.2.2 ρ) (h : OccRuns o hist o') :
    o'.noiseModel = nm ∧ ∃ cb, Placed o'.gridMap cb ρ ∧
      (∀ w, InCells w cb → o'.get (fun i => w i - cb.min i) = .ok (occFold nm hist w (Fp.lit 0)) ∧
        o'.occupied (fun i => w i - cb.min i) =
          .ok (nm.threshold.lt (occFold nm hist w (Fp.lit 0)))) ∧
      ∀ w, MachineCell (fun i => w i - cb.min i) → ¬ InCells w cb →
        o'.get (fun i => w i - cb.min i) = .error (.panic .index) ∧
        o'.occupied (fun i => w i - cb.min i) = .error (.panic .index) := by
  have hnm : o.noiseModel = nm := by
    unfold OccupancyGridMap.new at ho
    rw [M.bind_eq_ok] at ho
    obtain ⟨g, -, ho⟩ := ho
    cases ho; rfl
  obtain ⟨h1, -, h3⟩ := occRuns_history h
  rw [hnm] at h1 h3
  obtain ⟨cb, hP, hv⟩ := C41_from_new hD0 hD hr ht ht' ho (hist := hist.map fun s => (s.1.gridMap, s.2))
    (fun s hs => by
      obtain ⟨s', hs', rfl⟩ := List.mem_map.mp hs
      exact hc s' hs') h3
  refine ⟨h1, cb, hP, fun w hw => ?_, fun w hm hw => ?_⟩
  · have e := hv w hw
    rw [List.foldl_map] at e
    have e' : o'.gridMap.get (fun i => w i - cb.min i) = .ok (occFold nm hist w (Fp.lit 0)) := e
    refine ⟨e', ?_⟩
    unfold OccupancyGridMap.occupied LidarNoiseModel.occupied
    rw [h1, e']; rfl
  · have hg : ¬ InGrid o'.gridMap fun i => w i - cb.min i := fun h => hw ((inCells_iff hP w).mpr h)
    exact ⟨(C31_get o'.gridMap hm).2 hg, (C43_occupied (nm := o'.noiseModel) hm).2 hg⟩

/-- C42: with logarithms as the crate's tests have them, `default` returns the model about which
`C42_default_saturates` and `C66_default` speak, and the default occupancy map is an empty map with it, cells
of 0.1 and tiles of 100 cells. -/
theorem C42_default_model [Libm F32] (hl : TestedLn) :
    LidarNoiseModel.default_ = .ok defaultNM ∧
    (∀ o : OccupancyGridMap D F32, OccupancyGridMap.default_ = .ok o ↔
      OccupancyGridMap.new defaultNM (Fp.lit 0.1) 100 = .ok o) ∧
    (0 < D → D ≤ 3 → ∃ o : OccupancyGridMap D F32, OccupancyGridMap.default_ = .ok o ∧
      o.noiseModel = defaultNM ∧ o.gridMap.resolution = Fp.lit 0.1 ∧ o.gridMap.tileSize = 100 ∧
      o.gridMap.bounds = Bounds.empty ∧ ∀ c, MachineCell c → o.get c = .error (.panic .index)) := by
  have h1 : (LidarNoiseModel.default_ : M (LidarNoiseModel F32)) = .ok defaultNM := by
    unfold LidarNoiseModel.default_
    refine ((C45_new _ _ _ _ _ _).1 (by decide +kernel)).trans ?_
    unfold logoddsFromProbability
    have e5 : Libm.ln ((Fp.lit 0.5 : F32).div ((Fp.lit 1).sub (Fp.lit 0.5))) = Fp.lit 0 := by
      have : (Fp.lit 0.5 : F32).div ((Fp.lit 1).sub (Fp.lit 0.5)) = Fp.lit 1 := by decide +kernel
      rw [this]; exact hl.threshold
    exact congrArg Except.ok (by
      unfold defaultNM
      congr 1
      · exact hl.hit
      · exact hl.miss
      · exact hl.min
      · exact hl.max)
  have h2 : (OccupancyGridMap.default_ : M (OccupancyGridMap D F32))
      = OccupancyGridMap.new defaultNM (Fp.lit 0.1) 100 := by
    unfold OccupancyGridMap.default_
    rw [h1]
    have : (DEFAULT_RESOLUTION : F32) = Fp.lit 0.1 := by decide +kernel
    rw [← this]; rfl
  refine ⟨h1, fun o => by rw [h2], fun hD0 hD => ?_⟩
  have hr : Res (Fp.lit 0.1 : F32) (Fp.lit 0.1 : F32).val := by
    refine ⟨by decide +kernel, ?_, ?_⟩ <;> decide +kernel
  obtain ⟨m, hm, hP⟩ := new_empty_placed hD hr (t := 100) (by norm_num) (by norm_num) (Fp.lit 0 : F32)
  obtain ⟨e1, e2, e3, -, -, e6⟩ := C30_new hm
  refine ⟨⟨m, defaultNM⟩, ?_, rfl, e1, e3, e2, fun c hc => (e6 c hc).2 fun hg => ?_⟩
  · rw [h2]
    unfold OccupancyGridMap.new
    change (GridMap.new (Fp.lit 0.1) Bounds.empty 100 (Fp.lit 0 : F32) >>= _) = _
    rw [hm]; rfl
  · have h3 := hP.shape ⟨0, hD0⟩
    have h4 := hg ⟨0, hD0⟩
    simp only [CellBounds.empty] at h3
    omega

/-- C43: with the default model (threshold one half) no cell of a map fresh from `new` is occupied,
whatever the platform's logarithm, as long as `ln 1` is zero. -/
theorem C43_default_unknown [Libm F32] (hl : (Libm.ln (Fp.lit 1 : F32)).Is 0)
    (hnm : LidarNoiseModel.default_ = .ok nm) {r : F32} {b : Bounds D F32} {t : ℕ} {m : GridMap D F32 F32}
    (h : GridMap.new r b t nm.defaultCellValue = .ok m) {c : Cell D} (hc : MachineCell c)
    (hg : InGrid m c) : nm.threshold.Is 0 ∧ nm.occupied m c = .ok false := by
  have ht : nm.threshold.Is 0 := by
    unfold LidarNoiseModel.default_ at hnm
    have := (C45_new (Fp.lit 0.7) (Fp.lit 0.4) (Fp.lit 0.1192) (Fp.lit 0.971) (Fp.lit 0.5)
      (Fp.lit 60 : F32)).1 (by decide +kernel)
    have e := this.symm.trans hnm
    cases e
    have e5 : (Fp.lit 0.5 : F32).div ((Fp.lit 1).sub (Fp.lit 0.5)) = Fp.lit 1 := by decide +kernel
    change (Libm.ln ((Fp.lit 0.5 : F32).div ((Fp.lit 1).sub (Fp.lit 0.5)))).Is 0
    rw [e5]; exact hl
  exact ⟨ht, C43_unknown ((Fp.FLe_is F32.zero_is ht).mpr le_rfl) h hc hg⟩

/-- A logarithm with the values of the tests. -/
@[reducible] def testedLibm : Libm F32 where
  ln x :=
    if x = (Fp.lit 0.7).div ((Fp.lit 1).sub (Fp.lit 0.7)) then Fp.lit 0.84729785
    else if x = (Fp.lit 0.4).div ((Fp.lit 1).sub (Fp.lit 0.4)) then Fp.lit (-0.40546516)
    else if x = (Fp.lit 0.1192).div ((Fp.lit 1).sub (Fp.lit 0.1192)) then Fp.lit (-2.000028)
    else if x = (Fp.lit 0.971).div ((Fp.lit 1).sub (Fp.lit 0.971)) then Fp.lit 3.5110312
    else Fp.lit 0
  exp x := x

example : @TestedLn testedLibm := by
  let _ := testedLibm
  constructor <;> decide +kernel

/-- A scan that the occupancy map's own method integrates. -/
example : ∃ o o' : OccupancyGridMap 2 F32, OccupancyGridMap.new defaultNM (Fp.lit 1) 4 = .ok o ∧
    OccRuns o [(o', ![Fp.lit 0, Fp.lit 1],
      PointCloud.fromPoints [![Fp.lit 2, Fp.lit 1], ![Fp.lit 1, Fp.lit (-2)]])] o' := by
  have h : (do
      let o : OccupancyGridMap 2 F32 ← OccupancyGridMap.new defaultNM (Fp.lit 1) 4
      let _ ← o.integratePointCloud id 10 ![Fp.lit 0, Fp.lit 1]
        (PointCloud.fromPoints [![Fp.lit 2, Fp.lit 1], ![Fp.lit 1, Fp.lit (-2)]])
      return ()) = Except.ok () := by decide +kernel
  rw [M.bind_eq_ok] at h
  obtain ⟨o, h1, h⟩ := h
  rw [M.bind_eq_ok] at h
  obtain ⟨o', h2, -⟩ := h
  exact ⟨o, o', h1, .step (fun l => .refl l) h2 (.done o')⟩

end Verif.Props
