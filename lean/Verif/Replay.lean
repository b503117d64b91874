import Verif.Model.Approx
import Verif.Model.NoiseModel
import Mathlib.Data.Fin.VecNotation

/-!
# Replay of the repository's unit tests on the model

Tests, not theorems: they check that the model computes what the unit tests of the crate expect.
-/

namespace Verif.Replay
open Scalar

/-- `approx::relative_eq!` on bounds, with the default tolerances. -/
def relEq {D : ℕ} (a b : Bounds D F32) : Bool := b.relativeEq a defaultEps defaultEps

/-- The call returned and the result passes the test. -/
def okAnd {α : Type} (x : M α) (p : α → Bool) : Bool :=
  match x with
  | .ok a => p a
  | .error _ => false

/-- The grid has the given bounds (up to `relative_eq!`), shape and data. -/
def gridIs {D : ℕ} (b : Bounds D F32) (shape : Fin D → ℕ) (data : List ℚ) (m : GridMap D F32 F32) :
    Bool :=
  relEq b m.bounds && decide (m.data.shape = shape) && decide (m.data.data = data.map lit)

/-- A grid as `from_ndarray` builds it. -/
def grid2 (data : List ℚ) (h : data.length = 4) : GridMap 2 F32 F32 :=
  GridMap.fromNdarray ⟨![2, 2], data.map lit, by simpa [shapeProd] using h, by decide⟩ (lit 0.1)
    ⟨![lit 0, lit 0], ![lit 0.2, lit 0.2]⟩ 2

/-- A grid as `from_ndarray` builds it. -/
def grid3 (data : List ℚ) (h : data.length = 8) : GridMap 3 F32 F32 :=
  GridMap.fromNdarray ⟨![2, 2, 2], data.map lit, by simpa [shapeProd] using h, by decide⟩ (lit 0.1)
    ⟨![lit 0, lit 0, lit 0], ![lit 0.2, lit 0.2, lit 0.2]⟩ 2

/-- `get2`, `src/map/grid_map.rs:426-437`. -/
example : [![0, 0], ![0, 1], ![1, 0], ![1, 1]].map (grid2 [1, 2, 10, 20] rfl).get =
    [.ok (lit 1), .ok (lit 2), .ok (lit 10), .ok (lit 20)] := by decide +kernel

/-- `get3`, `src/map/grid_map.rs:440-458`. -/
example : [![0, 0, 0], ![0, 0, 1], ![0, 1, 0], ![0, 1, 1], ![1, 0, 0], ![1, 0, 1], ![1, 1, 0],
    ![1, 1, 1]].map (grid3 [111, 112, 121, 122, 211, 212, 221, 222] rfl).get =
    [.ok (lit 111), .ok (lit 112), .ok (lit 121), .ok (lit 122), .ok (lit 211), .ok (lit 212),
     .ok (lit 221), .ok (lit 222)] := by decide +kernel

/-- `set2`, `src/map/grid_map.rs:461-470`. -/
example : ((grid2 [1, 2, 10, 20] rfl).set ![0, 0] (lit 15) >>= fun m => m.get ![0, 0]) =
    .ok (lit 15) := by decide +kernel

/-- `set3`, `src/map/grid_map.rs:473-487`. -/
example : ((grid3 [111, 112, 121, 122, 211, 212, 221, 222] rfl).set ![0, 0, 0] (lit 15) >>= fun m =>
    m.set ![0, 1, 0] (lit 25) >>= fun m => m.get ![0, 0, 0] >>= fun a => m.get ![0, 1, 0] >>= fun b =>
      Except.ok (a, b)) = .ok (lit 15, lit 25) := by decide +kernel

/-- `expand_bounds2_nominal`, `src/map/grid_map.rs:490-503`. -/
example : okAnd (GridMap.new (D := 2) (F := F32) (lit 0.1) ⟨![lit 0, lit 0], ![lit 0.2, lit 0.2]⟩ 2
      (lit 1) >>= fun m => m.expandBounds ⟨![lit 0.1, lit 0.1], ![lit 0.3, lit 0.3]⟩ (lit 0))
    (gridIs ⟨![lit 0, lit 0], ![lit 0.4, lit 0.4]⟩ ![4, 4]
      [1, 1, 0, 0, 1, 1, 0, 0, 0, 0, 0, 0, 0, 0, 0, 0]) = true := by decide +kernel

/-- `expand_bounds2_nominal`, `src/map/grid_map.rs:505-518`. -/
example : okAnd (GridMap.new (D := 2) (F := F32) (lit 0.1) ⟨![lit 0, lit 0], ![lit 0.2, lit 0.2]⟩ 2
      (lit 1) >>= fun m => m.expandBounds ⟨![lit (-0.1), lit (-0.1)], ![lit 0.1, lit 0.1]⟩ (lit 0))
    (gridIs ⟨![lit (-0.2), lit (-0.2)], ![lit 0.2, lit 0.2]⟩ ![4, 4]
      [0, 0, 0, 0, 0, 0, 0, 0, 0, 0, 1, 1, 0, 0, 1, 1]) = true := by decide +kernel

/-- `expand_bounds3_nominal`, `src/map/grid_map.rs:521-542`. -/
example : okAnd (GridMap.new (D := 3) (F := F32) (lit 0.1)
      ⟨![lit 0, lit 0, lit 0], ![lit 0.2, lit 0.2, lit 0.2]⟩ 2 (lit 1) >>= fun m =>
        m.expandBounds ⟨![lit 0.1, lit 0.1, lit 0.1], ![lit 0.3, lit 0.3, lit 0.3]⟩ (lit 0))
    (gridIs ⟨![lit 0, lit 0, lit 0], ![lit 0.4, lit 0.4, lit 0.4]⟩ ![4, 4, 4]
      ([1, 1, 0, 0, 1, 1, 0, 0, 0, 0, 0, 0, 0, 0, 0, 0] ++
       [1, 1, 0, 0, 1, 1, 0, 0, 0, 0, 0, 0, 0, 0, 0, 0] ++ List.replicate 32 0)) = true := by
  decide +kernel

/-- `expand_bounds3_nominal`, `src/map/grid_map.rs:544-565`. -/
example : okAnd (GridMap.new (D := 3) (F := F32) (lit 0.1)
      ⟨![lit 0, lit 0, lit 0], ![lit 0.2, lit 0.2, lit 0.2]⟩ 2 (lit 1) >>= fun m =>
        m.expandBounds ⟨![lit (-0.1), lit (-0.1), lit (-0.1)], ![lit 0.1, lit 0.1, lit 0.1]⟩ (lit 0))
    (gridIs ⟨![lit (-0.2), lit (-0.2), lit (-0.2)], ![lit 0.2, lit 0.2, lit 0.2]⟩ ![4, 4, 4]
      (List.replicate 32 0 ++ [0, 0, 0, 0, 0, 0, 0, 0, 0, 0, 1, 1, 0, 0, 1, 1] ++
       [0, 0, 0, 0, 0, 0, 0, 0, 0, 0, 1, 1, 0, 0, 1, 1])) = true := by
  decide +kernel

/-- `expand_bounds2_empty`, `src/map/grid_map.rs:568-577`. -/
example : okAnd (GridMap.new (D := 2) (F := F32) (lit 0.1) ⟨![lit 0, lit 0], ![lit 0, lit 0]⟩ 2
      (lit 1) >>= fun m => m.expandBounds ⟨![lit 0.3, lit 0.3], ![lit 0.4, lit 0.4]⟩ (lit 0))
    (gridIs ⟨![lit 0.2, lit 0.2], ![lit 0.6, lit 0.6]⟩ ![4, 4] (List.replicate 16 0)) = true := by
  decide +kernel

/-- `expand_bounds3_empty`, `src/map/grid_map.rs:580-593`. -/
example : okAnd (GridMap.new (D := 3) (F := F32) (lit 0.1)
      ⟨![lit 0, lit 0, lit 0], ![lit 0, lit 0, lit 0]⟩ 2 (lit 1) >>= fun m =>
        m.expandBounds ⟨![lit 0.3, lit 0.3, lit 0.3], ![lit 0.4, lit 0.4, lit 0.4]⟩ (lit 0))
    (gridIs ⟨![lit 0.2, lit 0.2, lit 0.2], ![lit 0.6, lit 0.6, lit 0.6]⟩ ![4, 4, 4]
      (List.replicate 64 0)) = true := by
  decide +kernel

/-- `cell_from_point2`, `src/geom/converter.rs` tests; the loop over -100..100. -/
example : ((List.range 200).all fun k =>
    let i : ℤ := (k : ℤ) - 100
    let v : F32 := ofInt i *. lit 0.1
    decide (cellFromPoint (D := 2) ![v -. lit 0.955, v -. lit 1.955] ![lit (-1), lit (-2)] (lit 0.1)
      = ![i, i]) &&
    decide (cellFromPoint (D := 2) ![v -. lit 1, v -. lit 2] ![lit (-1), lit (-2)] (lit 0.1)
      = ![i, i])) = true := by decide +kernel

/-- `point_from_cell2`, `src/geom/converter.rs` tests; the loop over -100..100. -/
example : ((List.range 200).all fun k =>
    let i : ℤ := (k : ℤ) - 100
    let v : F32 := ofInt i *. lit 0.1
    let p := pointFromCell (D := 2) ![i, i] ![lit (-1), lit (-2)] (lit 0.1)
    relativeEq (p 0) (v -. lit 1) && relativeEq (p 1) (v -. lit 2)) = true := by decide +kernel

/-- `cell_from_point_n3`, `src/geom/converter.rs` tests; the loop over -100..100. -/
example : ((List.range 200).all fun k =>
    let i : ℤ := (k : ℤ) - 100
    let v : F32 := ofInt i *. lit 0.1
    decide (cellFromPointN (D := 3) ![v -. lit 1.045, v -. lit 2.05, v -. lit 3.055]
      ![lit (-1), lit (-2), lit (-3)] ![lit 0.1, lit 0.2, lit 0.3] = ![i, i / 2, i / 3])) = true := by
  decide +kernel

/-- `cast_rays2`, `src/ray_caster.rs:145-178`. The sets are listed in order of insertion. -/
example : castRays (F := F32) (D := 2) 100 ![lit 0.01, lit 0]
      (PointCloud.fromPoints [![lit 0.31, lit 0.3], ![lit 0.3, lit 0], ![lit 0, lit 0.3]])
      ⟨![lit 0, lit 0], ![lit 0.4, lit 0.4]⟩ (lit 0.1) (lit 0.5) =
    .ok ([![0, 0], ![1, 0], ![1, 1], ![2, 1], ![2, 2], ![3, 2], ![2, 0], ![0, 1], ![0, 2]],
      [![3, 3], ![3, 0], ![0, 3]]) := by decide +kernel

/-- `cast_rays3`, `src/ray_caster.rs:181-224`. The sets are listed in order of insertion. -/
example : castRays (F := F32) (D := 3) 100 ![lit 0.01, lit 0, lit 0]
      (PointCloud.fromPoints [![lit 0.31, lit 0.3, lit 0.3], ![lit 0.3, lit 0, lit 0],
        ![lit 0, lit 0.3, lit 0], ![lit 0, lit 0, lit 0.3]])
      ⟨![lit 0, lit 0, lit 0], ![lit 0.4, lit 0.4, lit 0.4]⟩ (lit 0.1) (lit 1) =
    .ok ([![0, 0, 0], ![1, 0, 0], ![1, 0, 1], ![1, 1, 1], ![2, 1, 1], ![2, 1, 2], ![2, 2, 2],
      ![3, 2, 2], ![3, 2, 3], ![2, 0, 0], ![0, 1, 0], ![0, 2, 0], ![0, 0, 1], ![0, 0, 2]],
      [![3, 3, 3], ![3, 0, 0], ![0, 3, 0], ![0, 0, 3]]) := by decide +kernel

/-- `cast_ray2_diagonal`, `src/ray_caster.rs:231-244`. -/
example : castRay (F := F32) (D := 2) 100 ![lit (0.0), lit (0.0)] ![lit (0.31), lit (0.3)]
    ⟨![lit (0.0), lit (0.0)], ![lit (0.4), lit (0.4)]⟩ (lit 0.1) (lit (0.5)) =
    .ok ([![0, 0], ![1, 0], ![1, 1], ![2, 1], ![2, 2], ![3, 2]],
      some (![3, 3])) := by decide +kernel

/-- `cast_ray2_diagonal`, `src/ray_caster.rs:246-259`. -/
example : castRay (F := F32) (D := 2) 100 ![lit (0.0), lit (0.01)] ![lit (0.3), lit (0.31)]
    ⟨![lit (0.0), lit (0.0)], ![lit (0.4), lit (0.4)]⟩ (lit 0.1) (lit (0.5)) =
    .ok ([![0, 0], ![0, 1], ![1, 1], ![1, 2], ![2, 2], ![2, 3]],
      some (![3, 3])) := by decide +kernel

/-- `cast_ray2_diagonal`, `src/ray_caster.rs:261-274`. -/
example : castRay (F := F32) (D := 2) 100 ![lit (0.31), lit (0.3)] ![lit (0.01), lit (0.0)]
    ⟨![lit (0.0), lit (0.0)], ![lit (0.4), lit (0.4)]⟩ (lit 0.1) (lit (0.5)) =
    .ok ([![3, 3], ![3, 2], ![2, 2], ![2, 1], ![1, 1], ![1, 0]],
      some (![0, 0])) := by decide +kernel

/-- `cast_ray2_diagonal`, `src/ray_caster.rs:276-289`. -/
example : castRay (F := F32) (D := 2) 100 ![lit (0.31), lit (0.0)] ![lit (0.0), lit (0.31)]
    ⟨![lit (0.0), lit (0.0)], ![lit (0.4), lit (0.4)]⟩ (lit 0.1) (lit (0.5)) =
    .ok ([![3, 0], ![3, 1], ![2, 1], ![2, 2], ![1, 2], ![1, 3]],
      some (![0, 3])) := by decide +kernel

/-- `cast_ray2_diagonal`, `src/ray_caster.rs:291-304`. -/
example : castRay (F := F32) (D := 2) 100 ![lit (0.0), lit (0.31)] ![lit (0.31), lit (0.0)]
    ⟨![lit (0.0), lit (0.0)], ![lit (0.4), lit (0.4)]⟩ (lit 0.1) (lit (0.5)) =
    .ok ([![0, 3], ![1, 3], ![1, 2], ![2, 2], ![2, 1], ![3, 1]],
      some (![3, 0])) := by decide +kernel

/-- `cast_ray3_diagonal`, `src/ray_caster.rs:312-328`. -/
example : castRay (F := F32) (D := 3) 100 ![lit (0.01), lit (0.0), lit (0.0)] ![lit (0.31), lit (0.3), lit (0.3)]
    ⟨![lit (0.0), lit (0.0), lit (0.0)], ![lit (0.4), lit (0.4), lit (0.4)]⟩ (lit 0.1) (lit (1.0)) =
    .ok ([![0, 0, 0], ![1, 0, 0], ![1, 0, 1], ![1, 1, 1], ![2, 1, 1], ![2, 1, 2], ![2, 2, 2], ![3, 2, 2], ![3, 2, 3]],
      some (![3, 3, 3])) := by decide +kernel

/-- `cast_ray3_diagonal`, `src/ray_caster.rs:330-346`. -/
example : castRay (F := F32) (D := 3) 100 ![lit (0.0), lit (0.01), lit (0.0)] ![lit (0.3), lit (0.31), lit (0.3)]
    ⟨![lit (0.0), lit (0.0), lit (0.0)], ![lit (0.4), lit (0.4), lit (0.4)]⟩ (lit 0.1) (lit (1.0)) =
    .ok ([![0, 0, 0], ![0, 1, 0], ![0, 1, 1], ![1, 1, 1], ![1, 2, 1], ![1, 2, 2], ![2, 2, 2], ![2, 3, 2], ![2, 3, 3]],
      some (![3, 3, 3])) := by decide +kernel

/-- `cast_ray3_diagonal`, `src/ray_caster.rs:348-364`. -/
example : castRay (F := F32) (D := 3) 100 ![lit (0.31), lit (0.3), lit (0.3)] ![lit (0.01), lit (0.0), lit (0.0)]
    ⟨![lit (0.0), lit (0.0), lit (0.0)], ![lit (0.4), lit (0.4), lit (0.4)]⟩ (lit 0.1) (lit (1.0)) =
    .ok ([![3, 3, 3], ![3, 3, 2], ![3, 2, 2], ![2, 2, 2], ![2, 2, 1], ![2, 1, 1], ![1, 1, 1], ![1, 1, 0], ![1, 0, 0]],
      some (![0, 0, 0])) := by decide +kernel

/-- `cast_ray3_diagonal`, `src/ray_caster.rs:366-382`. -/
example : castRay (F := F32) (D := 3) 100 ![lit (0.31), lit (0.0), lit (0.31)] ![lit (0.0), lit (0.31), lit (0.0)]
    ⟨![lit (0.0), lit (0.0), lit (0.0)], ![lit (0.4), lit (0.4), lit (0.4)]⟩ (lit 0.1) (lit (1.0)) =
    .ok ([![3, 0, 3], ![3, 1, 3], ![3, 1, 2], ![2, 1, 2], ![2, 2, 2], ![2, 2, 1], ![1, 2, 1], ![1, 3, 1], ![1, 3, 0]],
      some (![0, 3, 0])) := by decide +kernel

/-- `cast_ray3_diagonal`, `src/ray_caster.rs:384-400`. -/
example : castRay (F := F32) (D := 3) 100 ![lit (0.0), lit (0.31), lit (0.0)] ![lit (0.31), lit (0.0), lit (0.31)]
    ⟨![lit (0.0), lit (0.0), lit (0.0)], ![lit (0.4), lit (0.4), lit (0.4)]⟩ (lit 0.1) (lit (1.0)) =
    .ok ([![0, 3, 0], ![0, 3, 1], ![1, 3, 1], ![1, 2, 1], ![1, 2, 2], ![2, 2, 2], ![2, 1, 2], ![2, 1, 3], ![3, 1, 3]],
      some (![3, 0, 3])) := by decide +kernel

/-- `cast_ray2_on_axis`, `src/ray_caster.rs:408-414`. -/
example : castRay (F := F32) (D := 2) 100 ![lit (0.0), lit (0.0)] ![lit (0.3), lit (0.0)]
    ⟨![lit (0.0), lit (0.0)], ![lit (0.4), lit (0.4)]⟩ (lit 0.1) (lit (0.5)) =
    .ok ([![0, 0], ![1, 0], ![2, 0]],
      some (![3, 0])) := by decide +kernel

/-- `cast_ray2_on_axis`, `src/ray_caster.rs:416-422`. -/
example : castRay (F := F32) (D := 2) 100 ![lit (0.3), lit (0.0)] ![lit (0.0), lit (0.0)]
    ⟨![lit (0.0), lit (0.0)], ![lit (0.4), lit (0.4)]⟩ (lit 0.1) (lit (0.5)) =
    .ok ([![3, 0], ![2, 0], ![1, 0]],
      some (![0, 0])) := by decide +kernel

/-- `cast_ray2_on_axis`, `src/ray_caster.rs:424-430`. -/
example : castRay (F := F32) (D := 2) 100 ![lit (0.0), lit (0.0)] ![lit (0.0), lit (0.3)]
    ⟨![lit (0.0), lit (0.0)], ![lit (0.4), lit (0.4)]⟩ (lit 0.1) (lit (0.5)) =
    .ok ([![0, 0], ![0, 1], ![0, 2]],
      some (![0, 3])) := by decide +kernel

/-- `cast_ray2_on_axis`, `src/ray_caster.rs:432-438`. -/
example : castRay (F := F32) (D := 2) 100 ![lit (0.0), lit (0.3)] ![lit (0.0), lit (0.0)]
    ⟨![lit (0.0), lit (0.0)], ![lit (0.4), lit (0.4)]⟩ (lit 0.1) (lit (0.5)) =
    .ok ([![0, 3], ![0, 2], ![0, 1]],
      some (![0, 0])) := by decide +kernel

/-- `cast_ray3_on_axis`, `src/ray_caster.rs:446-456`. -/
example : castRay (F := F32) (D := 3) 100 ![lit (0.0), lit (0.0), lit (0.0)] ![lit (0.3), lit (0.0), lit (0.0)]
    ⟨![lit (0.0), lit (0.0), lit (0.0)], ![lit (0.4), lit (0.4), lit (0.4)]⟩ (lit 0.1) (lit (1.0)) =
    .ok ([![0, 0, 0], ![1, 0, 0], ![2, 0, 0]],
      some (![3, 0, 0])) := by decide +kernel

/-- `cast_ray3_on_axis`, `src/ray_caster.rs:458-468`. -/
example : castRay (F := F32) (D := 3) 100 ![lit (0.3), lit (0.0), lit (0.0)] ![lit (0.0), lit (0.0), lit (0.0)]
    ⟨![lit (0.0), lit (0.0), lit (0.0)], ![lit (0.4), lit (0.4), lit (0.4)]⟩ (lit 0.1) (lit (1.0)) =
    .ok ([![3, 0, 0], ![2, 0, 0], ![1, 0, 0]],
      some (![0, 0, 0])) := by decide +kernel

/-- `cast_ray3_on_axis`, `src/ray_caster.rs:470-480`. -/
example : castRay (F := F32) (D := 3) 100 ![lit (0.0), lit (0.0), lit (0.0)] ![lit (0.0), lit (0.3), lit (0.0)]
    ⟨![lit (0.0), lit (0.0), lit (0.0)], ![lit (0.4), lit (0.4), lit (0.4)]⟩ (lit 0.1) (lit (1.0)) =
    .ok ([![0, 0, 0], ![0, 1, 0], ![0, 2, 0]],
      some (![0, 3, 0])) := by decide +kernel

/-- `cast_ray3_on_axis`, `src/ray_caster.rs:482-492`. -/
example : castRay (F := F32) (D := 3) 100 ![lit (0.0), lit (0.3), lit (0.0)] ![lit (0.0), lit (0.0), lit (0.0)]
    ⟨![lit (0.0), lit (0.0), lit (0.0)], ![lit (0.4), lit (0.4), lit (0.4)]⟩ (lit 0.1) (lit (1.0)) =
    .ok ([![0, 3, 0], ![0, 2, 0], ![0, 1, 0]],
      some (![0, 0, 0])) := by decide +kernel

/-- `cast_ray3_on_axis`, `src/ray_caster.rs:494-504`. -/
example : castRay (F := F32) (D := 3) 100 ![lit (0.0), lit (0.0), lit (0.0)] ![lit (0.0), lit (0.0), lit (0.3)]
    ⟨![lit (0.0), lit (0.0), lit (0.0)], ![lit (0.4), lit (0.4), lit (0.4)]⟩ (lit 0.1) (lit (1.0)) =
    .ok ([![0, 0, 0], ![0, 0, 1], ![0, 0, 2]],
      some (![0, 0, 3])) := by decide +kernel

/-- `cast_ray3_on_axis`, `src/ray_caster.rs:506-516`. -/
example : castRay (F := F32) (D := 3) 100 ![lit (0.0), lit (0.0), lit (0.3)] ![lit (0.0), lit (0.0), lit (0.0)]
    ⟨![lit (0.0), lit (0.0), lit (0.0)], ![lit (0.4), lit (0.4), lit (0.4)]⟩ (lit 0.1) (lit (1.0)) =
    .ok ([![0, 0, 3], ![0, 0, 2], ![0, 0, 1]],
      some (![0, 0, 0])) := by decide +kernel

/-- `cast_ray2_max_len`, `src/ray_caster.rs:524-536`. -/
example : castRay (F := F32) (D := 2) 100 ![lit (0.01), lit (0.0)] ![lit (0.31), lit (0.3)]
    ⟨![lit (0.0), lit (0.0)], ![lit (0.4), lit (0.4)]⟩ (lit 0.1) (lit (0.28)) =
    .ok ([![0, 0], ![1, 0], ![1, 1], ![2, 1], ![2, 2]],
      none) := by decide +kernel

/-- `cast_ray3_max_len`, `src/ray_caster.rs:544-558`. -/
example : castRay (F := F32) (D := 3) 100 ![lit (0.01), lit (0.0), lit (0.0)] ![lit (0.31), lit (0.3), lit (0.3)]
    ⟨![lit (0.0), lit (0.0), lit (0.0)], ![lit (0.4), lit (0.4), lit (0.4)]⟩ (lit 0.1) (lit (0.35)) =
    .ok ([![0, 0, 0], ![1, 0, 0], ![1, 0, 1], ![1, 1, 1], ![2, 1, 1], ![2, 1, 2], ![2, 2, 2]],
      none) := by decide +kernel

/-- `cast_ray2_with_bounds_offset`, `src/ray_caster.rs:566-579`. -/
example : castRay (F := F32) (D := 2) 100 ![lit (0.01), lit (0.0)] ![lit (0.31), lit (0.3)]
    ⟨![lit (-0.1), lit (-0.1)], ![lit (0.4), lit (0.4)]⟩ (lit 0.1) (lit (0.5)) =
    .ok ([![1, 1], ![2, 1], ![2, 2], ![3, 2], ![3, 3], ![4, 3]],
      some (![4, 4])) := by decide +kernel

/-- `cast_ray3_with_bounds_offset`, `src/ray_caster.rs:587-603`. -/
example : castRay (F := F32) (D := 3) 100 ![lit (0.01), lit (0.0), lit (0.0)] ![lit (0.31), lit (0.3), lit (0.3)]
    ⟨![lit (-0.1), lit (-0.1), lit (-0.1)], ![lit (0.4), lit (0.4), lit (0.4)]⟩ (lit 0.1) (lit (1.0)) =
    .ok ([![1, 1, 1], ![2, 1, 1], ![2, 1, 2], ![2, 2, 2], ![3, 2, 2], ![3, 2, 3], ![3, 3, 3], ![4, 3, 3], ![4, 3, 4]],
      some (![4, 4, 4])) := by decide +kernel

/-- `cast_ray2_origin_same_cell_as_end`, `src/ray_caster.rs:611-617`. -/
example : castRay (F := F32) (D := 2) 100 ![lit (0.01), lit (0.0)] ![lit (0.02), lit (0.0)]
    ⟨![lit (0.0), lit (0.0)], ![lit (0.4), lit (0.4)]⟩ (lit 0.1) (lit (0.5)) =
    .ok ([],
      some (![0, 0])) := by decide +kernel

/-- `cast_ray3_origin_same_cell_as_end`, `src/ray_caster.rs:625-631`. -/
example : castRay (F := F32) (D := 3) 100 ![lit (0.01), lit (0.0), lit (0.0)] ![lit (0.02), lit (0.0), lit (0.0)]
    ⟨![lit (0.0), lit (0.0), lit (0.0)], ![lit (0.4), lit (0.4), lit (0.4)]⟩ (lit 0.1) (lit (1.0)) =
    .ok ([],
      some (![0, 0, 0])) := by decide +kernel

/-- `from_cell_bounds2`, `src/geom/bounds.rs:198`. -/
example : relEq (D := 2) ⟨![lit (-0.1), lit (-0.1)], ![lit (0.2), lit (0.2)]⟩
    (Bounds.fromCellBounds ⟨![-1, -1], ![2, 2]⟩ (lit 0.1)) = true := by decide +kernel

/-- `from_cell_bounds3`, `src/geom/bounds.rs:209`. -/
example : relEq (D := 3) ⟨![lit (-0.1), lit (-0.1), lit (-0.1)], ![lit (0.2), lit (0.2), lit (0.2)]⟩
    (Bounds.fromCellBounds ⟨![-1, -1, -1], ![2, 2, 2]⟩ (lit 0.1)) = true := by decide +kernel

/-- `from_cell_bounds_n2`, `src/geom/bounds.rs:220`. -/
example : relEq (D := 2) ⟨![lit (-0.1), lit (-0.2)], ![lit (0.2), lit (0.4)]⟩
    (Bounds.fromCellBoundsN ⟨![-1, -1], ![2, 2]⟩ (![lit (0.1), lit (0.2)])) = true := by decide +kernel

/-- `from_cell_bounds_n3`, `src/geom/bounds.rs:231`. -/
example : relEq (D := 3) ⟨![lit (-0.1), lit (-0.2), lit (-0.3)], ![lit (0.2), lit (0.4), lit (0.6)]⟩
    (Bounds.fromCellBoundsN ⟨![-1, -1, -1], ![2, 2, 2]⟩ (![lit (0.1), lit (0.2), lit (0.3)])) = true := by decide +kernel

/-- `from_size_cells2`, `src/geom/bounds.rs:243`. -/
example : okAnd (Bounds.fromSizeCells (F := F32) (D := 2) ![3, 3] (lit 0.1) ![-1, -1])
    (relEq ⟨![lit (-0.1), lit (-0.1)], ![lit (0.2), lit (0.2)]⟩) = true := by decide +kernel

/-- `from_size_cells3`, `src/geom/bounds.rs:255`. -/
example : okAnd (Bounds.fromSizeCells (F := F32) (D := 3) ![3, 3, 3] (lit 0.1) ![-1, -1, -1])
    (relEq ⟨![lit (-0.1), lit (-0.1), lit (-0.1)], ![lit (0.2), lit (0.2), lit (0.2)]⟩) = true := by decide +kernel

/-- `from_size_cells_n2`, `src/geom/bounds.rs:267`. -/
example : okAnd (Bounds.fromSizeCellsN (F := F32) (D := 2) ![3, 3] (![lit (0.1), lit (0.2)]) ![-1, -1])
    (relEq ⟨![lit (-0.1), lit (-0.2)], ![lit (0.2), lit (0.4)]⟩) = true := by decide +kernel

/-- `from_size_cells_n3`, `src/geom/bounds.rs:279`. -/
example : okAnd (Bounds.fromSizeCellsN (F := F32) (D := 3) ![3, 3, 3] (![lit (0.1), lit (0.2), lit (0.3)]) ![-1, -1, -1])
    (relEq ⟨![lit (-0.1), lit (-0.2), lit (-0.3)], ![lit (0.2), lit (0.4), lit (0.6)]⟩) = true := by decide +kernel

/-- `discretized2`, `src/geom/bounds.rs:289`. -/
example : okAnd ((⟨![lit (-0.02), lit (0.1)], ![lit (1.1), lit (5.05)]⟩ : Bounds 2 F32).discretized (lit 0.1) false)
    (relEq ⟨![lit (-0.1), lit (0.1)], ![lit (1.1), lit (5.1)]⟩) = true := by decide +kernel

/-- `discretized2`, `src/geom/bounds.rs:294`. -/
example : okAnd ((⟨![lit (-0.02), lit (0.1)], ![lit (1.1), lit (5.05)]⟩ : Bounds 2 F32).discretized (lit 0.1) true)
    (relEq ⟨![lit (-0.1), lit (0.1)], ![lit (1.2), lit (5.1)]⟩) = true := by decide +kernel

/-- `discretized3`, `src/geom/bounds.rs:304`. -/
example : okAnd ((⟨![lit (-0.02), lit (0.1), lit (-1.31)], ![lit (1.1), lit (5.05), lit (-1.3)]⟩ : Bounds 3 F32).discretized (lit 0.1) false)
    (relEq ⟨![lit (-0.1), lit (0.1), lit (-1.4)], ![lit (1.1), lit (5.1), lit (-1.3)]⟩) = true := by decide +kernel

/-- `discretized3`, `src/geom/bounds.rs:309`. -/
example : okAnd ((⟨![lit (-0.02), lit (0.1), lit (-1.31)], ![lit (1.1), lit (5.05), lit (-1.3)]⟩ : Bounds 3 F32).discretized (lit 0.1) true)
    (relEq ⟨![lit (-0.1), lit (0.1), lit (-1.4)], ![lit (1.2), lit (5.1), lit (-1.2)]⟩) = true := by decide +kernel

/-- `enclosing2_nominal`, `src/geom/bounds.rs:319`. -/
example : ((⟨![lit (-0.02), lit (0.1)], ![lit (1.1), lit (5.05)]⟩ : Bounds 2 F32).enclosing
    ⟨![lit (0.0), lit (0.2)], ![lit (1.2), lit (6.05)]⟩).beq ⟨![lit (-0.02), lit (0.1)], ![lit (1.2), lit (6.05)]⟩ = true := by decide +kernel

/-- `enclosing3_nominal`, `src/geom/bounds.rs:327`. -/
example : ((⟨![lit (-0.02), lit (0.1), lit (-1.31)], ![lit (1.1), lit (5.05), lit (0.1)]⟩ : Bounds 3 F32).enclosing
    ⟨![lit (0.0), lit (0.2), lit (0.0)], ![lit (1.2), lit (6.05), lit (1.0)]⟩).beq ⟨![lit (-0.02), lit (0.1), lit (-1.31)], ![lit (1.2), lit (6.05), lit (1.0)]⟩ = true := by decide +kernel

/-- `enclosing2_contained1`, `src/geom/bounds.rs:335`. -/
example : ((⟨![lit (-0.02), lit (0.1)], ![lit (1.1), lit (5.05)]⟩ : Bounds 2 F32).enclosing
    ⟨![lit (0.0), lit (0.2)], ![lit (1.0), lit (4.05)]⟩).beq ⟨![lit (-0.02), lit (0.1)], ![lit (1.1), lit (5.05)]⟩ = true := by decide +kernel

/-- `enclosing3_contained1`, `src/geom/bounds.rs:343`. -/
example : ((⟨![lit (-0.02), lit (0.1), lit (-1.31)], ![lit (1.1), lit (5.05), lit (0.1)]⟩ : Bounds 3 F32).enclosing
    ⟨![lit (0.0), lit (0.2), lit (0.0)], ![lit (1.0), lit (4.05), lit (0.05)]⟩).beq ⟨![lit (-0.02), lit (0.1), lit (-1.31)], ![lit (1.1), lit (5.05), lit (0.1)]⟩ = true := by decide +kernel

/-- `enclosing2_contained2`, `src/geom/bounds.rs:351`. -/
example : ((⟨![lit (0.0), lit (0.2)], ![lit (1.0), lit (4.05)]⟩ : Bounds 2 F32).enclosing
    ⟨![lit (-0.02), lit (0.1)], ![lit (1.1), lit (5.05)]⟩).beq ⟨![lit (-0.02), lit (0.1)], ![lit (1.1), lit (5.05)]⟩ = true := by decide +kernel

/-- `enclosing3_contained2`, `src/geom/bounds.rs:359`. -/
example : ((⟨![lit (0.0), lit (0.2), lit (0.0)], ![lit (1.0), lit (4.05), lit (0.05)]⟩ : Bounds 3 F32).enclosing
    ⟨![lit (-0.02), lit (0.1), lit (-1.31)], ![lit (1.1), lit (5.05), lit (0.1)]⟩).beq ⟨![lit (-0.02), lit (0.1), lit (-1.31)], ![lit (1.1), lit (5.05), lit (0.1)]⟩ = true := by decide +kernel

/-- `enclosing2_empty`, `src/geom/bounds.rs:367`. -/
example : ((Bounds.empty : Bounds 2 F32).enclosing
    ⟨![lit (-0.02), lit (0.1)], ![lit (1.1), lit (5.05)]⟩).beq ⟨![lit (-0.02), lit (0.1)], ![lit (1.1), lit (5.05)]⟩ = true := by decide +kernel

/-- `enclosing3_empty`, `src/geom/bounds.rs:375`. -/
example : ((Bounds.empty : Bounds 3 F32).enclosing
    ⟨![lit (-0.02), lit (0.1), lit (-1.31)], ![lit (1.1), lit (5.05), lit (0.1)]⟩).beq ⟨![lit (-0.02), lit (0.1), lit (-1.31)], ![lit (1.1), lit (5.05), lit (0.1)]⟩ = true := by decide +kernel

/-- `overlapping2_subset`, `src/geom/bounds.rs:384`. -/
example : ((⟨![lit (0.0), lit (10.0)], ![lit (1.0), lit (11.0)]⟩ : Bounds 2 F32).overlapping
    ⟨![lit (-0.5), lit (9.5)], ![lit (0.5), lit (10.5)]⟩).beq ⟨![lit (0.0), lit (10.0)], ![lit (0.5), lit (10.5)]⟩ = true := by decide +kernel

/-- `overlapping2_subset`, `src/geom/bounds.rs:388`. -/
example : ((⟨![lit (0.0), lit (10.0)], ![lit (1.0), lit (11.0)]⟩ : Bounds 2 F32).overlapping
    ⟨![lit (-0.5), lit (10.5)], ![lit (0.5), lit (11.5)]⟩).beq ⟨![lit (0.0), lit (10.5)], ![lit (0.5), lit (11.0)]⟩ = true := by decide +kernel

/-- `overlapping2_subset`, `src/geom/bounds.rs:392`. -/
example : ((⟨![lit (0.0), lit (10.0)], ![lit (1.0), lit (11.0)]⟩ : Bounds 2 F32).overlapping
    ⟨![lit (0.5), lit (9.5)], ![lit (1.5), lit (10.5)]⟩).beq ⟨![lit (0.5), lit (10.0)], ![lit (1.0), lit (10.5)]⟩ = true := by decide +kernel

/-- `overlapping2_subset`, `src/geom/bounds.rs:396`. -/
example : ((⟨![lit (0.0), lit (10.0)], ![lit (1.0), lit (11.0)]⟩ : Bounds 2 F32).overlapping
    ⟨![lit (0.5), lit (10.5)], ![lit (1.5), lit (11.5)]⟩).beq ⟨![lit (0.5), lit (10.5)], ![lit (1.0), lit (11.0)]⟩ = true := by decide +kernel

/-- `overlapping3_subset`, `src/geom/bounds.rs:405`. -/
example : ((⟨![lit (0.0), lit (10.0), lit (20.0)], ![lit (1.0), lit (11.0), lit (21.0)]⟩ : Bounds 3 F32).overlapping
    ⟨![lit (0.5), lit (10.5), lit (20.5)], ![lit (1.5), lit (11.5), lit (21.5)]⟩).beq ⟨![lit (0.5), lit (10.5), lit (20.5)], ![lit (1.0), lit (11.0), lit (21.0)]⟩ = true := by decide +kernel

/-- `overlapping3_subset`, `src/geom/bounds.rs:409`. -/
example : ((⟨![lit (0.0), lit (10.0), lit (20.0)], ![lit (1.0), lit (11.0), lit (21.0)]⟩ : Bounds 3 F32).overlapping
    ⟨![lit (0.5), lit (10.5), lit (19.5)], ![lit (1.5), lit (11.5), lit (20.5)]⟩).beq ⟨![lit (0.5), lit (10.5), lit (20.0)], ![lit (1.0), lit (11.0), lit (20.5)]⟩ = true := by decide +kernel

/-- `overlapping3_subset`, `src/geom/bounds.rs:413`. -/
example : ((⟨![lit (0.0), lit (10.0), lit (20.0)], ![lit (1.0), lit (11.0), lit (21.0)]⟩ : Bounds 3 F32).overlapping
    ⟨![lit (0.5), lit (9.5), lit (20.5)], ![lit (1.5), lit (10.5), lit (21.5)]⟩).beq ⟨![lit (0.5), lit (10.0), lit (20.5)], ![lit (1.0), lit (10.5), lit (21.0)]⟩ = true := by decide +kernel

/-- `overlapping3_subset`, `src/geom/bounds.rs:417`. -/
example : ((⟨![lit (0.0), lit (10.0), lit (20.0)], ![lit (1.0), lit (11.0), lit (21.0)]⟩ : Bounds 3 F32).overlapping
    ⟨![lit (0.5), lit (9.5), lit (19.5)], ![lit (1.5), lit (10.5), lit (20.5)]⟩).beq ⟨![lit (0.5), lit (10.0), lit (20.0)], ![lit (1.0), lit (10.5), lit (20.5)]⟩ = true := by decide +kernel

/-- `overlapping3_subset`, `src/geom/bounds.rs:421`. -/
example : ((⟨![lit (0.0), lit (10.0), lit (20.0)], ![lit (1.0), lit (11.0), lit (21.0)]⟩ : Bounds 3 F32).overlapping
    ⟨![lit (-0.5), lit (10.5), lit (20.5)], ![lit (0.5), lit (11.5), lit (21.5)]⟩).beq ⟨![lit (0.0), lit (10.5), lit (20.5)], ![lit (0.5), lit (11.0), lit (21.0)]⟩ = true := by decide +kernel

/-- `overlapping3_subset`, `src/geom/bounds.rs:425`. -/
example : ((⟨![lit (0.0), lit (10.0), lit (20.0)], ![lit (1.0), lit (11.0), lit (21.0)]⟩ : Bounds 3 F32).overlapping
    ⟨![lit (-0.5), lit (10.5), lit (19.5)], ![lit (0.5), lit (11.5), lit (20.5)]⟩).beq ⟨![lit (0.0), lit (10.5), lit (20.0)], ![lit (0.5), lit (11.0), lit (20.5)]⟩ = true := by decide +kernel

/-- `overlapping3_subset`, `src/geom/bounds.rs:429`. -/
example : ((⟨![lit (0.0), lit (10.0), lit (20.0)], ![lit (1.0), lit (11.0), lit (21.0)]⟩ : Bounds 3 F32).overlapping
    ⟨![lit (-0.5), lit (9.5), lit (20.5)], ![lit (0.5), lit (10.5), lit (21.5)]⟩).beq ⟨![lit (0.0), lit (10.0), lit (20.5)], ![lit (0.5), lit (10.5), lit (21.0)]⟩ = true := by decide +kernel

/-- `overlapping3_subset`, `src/geom/bounds.rs:433`. -/
example : ((⟨![lit (0.0), lit (10.0), lit (20.0)], ![lit (1.0), lit (11.0), lit (21.0)]⟩ : Bounds 3 F32).overlapping
    ⟨![lit (-0.5), lit (9.5), lit (19.5)], ![lit (0.5), lit (10.5), lit (20.5)]⟩).beq ⟨![lit (0.0), lit (10.0), lit (20.0)], ![lit (0.5), lit (10.5), lit (20.5)]⟩ = true := by decide +kernel

/-- `overlapping2_containing`, `src/geom/bounds.rs:441`. -/
example : ((⟨![lit (0.0), lit (10.0)], ![lit (1.0), lit (11.0)]⟩ : Bounds 2 F32).overlapping
    ⟨![lit (0.2), lit (10.5)], ![lit (0.5), lit (10.7)]⟩).beq ⟨![lit (0.2), lit (10.5)], ![lit (0.5), lit (10.7)]⟩ = true := by decide +kernel

/-- `overlapping2_containing`, `src/geom/bounds.rs:445`. -/
example : ((⟨![lit (0.2), lit (10.5)], ![lit (0.5), lit (10.7)]⟩ : Bounds 2 F32).overlapping
    ⟨![lit (0.0), lit (10.0)], ![lit (1.0), lit (11.0)]⟩).beq ⟨![lit (0.2), lit (10.5)], ![lit (0.5), lit (10.7)]⟩ = true := by decide +kernel

/-- `overlapping3_containing`, `src/geom/bounds.rs:453`. -/
example : ((⟨![lit (0.0), lit (10.0), lit (20.0)], ![lit (1.0), lit (11.0), lit (21.0)]⟩ : Bounds 3 F32).overlapping
    ⟨![lit (0.2), lit (10.5), lit (20.5)], ![lit (0.5), lit (10.7), lit (20.7)]⟩).beq ⟨![lit (0.2), lit (10.5), lit (20.5)], ![lit (0.5), lit (10.7), lit (20.7)]⟩ = true := by decide +kernel

/-- `overlapping3_containing`, `src/geom/bounds.rs:457`. -/
example : ((⟨![lit (0.2), lit (10.5), lit (20.5)], ![lit (0.5), lit (10.7), lit (20.7)]⟩ : Bounds 3 F32).overlapping
    ⟨![lit (0.0), lit (10.0), lit (20.0)], ![lit (1.0), lit (11.0), lit (21.0)]⟩).beq ⟨![lit (0.2), lit (10.5), lit (20.5)], ![lit (0.5), lit (10.7), lit (20.7)]⟩ = true := by decide +kernel

/-- `overlapping2_no_overlap`, `src/geom/bounds.rs:464`. -/
example : ((⟨![lit (0.0), lit (10.0)], ![lit (1.0), lit (11.0)]⟩ : Bounds 2 F32).overlapping
    ⟨![lit (1.0), lit (10.5)], ![lit (1.5), lit (11.5)]⟩).beq Bounds.empty = true := by decide +kernel

/-- `overlapping3_no_overlap`, `src/geom/bounds.rs:471`. -/
example : ((⟨![lit (0.0), lit (10.0), lit (20.0)], ![lit (1.0), lit (11.0), lit (21.0)]⟩ : Bounds 3 F32).overlapping
    ⟨![lit (1.0), lit (10.5), lit (20.5)], ![lit (1.5), lit (11.5), lit (21.5)]⟩).beq Bounds.empty = true := by decide +kernel

/-- `from_bounds2`, `src/geom/cell_bounds.rs:96`. -/
example : CellBounds.fromBounds (⟨![lit (0.0), lit (0.0)], ![lit (0.2), lit (0.2)]⟩ : Bounds 2 F32) (lit 0.1) = ⟨![0, 0], ![2, 2]⟩ := by
  decide +kernel

/-- `from_bounds2`, `src/geom/cell_bounds.rs:102`. -/
example : CellBounds.fromBounds (⟨![lit (-0.3), lit (-0.3)], ![lit (-0.1), lit (-0.1)]⟩ : Bounds 2 F32) (lit 0.1) = ⟨![-3, -3], ![-1, -1]⟩ := by
  decide +kernel

/-- `from_bounds3`, `src/geom/cell_bounds.rs:113`. -/
example : CellBounds.fromBounds (Bounds.empty : Bounds 3 F32) (lit 0.1) = CellBounds.empty := by
  decide +kernel

/-- `from_bounds3`, `src/geom/cell_bounds.rs:119`. -/
example : CellBounds.fromBounds (⟨![lit (0.0), lit (0.0), lit (0.0)], ![lit (0.2), lit (0.2), lit (0.2)]⟩ : Bounds 3 F32) (lit 0.1) = ⟨![0, 0, 0], ![2, 2, 2]⟩ := by
  decide +kernel

/-- `from_bounds3`, `src/geom/cell_bounds.rs:125`. -/
example : CellBounds.fromBounds (⟨![lit (-0.3), lit (-0.3), lit (-0.3)], ![lit (-0.1), lit (-0.1), lit (-0.1)]⟩ : Bounds 3 F32) (lit 0.1) = ⟨![-3, -3, -3], ![-1, -1, -1]⟩ := by
  decide +kernel

/-- `discretized2`, `src/geom/cell_bounds.rs:134`. -/
example : (⟨![0, 0], ![2, 2]⟩ : CellBounds 2).discretized 2 = .ok ⟨![0, 0], ![2, 2]⟩ := by
  decide +kernel

/-- `discretized2`, `src/geom/cell_bounds.rs:137`. -/
example : (⟨![0, 0], ![3, 3]⟩ : CellBounds 2).discretized 2 = .ok ⟨![0, 0], ![4, 4]⟩ := by
  decide +kernel

/-- `discretized2`, `src/geom/cell_bounds.rs:139`. -/
example : (⟨![1, 1], ![3, 3]⟩ : CellBounds 2).discretized 2 = .ok ⟨![0, 0], ![4, 4]⟩ := by
  decide +kernel

/-- `discretized2`, `src/geom/cell_bounds.rs:142`. -/
example : (⟨![-1, -1], ![3, 3]⟩ : CellBounds 2).discretized 2 = .ok ⟨![-2, -2], ![4, 4]⟩ := by
  decide +kernel

/-- `discretized2`, `src/geom/cell_bounds.rs:145`. -/
example : (⟨![-3, -3], ![-1, -1]⟩ : CellBounds 2).discretized 2 = .ok ⟨![-4, -4], ![0, 0]⟩ := by
  decide +kernel

/-- `discretized2`, `src/geom/cell_bounds.rs:148`. -/
example : (⟨![-256, -692], ![279, 971]⟩ : CellBounds 2).discretized 100 = .ok ⟨![-300, -700], ![300, 1000]⟩ := by
  decide +kernel

/-- `discretized3`, `src/geom/cell_bounds.rs:155`. -/
example : (⟨![0, 0, 0], ![2, 2, 2]⟩ : CellBounds 3).discretized 2 = .ok ⟨![0, 0, 0], ![2, 2, 2]⟩ := by
  decide +kernel

/-- `discretized3`, `src/geom/cell_bounds.rs:158`. -/
example : (⟨![0, 0, 0], ![3, 3, 3]⟩ : CellBounds 3).discretized 2 = .ok ⟨![0, 0, 0], ![4, 4, 4]⟩ := by
  decide +kernel

/-- `discretized3`, `src/geom/cell_bounds.rs:160`. -/
example : (⟨![1, 1, 1], ![3, 3, 3]⟩ : CellBounds 3).discretized 2 = .ok ⟨![0, 0, 0], ![4, 4, 4]⟩ := by
  decide +kernel

/-- `discretized3`, `src/geom/cell_bounds.rs:163`. -/
example : (⟨![-1, -1, -1], ![3, 3, 3]⟩ : CellBounds 3).discretized 2 = .ok ⟨![-2, -2, -2], ![4, 4, 4]⟩ := by
  decide +kernel

/-- `discretized3`, `src/geom/cell_bounds.rs:166`. -/
example : (⟨![-3, -3, -3], ![-1, -1, -1]⟩ : CellBounds 3).discretized 2 = .ok ⟨![-4, -4, -4], ![0, 0, 0]⟩ := by
  decide +kernel

/-- `discretized3`, `src/geom/cell_bounds.rs:170`. -/
example : (⟨![-256, -692, -292], ![279, 971, 283]⟩ : CellBounds 3).discretized 100 = .ok ⟨![-300, -700, -300], ![300, 1000, 300]⟩ := by
  decide +kernel

end Verif.Replay
