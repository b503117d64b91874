import Verif.Scalar
import Mathlib.Data.Fintype.Pi

/-!
# Model of `src/math.rs` and `src/geom/`

Points and cells are functions from axis numbers. All functions are generic over the dimension `D`
(`NaD` in the sources) and the scalar type `F` (`f32` in the sources).
-/

namespace Verif

/-- `na::Point<f32, NaD>` and `na::VectorN<f32, NaD>` (`src/geom/point.rs`, `src/geom/vector.rs:1-3`). -/
abbrev Point (D : ℕ) (F : Type) := Fin D → F

/-- `na::Point<isize, NaD>` (`src/geom/cell.rs:3-5`). -/
abbrev Cell (D : ℕ) := Fin D → ℤ

variable {F : Type} [Scalar F] {D : ℕ}

open Scalar

/-! ## math.rs -/

/-- `f32_signum` (`src/math.rs:1-9`). -/
def f32Signum (value : F) : F :=
  if value ==. lit 0 then lit 0 else if lit 0 <. value then lit 1 else lit (-1)

/-- libm functions; not modelled further. -/
class Libm (F : Type) where
  ln : F → F
  exp : F → F

/-- `logodds_from_probability` (`src/math.rs:11-13`). -/
def logoddsFromProbability [Libm F] (p : F) : F := Libm.ln (p /. (lit 1 -. p))

/-- `probability_from_logodds` (`src/math.rs:15-17`). -/
def probabilityFromLogodds [Libm F] (l : F) : F := lit 1 -. (lit 1 /. (lit 1 +. Libm.exp l))

/-! ## geom/vector.rs -/

/-- `signum` of a vector (`src/geom/vector.rs:7-13`). -/
def vecSignum (v : Point D F) : Point D F := fun i => f32Signum (v i)

/-- nalgebra `norm_squared` in dimensions 2 and 3 (0 + sum of squares from index 0); used at
`src/ray_caster.rs:77,131`. In other dimensions `cast_ray` panics before using it; 0 here. -/
def normSquared : {D : ℕ} → Point D F → F
  | 2, v => lit 0 +. (v 0 *. v 0 +. v 1 *. v 1)
  | 3, v => lit 0 +. (v 0 *. v 0 +. v 1 *. v 1 +. v 2 *. v 2)
  | _, _ => lit 0

/-- nalgebra `norm`. -/
def norm (v : Point D F) : F := sqrt (normSquared v)

/-! ## geom/converter.rs -/

/-- `point_coord_from_cell_coord` (`src/geom/converter.rs:7-9`). -/
def pointCoordFromCellCoord (c : ℤ) (offset resolution : F) : F :=
  ofInt c *. resolution +. offset

/-- `cell_coord_from_point_coord` (`src/geom/converter.rs:15-17`). -/
def cellCoordFromPointCoord (p offset resolution : F) : ℤ :=
  toInt (round ((p -. offset) /. resolution))

/-- `point_from_cell` (`src/geom/converter.rs:23-31`). -/
def pointFromCell (cell : Cell D) (offset : Point D F) (resolution : F) : Point D F :=
  fun i => pointCoordFromCellCoord (cell i) (offset i) resolution

/-- `cell_from_point` (`src/geom/converter.rs:36-44`). -/
def cellFromPoint (point offset : Point D F) (resolution : F) : Cell D :=
  fun i => cellCoordFromPointCoord (point i) (offset i) resolution

/-- `point_from_cell_n` (`src/geom/converter.rs:50-69`). -/
def pointFromCellN (cell : Cell D) (offset resolution : Point D F) : Point D F :=
  fun i => pointCoordFromCellCoord (cell i) (offset i) (resolution i)

/-- `cell_from_point_n` (`src/geom/converter.rs:75-95`). -/
def cellFromPointN (point offset resolution : Point D F) : Cell D :=
  fun i => cellCoordFromPointCoord (point i) (offset i) (resolution i)

/-- The origin point (nalgebra `Point::origin()`). -/
def originPt : Point D F := fun _ => lit 0

/-! ## approx -/

/-- `approx::relative_eq!` on f32 with the default tolerances (`f32::EPSILON` = 2^-23 both);
`approx` 0.3.2 `impl RelativeEq for f32`. -/
def relativeEq (a b : F) : Bool :=
  let eps : F := lit (1 / 2 ^ 23)
  if a ==. b then true
  else if isInf a || isInf b then false
  else
    let diff := abs (a -. b)
    if diff <=. eps then true
    else
      let la := abs a
      let lb := abs b
      let largest := if la <. lb then lb else la
      diff <=. (largest *. eps)

/-! ## geom/bounds.rs and geom/cell_bounds.rs -/

/-- `Bounds` (`src/geom/bounds.rs:17-25`). -/
@[ext] structure Bounds (D : ℕ) (F : Type) where
  min : Point D F
  max : Point D F

/-- `CellBounds` (`src/geom/cell_bounds.rs:20-28`). -/
@[ext] structure CellBounds (D : ℕ) where
  min : Cell D
  max : Cell D

instance {D : ℕ} : DecidableEq (CellBounds D) := fun a b =>
  decidable_of_iff (a.min = b.min ∧ a.max = b.max) CellBounds.ext_iff.symm

namespace Bounds

/-- `Bounds::new` (`src/geom/bounds.rs:34-39`). -/
def new (min max : Point D F) : M (Bounds D F) :=
  if ∀ i, (min i <=. max i) = true then .ok ⟨min, max⟩ else .error (.panic .assertion)

/-- `Bounds::empty` (`src/geom/bounds.rs:41-43`); its assertion `0.0 <= 0.0` is dropped. -/
def empty : Bounds D F := ⟨originPt, originPt⟩

/-- Derived `PartialEq` (`src/geom/bounds.rs:17`): float equality of all coordinates. -/
def beq (a b : Bounds D F) : Bool :=
  decide (∀ i, (a.min i ==. b.min i) = true) && decide (∀ i, (a.max i ==. b.max i) = true)

/-- `Bounds::from_cell_bounds` (`src/geom/bounds.rs:66-71`). -/
def fromCellBounds (cb : CellBounds D) (resolution : F) : Bounds D F :=
  ⟨pointFromCell cb.min originPt resolution, pointFromCell cb.max originPt resolution⟩

/-- `Bounds::from_cell_bounds_n` (`src/geom/bounds.rs:74-87`). -/
def fromCellBoundsN (cb : CellBounds D) (resolution : Point D F) : Bounds D F :=
  ⟨pointFromCellN cb.min originPt resolution, pointFromCellN cb.max originPt resolution⟩

/-- The cell bounds built by `from_size_cells` and `from_size_cells_n`
(`src/geom/bounds.rs:46-49, 59-62`). -/
def sizeCellBounds (size offset : Cell D) : M (CellBounds D) := do
  let mn ← seqFin fun i => isz (0 + offset i)
  let mx ← seqFin fun i => isz (size i + offset i)
  .ok ⟨mn, mx⟩

/-- `Bounds::from_size_cells` (`src/geom/bounds.rs:45-51`). -/
def fromSizeCells (size : Cell D) (resolution : F) (offset : Cell D) : M (Bounds D F) := do
  let cb ← sizeCellBounds size offset
  .ok (fromCellBounds cb resolution)

/-- `Bounds::from_size_cells_n` (`src/geom/bounds.rs:54-64`). -/
def fromSizeCellsN (size : Cell D) (resolution : Point D F) (offset : Cell D) : M (Bounds D F) := do
  let cb ← sizeCellBounds size offset
  .ok (fromCellBoundsN cb resolution)

/-- First closure of `Bounds::discretized` (`src/geom/bounds.rs:91-97`). -/
def discMin (resolution val : F) : F :=
  let cell := val /. resolution
  if relativeEq cell (round cell) then val else floor cell *. resolution

/-- Second closure of `Bounds::discretized` (`src/geom/bounds.rs:98-107`). -/
def discMax (resolution : F) (expand : Bool) (val : F) : F :=
  let cell := val /. resolution
  if relativeEq cell (round cell) then (if expand then val +. resolution else val)
  else ceil cell *. resolution

/-- `Bounds::discretized` (`src/geom/bounds.rs:89-109`). -/
def discretized (b : Bounds D F) (resolution : F) (expand : Bool) : M (Bounds D F) :=
  new (fun i => discMin resolution (b.min i)) (fun i => discMax resolution expand (b.max i))

/-- `Bounds::enclosing` (`src/geom/bounds.rs:114-130`). -/
def enclosing (self other : Bounds D F) : Bounds D F :=
  if self.beq empty then other
  else
    ⟨fun i => if self.min i <. other.min i then self.min i else other.min i,
     fun i => if other.max i <. self.max i then self.max i else other.max i⟩

/-- `Bounds::overlapping` (`src/geom/bounds.rs:133-145`): the early return of the loop is taken if
any axis is degenerate. -/
def overlapping (self other : Bounds D F) : Bounds D F :=
  let minMax : Point D F := fun i => fmin (self.max i) (other.max i)
  let maxMin : Point D F := fun i => fmax (self.min i) (other.min i)
  if ∃ i, ((minMax i <. maxMin i) || relativeEq (minMax i) (maxMin i)) = true then empty
  else ⟨maxMin, minMax⟩

end Bounds

namespace CellBounds

/-- `CellBounds::new` (`src/geom/cell_bounds.rs:37-42`). -/
def new (min max : Cell D) : M (CellBounds D) :=
  if ∀ i, min i ≤ max i then .ok ⟨min, max⟩ else .error (.panic .assertion)

/-- `CellBounds::empty` (`src/geom/cell_bounds.rs:44-46`). -/
def empty : CellBounds D := ⟨fun _ => 0, fun _ => 0⟩

/-- `CellBounds::from_bounds` (`src/geom/cell_bounds.rs:48-56`). -/
def fromBounds (b : Bounds D F) (resolution : F) : CellBounds D :=
  if b.beq Bounds.empty then empty
  else ⟨cellFromPoint b.min originPt resolution, cellFromPoint b.max originPt resolution⟩

/-- First closure of `CellBounds::discretized` (`src/geom/cell_bounds.rs:62-71`). -/
def tileMin (tileSize : ℕ) (coord : ℤ) : M ℤ := do
  let r ← irem coord (isizeOfUsize tileSize)
  let remainder ← isz |r|
  if remainder = 0 then .ok coord
  else if coord < 0 then do
    let d ← isz (isizeOfUsize tileSize - remainder)
    isz (coord - d)
  else isz (coord - remainder)

/-- Second closure of `CellBounds::discretized` (`src/geom/cell_bounds.rs:72-81`). -/
def tileMax (tileSize : ℕ) (coord : ℤ) : M ℤ := do
  let r ← irem coord (isizeOfUsize tileSize)
  let remainder ← isz |r|
  if remainder = 0 then .ok coord
  else if coord < 0 then isz (coord + remainder)
  else do
    let d ← isz (isizeOfUsize tileSize - remainder)
    isz (coord + d)

/-- `CellBounds::discretized` (`src/geom/cell_bounds.rs:60-83`). -/
def discretized (cb : CellBounds D) (tileSize : ℕ) : M (CellBounds D) := do
  let mn ← seqFin fun i => tileMin tileSize (cb.min i)
  let mx ← seqFin fun i => tileMax tileSize (cb.max i)
  .ok ⟨mn, mx⟩

end CellBounds

/-- `CellToNdIndex::to_ndindex` (`src/geom/cell.rs:30-45`): the isize coordinates are reinterpreted
as usize. -/
def toNdIndex (cell : Cell D) : Fin D → ℕ := fun i => usizeOfIsize (cell i)

end Verif
