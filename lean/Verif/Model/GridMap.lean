import Verif.Model.NdArray
import Verif.Model.Geom

/-!
# Model of `src/map/grid_map.rs`
-/

namespace Verif

variable {F : Type} [Scalar F] {D : ℕ} {A : Type}

open Scalar

/-- `DEFAULT_RESOLUTION` (`src/map/grid_map.rs:21`). -/
def DEFAULT_RESOLUTION : F := lit (1/10)
/-- `DEFAULT_TILE_SIZE` (`src/map/grid_map.rs:22`). -/
def DEFAULT_TILE_SIZE : ℕ := 100

/-- `GridMapN` (`src/map/grid_map.rs:72-84`). -/
structure GridMap (D : ℕ) (F A : Type) where
  data : NdArray D A
  resolution : F
  bounds : Bounds D F
  tileSize : ℕ
  trackChanges : Bool
  changedCells : List (Cell D)

/-- `size_cells.iter().product()` over isize: panics when an intermediate product overflows. -/
def isizeProd : List ℤ → M ℤ
  | l => l.foldlM (fun acc x => isz (acc * x)) 1

/-- `ndarray_with_bounds` (`src/map/grid_map.rs:322-340`). `from_elem` with a count that is negative
as isize exceeds the maximal capacity and panics. That it also panics if only the number of bytes (for f32, four times
the count) does, and memory exhaustion below that, are in `Verif/Model/Memory.lean`. -/
def ndarrayWithBounds (resolution : F) (bounds : Bounds D F) (default_ : A) : M (NdArray D A) := do
  let size := cellFromPoint bounds.max bounds.min resolution
  let n ← isizeProd (List.ofFn size)
  if n < 0 then .error (.panic .capacity)
  else NdArray.fromShapeVec (toNdIndex size) (List.replicate n.toNat default_)

namespace GridMap

/-- `GridMapN::new` (`src/map/grid_map.rs:96-105`). -/
def new (resolution : F) (bounds : Bounds D F) (tileSize : ℕ) (default_ : A) : M (GridMap D F A) := do
  let data ← ndarrayWithBounds resolution bounds default_
  .ok ⟨data, resolution, bounds, tileSize, false, []⟩

/-- `GridMapN::default` (`src/map/grid_map.rs:107-117`). -/
def default_ : M (GridMap D F A) := do
  let data ← NdArray.fromShapeVec (fun _ => 0) []
  .ok ⟨data, DEFAULT_RESOLUTION, Bounds.empty, DEFAULT_TILE_SIZE, false, []⟩

/-- `GridMapN::from_ndarray` (`src/map/grid_map.rs:120-134`). -/
def fromNdarray (data : NdArray D A) (resolution : F) (bounds : Bounds D F) (tileSize : ℕ) :
    GridMap D F A := ⟨data, resolution, bounds, tileSize, false, []⟩

/-- `get` (`src/map/grid_map.rs:148-150`). -/
def get (m : GridMap D F A) (cell : Cell D) : M A := m.data.get (toNdIndex cell)

/-- `set` (`src/map/grid_map.rs:153-155`). -/
def set (m : GridMap D F A) (cell : Cell D) (v : A) : M (GridMap D F A) := do
  let d ← m.data.set (toNdIndex cell) v
  .ok { m with data := d }

/-- `resolution()` (`src/map/grid_map.rs:158-160`). -/
def getResolution (m : GridMap D F A) : F := m.resolution

/-- `bounds()` (`src/map/grid_map.rs:163-165`). -/
def getBounds (m : GridMap D F A) : Bounds D F := m.bounds

/-- `point_from_cell` (`src/map/grid_map.rs:168-170`). -/
def pointFromCell (m : GridMap D F A) (cell : Cell D) : Point D F :=
  Verif.pointFromCell cell m.bounds.min m.resolution

/-- `cell_from_point` (`src/map/grid_map.rs:173-175`). -/
def cellFromPoint (m : GridMap D F A) (p : Point D F) : Cell D :=
  Verif.cellFromPoint p m.bounds.min m.resolution

/-- `track_changes()` (`src/map/grid_map.rs:178-180`). -/
def getTrackChanges (m : GridMap D F A) : Bool := m.trackChanges

/-- `changed_cells()` (`src/map/grid_map.rs:188-190`). -/
def getChangedCells (m : GridMap D F A) : List (Cell D) := m.changedCells

/-- `clone()` (`src/map/grid_map.rs:300-320`). -/
def clone (m : GridMap D F A) : GridMap D F A :=
  { data := m.data, resolution := m.resolution, bounds := m.bounds, tileSize := m.tileSize,
    trackChanges := m.trackChanges, changedCells := m.changedCells }

/-- `set_track_changes` (`src/map/grid_map.rs:183-185`). -/
def setTrackChanges (m : GridMap D F A) (v : Bool) : GridMap D F A := { m with trackChanges := v }

/-- `clear_changed_cells` (`src/map/grid_map.rs:193-195`). -/
def clearChangedCells (m : GridMap D F A) : GridMap D F A := { m with changedCells := [] }

/-- `add_changed_cells` (`src/map/grid_map.rs:198-200`). -/
def addChangedCells (m : GridMap D F A) (cells : List (Cell D)) : GridMap D F A :=
  { m with changedCells := m.changedCells ++ cells }

/-- The cell bounds computed by `expand_bounds` (`src/map/grid_map.rs:215-219`, `262-266`). -/
def newCellBounds (m : GridMap D F A) (bounds : Bounds D F) : M (CellBounds D) := do
  let disc ← bounds.discretized m.resolution true
  (CellBounds.fromBounds (m.bounds.enclosing disc) m.resolution).discretized m.tileSize

/-- Copying the old data (`src/map/grid_map.rs:234-244`, `281-294`). The two- and three-dimensional
versions are the same up to the number of axes; both assert only the x and y offsets. -/
def copyOld (m : GridMap D F A) (cb ncb : CellBounds D) (toData : NdArray D A) : M (NdArray D A) := do
  let offset ← seqFin fun i => isz (cb.min i - ncb.min i)
  let size ← seqFin fun i => isz (cb.max i - cb.min i)
  if ∀ i : Fin D, i.val < 2 → 0 ≤ offset i then do
    let stop ← seqFin fun i => isz (size i + offset i)
    toData.sliceAssign offset stop m.data (fun _ => 0) size
  else .error (.panic .assertion)

/-- `expand_bounds` (`src/map/grid_map.rs:211-247` for two, `258-297` for three dimensions). -/
def expandBounds (m : GridMap D F A) (bounds : Bounds D F) (default_ : A) : M (GridMap D F A) := do
  let ncb ← m.newCellBounds bounds
  let newBounds := Bounds.fromCellBounds ncb m.resolution
  let cb := CellBounds.fromBounds m.bounds m.resolution
  if ncb = cb then .ok m
  else do
    let toData ← ndarrayWithBounds m.resolution newBounds default_
    let toData ← if m.bounds.beq Bounds.empty then Except.ok toData else m.copyOld cb ncb toData
    .ok { m with bounds := newBounds, data := toData }

end GridMap

/-- `_resized_ndarray2` and `_resized_ndarray3` (`src/map/grid_map.rs:342-377`, `379-416`), the unused
predecessor of `expand_bounds`. The two are the same up to the number of axes. -/
def resizedNdarray (data : NdArray D A) (fromB toB : Bounds D F) (resolution : F) (default_ : A) :
    M (NdArray D A) := do
  let toData ← ndarrayWithBounds resolution toB default_
  let ov := fromB.overlapping toB
  if ov.beq Bounds.empty then .ok toData
  else
    toData.sliceAssign (cellFromPoint ov.min toB.min resolution) (cellFromPoint ov.max toB.min resolution)
      data (cellFromPoint ov.min fromB.min resolution) (cellFromPoint ov.max fromB.min resolution)

end Verif
