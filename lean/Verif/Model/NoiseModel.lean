import Verif.Model.GridMap
import Verif.Model.RayCaster

/-!
# Model of `src/map/lidar_noise_model.rs` and `src/map/occupancy_grid_map.rs`
-/

namespace Verif

variable {F : Type} [Scalar F] {D : ℕ}

open Scalar

/-- `LidarNoiseModel` (`src/map/lidar_noise_model.rs:20-27`). -/
structure LidarNoiseModel (F : Type) where
  hit : F
  miss : F
  min : F
  max : F
  threshold : F
  maxRange : F

namespace LidarNoiseModel

/-- The assertion on one probability (`src/map/lidar_noise_model.rs:38-42`). -/
def probOk (p : F) : Bool := (lit 0 <=. p) && (p <=. lit 1)

/-- `LidarNoiseModel::new` (`src/map/lidar_noise_model.rs:30-51`). -/
def new [Libm F] (hit miss mn mx threshold maxRange : F) : M (LidarNoiseModel F) :=
  if probOk hit && probOk miss && probOk mn && probOk mx && probOk threshold then
    .ok ⟨logoddsFromProbability hit, logoddsFromProbability miss, logoddsFromProbability mn,
      logoddsFromProbability mx, logoddsFromProbability threshold, maxRange⟩
  else .error (.panic .assertion)

/-- `LidarNoiseModel::default` (`src/map/lidar_noise_model.rs:11-16, 53-62`). -/
def default_ [Libm F] : M (LidarNoiseModel F) :=
  new (lit 0.7) (lit 0.4) (lit 0.1192) (lit 0.971) (lit 0.5) (lit 60)

/-- `default_cell_value` (`src/map/lidar_noise_model.rs:112-114`). -/
def defaultCellValue (_ : LidarNoiseModel F) : F := lit 0

/-- New value of a hit cell (`src/map/lidar_noise_model.rs:77`). -/
def hitValue (nm : LidarNoiseModel F) (v : F) : F := fmin (v +. nm.hit) nm.max

/-- New value of a missed cell (`src/map/lidar_noise_model.rs:94`). -/
def missValue (nm : LidarNoiseModel F) (v : F) : F := fmax (v +. nm.miss) nm.min

/-- `integrate_hit` (`src/map/lidar_noise_model.rs:64-79`). -/
def integrateHit (nm : LidarNoiseModel F) (m : GridMap D F F) (cell : Cell D) : M (GridMap D F F) := do
  let v ← m.get cell
  m.set cell (nm.hitValue v)

/-- `integrate_miss` (`src/map/lidar_noise_model.rs:81-96`). -/
def integrateMiss (nm : LidarNoiseModel F) (m : GridMap D F F) (cell : Cell D) : M (GridMap D F F) := do
  let v ← m.get cell
  m.set cell (nm.missValue v)

/-- `integrate_point_cloud` (`src/map/lidar_noise_model.rs:116-150`). `ord` is the iteration order of
the hash sets: it maps the elements (in order of insertion) to the order in which the loops at lines
135 and 141 meet them. -/
def integratePointCloud (ord : List (Cell D) → List (Cell D)) (fuel : ℕ) (nm : LidarNoiseModel F)
    (m : GridMap D F F) (origin : Point D F) (cloud : PointCloud D F) : M (GridMap D F F) := do
  let m ← m.expandBounds cloud.bounds nm.defaultCellValue
  let (free, occ) ← castRays fuel origin cloud m.bounds m.resolution nm.maxRange
  let track := m.trackChanges
  let m ← (ord free).foldlM (fun m c => nm.integrateMiss m c) m
  let m ← (ord occ).foldlM (fun m c => nm.integrateHit m c) m
  .ok (if track then m.addChangedCells (ord free ++ ord occ) else m)

/-- `occupied` (`src/map/lidar_noise_model.rs:152-154`). -/
def occupied (nm : LidarNoiseModel F) (m : GridMap D F F) (cell : Cell D) : M Bool := do
  let v ← m.get cell
  .ok (nm.threshold <. v)

end LidarNoiseModel

/-- `OccupancyGridMapN` with the lidar noise model (`src/map/occupancy_grid_map.rs:13-29`). -/
structure OccupancyGridMap (D : ℕ) (F : Type) where
  gridMap : GridMap D F F
  noiseModel : LidarNoiseModel F

namespace OccupancyGridMap

/-- `OccupancyGridMapN::new` (`src/map/occupancy_grid_map.rs:49-59`). -/
def new (nm : LidarNoiseModel F) (resolution : F) (tileSize : ℕ) : M (OccupancyGridMap D F) := do
  let g ← GridMap.new resolution Bounds.empty tileSize nm.defaultCellValue
  .ok ⟨g, nm⟩

/-- `OccupancyGridMapN::default` (`src/map/occupancy_grid_map.rs:41-47`). -/
def default_ [Libm F] : M (OccupancyGridMap D F) := do
  let nm ← LidarNoiseModel.default_
  new nm DEFAULT_RESOLUTION DEFAULT_TILE_SIZE

/-- `integrate_point_cloud` (`src/map/occupancy_grid_map.rs:61-64`). -/
def integratePointCloud (ord : List (Cell D) → List (Cell D)) (fuel : ℕ) (o : OccupancyGridMap D F)
    (origin : Point D F) (cloud : PointCloud D F) : M (OccupancyGridMap D F) := do
  let g ← o.noiseModel.integratePointCloud ord fuel o.gridMap origin cloud
  .ok { o with gridMap := g }

/-- `occupied` (`src/map/occupancy_grid_map.rs:66-68`). -/
def occupied (o : OccupancyGridMap D F) (cell : Cell D) : M Bool := o.noiseModel.occupied o.gridMap cell

/-- `get` (`src/map/occupancy_grid_map.rs:80-83`). -/
def get (o : OccupancyGridMap D F) (cell : Cell D) : M F := o.gridMap.get cell

/-- `set` (`src/map/occupancy_grid_map.rs:85-88`). -/
def set (o : OccupancyGridMap D F) (cell : Cell D) (v : F) : M (OccupancyGridMap D F) := do
  let g ← o.gridMap.set cell v
  .ok { o with gridMap := g }

/-- `resolution()` (`src/map/occupancy_grid_map.rs:90-93`). -/
def getResolution (o : OccupancyGridMap D F) : F := o.gridMap.resolution

/-- `bounds()` (`src/map/occupancy_grid_map.rs:95-98`). -/
def getBounds (o : OccupancyGridMap D F) : Bounds D F := o.gridMap.bounds

/-- `point_from_cell` (`src/map/occupancy_grid_map.rs:100-103`). -/
def pointFromCell (o : OccupancyGridMap D F) (cell : Cell D) : Point D F := o.gridMap.pointFromCell cell

/-- `cell_from_point` (`src/map/occupancy_grid_map.rs:105-108`). -/
def cellFromPoint (o : OccupancyGridMap D F) (p : Point D F) : Cell D := o.gridMap.cellFromPoint p

/-- `track_changes()` (`src/map/occupancy_grid_map.rs:110-113`). -/
def getTrackChanges (o : OccupancyGridMap D F) : Bool := o.gridMap.getTrackChanges

/-- `set_track_changes` (`src/map/occupancy_grid_map.rs:115-118`). -/
def setTrackChanges (o : OccupancyGridMap D F) (v : Bool) : OccupancyGridMap D F :=
  { o with gridMap := o.gridMap.setTrackChanges v }

/-- `changed_cells()` (`src/map/occupancy_grid_map.rs:120-123`). -/
def getChangedCells (o : OccupancyGridMap D F) : List (Cell D) := o.gridMap.getChangedCells

/-- `clear_changed_cells` (`src/map/occupancy_grid_map.rs:125-128`). -/
def clearChangedCells (o : OccupancyGridMap D F) : OccupancyGridMap D F :=
  { o with gridMap := o.gridMap.clearChangedCells }

/-- `add_changed_cells` (`src/map/occupancy_grid_map.rs:130-133`). -/
def addChangedCells (o : OccupancyGridMap D F) (cells : List (Cell D)) : OccupancyGridMap D F :=
  { o with gridMap := o.gridMap.addChangedCells cells }

end OccupancyGridMap

/-- The methods of the trait `GridMap` (`src/map/grid_map.rs:24-53`): what a client can do with a map of
type `S`. -/
structure GridMapTrait (S : Type) (D : ℕ) (F A : Type) where
  get : S → Cell D → M A
  set : S → Cell D → A → M S
  resolution : S → F
  bounds : S → Bounds D F
  pointFromCell : S → Cell D → Point D F
  cellFromPoint : S → Point D F → Cell D
  trackChanges : S → Bool
  setTrackChanges : S → Bool → S
  changedCells : S → List (Cell D)
  clearChangedCells : S → S
  addChangedCells : S → List (Cell D) → S

/-- `impl GridMap for GridMapN` (`src/map/grid_map.rs:137-201`). -/
def GridMap.implTrait {A : Type} : GridMapTrait (GridMap D F A) D F A :=
  ⟨GridMap.get, GridMap.set, GridMap.getResolution, GridMap.getBounds, GridMap.pointFromCell,
    GridMap.cellFromPoint, GridMap.getTrackChanges, GridMap.setTrackChanges, GridMap.getChangedCells,
    GridMap.clearChangedCells, GridMap.addChangedCells⟩

/-- `impl GridMap for OccupancyGridMapN` (`src/map/occupancy_grid_map.rs:71-134`). -/
def OccupancyGridMap.implTrait : GridMapTrait (OccupancyGridMap D F) D F F :=
  ⟨OccupancyGridMap.get, OccupancyGridMap.set, OccupancyGridMap.getResolution, OccupancyGridMap.getBounds,
    OccupancyGridMap.pointFromCell, OccupancyGridMap.cellFromPoint, OccupancyGridMap.getTrackChanges,
    OccupancyGridMap.setTrackChanges, OccupancyGridMap.getChangedCells, OccupancyGridMap.clearChangedCells,
    OccupancyGridMap.addChangedCells⟩

end Verif
