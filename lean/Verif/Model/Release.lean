import Verif.Model.VizMap

/-!
# Builds without overflow checks

The model of the other files is that of a build with overflow checks (`cargo build`). A release build
(`cargo build --release`; `Cargo.toml` sets no profile) wraps around instead. Here are the functions with
integer arithmetic once more, with the treatment of results of `isize` operations as a parameter `ck`; with
`ck = isz` they are the functions of the other files (`C85_checked`). Float operations, conversions, indexing
and `%` are the same in both builds.
-/

namespace Verif

open Scalar

/-- The result of an `isize` operation without overflow checks: modulo 2^64. -/
def wrap (n : ℤ) : M ℤ := .ok ((n + 2 ^ 63) % 2 ^ 64 - 2 ^ 63)

namespace Build

variable (ck : ℤ → M ℤ) {F A : Type} [Scalar F] {D : ℕ}

/-- `Bounds::from_size_cells` (`src/geom/bounds.rs:45-51`): the cell bounds. -/
def sizeCellBounds (size offset : Cell D) : M (CellBounds D) := do
  let mn ← seqFin fun i => ck (0 + offset i)
  let mx ← seqFin fun i => ck (size i + offset i)
  .ok ⟨mn, mx⟩

/-- First closure of `CellBounds::discretized` (`src/geom/cell_bounds.rs:62-71`). -/
def tileMin (tileSize : ℕ) (coord : ℤ) : M ℤ := do
  let r ← irem coord (isizeOfUsize tileSize)
  let remainder ← ck |r|
  if remainder = 0 then .ok coord
  else if coord < 0 then do
    let d ← ck (isizeOfUsize tileSize - remainder)
    ck (coord - d)
  else ck (coord - remainder)

/-- Second closure of `CellBounds::discretized` (`src/geom/cell_bounds.rs:72-81`). -/
def tileMax (tileSize : ℕ) (coord : ℤ) : M ℤ := do
  let r ← irem coord (isizeOfUsize tileSize)
  let remainder ← ck |r|
  if remainder = 0 then .ok coord
  else if coord < 0 then ck (coord + remainder)
  else do
    let d ← ck (isizeOfUsize tileSize - remainder)
    ck (coord + d)

/-- `CellBounds::discretized` (`src/geom/cell_bounds.rs:60-83`). -/
def discretized (cb : CellBounds D) (tileSize : ℕ) : M (CellBounds D) := do
  let mn ← seqFin fun i => tileMin ck tileSize (cb.min i)
  let mx ← seqFin fun i => tileMax ck tileSize (cb.max i)
  .ok ⟨mn, mx⟩

/-- `size_cells.iter().product()` over isize. -/
def isizeProd (l : List ℤ) : M ℤ := l.foldlM (fun acc x => ck (acc * x)) 1

/-- `ndarray_with_bounds` (`src/map/grid_map.rs:322-340`). -/
def ndarrayWithBounds (resolution : F) (bounds : Bounds D F) (default_ : A) : M (NdArray D A) := do
  let size := cellFromPoint bounds.max bounds.min resolution
  let n ← isizeProd ck (List.ofFn size)
  if n < 0 then .error (.panic .capacity)
  else NdArray.fromShapeVec (toNdIndex size) (List.replicate n.toNat default_)

/-- `GridMapN::new` (`src/map/grid_map.rs:96-105`). -/
def newMap (resolution : F) (bounds : Bounds D F) (tileSize : ℕ) (default_ : A) : M (GridMap D F A) := do
  let data ← ndarrayWithBounds ck resolution bounds default_
  .ok ⟨data, resolution, bounds, tileSize, false, []⟩

/-- The cell bounds computed by `expand_bounds` (`src/map/grid_map.rs:215-219`, `262-266`). -/
def newCellBounds (m : GridMap D F A) (bounds : Bounds D F) : M (CellBounds D) := do
  let disc ← bounds.discretized m.resolution true
  discretized ck (CellBounds.fromBounds (m.bounds.enclosing disc) m.resolution) m.tileSize

/-- Copying the old data (`src/map/grid_map.rs:234-244`, `281-294`). -/
def copyOld (m : GridMap D F A) (cb ncb : CellBounds D) (toData : NdArray D A) : M (NdArray D A) := do
  let offset ← seqFin fun i => ck (cb.min i - ncb.min i)
  let size ← seqFin fun i => ck (cb.max i - cb.min i)
  if ∀ i : Fin D, i.val < 2 → 0 ≤ offset i then do
    let stop ← seqFin fun i => ck (size i + offset i)
    toData.sliceAssign offset stop m.data (fun _ => 0) size
  else .error (.panic .assertion)

/-- `expand_bounds` (`src/map/grid_map.rs:211-247`, `258-297`). -/
def expandBounds (m : GridMap D F A) (bounds : Bounds D F) (default_ : A) : M (GridMap D F A) := do
  let ncb ← newCellBounds ck m bounds
  let newBounds := Bounds.fromCellBounds ncb m.resolution
  let cb := CellBounds.fromBounds m.bounds m.resolution
  if ncb = cb then .ok m
  else do
    let toData ← ndarrayWithBounds ck m.resolution newBounds default_
    let toData ← if m.bounds.beq Bounds.empty then Except.ok toData else copyOld ck m cb ncb toData
    .ok { m with bounds := newBounds, data := toData }

/-- The loop of `cast_ray` (`src/ray_caster.rs:97-137`). -/
def castLoop (c : RayCtx D F) : ℕ → Cell D → Point D F → M (List (Cell D) × Option (Cell D))
  | 0, _, _ => .error .fuel
  | fuel + 1, cell, tMax =>
    match selDim tMax with
    | none => .error (.panic .assertion)
    | some dim => do
      let x ← ck (cell dim + toInt (c.step dim))
      let cell' := Function.update cell dim x
      let tMax' := Function.update tMax dim (tMax dim +. c.tDelta dim)
      if cell' = c.endCell then .ok ([], some c.endCell)
      else if c.tooFar cell' then .ok ([], none)
      else do
        let (rest, e) ← castLoop c fuel cell' tMax'
        .ok (cell' :: rest, e)

/-- `cast_ray` (`src/ray_caster.rs:56-138`). -/
def castRay (fuel : ℕ) (origin end_ : Point D F) (bounds : Bounds D F) (resolution maxLen : F) :
    M (List (Cell D) × Option (Cell D)) :=
  if D = 2 ∨ D = 3 then
    let originCell := cellFromPoint origin bounds.min resolution
    let endCell := cellFromPoint end_ bounds.min resolution
    if originCell = endCell then .ok ([], some endCell)
    else do
      let dir := rayDir origin end_
      let step := vecSignum dir
      let t0 : Point D F := fun i =>
        tMax0 (step i) (dir i) (origin i) (bounds.min i) resolution (originCell i)
      let (rest, e) ← castLoop ck (rayCtx origin end_ bounds resolution maxLen) fuel originCell t0
      .ok (originCell :: rest, e)
  else .error (.panic .assertion)

/-- `cast_rays` (`src/ray_caster.rs:7-45`). -/
def castRays (fuel : ℕ) (origin : Point D F) (cloud : PointCloud D F) (bounds : Bounds D F)
    (resolution maxLen : F) : M (List (Cell D) × List (Cell D)) := do
  let (free, occ) ← cloud.points.foldlM (fun acc p => do
    let r ← castRay ck fuel origin p bounds resolution maxLen
    .ok (castRaysStep acc r)) (([] : List (Cell D)), ([] : List (Cell D)))
  .ok (occ.foldl (fun s c => hsRemove c s) free, occ)

/-- `integrate_point_cloud` (`src/map/lidar_noise_model.rs:116-150`). -/
def integratePointCloud (ord : List (Cell D) → List (Cell D)) (fuel : ℕ) (nm : LidarNoiseModel F)
    (m : GridMap D F F) (origin : Point D F) (cloud : PointCloud D F) : M (GridMap D F F) := do
  let m ← expandBounds ck m cloud.bounds nm.defaultCellValue
  let (free, occ) ← castRays ck fuel origin cloud m.bounds m.resolution nm.maxRange
  let track := m.trackChanges
  let m ← (ord free).foldlM (fun m c => nm.integrateMiss m c) m
  let m ← (ord occ).foldlM (fun m c => nm.integrateHit m c) m
  .ok (if track then m.addChangedCells (ord free ++ ord occ) else m)

open Classical in
/-- The operations of the visualizer on the map, as in `Viz.occOps`. -/
noncomputable def occOps (nm : LidarNoiseModel F) (recs : ℕ → Point D F × PointCloud D F)
    (ord : ℕ → List (Cell D) → List (Cell D)) : Viz.MapOps (GridMap D F F) (Cell D) (Point D F) :=
  { Viz.occOps nm recs ord with
    integrate := fun r m =>
      let call := fun fuel =>
        integratePointCloud ck (ord r) fuel nm (m.setTrackChanges true) (recs r).1 (recs r).2
      if h : ∃ m' fuel, call fuel = .ok m' then .ret h.choose
      else if ∃ fuel p, call fuel = .error (.panic p) then .panic
      else .hang }

end Build

end Verif
