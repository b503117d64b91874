import Verif.Model.VizMap

/-!
# A machine with limited memory

The model of the other files has no limit on memory. Here is `integrate_point_cloud` once more, on a machine on which
an allocation holds at most `B` entries; one that would have to hold more fails, and that ends the whole process
(`std::alloc::handle_alloc_error`), it is no panic of a thread. Every loop of the call that does not end keeps more
and more cells, so no fuel is needed.

Simplifications: entries are counted, not bytes, and each allocation on its own; what a `Vec` or a hash table reserves
beyond its entries is not counted; clones that are as long as what they are taken from are not counted; the render
thread's table of drawn cells, and the readers, are not limited.
-/

namespace Verif

open Scalar

namespace Mem

/-- Why a call did not return: a panic of the thread, or the process was ended since an allocation failed. -/
inductive Stop where
  | panic (p : Panic)
  | abort
  deriving DecidableEq, Repr

/-- The outcome of a call on the limited machine. -/
abbrev L := Except Stop

/-- A call that allocates nothing, as it is in the other files. (None of the calls this is used for has a loop with
fuel.) -/
def lift {α : Type} : M α → L α
  | .ok a => .ok a
  | .error (.panic p) => .error (.panic p)
  | .error .fuel => .error .abort

/-- An allocation of `k` entries. -/
def alloc (B k : ℕ) : L Unit := if k ≤ B then .ok () else .error .abort

variable {F : Type} [Scalar F] {D : ℕ} (B : ℕ)

/-- `ndarray_with_bounds` (`src/map/grid_map.rs:322-340`) for entries of four bytes, f32. `from_elem` panics if there
are more than `isize::MAX` bytes (or the count is negative as isize). -/
def ndarrayWithBounds (resolution : F) (bounds : Bounds D F) (default_ : F) : L (NdArray D F) := do
  let size := cellFromPoint bounds.max bounds.min resolution
  let n ← lift (isizeProd (List.ofFn size))
  if n < 0 ∨ 2 ^ 63 ≤ 4 * n then .error (.panic .capacity)
  else do
    alloc B n.toNat
    lift (NdArray.fromShapeVec (toNdIndex size) (List.replicate n.toNat default_))

/-- `expand_bounds` (`src/map/grid_map.rs:211-247` for two, `258-297` for three dimensions). -/
def expandBounds (m : GridMap D F F) (bounds : Bounds D F) (default_ : F) : L (GridMap D F F) := do
  let ncb ← lift (m.newCellBounds bounds)
  let newBounds := Bounds.fromCellBounds ncb m.resolution
  let cb := CellBounds.fromBounds m.bounds m.resolution
  if ncb = cb then .ok m
  else do
    let toData ← ndarrayWithBounds B m.resolution newBounds default_
    let toData ← if m.bounds.beq Bounds.empty then Except.ok toData else lift (m.copyOld cb ncb toData)
    .ok { m with bounds := newBounds, data := toData }

/-- The loop of `cast_ray` (`src/ray_caster.rs:97-137`); `ray_cells` has room for `room` more cells. -/
def castLoop (c : RayCtx D F) (room : ℕ) (cell : Cell D) (tMax : Point D F) : L (List (Cell D) × Option (Cell D)) :=
  match selDim tMax with
  | none => .error (.panic .assertion)
  | some dim => do
    let x ← lift (isz (cell dim + toInt (c.step dim)))
    let cell' := Function.update cell dim x
    let tMax' := Function.update tMax dim (tMax dim +. c.tDelta dim)
    if cell' = c.endCell then .ok ([], some c.endCell)
    else if c.tooFar cell' then .ok ([], none)
    else match room with
      | 0 => .error .abort
      | room + 1 => do
        let (rest, e) ← castLoop c room cell' tMax'
        .ok (cell' :: rest, e)

/-- `cast_ray` (`src/ray_caster.rs:56-138`). -/
def castRay (origin end_ : Point D F) (bounds : Bounds D F) (resolution maxLen : F) :
    L (List (Cell D) × Option (Cell D)) :=
  if D = 2 ∨ D = 3 then
    let originCell := cellFromPoint origin bounds.min resolution
    let endCell := cellFromPoint end_ bounds.min resolution
    if originCell = endCell then .ok ([], some endCell)
    else do
      alloc B 1
      let dir := rayDir origin end_
      let step := vecSignum dir
      let t0 : Point D F := fun i =>
        tMax0 (step i) (dir i) (origin i) (bounds.min i) resolution (originCell i)
      let (rest, e) ← castLoop (rayCtx origin end_ bounds resolution maxLen) (B - 1) originCell t0
      .ok (originCell :: rest, e)
  else .error (.panic .assertion)

/-- `cast_rays` (`src/ray_caster.rs:7-45`): after each ray, the two hash sets. (Within the ray they have fewer
entries.) -/
def castRays (origin : Point D F) (cloud : PointCloud D F) (bounds : Bounds D F) (resolution maxLen : F) :
    L (List (Cell D) × List (Cell D)) := do
  let (free, occ) ← cloud.points.foldlM (fun acc p => do
    let r ← castRay B origin p bounds resolution maxLen
    let acc' := castRaysStep acc r
    alloc B acc'.1.length
    alloc B acc'.2.length
    .ok acc') (([] : List (Cell D)), ([] : List (Cell D)))
  .ok (occ.foldl (fun s c => hsRemove c s) free, occ)

/-- `integrate_point_cloud` (`src/map/lidar_noise_model.rs:116-150`). The list of changed cells is reserved before the
loops and appended to that of the map after them. -/
def integratePointCloud (ord : List (Cell D) → List (Cell D)) (nm : LidarNoiseModel F) (m : GridMap D F F)
    (origin : Point D F) (cloud : PointCloud D F) : L (GridMap D F F) := do
  let m ← expandBounds B m cloud.bounds nm.defaultCellValue
  let (free, occ) ← castRays B origin cloud m.bounds m.resolution nm.maxRange
  let track := m.trackChanges
  if track then alloc B (free.length + occ.length) else .ok ()
  let m ← lift ((ord free).foldlM (fun m c => nm.integrateMiss m c) m)
  let m ← lift ((ord occ).foldlM (fun m c => nm.integrateHit m c) m)
  if track then do
    alloc B (m.changedCells.length + (free.length + occ.length))
    .ok (m.addChangedCells (ord free ++ ord occ))
  else .ok m

end Mem

namespace Viz

variable {D : ℕ} {F : Type} [Scalar F]

/-- Lines 83-84 of `viz/src/bin/draw_occupancy_grid.rs` on the limited machine. -/
def memIntegrate (B : ℕ) (nm : LidarNoiseModel F) (recs : ℕ → Point D F × PointCloud D F)
    (ord : ℕ → List (Cell D) → List (Cell D)) (r : ℕ) (m : GridMap D F F) : Mem.L (GridMap D F F) :=
  Mem.integratePointCloud B (ord r) nm (m.setTrackChanges true) (recs r).1 (recs r).2

/-- The operations of the visualizer on the map, on the limited machine. A call that ends the process takes no step of
`Step`, but one of `MemStep`. -/
noncomputable def memOps (B : ℕ) (nm : LidarNoiseModel F) (recs : ℕ → Point D F × PointCloud D F)
    (ord : ℕ → List (Cell D) → List (Cell D)) : MapOps (GridMap D F F) (Cell D) (Point D F) :=
  { occOps nm recs ord with
    integrate := fun r m => match memIntegrate B nm recs ord r m with
      | .ok m' => .ret m'
      | .error (.panic _) => .panic
      | .error .abort => .hang }

/-- Steps on the limited machine: those of the threads, and the end of the process, `none`, by a worker that
integrates. -/
inductive MemStep (B : ℕ) (nm : LidarNoiseModel F) (recs : ℕ → Point D F × PointCloud D F)
    (ord : ℕ → List (Cell D) → List (Cell D)) (n : ℕ) :
    Option (State (GridMap D F F) (Cell D) (Point D F)) → Option (State (GridMap D F F) (Cell D) (Point D F)) → Prop
  | run (s s' : State (GridMap D F F) (Cell D) (Point D F)) :
      Step (memOps B nm recs ord) n s s' → MemStep B nm recs ord n (some s) (some s')
  | abort (s : State (GridMap D F F) (Cell D) (Point D F)) (k r : ℕ) :
      s.workers[k]? = some (.integrate, r) → memIntegrate B nm recs ord r s.map = .error .abort →
      MemStep B nm recs ord n (some s) none

/-- Runs on the limited machine. -/
inductive MemReach (B : ℕ) (nm : LidarNoiseModel F) (recs : ℕ → Point D F × PointCloud D F)
    (ord : ℕ → List (Cell D) → List (Cell D)) (n : ℕ) (m : GridMap D F F) :
    Option (State (GridMap D F F) (Cell D) (Point D F)) → Prop
  | init : MemReach B nm recs ord n m (some (init m))
  | step (x y) : MemReach B nm recs ord n m x → MemStep B nm recs ord n x y → MemReach B nm recs ord n m y

end Viz

end Verif
