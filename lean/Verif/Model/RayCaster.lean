import Verif.Model.Cloud

/-!
# Model of `src/ray_caster.rs`
-/

namespace Verif

variable {F : Type} [Scalar F] {D : ℕ}

open Scalar

/-- Choice of the next axis (`src/ray_caster.rs:100-120`). `none` for dimensions other than 2 and 3,
which the assertion at line 67 excludes. -/
def selDim : {D : ℕ} → Point D F → Option (Fin D)
  | 3, t =>
    some (if t 0 <. t 1 then (if t 0 <. t 2 then 0 else 2) else if t 1 <. t 2 then 1 else 2)
  | 2, t => some (if t 0 <. t 1 then 0 else 1)
  | _, _ => none

/-- The values that stay fixed in the loop of `cast_ray`. -/
structure RayCtx (D : ℕ) (F : Type) where
  origin : Point D F
  boundsMin : Point D F
  resolution : F
  maxLen : F
  step : Point D F
  tDelta : Point D F
  endCell : Cell D

/-- Is the cell beyond the range limit? (`src/ray_caster.rs:126-134`) -/
def RayCtx.tooFar (c : RayCtx D F) (cell : Cell D) : Bool :=
  (lit 0 <. c.maxLen) &&
    ((c.maxLen *. c.maxLen) <.
      normSquared fun i => pointFromCell cell c.boundsMin c.resolution i -. c.origin i)

/-- The loop of `cast_ray` (`src/ray_caster.rs:97-137`), from `current_cell` and `t_max`: the cells
pushed from now on, and the second component of the result. -/
def castLoop (c : RayCtx D F) : ℕ → Cell D → Point D F → M (List (Cell D) × Option (Cell D))
  | 0, _, _ => .error .fuel
  | fuel + 1, cell, tMax =>
    match selDim tMax with
    | none => .error (.panic .assertion)
    | some dim => do
      let x ← isz (cell dim + toInt (c.step dim))
      let cell' := Function.update cell dim x
      let tMax' := Function.update tMax dim (tMax dim +. c.tDelta dim)
      if cell' = c.endCell then .ok ([], some c.endCell)
      else if c.tooFar cell' then .ok ([], none)
      else do
        let (rest, e) ← castLoop c fuel cell' tMax'
        .ok (cell' :: rest, e)

/-- Initial `t_max` coordinate (`src/ray_caster.rs:83-96`). -/
def tMax0 (step dir origin offset resolution : F) (cell : ℤ) : F :=
  if step ==. lit 0 then inf
  else
    let border := pointCoordFromCellCoord cell offset resolution +. step *. resolution *. lit (1/2)
    (border -. origin) /. dir

/-- `t_delta` coordinate (`src/ray_caster.rs:83-96`). -/
def tDelta0 (step dir resolution : F) : F :=
  if step ==. lit 0 then inf else resolution /. abs dir

/-- `direction` (`src/ray_caster.rs:76-78`). -/
def rayDir (origin end_ : Point D F) : Point D F :=
  let ray : Point D F := fun i => end_ i -. origin i
  let len := norm ray
  fun i => ray i /. len

/-- The loop context of `cast_ray`. -/
def rayCtx (origin end_ : Point D F) (bounds : Bounds D F) (resolution maxLen : F) : RayCtx D F :=
  let dir := rayDir origin end_
  let step := vecSignum dir
  { origin := origin, boundsMin := bounds.min, resolution := resolution, maxLen := maxLen,
    step := step, tDelta := fun i => tDelta0 (step i) (dir i) resolution,
    endCell := cellFromPoint end_ bounds.min resolution }

/-- `cast_ray` (`src/ray_caster.rs:56-138`). `fuel` bounds the number of loop iterations. -/
def castRay (fuel : ℕ) (origin end_ : Point D F) (bounds : Bounds D F) (resolution maxLen : F) :
    M (List (Cell D) × Option (Cell D)) :=
  if D = 2 ∨ D = 3 then
    let originCell := cellFromPoint origin bounds.min resolution
    let endCell := cellFromPoint end_ bounds.min resolution
    if originCell = endCell then .ok ([], some endCell)
    else do
      let dir := rayDir origin end_
      let step := vecSignum dir
      let t0 : Point D F := fun i =>
        tMax0 (step i) (dir i) (origin i) (bounds.min i) resolution (originCell i)
      let (rest, e) ← castLoop (rayCtx origin end_ bounds resolution maxLen) fuel originCell t0
      .ok (originCell :: rest, e)
  else .error (.panic .assertion)

/-! ## Hash sets

A `HashSet<Cell>` is a duplicate-free list. Loops over it (in `lidar_noise_model.rs`) take an
arbitrary reordering of the list. -/

/-- `HashSet::insert`. -/
def hsInsert {α : Type} [DecidableEq α] (a : α) (s : List α) : List α := if a ∈ s then s else s ++ [a]

/-- `HashSet::remove`. -/
def hsRemove {α : Type} [DecidableEq α] (a : α) (s : List α) : List α := s.filter (· ≠ a)

/-- Closure of the fold in `cast_rays` (`src/ray_caster.rs:31-39`). -/
def castRaysStep (acc : List (Cell D) × List (Cell D)) (r : List (Cell D) × Option (Cell D)) :
    List (Cell D) × List (Cell D) :=
  let occ := match r.2 with
    | some e => hsInsert e acc.2
    | none => acc.2
  (r.1.foldl (fun s c => hsInsert c s) acc.1, occ)

/-- `cast_rays` (`src/ray_caster.rs:7-45`): the free and the occupied cells. -/
def castRays (fuel : ℕ) (origin : Point D F) (cloud : PointCloud D F) (bounds : Bounds D F)
    (resolution maxLen : F) : M (List (Cell D) × List (Cell D)) := do
  let (free, occ) ← cloud.points.foldlM (fun acc p => do
    let r ← castRay fuel origin p bounds resolution maxLen
    .ok (castRaysStep acc r)) (([] : List (Cell D)), ([] : List (Cell D)))
  .ok (occ.foldl (fun s c => hsRemove c s) free, occ)

end Verif
