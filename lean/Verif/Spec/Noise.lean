import Verif.Model.NoiseModel
import Verif.Spec.Boxes
import Verif.Spec.Rays
import Verif.Spec.Grid

/-!
# Specification vocabulary: occupancy updates
-/

namespace Verif.Spec

variable {F : Type} [Scalar F] {D : ℕ}

/-- A possible iteration order of hash sets: every set is enumerated completely, in any order. -/
def IsOrder (ord : List (Cell D) → List (Cell D)) : Prop := ∀ l, (ord l).Perm l

/-- `integrate_point_cloud` called with these arguments returns, and leaves the map as `m'`. -/
def Integrates (ord : List (Cell D) → List (Cell D)) (nm : LidarNoiseModel F) (m : GridMap D F F)
    (origin : Point D F) (cloud : PointCloud D F) (m' : GridMap D F F) : Prop :=
  ∃ fuel, nm.integratePointCloud ord fuel m origin cloud = .ok m'

/-- The value lies between the configured minimum and maximum (so it is not NaN). -/
def InLimits {f : Fmt} (nm : LidarNoiseModel (Fp f)) (v : Fp f) : Prop := FLe nm.min v ∧ FLe v nm.max

/-- Every stored value lies between the configured minimum and maximum. -/
def MapInLimits {f : Fmt} (nm : LidarNoiseModel (Fp f)) (m : GridMap D (Fp f) (Fp f)) : Prop :=
  ∀ c v, m.get c = .ok v → InLimits nm v

/-- What a scan tells about a cell. -/
inductive Seen where
  | hit | miss | nothing

/-- One hit, one miss, or nothing, applied to a stored value. -/
def Seen.apply (nm : LidarNoiseModel F) (v : F) : Seen → F
  | .hit => Scalar.fmin (Scalar.add v nm.hit) nm.max
  | .miss => Scalar.fmax (Scalar.add v nm.miss) nm.min
  | .nothing => v

open Classical in
/-- What a scan tells about a cell: a hit if some ray ends there, else a miss if some ray passes
through, else nothing. -/
noncomputable def seen (origin : Point D F) (cloud : PointCloud D F) (bounds : Bounds D F)
    (resolution maxLen : F) (c : Cell D) : Seen :=
  if ∃ p ∈ cloud.points, ∃ ray, Casts origin p bounds resolution maxLen ray (some c) then .hit
  else if ∃ p ∈ cloud.points, ∃ ray e, Casts origin p bounds resolution maxLen ray e ∧ c ∈ ray then .miss
  else .nothing

/-- A sequence of integrations leading from one map to another; each entry records the scan and the map
right after it. The hash orders may differ from step to step. -/
inductive History (nm : LidarNoiseModel F) :
    GridMap D F F → List (GridMap D F F × Point D F × PointCloud D F) → GridMap D F F → Prop
  | done (m) : History nm m [] m
  | step {m m1 m' ord origin cloud rest} : IsOrder ord → Integrates ord nm m origin cloud m1 →
      History nm m1 rest m' → History nm m ((m1, origin, cloud) :: rest) m'

/-- All points of the cloud are finite and at most 2^18 cells from the origin on each axis. -/
def CloudInRange (cloud : PointCloud D F32) (ρ : ℚ) : Prop :=
  ∀ p ∈ cloud.points, ∀ i, ∃ x, (p i).Is x ∧ |x| ≤ 2 ^ 18 * ρ

/-- The index, in a map with these bounds, of a world cell. -/
def localCell (m : GridMap D F F) (w : Cell D) : Cell D :=
  fun i => w i - (CellBounds.fromBounds m.bounds m.resolution).min i

end Verif.Spec
