import Verif.Spec.Obstacle
import Verif.Spec.Motion

/-!
# Specification vocabulary: what geometry alone tells about a place
-/

namespace Verif.Spec

variable {D : ℕ}

open Classical in
/-- What a scan taken from `x`, with these points, tells about a world cell of side `ρ`: a hit if a point lies in the
closed cell, else a miss if the segment to some point meets the closed cell, else nothing. -/
noncomputable def geoSeen (ρ : ℚ) (x : Fin D → ℚ) (pts : List (Fin D → ℚ)) (w : Cell D) : Seen :=
  if ∃ y ∈ pts, ∀ i, |y i - w i * ρ| ≤ ρ / 2 then .hit
  else if ∃ y ∈ pts, ∃ t : ℚ, 0 ≤ t ∧ t ≤ 1 ∧ ∀ i, |x i + t * (y i - x i) - w i * ρ| ≤ ρ / 2 then .miss
  else .nothing

/-- There is no range limit, or the distance from `x` to `y` is three cells below it. -/
def WithinLimit (ml : F32) (ρ : ℚ) (x y : Fin D → ℚ) : Prop :=
  Scalar.lt (Scalar.lit 0) ml = false ∨
    ∃ lam l, ml.Is lam ∧ lam ≤ 2 ^ 60 ∧ DistLe x y l ∧ l + 3 * ρ ≤ lam * (1 - 1 / 2 ^ 20)

/-- A scan taken from `x`, with the points `pts`: the numbers are in the working range, no point is beyond the range
limit, and the segments to the points keep clear of the corners of the world cells. -/
structure ClearRays (N K : ℕ) (ρ : ℚ) (ml : F32) (origin : Point D F32) (cloud : PointCloud D F32) (x : Fin D → ℚ)
    (pts : List (Fin D → ℚ)) : Prop where
  numbers : List.Forall₂ (fun p y => Aims N K ρ origin p x y) cloud.points pts
  clear : ∀ y ∈ pts, ClearSegment (fun _ => 0) x y ρ (rayTol N K * ρ)
  range : ∀ y ∈ pts, WithinLimit ml ρ x y

/-- What scans, each with its sensor and its points, make of the value of a world cell. -/
noncomputable def geoFold (nm : LidarNoiseModel F32) (ρ : ℚ) (scans : List ((Fin D → ℚ) × List (Fin D → ℚ))) (w : Cell D)
    (v : F32) : F32 :=
  scans.foldl (fun v s => Seen.apply nm v (geoSeen ρ s.1 s.2 w)) v

/-- The point `y'` among cells of side `ρ'` is where the motion takes the point `y` among cells of side `ρ`. -/
def MovedPoint (g : GridMotion D) (ρ ρ' : ℚ) (y y' : Fin D → ℚ) : Prop :=
  inCells (fun _ => 0) ρ' y' = g.point (inCells (fun _ => 0) ρ y)

/-- The same for a scan. -/
def MovedScan (g : GridMotion D) (ρ ρ' : ℚ) (s s' : (Fin D → ℚ) × List (Fin D → ℚ)) : Prop :=
  MovedPoint g ρ ρ' s.1 s'.1 ∧ List.Forall₂ (MovedPoint g ρ ρ') s.2 s'.2

end Verif.Spec
