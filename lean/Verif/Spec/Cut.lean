import Verif.Spec.Geometric

/-!
# Specification vocabulary: what geometry tells about a place if the sensor's range is limited
-/

namespace Verif.Spec

variable {D : ℕ}

/-- The point lies in the closed world cell of side `ρ`. -/
def Holds (ρ : ℚ) (w : Cell D) (y : Fin D → ℚ) : Prop := ∀ i, |y i - w i * ρ| ≤ ρ / 2

/-- On the way from `x` to `y` a share `t` of it is behind, and the place reached is inside the world cell. -/
def InsideAt (ρ : ℚ) (x y : Fin D → ℚ) (t : ℚ) (w : Cell D) : Prop :=
  0 ≤ t ∧ t ≤ 1 ∧ ∀ i, |x i + t * (y i - x i) - w i * ρ| < ρ / 2

/-- On the way from `x` to `y`, up to the share `t`, there is a cell other than those of `x` and `y` whose centre is
farther from `x` than `lam`. -/
def Blocked (lam ρ : ℚ) (x y : Fin D → ℚ) (t : ℚ) : Prop :=
  ∃ u s, s ≤ t ∧ InsideAt ρ x y s u ∧ ¬ Holds ρ u x ∧ ¬ Holds ρ u y ∧ lam ^ 2 < distSq x fun i => u i * ρ

open Classical in
/-- What a scan taken from `x`, with these points and the range limit `lam`, tells about a world cell of side `ρ`: a
hit if a point lies in the closed cell and the way to it is not blocked, else a miss if the way to some point leads
through the inside of the cell and is not blocked up to there, else nothing. -/
noncomputable def geoUpTo (lam ρ : ℚ) (x : Fin D → ℚ) (pts : List (Fin D → ℚ)) (w : Cell D) : Seen :=
  if ∃ y ∈ pts, Holds ρ w y ∧ ¬ Blocked lam ρ x y 1 then .hit
  else if ∃ y ∈ pts, ∃ t, InsideAt ρ x y t w ∧ ¬ Blocked lam ρ x y t then .miss
  else .nothing

/-- How far the f32 computation of a distance from the sensor to a centre may be off, with `N` cells to the origin. -/
def limitTol (N : ℕ) (ρ : ℚ) : ℚ := (26 * N + 32) / 2 ^ 24 * ρ

/-- No cell on the way from `x` to `y` has its centre so near to the limit that rounding could matter. -/
def OffLimit (N : ℕ) (lam ρ : ℚ) (x y : Fin D → ℚ) : Prop :=
  ∀ u t, InsideAt ρ x y t u → ¬ Holds ρ u x → ¬ Holds ρ u y →
    DistLe x (fun i => u i * ρ) (lam * (1 - 1 / 2 ^ 20) - limitTol N ρ) ∨
      ¬ DistLe x (fun i => u i * ρ) (lam * (1 + 1 / 2 ^ 20) + limitTol N ρ)

/-- A scan taken from `x`, with the points `pts` and the range limit `lam`, as `ClearRays`, but the points may lie on
both sides of the limit; only no centre of a cell on the way may be at the very limit. -/
structure CutRays (N K : ℕ) (ρ : ℚ) (ml : F32) (lam : ℚ) (origin : Point D F32) (cloud : PointCloud D F32)
    (x : Fin D → ℚ) (pts : List (Fin D → ℚ)) : Prop where
  numbers : List.Forall₂ (fun p y => Aims N K ρ origin p x y) cloud.points pts
  clear : ∀ y ∈ pts, ClearSegment (fun _ => 0) x y ρ (rayTol N K * ρ)
  limit : ml.Is lam
  limit_lo : 1 / 2 ^ 60 ≤ lam
  limit_hi : lam ≤ 2 ^ 60
  off_limit : ∀ y ∈ pts, OffLimit N lam ρ x y

/-- What scans, each with its sensor and its points, make of the value of a world cell, with a range limit. -/
noncomputable def cutFold (nm : LidarNoiseModel F32) (lam ρ : ℚ) (scans : List ((Fin D → ℚ) × List (Fin D → ℚ)))
    (w : Cell D) (v : F32) : F32 :=
  scans.foldl (fun v s => Seen.apply nm v (geoUpTo lam ρ s.1 s.2 w)) v

end Verif.Spec
