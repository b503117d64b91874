import Verif.Spec.Bad

/-!
# Specification vocabulary: recordings whose first scan is lost
-/

namespace Verif.Spec

variable {D : ℕ}

/-- No coordinate of the cloud is a number, and it has a point. -/
def AllNan (cloud : PointCloud D F32) : Prop := cloud.points ≠ [] ∧ ∀ p ∈ cloud.points, ∀ i, p i = .nan

/-- What the visualizer is asked to play, for C102: the sensor of the first recording is at the world origin and its
points are all NaN; the other recordings are in the working range (but for NaN coordinates) and above tile border `k`
along the last axis, `d`, which is within the range limit of the origin; and some point of theirs is two cells or more
below the origin on another axis. -/
structure FirstLost (M T : ℕ) (ρ lam : ℚ) (d : Fin D) (k : ℤ) (n : ℕ) (recs : ℕ → Point D F32 × PointCloud D F32) :
    Prop where
  last : ∀ j, j ≤ d
  M_lo : 1 ≤ M
  M_hi : M + T + 1 ≤ 2 ^ 18
  k_le : k ≤ 0
  sensor : ∀ i, ((recs 0).1 i).Is 0
  first : AllNan (recs 0).2
  scans : ∀ r, 0 < r → r < n → ∃ x, NanScan M ρ (recs r).1 (recs r).2 x ∧ Above d (k * T * ρ) (recs r).2
  low : ∃ r, 0 < r ∧ r < n ∧ ∃ p ∈ (recs r).2.points, ∃ i, i ≠ d ∧ ∃ y, (p i).Is y ∧ y ≤ -2 * ρ
  floor : -(k * T * ρ) + 5 * ρ ≤ lam * (1 - 1 / 2 ^ 20)
  lam_lo : 1 / 2 ^ 60 ≤ lam
  lam_hi : lam ≤ M * ρ

end Verif.Spec
