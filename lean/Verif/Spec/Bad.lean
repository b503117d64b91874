import Verif.Spec.Scan
import Verif.Spec.Distance
import Verif.Model.Viz
import Verif.Spec.Obstacle

/-!
# Specification vocabulary: scans with NaN coordinates
-/

namespace Verif.Spec

variable {D : ℕ}

/-- The cell `n` cells below `a` along axis `d`. -/
def below (a : Cell D) (d : Fin D) (n : ℕ) : Cell D := Function.update a d (a d - n)

/-- A point with a NaN coordinate. -/
def IsBad (p : Point D F32) : Prop := ∃ i, p i = .nan

/-- Every coordinate of the cloud is NaN or a number of at most `M` cells. -/
def NanCoords (M : ℕ) (ρ : ℚ) (cloud : PointCloud D F32) : Prop :=
  ∀ p ∈ cloud.points, ∀ i, p i = .nan ∨ ∃ y, (p i).Is y ∧ |y| ≤ M * ρ

/-- A scan in the working range, but for NaN coordinates: the sensor is at `x`, every coordinate of a point that is
not NaN is a number of at most `M` cells, and the points without NaN are on no axis absurdly close to the
sensor without being at it. -/
structure NanScan (M : ℕ) (ρ : ℚ) (origin : Point D F32) (cloud : PointCloud D F32) (x : Fin D → ℚ) : Prop where
  res_lo : 1 / 2 ^ 20 ≤ ρ
  res_hi : ρ ≤ 2 ^ 20
  sensor : ∀ i, (origin i).Is (x i)
  sensor_near : ∀ i, |x i| ≤ M * ρ
  coords : NanCoords M ρ cloud
  apart : ∀ p ∈ cloud.points, ¬ IsBad p → ∀ i y, (p i).Is y → y = x i ∨ ρ / 2 ^ 40 ≤ |y - x i|

/-- Along axis `d`, all the numbers of the cloud are at least `b`. -/
def Above (d : Fin D) (b : ℚ) (cloud : PointCloud D F32) : Prop :=
  ∀ p ∈ cloud.points, ∀ y, (p d).Is y → b ≤ y

/-- The point's cell is certainly not straight below the sensor's along axis `d`: on another axis the coordinate is
NaN, and the sensor is two cells or more above the world origin or above some point of the cloud, or the
coordinate is a number two cells or more from the sensor's. -/
def Aside (ρ : ℚ) (d : Fin D) (cloud : PointCloud D F32) (x : Fin D → ℚ) (p : Point D F32) : Prop :=
  ∃ i, i ≠ d ∧ ((p i = .nan ∧ (2 * ρ ≤ x i ∨ ∃ p' ∈ cloud.points, ∃ y, (p' i).Is y ∧ y + 2 * ρ ≤ x i)) ∨
    ∃ y, (p i).Is y ∧ 2 * ρ ≤ |y - x i|)

/-- What the visualizer is asked to play, for C98: the recordings up to number `r` are in the working range but
for NaN coordinates, and above tile border `k` along the last axis, `d`; recording `r` has a point with a NaN
coordinate, not straight below the sensor, and tile border `k` is within the range limit of its sensor; or recording
`r` has an infinite coordinate, whatever the others, and the tile size divides neither 2^63 nor 2^63 - 1. -/
structure BadPlay (M T : ℕ) (ρ lam : ℚ) (d : Fin D) (k : ℤ) (r : ℕ) (recs : ℕ → Point D F32 × PointCloud D F32) :
    Prop where
  last : ∀ j, j ≤ d
  M_lo : 1 ≤ M
  M_hi : M + T + 1 ≤ 2 ^ 18
  k_le : k ≤ 0
  scans : ∀ r' < r, ∃ x, NanScan M ρ (recs r').1 (recs r').2 x ∧ Above d (k * T * ρ) (recs r').2
  bad : (∃ x, NanScan M ρ (recs r).1 (recs r).2 x ∧ Above d (k * T * ρ) (recs r).2 ∧
      (∃ p ∈ (recs r).2.points, IsBad p ∧ Aside ρ d (recs r).2 x p) ∧
      x d - k * T * ρ + 5 * ρ ≤ lam * (1 - 1 / 2 ^ 20)) ∨
    (¬ T ∣ 2 ^ 63 ∧ ¬ T ∣ 2 ^ 63 - 1 ∧ ∃ p ∈ (recs r).2.points, ∃ i s, p i = .inf s)
  lam_lo : 1 / 2 ^ 60 ≤ lam
  lam_hi : lam ≤ M * ρ

/-- The three numbers of record `j` of a cloud file are finite. -/
def FiniteRecord (bytes : List (BitVec 8)) (j : ℕ) : Prop :=
  ∀ n : Fin 3, (Viz.f32OfBits (wordAt bytes (16 * j + 4 * n.val))).isFin = true

/-- `Y` is a point of the cloud file with three finite numbers, moved by the angles and the offset. -/
def FinitePoint (roll pitch yaw : ℝ) (t : Fin 3 → ℝ) (bytes : List (BitVec 8)) (Y : Fin 3 → ℝ) : Prop :=
  ∃ j < bytes.length / 16, FiniteRecord bytes j ∧
    Y = rigid roll pitch yaw t fun m => ((Viz.f32OfBits (wordAt bytes (16 * j + 4 * m.val))).val : ℝ)

/-- A scan in the working range and above `b`, from real numbers known up to `ε` on each axis. -/
structure RealScan (M : ℕ) (ρ ε b : ℝ) (X : Fin 3 → ℝ) (pts : (Fin 3 → ℝ) → Prop) : Prop where
  sensor_near : ∀ i, |X i| + ε ≤ M * ρ
  points : ∀ Y, pts Y → ∀ i, |Y i| + ε ≤ M * ρ ∧ ρ / 2 ^ 40 + 2 * ε ≤ |Y i - X i|
  floor : ∀ Y, pts Y → b + ε ≤ Y 2

/-- The worker has not got past integrating. -/
def NotPast (pc : Viz.WorkerPc) : Prop := pc = .lockMap ∨ pc = .integrate ∨ pc = .dead

end Verif.Spec
