import Verif.Spec.Scan
import Verif.Spec.Distance
import Verif.Spec.Rigid
import Verif.Spec.Kitti
import Verif.Model.VizMain

/-!
# Specification vocabulary: what a scan tells about a place
-/

namespace Verif.Spec

variable {D : ℕ}

/-- The tolerance, in cells, for rays of up to `K` cells on each axis, in a world of up to `N` cells on each side of
the world origin. -/
def rayTol (N K : ℕ) : ℚ := (13 * N + K ^ 2 + 14 * K + 80) / 2 ^ 24

/-- A ray from `x` to `y` in the working range: cells of side `ρ`, the sensor and the point at most `N` cells from the
world origin on each axis; at most `K` cells from the sensor to the point; and on each axis the two are level, or not
almost level. -/
structure Aims (N K : ℕ) (ρ : ℚ) (origin p : Point D F32) (x y : Fin D → ℚ) : Prop where
  res_lo : 1 / 2 ^ 20 ≤ ρ
  res_hi : ρ ≤ 2 ^ 20
  N_lo : 1 ≤ N
  N_hi : N ≤ 2 ^ 18
  sensor : ∀ i, (origin i).Is (x i)
  sensor_near : ∀ i, |x i| ≤ N * ρ
  point : ∀ i, (p i).Is (y i)
  point_near : ∀ i, |y i| ≤ N * ρ
  length : ∀ i, |y i - x i| ≤ K * ρ
  apart : ∀ i, y i = x i ∨ ρ / 2 ^ 40 ≤ |y i - x i|

/-- The point lies in the world cell, `δ` cells away from its border. -/
def Inside (δ ρ : ℚ) (w : Cell D) (y : Fin D → ℚ) : Prop := ∀ i, |y i - w i * ρ| ≤ (1 / 2 - δ) * ρ

/-- The point lies outside the world cell, `δ` cells away from its border. -/
def Outside (δ ρ : ℚ) (w : Cell D) (y : Fin D → ℚ) : Prop := ∃ i, (1 / 2 + δ) * ρ < |y i - w i * ρ|

/-- Some point of the scan lies in the world cell, off its border by the tolerance, and three cells nearer than the
range limit `lam`. -/
def Hits (N K : ℕ) (ρ lam : ℚ) (origin : Point D F32) (cloud : PointCloud D F32) (w : Cell D) : Prop :=
  ∃ p ∈ cloud.points, ∃ x y l, Aims N K ρ origin p x y ∧ Inside (rayTol N K) ρ w y ∧ DistLe x y l ∧
    l + 3 * ρ ≤ lam * (1 - 1 / 2 ^ 20)

/-- The segment to some point of the scan, itself off the borders of its cell, passes the world cell, off its border
by the tolerance; the centre of the cell is four cells nearer than the range limit `lam`; and all points of the scan
lie outside the cell, off its border by the tolerance. -/
def PassesCell (N K : ℕ) (ρ lam : ℚ) (origin : Point D F32) (cloud : PointCloud D F32) (w : Cell D) : Prop :=
  (∃ p ∈ cloud.points, ∃ x y l, Aims N K ρ origin p x y ∧ (∃ we, Inside (rayTol N K) ρ we y) ∧
    (∃ t, 0 ≤ t ∧ t ≤ 1 ∧ ∀ i, |x i + t * (y i - x i) - w i * ρ| < (1 / 2 - rayTol N K) * ρ) ∧
    DistLe x (fun i => w i * ρ) l ∧ l + 4 * ρ ≤ lam * (1 - 1 / 2 ^ 20)) ∧
  ∀ p ∈ cloud.points, ∃ y, (∀ i, (p i).Is (y i)) ∧ (∀ i, |y i| ≤ N * ρ) ∧ Outside (rayTol N K) ρ w y

/-- All points of the cloud are finite and at most `M` cells from the world origin on each axis. -/
def WithinCells (M : ℕ) (ρ : ℚ) (cloud : PointCloud D F32) : Prop :=
  ∀ p ∈ cloud.points, ∀ i, ∃ y, (p i).Is y ∧ |y| ≤ M * ρ

/-! ## The same with real numbers, known up to `ε` on each axis -/

/-- The numbers of the scan are within `ε`, on each axis, of the sensor `X` and the points `pts`. -/
def NearScan (ε : ℝ) (origin : Point D F32) (cloud : PointCloud D F32) (X : Fin D → ℝ) (pts : List (Fin D → ℝ)) :
    Prop :=
  (∀ i, NearReal (origin i) (X i) ε) ∧ List.Forall₂ (fun p Y => ∀ i, NearReal (p i) (Y i) ε) cloud.points pts

/-- A ray from `X` to `Y` in the working range, and not almost level on any axis. -/
structure AimsReal (N K : ℕ) (ρ ε : ℝ) (X Y : Fin D → ℝ) : Prop where
  sensor_near : ∀ i, |X i| + ε ≤ N * ρ
  point_near : ∀ i, |Y i| + ε ≤ N * ρ
  length : ∀ i, |Y i - X i| + 2 * ε ≤ K * ρ
  apart : ∀ i, ρ / 2 ^ 40 + 2 * ε ≤ |Y i - X i|

/-- Squared distance in any number of dimensions. -/
def sqLen (X Y : Fin D → ℝ) : ℝ := ∑ i, (Y i - X i) ^ 2

/-- `Hits`, from real numbers. -/
def HitsReal (N K : ℕ) (ρ lam ε : ℝ) (X : Fin D → ℝ) (pts : List (Fin D → ℝ)) (w : Cell D) : Prop :=
  ∃ Y ∈ pts, AimsReal N K ρ ε X Y ∧ (∀ i, |Y i - w i * ρ| + ε ≤ (1 / 2 - rayTol N K) * ρ) ∧
    √(sqLen X Y) + 4 * ε + 3 * ρ ≤ lam * (1 - 1 / 2 ^ 20)

/-- `PassesCell`, from real numbers. -/
def PassesReal (N K : ℕ) (ρ lam ε : ℝ) (X : Fin D → ℝ) (pts : List (Fin D → ℝ)) (w : Cell D) : Prop :=
  (∃ Y ∈ pts, AimsReal N K ρ ε X Y ∧ (∃ we : Cell D, ∀ i, |Y i - we i * ρ| + ε ≤ (1 / 2 - rayTol N K) * ρ) ∧
    (∃ t, 0 ≤ t ∧ t ≤ 1 ∧ ∀ i, |X i + t * (Y i - X i) - w i * ρ| + ε < (1 / 2 - rayTol N K) * ρ) ∧
    √(sqLen X fun i => w i * ρ) + 4 * ε + 4 * ρ ≤ lam * (1 - 1 / 2 ^ 20)) ∧
  ∀ Y ∈ pts, (∀ i, |Y i| + ε ≤ N * ρ) ∧ ∃ i, (1 / 2 + rayTol N K) * ρ + ε < |Y i - w i * ρ|

/-- The points of a cloud file, as real numbers, each moved by the angles and the offset. -/
noncomputable def movedPoints (roll pitch yaw : ℝ) (t : Fin 3 → ℝ) (bytes : List (BitVec 8)) : List (Fin 3 → ℝ) :=
  (List.range (bytes.length / 16)).map fun j =>
    rigid roll pitch yaw t fun m => ((Viz.f32OfBits (wordAt bytes (16 * j + 4 * m.val))).val : ℝ)

end Verif.Spec
