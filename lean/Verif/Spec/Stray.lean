import Verif.Spec.Longer
import Verif.Spec.Follows

/-!
# Specification vocabulary: two clouds that differ in some points
-/

namespace Verif.Spec

variable {F : Type} [Scalar F] {D : ℕ}

/-- The point is in exactly one of the two clouds. -/
def Stray (cloud1 cloud2 : PointCloud D F) (p : Point D F) : Prop :=
  (p ∈ cloud1.points ∧ p ∉ cloud2.points) ∨ (p ∈ cloud2.points ∧ p ∉ cloud1.points)

/-- The ray from the sensor to `p` passes the cell or ends in it. -/
def RayTouches (origin p : Point D F) (bounds : Bounds D F) (resolution maxLen : F) (c : Cell D) : Prop :=
  ∃ ray e, Casts origin p bounds resolution maxLen ray e ∧ (c ∈ ray ∨ e = some c)

/-- The line from the sensor through every point that is in exactly one of the two clouds, and onward, stays off the
world cell by `δ` cells. -/
def StraysPass (N : ℕ) (ρ δ : ℚ) (origin : Point D F32) (cloud1 cloud2 : PointCloud D F32) (w : Cell D) : Prop :=
  ∀ p, Stray cloud1 cloud2 p → ∃ K x y, Aims N K ρ origin p x y ∧ ∀ t, 0 ≤ t → Outside δ ρ w (lineAt x y t)

/-- The same sensor, and clouds of the same extent. -/
def SameExtent (a b : Point D F × PointCloud D F) : Prop := b.1 = a.1 ∧ b.2.bounds = a.2.bounds

end Verif.Spec
