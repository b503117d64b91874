import Verif.Spec.Cost
import Verif.Spec.Obstacle

/-!
# Specification vocabulary: drawn points and measured points
-/

namespace Verif.Spec

variable {D : ℕ}

/-- The point `p` is within `d`, on each axis, of a point of one of the first `k` scans, the `n` recordings being played
over and over. -/
def Measured (d : ℚ) (recs : ℕ → Point D F32 × PointCloud D F32) (n k : ℕ) (p : Point D F32) : Prop :=
  ∃ j < k, ∃ y ∈ (recs (j % n)).2.points, ∀ i, ∃ a b, (p i).Is a ∧ (y i).Is b ∧ |a - b| ≤ d

end Verif.Spec
