import Verif.Spec.RayRange
import Mathlib.Algebra.BigOperators.Fin

/-!
# Specification vocabulary: distances
-/

namespace Verif.Spec

variable {D : ℕ}

/-- The square of the Euclidean distance. -/
def distSq (x y : Fin D → ℚ) : ℚ := ∑ i, (y i - x i) ^ 2

/-- The distance of two points is at most `l`. -/
def DistLe (x y : Fin D → ℚ) (l : ℚ) : Prop := 0 ≤ l ∧ distSq x y ≤ l ^ 2

/-- The centre of a cell of side `ρ`, if cell 0 is centred at `q`. -/
def centre (q : Fin D → ℚ) (ρ : ℚ) (z : Cell D) : Fin D → ℚ := fun i => q i + z i * ρ

/-- How far the computed distance may be off: the centre of a cell and the difference from the sensor are
rounded. -/
def rangeTol (N ρ : ℚ) : ℚ := 2 * ((5 * N + 4) / 2 ^ 24 * ρ)

end Verif.Spec
