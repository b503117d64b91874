import Verif.Spec.Geometric

/-!
# Specification vocabulary: points on the line of sight to other points
-/

namespace Verif.Spec

variable {D : ℕ}

/-- Seen from `x`, the point `y'` lies up to `τ` on the way to one of the points, and that way keeps clear of the
corners of the world cells of side `ρ` by `τ`. -/
def InFront (τ ρ : ℚ) (x : Fin D → ℚ) (pts : List (Fin D → ℚ)) (y' : Fin D → ℚ) : Prop :=
  ∃ y ∈ pts, ClearSegment (fun _ => 0) x y ρ τ ∧ ∃ s : ℚ, 0 ≤ s ∧ s ≤ 1 ∧ ∀ i, |y' i - (x i + s * (y i - x i))| ≤ τ

/-- The scan with the points `pts'` has the points `pts` and further ones in front of them. -/
structure AddsInFront (τ ρ : ℚ) (x : Fin D → ℚ) (pts pts' : List (Fin D → ℚ)) : Prop where
  keeps : ∀ y ∈ pts, y ∈ pts'
  new : ∀ y' ∈ pts', y' ∈ pts ∨ InFront τ ρ x pts y'

end Verif.Spec
