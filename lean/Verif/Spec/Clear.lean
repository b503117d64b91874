import Verif.Spec.Follows

/-!
# Specification vocabulary: segments that keep clear of the corners of the cells
-/

namespace Verif.Spec

variable {D : ℕ}

/-- The segment from `x` to `y` meets the closed box of the cell, widened by `tol` on every side (cells of side
`ρ`, cell 0 centred at `q`). -/
def Touches (q x y : Fin D → ℚ) (ρ tol : ℚ) (w : Cell D) : Prop :=
  ∃ t : ℚ, 0 ≤ t ∧ t ≤ 1 ∧ ∀ i, |lineAt x y t i - (q i + w i * ρ)| ≤ ρ / 2 + tol

/-- The segment meets the inside of the box of the cell, narrowed by `tol` on every side. -/
def Enters (q x y : Fin D → ℚ) (ρ tol : ℚ) (w : Cell D) : Prop :=
  ∃ t : ℚ, 0 ≤ t ∧ t ≤ 1 ∧ ∀ i, |lineAt x y t i - (q i + w i * ρ)| < ρ / 2 - tol

/-- Every cell that the segment comes near it also enters: it does not graze a cell, neither at a corner nor along
a side, nor with its ends. -/
def ClearSegment (q x y : Fin D → ℚ) (ρ tol : ℚ) : Prop := ∀ w, Touches q x y ρ tol w → Enters q x y ρ tol w

end Verif.Spec
