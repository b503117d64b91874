import Verif.Spec.Geometric

/-!
# Specification vocabulary: a coarser grid
-/

namespace Verif.Spec

variable {D : ℕ}

/-- Cells of `2j + 1` times the side, cell 0 centred at the same place: the cell `w` is one of those of which the large
cell `W` is made. -/
def PartOfCell (j : ℕ) (W w : Cell D) : Prop := ∀ i, |w i - (2 * j + 1) * W i| ≤ j

end Verif.Spec
