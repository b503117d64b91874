import Verif.Spec.Clear

/-!
# Specification vocabulary: motions of the grid onto itself
-/

namespace Verif.Spec

/-- A motion of the grid onto itself: the axes are permuted, some are reversed, and everything is moved by whole
cells. -/
structure GridMotion (D : ℕ) where
  axes : Equiv.Perm (Fin D)
  sign : Fin D → ℤˣ
  shift : Fin D → ℤ

variable {D : ℕ}

/-- What the motion does to a cell. -/
def GridMotion.cell (g : GridMotion D) (w : Cell D) : Cell D := fun i => g.sign i * w (g.axes i) + g.shift i

/-- What the motion does to a point, with coordinates in cells from the centre of cell 0. -/
def GridMotion.point (g : GridMotion D) (p : Fin D → ℚ) : Fin D → ℚ :=
  fun i => (g.sign i : ℤ) * p (g.axes i) + g.shift i

/-- The coordinates of a point in cells of side `ρ` from the centre `q` of cell 0. -/
def inCells (q : Fin D → ℚ) (ρ : ℚ) (p : Fin D → ℚ) : Fin D → ℚ := fun i => (p i - q i) / ρ

end Verif.Spec
