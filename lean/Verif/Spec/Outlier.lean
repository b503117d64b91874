import Verif.Spec.Stray

/-!
# Specification vocabulary: maps with the same lower corner
-/

namespace Verif.Spec

variable {D : ℕ}

/-- The two maps start at the same world cell, whatever their sizes. -/
def SameCorner (ρ : ℚ) (m1 m2 : GridMap D F32 F32) : Prop :=
  m2.resolution = m1.resolution ∧ ∃ cb1 cb2, Placed m1 cb1 ρ ∧ Placed m2 cb2 ρ ∧ cb2.min = cb1.min

end Verif.Spec
