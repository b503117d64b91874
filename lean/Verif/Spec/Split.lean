import Verif.Spec.Order

/-!
# Specification vocabulary: a scan in parts
-/

namespace Verif.Spec

variable {F : Type} [Scalar F] {D : ℕ}

/-- The points of the cloud are those of the parts; parts may share points. -/
def PartsOf (parts : List (PointCloud D F)) (cloud : PointCloud D F) : Prop :=
  ∀ p, p ∈ cloud.points ↔ ∃ a ∈ parts, p ∈ a.points

open Classical in
/-- What several observations tell together: a hit if one of them is a hit, else a miss if one is a miss. -/
noncomputable def together (l : List Seen) : Seen :=
  if .hit ∈ l then .hit else if .miss ∈ l then .miss else .nothing

/-- At most one of the parts, counted by position, is a part that `P` holds of. -/
def AtMostOne (P : PointCloud D F → Prop) (parts : List (PointCloud D F)) : Prop :=
  parts.Pairwise fun a b => ¬ (P a ∧ P b)

end Verif.Spec
