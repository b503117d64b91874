import Verif.Spec.Boxes
import Verif.Model.Cloud

/-!
# Specification vocabulary: how far clouds reach
-/

namespace Verif.Spec

variable {D : ℕ} {f : Fmt}

/-- In every direction of every axis, for each of the first clouds some of the second reaches at least as far. -/
def ReachAsFar (clouds1 clouds2 : List (PointCloud D (Fp f))) : Prop :=
  ∀ c ∈ clouds1, ∀ i, (∃ d ∈ clouds2, FLe (d.bounds.min i) (c.bounds.min i)) ∧
    ∃ d ∈ clouds2, FLe (c.bounds.max i) (d.bounds.max i)

end Verif.Spec
