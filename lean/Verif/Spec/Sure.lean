import Verif.Spec.Bayes
import Verif.Model.NoiseModel

/-!
# Specification vocabulary: probabilities 0 and 1
-/

namespace Verif.Spec

/-- The logarithm at the ends of its range, as in IEEE 754 (9.2.1): minus infinity at zero, infinity at infinity. -/
structure LnEnds (f : Fmt) [Libm (Fp f)] : Prop where
  zero : ∀ x : Fp f, x.Is 0 → Libm.ln x = .inf true
  top : Libm.ln (.inf false : Fp f) = .inf false

/-- The last observation that tells something. -/
def lastTold (obs : List Seen) : Option Seen := (obs.filter Seen.tells).getLast?

end Verif.Spec
