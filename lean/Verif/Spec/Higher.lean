import Verif.Spec.Boxes
import Verif.Model.NoiseModel

/-!
# Specification vocabulary: two noise models
-/

namespace Verif.Spec

/-- The second noise model counts hits and misses at least as high, between limits at least as high, and has the same
range limit. -/
structure Higher {f : Fmt} (nm1 nm2 : LidarNoiseModel (Fp f)) : Prop where
  hit : FLe nm1.hit nm2.hit
  miss : FLe nm1.miss nm2.miss
  max : FLe nm1.max nm2.max
  min : FLe nm1.min nm2.min
  range : nm2.maxRange = nm1.maxRange

/-- The steps of the noise model are finite. -/
def FiniteSteps {f : Fmt} (nm : LidarNoiseModel (Fp f)) : Prop := (∃ a, nm.hit.Is a) ∧ ∃ b, nm.miss.Is b

end Verif.Spec
