import Verif.Spec.Boxes

/-!
# Specification vocabulary: values that no longer change
-/

namespace Verif.Spec

/-- The two values are the same number (the two zeros are). -/
def Alike {f : Fmt} (v v' : Fp f) : Prop := FLe v v' ∧ FLe v' v

end Verif.Spec
