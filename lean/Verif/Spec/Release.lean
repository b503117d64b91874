import Verif.Rust

/-!
# Specification vocabulary: the same outcome in two builds
-/

namespace Verif.Spec

/-- The first call fails with `e`, or both have the same outcome. -/
def SameUnless (e : Err) {α : Type} (a b : M α) : Prop := a = .error e ∨ b = a

/-- The call with overflow checks panics on an overflow, or both have the same outcome. -/
abbrev SameUnlessOverflow {α : Type} (checked unchecked : M α) : Prop :=
  SameUnless (.panic .overflow) checked unchecked

end Verif.Spec
