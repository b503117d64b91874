import Verif.Float.Fp
import Mathlib.Data.Real.Basic

/-!
# Specification vocabulary: correct rounding (IEEE 754, round to nearest, ties to even)

Stated without the rounding function of the model: by the digits of the values of a format and by distance.
-/

namespace Verif.Spec

/-- `q` has the significand `m` and the exponent `e` in the format: a value is written with all its digits, unless the
exponent is the lowest one (subnormal numbers and zero). -/
structure Digits (f : Fmt) (q : ℚ) (m e : ℤ) : Prop where
  value : q = m * 2 ^ e
  short : |m| < 2 ^ f.prec
  low : f.qmin ≤ e
  high : e + f.prec ≤ f.emax
  full : 2 ^ (f.prec - 1) ≤ |m| ∨ e = f.qmin

/-- `q` is a value of the format nearest to the real number `v`; of two nearest ones it is the one with even
significand. -/
def Nearest (f : Fmt) (v : ℝ) (q : ℚ) : Prop :=
  (∃ m e, Digits f q m e) ∧ ∀ r m e, Digits f r m e → r ≠ q →
    |(q : ℝ) - v| < |(r : ℝ) - v| ∨ |(q : ℝ) - v| = |(r : ℝ) - v| ∧ ∃ m e, Digits f q m e ∧ Even m

/-- Numbers from here on are rounded to infinity: half a unit above the largest finite value. -/
noncomputable def overflowAt (f : Fmt) : ℝ := 2 ^ f.emax - 2 ^ (f.emax - f.prec - 1)

/-- `x` is the real number `v` rounded to the format. A result that underflows to zero keeps the sign of `v`. -/
inductive Rounds (f : Fmt) (v : ℝ) : Fp f → Prop
  | near {x : Fp f} {q : ℚ} : |v| < overflowAt f → x.Is q → Nearest f v q →
      (q = 0 → v ≠ 0 → (x.sgn = true ↔ v < 0)) → Rounds f v x
  | over {s : Bool} : overflowAt f ≤ |v| → (s = true ↔ v < 0) → Rounds f v (.inf s)

end Verif.Spec
