import Verif.Spec.Rigid
import Verif.Spec.Bayes

/-!
# What is asked of the platform's `ln` and `exp`
-/

namespace Verif.Spec

/-- The probability with the given log-odds. -/
noncomputable def sigmoid (l : ℝ) : ℝ := 1 / (1 + Real.exp (-l))

/-- The platform's f32 `ln` and `exp` (`src/math.rs:12`, `src/math.rs:16`) have a relative error of at most
2^-22 (two to four units in the last place); `exp` where its value is far from the limits of f32, and outside
that range it is huge or infinite, or tiny. -/
structure AccurateLibm [Libm F32] : Prop where
  ln : ∀ (x : F32) (q : ℚ), x.Is q → 0 < q → NearReal (Libm.ln x) (Real.log q) (|Real.log q| / 2 ^ 22)
  exp : ∀ (x : F32) (q : ℚ), x.Is q → |q| ≤ 80 → NearReal (Libm.exp x) (Real.exp q) (Real.exp q / 2 ^ 22)
  exp_large : ∀ (x : F32) (q : ℚ), x.Is q → 80 < q →
    Libm.exp x = .inf false ∨ ∃ e, (Libm.exp x).Is e ∧ 2 ^ 100 ≤ e
  exp_small : ∀ (x : F32) (q : ℚ), x.Is q → q < -80 → ∃ e, (Libm.exp x).Is e ∧ 0 ≤ e ∧ e ≤ 1 / 2 ^ 100

/-- An f32 probability strictly between 0 and 1 (and at least 2^-100), whose log-odds are at most `Λ` in
magnitude. -/
structure Prob (p : F32) (x Λ : ℚ) : Prop where
  is : p.Is x
  low : 1 / 2 ^ 100 ≤ x
  high : x < 1
  odds : |logOdds x| ≤ Λ

end Verif.Spec
