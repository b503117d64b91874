import Verif.Model.Pose

/-!
# Rigid motions, and what is asked of `sin` and `cos`

Written with real numbers only; no helper of the model is used.
-/

namespace Verif.Spec

/-- Rotation about the x axis by the angle `a`, counterclockwise seen from the tip of the axis. -/
noncomputable def rotX (a : ℝ) (p : Fin 3 → ℝ) : Fin 3 → ℝ :=
  ![p 0, Real.cos a * p 1 - Real.sin a * p 2, Real.sin a * p 1 + Real.cos a * p 2]

/-- Rotation about the y axis. -/
noncomputable def rotY (a : ℝ) (p : Fin 3 → ℝ) : Fin 3 → ℝ :=
  ![Real.cos a * p 0 + Real.sin a * p 2, p 1, -Real.sin a * p 0 + Real.cos a * p 2]

/-- Rotation about the z axis. -/
noncomputable def rotZ (a : ℝ) (p : Fin 3 → ℝ) : Fin 3 → ℝ :=
  ![Real.cos a * p 0 - Real.sin a * p 1, Real.sin a * p 0 + Real.cos a * p 1, p 2]

/-- First roll about x, then pitch about y, then yaw about z, all about fixed axes; then the shift. -/
noncomputable def rigid (roll pitch yaw : ℝ) (t p : Fin 3 → ℝ) : Fin 3 → ℝ :=
  fun i => rotZ yaw (rotY pitch (rotX roll p)) i + t i

/-- Squared distance. -/
def sqDist (p q : Fin 3 → ℝ) : ℝ := ∑ i, (p i - q i) ^ 2

/-- Signed volume of the box spanned by the edges from `o` to `a`, `b`, `c`. -/
def volume (o a b c : Fin 3 → ℝ) : ℝ :=
  (a 0 - o 0) * ((b 1 - o 1) * (c 2 - o 2) - (b 2 - o 2) * (c 1 - o 1))
    - (a 1 - o 1) * ((b 0 - o 0) * (c 2 - o 2) - (b 2 - o 2) * (c 0 - o 0))
    + (a 2 - o 2) * ((b 0 - o 0) * (c 1 - o 1) - (b 1 - o 1) * (c 0 - o 0))

/-- The `f32` value of `x` is within `e` of the real number `v` (and `x` is finite). -/
def NearReal (x : F32) (v e : ℝ) : Prop := ∃ q : ℚ, x.Is q ∧ |(q : ℝ) - v| ≤ e

/-- What the theorems ask of the machine's `sin` and `cos`: on finite arguments they are within
2^-22 (two to four units in the last place of numbers near 1) of the real functions. -/
structure AccurateTrig (T : Trig F32) : Prop where
  sin : ∀ (x : F32) (q : ℚ), x.Is q → NearReal (T.sin x) (Real.sin q) (1 / 2 ^ 22)
  cos : ∀ (x : F32) (q : ℚ), x.Is q → NearReal (T.cos x) (Real.cos q) (1 / 2 ^ 22)

end Verif.Spec
