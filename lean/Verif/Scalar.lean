import Verif.Rust
import Mathlib.Analysis.Real.Sqrt

/-!
# Scalars

The float operations used by the code. The model is generic over them: `F32` gives the behaviour of
the program, `XR` (exact reals and +∞) the idealised geometry.
-/

namespace Verif

/-- The operations of Rust's `f32` that the code uses. -/
class Scalar (F : Type) where
  add : F → F → F
  sub : F → F → F
  mul : F → F → F
  div : F → F → F
  abs : F → F
  sqrt : F → F
  round : F → F
  floor : F → F
  ceil : F → F
  /-- `f32::min` -/
  fmin : F → F → F
  /-- `f32::max` -/
  fmax : F → F → F
  lt : F → F → Bool
  le : F → F → Bool
  eq : F → F → Bool
  /-- `std::f32::INFINITY` -/
  inf : F
  isInf : F → Bool
  /-- a decimal literal -/
  lit : ℚ → F
  /-- `isize as f32` -/
  ofInt : ℤ → F
  /-- `f32 as isize` -/
  toInt : F → ℤ

scoped infixl:65 " +. " => Scalar.add
scoped infixl:65 " -. " => Scalar.sub
scoped infixl:70 " *. " => Scalar.mul
scoped infixl:70 " /. " => Scalar.div
scoped infix:50 " <. " => Scalar.lt
scoped infix:50 " <=. " => Scalar.le
scoped infix:50 " ==. " => Scalar.eq

/-- The few facts about literals that some theorems use; they hold for `F32` and for `XR`. -/
class ScalarLaws (F : Type) [Scalar F] : Prop where
  toInt_one : Scalar.toInt (Scalar.lit 1 : F) = 1
  toInt_neg_one : Scalar.toInt (Scalar.lit (-1) : F) = -1
  toInt_zero : Scalar.toInt (Scalar.lit 0 : F) = 0
  zero_eq_zero : ((Scalar.lit 0 : F) ==. Scalar.lit 0) = true
  one_ne_zero : ((Scalar.lit 1 : F) ==. Scalar.lit 0) = false
  neg_one_ne_zero : ((Scalar.lit (-1) : F) ==. Scalar.lit 0) = false
  inf_add_inf : (Scalar.inf : F) +. Scalar.inf = Scalar.inf

/-- The bit-accurate `f32`. -/
instance {f : Fmt} : Scalar (Fp f) where
  add := Fp.add
  sub := Fp.sub
  mul := Fp.mul
  div := Fp.div
  abs := Fp.abs
  sqrt := Fp.sqrt
  round := Fp.round
  floor := Fp.floor
  ceil := Fp.ceil
  fmin := Fp.min
  fmax := Fp.max
  lt := Fp.lt
  le := Fp.le
  eq := Fp.eq
  inf := .inf false
  isInf := Fp.isInf
  lit := Fp.lit
  ofInt := Fp.ofInt
  toInt := Fp.toInt

instance : ScalarLaws F32 where
  toInt_one := by decide +kernel
  toInt_neg_one := by decide +kernel
  toInt_zero := by decide +kernel
  zero_eq_zero := by decide +kernel
  one_ne_zero := by decide +kernel
  neg_one_ne_zero := by decide +kernel
  inf_add_inf := by decide +kernel

/-- Exact reals with +∞. Operations that have no value here (∞ - ∞, x / 0, roots of negative numbers)
return arbitrary values; the theorems about `XR` do not meet them. -/
inductive XR where
  | fin (r : ℝ)
  | inf

namespace XR
open Classical in
/-- Half away from zero, over the reals. -/
noncomputable def roundR (x : ℝ) : ℤ := if 0 ≤ x then ⌊x + 1/2⌋ else -⌊-x + 1/2⌋

/-- Lifts a real operation; infinite operands give ∞. -/
noncomputable def op2 (g : ℝ → ℝ → ℝ) : XR → XR → XR
  | .fin a, .fin b => .fin (g a b)
  | _, _ => .inf

/-- Lifts a real operation; ∞ stays ∞. -/
noncomputable def op1 (g : ℝ → ℝ) : XR → XR
  | .fin a => .fin (g a)
  | .inf => .inf

open Classical in
noncomputable instance : Scalar XR where
  add := op2 (· + ·)
  sub := op2 (· - ·)
  mul := op2 (· * ·)
  div := op2 (· / ·)
  abs := op1 (fun x => |x|)
  sqrt := op1 Real.sqrt
  round := op1 (fun x => (roundR x : ℝ))
  floor := op1 (fun x => (⌊x⌋ : ℝ))
  ceil := op1 (fun x => (⌈x⌉ : ℝ))
  fmin
    | .fin a, .fin b => .fin (min a b)
    | .inf, b => b
    | a, .inf => a
  fmax := op2 max
  lt
    | .fin a, .fin b => decide (a < b)
    | .fin _, .inf => true
    | .inf, _ => false
  le
    | .fin a, .fin b => decide (a ≤ b)
    | .fin _, .inf => true
    | .inf, .inf => true
    | .inf, .fin _ => false
  eq
    | .fin a, .fin b => decide (a = b)
    | .inf, .inf => true
    | _, _ => false
  inf := .inf
  isInf
    | .inf => true
    | .fin _ => false
  lit q := .fin (q : ℝ)
  ofInt n := .fin (n : ℝ)
  toInt
    | .fin a => if 0 ≤ a then ⌊a⌋ else ⌈a⌉
    | .inf => isizeMax

instance : ScalarLaws XR where
  toInt_one := by simp [Scalar.toInt, Scalar.lit]
  toInt_neg_one := by
    simp only [Scalar.toInt, Scalar.lit]
    rw [if_neg (by norm_num)]
    norm_num
  toInt_zero := by simp [Scalar.toInt, Scalar.lit]
  zero_eq_zero := by simp [Scalar.eq, Scalar.lit]
  one_ne_zero := by simp [Scalar.eq, Scalar.lit]
  neg_one_ne_zero := by simp [Scalar.eq, Scalar.lit]
  inf_add_inf := by simp [Scalar.add, Scalar.inf, op2]

end XR
end Verif
