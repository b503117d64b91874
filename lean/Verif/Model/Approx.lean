import Verif.Model.Geom

/-!
# Approximate equality of bounds (`src/geom/bounds.rs:148-188`)
-/

namespace Verif
variable {D : ℕ} {F : Type} [Scalar F]
open Scalar

/-- `RelativeEq::relative_eq` of f32 with given tolerances (`approx` 0.3.2). -/
def relativeEqWith (eps maxRelative a b : F) : Bool :=
  if a ==. b then true
  else if isInf a || isInf b then false
  else
    let diff := abs (a -. b)
    if diff <=. eps then true
    else
      let la := abs a
      let lb := abs b
      let largest := if la <. lb then lb else la
      diff <=. (largest *. maxRelative)

/-- `AbsDiffEq::abs_diff_eq` of f32 (`approx` 0.3.2). -/
def absDiffEqWith (eps a b : F) : Bool := abs (a -. b) <=. eps

/-- `default_epsilon` and `default_max_relative` (`src/geom/bounds.rs:156-158, 172-174`): `f32::EPSILON`. -/
def defaultEps : F := lit (1 / 2 ^ 23)

namespace Bounds

/-- `Bounds::abs_diff_eq` (`src/geom/bounds.rs:161-163`). Points compare all coordinates (nalgebra). -/
def absDiffEq (self other : Bounds D F) (eps : F) : Bool :=
  decide (∀ i, absDiffEqWith eps (self.min i) (other.min i) = true) &&
    decide (∀ i, absDiffEqWith eps (self.max i) (other.max i) = true)

/-- `Bounds::relative_eq` (`src/geom/bounds.rs:177-186`). -/
def relativeEq (self other : Bounds D F) (eps maxRelative : F) : Bool :=
  decide (∀ i, relativeEqWith eps maxRelative (self.min i) (other.min i) = true) &&
    decide (∀ i, relativeEqWith eps maxRelative (self.max i) (other.max i) = true)

end Bounds
end Verif
