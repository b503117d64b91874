import Verif.Model.RayCaster

/-!
# Specification vocabulary: rays of cells
-/

namespace Verif.Spec

variable {F : Type} [Scalar F] {D : ℕ}

/-- `cast_ray` called with these arguments returns `(ray, e)`. -/
def Casts (origin end_ : Point D F) (bounds : Bounds D F) (resolution maxLen : F)
    (ray : List (Cell D)) (e : Option (Cell D)) : Prop :=
  ∃ fuel, castRay fuel origin end_ bounds resolution maxLen = .ok (ray, e)

/-- `cast_ray` called with these arguments neither returns nor panics. -/
def CastsForever (origin end_ : Point D F) (bounds : Bounds D F) (resolution maxLen : F) : Prop :=
  ∀ fuel, castRay fuel origin end_ bounds resolution maxLen = .error .fuel

/-- The cells differ by one step along one axis. -/
def Adjacent (a b : Cell D) : Prop := ∃ i, |b i - a i| = 1 ∧ ∀ j, j ≠ i → b j = a j

/-- The cell lies in the box spanned by two corner cells. -/
def Between (a b x : Cell D) : Prop := ∀ i, min (a i) (b i) ≤ x i ∧ x i ≤ max (a i) (b i)

/-- The centre of the cell is computed to be farther than `maxLen` from the origin. -/
def Beyond (origin : Point D F) (bounds : Bounds D F) (resolution maxLen : F) (x : Cell D) : Prop :=
  Scalar.lt (Scalar.mul maxLen maxLen)
    (normSquared fun i => Scalar.sub (pointFromCell x bounds.min resolution i) (origin i)) = true

end Verif.Spec
