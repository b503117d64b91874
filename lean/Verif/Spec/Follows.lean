import Verif.Model.Geom

/-!
# Specification vocabulary: cells that follow a segment up to a tolerance
-/

namespace Verif.Spec

variable {D : ℕ}

/-- The point at time `t` of a motion with constant velocity: at `x` at time 0, at `y` at time 1. -/
def lineAt (x y : Fin D → ℚ) (t : ℚ) : Fin D → ℚ := fun i => x i + t * (y i - x i)

/-- The point lies in the box of the cell (side `ρ`, cell 0 centred at `q`) widened by `tol` on every side. -/
def NearCell (q : Fin D → ℚ) (ρ tol : ℚ) (z : Cell D) (p : Fin D → ℚ) : Prop :=
  ∀ i, |p i - (q i + z i * ρ)| ≤ ρ / 2 + tol

/-- From time `u` to time `v` the moving point `p` follows the cells in the given order: it stays in the
widened box of the first for a (possibly zero) while, then in that of the second, and so on. -/
inductive Follows (q : Fin D → ℚ) (ρ tol : ℚ) (p : ℚ → Fin D → ℚ) : ℚ → ℚ → List (Cell D) → Prop
  | last {u v z} : u ≤ v → (∀ t, u ≤ t → t ≤ v → NearCell q ρ tol z (p t)) → Follows q ρ tol p u v [z]
  | next {u v w z z' l} : u ≤ v → (∀ t, u ≤ t → t ≤ v → NearCell q ρ tol z (p t)) →
      Follows q ρ tol p v w (z' :: l) → Follows q ρ tol p u w (z :: z' :: l)

end Verif.Spec
