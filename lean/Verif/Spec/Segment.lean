import Verif.Model.RayCaster

/-!
# Specification vocabulary: the cells a segment passes, over the real numbers
-/

namespace Verif.Spec

variable {D : ℕ}

/-- The point of the segment from `o` to `e` at time `t` (0 at `o`, 1 at `e`). -/
def onSegment (o e : Fin D → ℝ) (t : ℝ) : Fin D → ℝ := fun i => o i + t * (e i - o i)

/-- The point lies in the closed box of the cell, in a grid with cells of side `r` and cell 0 centred at
`b`. -/
def InCellBox (b : Fin D → ℝ) (r : ℝ) (x : Cell D) (p : Fin D → ℝ) : Prop :=
  ∀ i, |p i - (b i + x i * r)| ≤ r / 2

/-- From time `u` to time 1 the moving point `p` passes the cells in the given order: it stays in the
closed box of the first for a (possibly zero) while, then in that of the second, and so on. -/
inductive Passes (b : Fin D → ℝ) (r : ℝ) (p : ℝ → Fin D → ℝ) : ℝ → List (Cell D) → Prop
  | last {u x} : u ≤ 1 → (∀ t, u ≤ t → t ≤ 1 → InCellBox b r x (p t)) → Passes b r p u [x]
  | next {u v x y l} : u ≤ v → (∀ t, u ≤ t → t ≤ v → InCellBox b r x (p t)) → Passes b r p v (y :: l) →
      Passes b r p u (x :: y :: l)

/-- The point has no coordinate half way between two cell centres. -/
def OffBorders (b : Fin D → ℝ) (r : ℝ) (p : Fin D → ℝ) : Prop :=
  ∀ i, ∀ k : ℤ, p i ≠ b i + (k + 1 / 2) * r

/-- A real point as a point of the exact arithmetic. -/
def exact (p : Fin D → ℝ) : Point D XR := fun i => .fin (p i)

end Verif.Spec
