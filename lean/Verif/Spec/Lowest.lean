import Verif.Spec.Noise

/-!
# Specification vocabulary: recordings of which the first reaches lowest
-/

namespace Verif.Spec

variable {D : ℕ}

/-- On each axis, no point of any recording lies below the tile number `k i`, which is the one with the world origin
or one below it; and if it is below it, some point of the first recording lies in it or lower, an eighth of a cell or
more below its upper border. Tiles have `T` cells of side `ρ`. -/
structure LowestFirst (T : ℕ) (ρ : ℚ) (recs : ℕ → Point D F32 × PointCloud D F32) (k : Fin D → ℤ) : Prop where
  origin : ∀ i, k i ≤ 0
  above : ∀ r, ∀ p ∈ (recs r).2.points, ∀ i, ∃ y, (p i).Is y ∧ k i * T * ρ ≤ y
  reached : ∀ i, k i = 0 ∨ ∃ p ∈ (recs 0).2.points, ∃ y, (p i).Is y ∧ y < ((k i + 1) * T - 1 / 8) * ρ

end Verif.Spec
