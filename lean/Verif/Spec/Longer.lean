import Verif.Spec.Cut

/-!
# Specification vocabulary: two range limits
-/

namespace Verif.Spec

variable {D : ℕ}

/-- The second answer says no less than the first: a hit stays a hit, and a miss may become a hit. -/
def NoLess : Seen → Seen → Prop
  | .nothing, _ => True
  | .miss, s => s ≠ .nothing
  | .hit, s => s = .hit

/-- The centre of the world cell is nearer to `x` than the limit `lam`, by three cells and the relative rounding error
of the limit. -/
def WellWithin (ρ lam : ℚ) (x : Fin D → ℚ) (w : Cell D) : Prop :=
  ∃ l, DistLe x (fun i => w i * ρ) l ∧ l + 3 * ρ ≤ lam * (1 - 1 / 2 ^ 20)

/-- The rays of a scan taken from `x` are in the working range. They may end anywhere. -/
def AimedFrom (N : ℕ) (ρ : ℚ) (origin : Point D F32) (cloud : PointCloud D F32) (x : Fin D → ℚ) : Prop :=
  ∀ p ∈ cloud.points, ∃ K y, Aims N K ρ origin p x y

end Verif.Spec
