import Verif.Spec.Memory

/-!
# Specification vocabulary: the visualizer on a machine with limited memory
-/

namespace Verif.Spec
open Viz

variable {D : ℕ} {F : Type} [Scalar F]

/-- An infinite run on the limited machine: from moment to moment a step is taken or nothing happens. Once the process
has ended, nothing happens. -/
structure MemExecution (B : ℕ) (nm : LidarNoiseModel F) (recs : ℕ → Point D F × PointCloud D F)
    (ord : ℕ → List (Cell D) → List (Cell D)) (n : ℕ) (m : GridMap D F F)
    (σ : ℕ → Option (State (GridMap D F F) (Cell D) (Point D F))) : Prop where
  start : σ 0 = some (init m)
  step : ∀ i, MemStep B nm recs ord n (σ i) (σ (i + 1)) ∨ σ (i + 1) = σ i

/-- The scheduler does not let all threads rest, or the render thread poll the flag, for ever while some thread could go
on. -/
def MemFair (B : ℕ) (nm : LidarNoiseModel F) (recs : ℕ → Point D F × PointCloud D F)
    (ord : ℕ → List (Cell D) → List (Cell D)) (n : ℕ)
    (σ : ℕ → Option (State (GridMap D F F) (Cell D) (Point D F))) : Prop :=
  ∀ i, (∃ y, MemStep B nm recs ord n (σ i) y ∧ y ≠ σ i) → ∃ j, i ≤ j ∧ σ (j + 1) ≠ σ j

end Verif.Spec
