import Verif.Spec.HashOrder
import Verif.Spec.Weak

/-!
# Specification vocabulary: the visualizer with a relaxed flag and hash orders chosen anew each time
-/

namespace Verif.Spec
open Viz

variable {D : ℕ} (nm : LidarNoiseModel F32) (recs : ℕ → Point D F32 × PointCloud D F32) (n : ℕ)

/-- A step with a relaxed flag, the hash sets being iterated in any order. -/
def AnyWStep (w w' : WState (GridMap D F32 F32) (Cell D) (Point D F32)) : Prop :=
  ∃ ord : ℕ → List (Cell D) → List (Cell D), (∀ r, IsOrder (ord r)) ∧ WStep (occOps nm recs ord) n w w'

/-- States that are reached with a relaxed flag and any orders at any step. -/
inductive AnyWReach (m : GridMap D F32 F32) : WState (GridMap D F32 F32) (Cell D) (Point D F32) → Prop
  | init : AnyWReach m (wInit m)
  | step (w w') : AnyWReach m w → AnyWStep nm recs n w w' → AnyWReach m w'

/-- An infinite run with a relaxed flag and any orders at any step. -/
structure AnyWExecution (m₀ : GridMap D F32 F32) (τ : ℕ → WState (GridMap D F32 F32) (Cell D) (Point D F32)) : Prop where
  start : τ 0 = wInit m₀
  step : ∀ i, AnyWStep nm recs n (τ i) (τ (i + 1)) ∨ τ (i + 1) = τ i

/-- As `WFair`. -/
def AnyWFair (τ : ℕ → WState (GridMap D F32 F32) (Cell D) (Point D F32)) : Prop :=
  ∀ i, (∃ w', AnyWStep nm recs n (τ i) w' ∧ flagNow w' ≠ flagNow (τ i)) →
    ∃ j, i ≤ j ∧ flagNow (τ (j + 1)) ≠ flagNow (τ j)

/-- The cells drawn are those whose value `val` is above the threshold, each at a point inside it. -/
def Draws (thr : F32) (ρ : ℚ) (val : Cell D → F32) (s : State (GridMap D F32 F32) (Cell D) (Point D F32)) : Prop :=
  ∀ w : Cell D, (∀ i, |w i| ≤ 2 ^ 62) →
    (¬ thr.lt (val w) = true → s.tracked (localCell s.map w) = none) ∧
    (thr.lt (val w) = true →
      ∃ p, s.tracked (localCell s.map w) = some p ∧ ∀ i, ∃ z, (p i).Is z ∧ |z - w i * ρ| < ρ / 2)

end Verif.Spec
