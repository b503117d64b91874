import Verif.Model.VizWeak

/-!
# Specification vocabulary: the relaxed flag
-/

namespace Verif.Spec

/-- The state as seen by someone who knows all stores: the flag has the last of them. -/
def flagNow {Map Cell Pt : Type} (w : Viz.WState Map Cell Pt) : Viz.State Map Cell Pt :=
  { w.prog with finished := w.writes.getLastD true }

/-- An infinite run with a relaxed flag. -/
structure WExecution {Map Cell Pt : Type} [DecidableEq Cell] (ops : Viz.MapOps Map Cell Pt) (n : ℕ) (m₀ : Map)
    (τ : ℕ → Viz.WState Map Cell Pt) : Prop where
  start : τ 0 = Viz.wInit m₀
  step : ∀ i, Viz.WStep ops n (τ i) (τ (i + 1)) ∨ τ (i + 1) = τ i

/-- Fair: as `Fair`; in particular the render thread does not miss the last store for ever. -/
def WFair {Map Cell Pt : Type} [DecidableEq Cell] (ops : Viz.MapOps Map Cell Pt) (n : ℕ)
    (τ : ℕ → Viz.WState Map Cell Pt) : Prop :=
  ∀ i, (∃ w', Viz.WStep ops n (τ i) w' ∧ flagNow w' ≠ flagNow (τ i)) → ∃ j, i ≤ j ∧ flagNow (τ (j + 1)) ≠ flagNow (τ j)

end Verif.Spec
