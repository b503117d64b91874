import Mathlib.Data.Set.Card
import Verif.Spec.Machine

/-!
# Specification vocabulary: memory of the visualizer
-/

namespace Verif.Spec
open Viz

/-- Nothing that the visualizer stores has more than `B` entries: the cells of the map, its list of changed cells, the
list handed to the renderer, the table of drawn cells. -/
structure StoresAtMost {D : ℕ} (B : ℕ) (s : State (GridMap D F32 F32) (Cell D) (Point D F32)) : Prop where
  map : s.map.data.data.length ≤ B
  changed : s.map.changedCells.length ≤ B
  cells : s.cells.length ≤ B
  tracked : {c | s.tracked c ≠ none}.Finite ∧ {c | s.tracked c ≠ none}.ncard ≤ B

end Verif.Spec
