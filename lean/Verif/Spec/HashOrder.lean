import Verif.Model.VizMap
import Verif.Spec.Noise

/-!
# Specification vocabulary: the visualizer with hash orders chosen anew each time
-/

namespace Verif.Spec
open Viz

variable {D : ℕ}

/-- The maps agree in everything but the order of the recorded cells. -/
structure SameButOrder (m m' : GridMap D F32 F32) : Prop where
  data : m.data = m'.data
  resolution : m.resolution = m'.resolution
  bounds : m.bounds = m'.bounds
  tileSize : m.tileSize = m'.tileSize
  trackChanges : m.trackChanges = m'.trackChanges
  changed : m.changedCells.Perm m'.changedCells

/-- The states of the visualizer agree in everything but the order of the recorded cells. -/
structure SameView (s s' : State (GridMap D F32 F32) (Cell D) (Point D F32)) : Prop where
  map : SameButOrder s.map s'.map
  mapOwner : s.mapOwner = s'.mapOwner
  mapPoisoned : s.mapPoisoned = s'.mapPoisoned
  cells : s.cells.Perm s'.cells
  cellsOwner : s.cellsOwner = s'.cellsOwner
  cellsPoisoned : s.cellsPoisoned = s'.cellsPoisoned
  finished : s.finished = s'.finished
  index : s.index = s'.index
  tracked : s.tracked = s'.tracked
  main : s.main = s'.main
  workers : s.workers = s'.workers

variable (nm : LidarNoiseModel F32) (recs : ℕ → Point D F32 × PointCloud D F32) (n : ℕ)

/-- A step of the visualizer, the hash sets being iterated in any order: every `HashSet` of the Rust standard library
has random keys of its own. -/
def AnyStep (s s' : State (GridMap D F32 F32) (Cell D) (Point D F32)) : Prop :=
  ∃ ord : ℕ → List (Cell D) → List (Cell D), (∀ r, IsOrder (ord r)) ∧ Step (occOps nm recs ord) n s s'

/-- States that the visualizer can reach, with any orders at any step. -/
inductive AnyReach (m : GridMap D F32 F32) : State (GridMap D F32 F32) (Cell D) (Point D F32) → Prop
  | init : AnyReach m (init m)
  | step (s s') : AnyReach m s → AnyStep nm recs n s s' → AnyReach m s'

/-- As `Execution`, with any orders at any step. -/
structure AnyExecution (m₀ : GridMap D F32 F32) (σ : ℕ → State (GridMap D F32 F32) (Cell D) (Point D F32)) : Prop where
  start : σ 0 = init m₀
  step : ∀ i, AnyStep nm recs n (σ i) (σ (i + 1)) ∨ σ (i + 1) = σ i

/-- As `Fair`. -/
def AnyFair (σ : ℕ → State (GridMap D F32 F32) (Cell D) (Point D F32)) : Prop :=
  ∀ i, (∃ s', AnyStep nm recs n (σ i) s' ∧ s' ≠ σ i) → ∃ j, i ≤ j ∧ σ (j + 1) ≠ σ j

end Verif.Spec
