import Verif.Spec.Machine

/-!
# Specification vocabulary: what the map says of a cell, and times without re-indexing
-/

namespace Verif.Spec
open Viz

variable {D : ℕ}

/-- What should be drawn for the cell: the map's point for it if the map reports it occupied, and nothing otherwise. -/
def shown (nm : LidarNoiseModel F32) (m : GridMap D F32 F32) (c : Cell D) : Option (Point D F32) :=
  if nm.occupied m c = .ok true then some (m.pointFromCell c) else none

/-- The renderer has processed a batch and not yet started the next scan. -/
def AtRest (s : State (GridMap D F32 F32) (Cell D) (Point D F32)) : Prop := s.main = .clearFlag ∨ s.main = .spawn

/-- Between the moments `A` and `B` the lower corner of the grid, once there is a grid, stays where it is. (The grid may
grow upwards.) -/
def SteadyCorner (m : ℕ → GridMap D F32 F32) (A B : ℕ) : Prop :=
  ∀ i, A ≤ i → i < B → (m (i + 1)).bounds.min = (m i).bounds.min ∨ ∀ c, ¬ InGrid (m i) c

/-- At moment `i` the renderer processes a batch with the cell `c`. -/
def Processes (s : ℕ → State (GridMap D F32 F32) (Cell D) (Point D F32)) (c : Cell D) (i : ℕ) : Prop :=
  (s i).main = .process ∧ (s (i + 1)).main = .clearFlag ∧ c ∈ (s i).cells

end Verif.Spec
