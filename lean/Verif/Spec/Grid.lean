import Verif.Model.GridMap
import Verif.Spec.Boxes
import Verif.Spec.Range

/-!
# Specification vocabulary: grid maps
-/

namespace Verif.Spec

variable {F A : Type} {D : ℕ}

/-- All coordinates are values of `isize`. -/
def MachineCell (c : Cell D) : Prop := ∀ i, InIsize (c i)

/-- The cell is one of the cells stored by the map. -/
def InGrid (m : GridMap D F A) (c : Cell D) : Prop := ∀ i, 0 ≤ c i ∧ c i < m.data.shape i

instance (m : GridMap D F A) (c : Cell D) : Decidable (InGrid m c) := by unfold InGrid; infer_instance
instance (c : Cell D) : Decidable (MachineCell c) := by unfold MachineCell; infer_instance

/-- The cell lies in the half-open box, as the cells stored by a map with these bounds do. -/
def InCells (w : Cell D) (cb : CellBounds D) : Prop := ∀ i, cb.min i ≤ w i ∧ w i < cb.max i

instance (w : Cell D) (cb : CellBounds D) : Decidable (InCells w cb) := by
  unfold InCells; infer_instance

/-- The map stores exactly the cells of the half-open box `cb` of world cells (cells counted from the
world origin). The default map stores the empty box. The box corners are in the f32 working range:
at most 2^18 cells from the origin, or 2^19 if they are tile corners. -/
structure Placed (m : GridMap D F32 A) (cb : CellBounds D) (ρ : ℚ) : Prop where
  res : Res m.resolution ρ
  bounds : m.bounds = Bounds.fromCellBounds cb m.resolution
  ordered : ∀ i, cb.min i ≤ cb.max i
  shape : ∀ i, (m.data.shape i : ℤ) = cb.max i - cb.min i
  tile_pos : 1 ≤ m.tileSize
  tile_le : m.tileSize ≤ 2 ^ 17
  min_range : ∀ i, |cb.min i| ≤ 2 ^ 18 ∨ ((m.tileSize : ℤ) ∣ cb.min i ∧ |cb.min i| ≤ 2 ^ 19)
  max_range : ∀ i, |cb.max i| ≤ 2 ^ 18 ∨ ((m.tileSize : ℤ) ∣ cb.max i ∧ |cb.max i| ≤ 2 ^ 19)

/-- A box of cells at most 2^19 cells from the world origin. -/
structure Near (cb : CellBounds D) : Prop where
  ordered : ∀ i, cb.min i ≤ cb.max i
  min_le : ∀ i, |cb.min i| ≤ 2 ^ 19
  max_le : ∀ i, |cb.max i| ≤ 2 ^ 19

/-- The value stored at a world cell by a map with cell bounds `cb`. -/
def valueAt [Scalar F] (m : GridMap D F A) (cb : CellBounds D) (w : Cell D) : M A :=
  m.get fun i => w i - cb.min i

/-- Requested bounds in the f32 working range: ordered and at most 2^18 cells from the origin. -/
def Request (b : Bounds D F32) (ρ : ℚ) : Prop :=
  ∀ i, ∃ x y, (b.min i).Is x ∧ (b.max i).Is y ∧ x ≤ y ∧ |x| ≤ 2 ^ 18 * ρ ∧ |y| ≤ 2 ^ 18 * ρ

/-- The map differs from the other at most in grid and bounds. -/
def SameConfig (m m' : GridMap D F A) : Prop :=
  m'.resolution = m.resolution ∧ m'.tileSize = m.tileSize ∧ m'.trackChanges = m.trackChanges ∧
    m'.changedCells = m.changedCells

end Verif.Spec
