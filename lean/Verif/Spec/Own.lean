import Verif.Spec.Piece

/-!
# Specification vocabulary: the sensor's own cell
-/

namespace Verif.Spec

variable {F : Type} [Scalar F] {D : ℕ}

/-- A scan with points, taken from this world cell, none of them in it. -/
def LeavesFree (e : OccupancyGridMap D F × Point D F × PointCloud D F) (w : Cell D) : Prop :=
  SensorCell e w ∧ e.2.2.points ≠ [] ∧
    ∀ p ∈ e.2.2.points, cellFromPoint p e.1.gridMap.bounds.min e.1.gridMap.resolution ≠ localCell e.1.gridMap w

/-- A scan taken from this world cell, with a point in it. -/
def HitsItself (e : OccupancyGridMap D F × Point D F × PointCloud D F) (w : Cell D) : Prop :=
  SensorCell e w ∧ ∃ p ∈ e.2.2.points,
    cellFromPoint p e.1.gridMap.bounds.min e.1.gridMap.resolution = localCell e.1.gridMap w

end Verif.Spec
