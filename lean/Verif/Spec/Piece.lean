import Verif.Spec.Bayes
import Verif.Spec.Rays

/-!
# Specification vocabulary: connected sets of cells
-/

namespace Verif.Spec

variable {F : Type} [Scalar F] {D : ℕ}

/-- There is a way from one cell to the other through cells of the set, each next to the one before. -/
def LinkedIn (S : Set (Cell D)) : Cell D → Cell D → Prop :=
  Relation.ReflTransGen fun a b => a ∈ S ∧ b ∈ S ∧ Adjacent a b

/-- Any two cells of the set are linked in it. -/
def OnePiece (S : Set (Cell D)) : Prop := ∀ a ∈ S, ∀ b ∈ S, LinkedIn S a b

/-- The cells, by their index in a map with these bounds, about which a scan tells something. -/
def told (origin : Point D F) (cloud : PointCloud D F) (bounds : Bounds D F) (resolution maxLen : F) : Set (Cell D) :=
  {c | seen origin cloud bounds resolution maxLen c ≠ .nothing}

/-- The world cells about which some scan of a history told something. -/
def toldWorld (nm : LidarNoiseModel F) (hist : List (OccupancyGridMap D F × Point D F × PointCloud D F)) : Set (Cell D) :=
  {w | ∃ e ∈ hist, localCell e.1.gridMap w ∈ told e.2.1 e.2.2 e.1.gridMap.bounds e.1.gridMap.resolution nm.maxRange}

/-- The world cell of the sensor of a scan. -/
def SensorCell (e : OccupancyGridMap D F × Point D F × PointCloud D F) (w : Cell D) : Prop :=
  localCell e.1.gridMap w = cellFromPoint e.2.1 e.1.gridMap.bounds.min e.1.gridMap.resolution

/-- Each scan but the first is taken from a cell about which an earlier one told something. -/
def KnownSensors (nm : LidarNoiseModel F) (hist : List (OccupancyGridMap D F × Point D F × PointCloud D F)) : Prop :=
  ∀ before e after, hist = before ++ e :: after → before ≠ [] → ∃ w ∈ toldWorld nm before, SensorCell e w

end Verif.Spec
