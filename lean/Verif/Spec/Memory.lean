import Mathlib.Data.Set.Card
import Verif.Spec.Noise
import Verif.Spec.Rays
import Verif.Model.Memory

/-!
# Specification vocabulary: scans on a machine with limited memory
-/

namespace Verif.Spec

variable {F : Type} [Scalar F] {D : ℕ}

/-- The cells on rays to points of the cloud. -/
def passed (origin : Point D F) (cloud : PointCloud D F) (bounds : Bounds D F) (res ml : F) : Set (Cell D) :=
  {z | ∃ p ∈ cloud.points, ∃ ray e, Casts origin p bounds res ml ray e ∧ z ∈ ray}

/-- The cells in which rays to points of the cloud end. -/
def ends (origin : Point D F) (cloud : PointCloud D F) (bounds : Bounds D F) (res ml : F) : Set (Cell D) :=
  {z | ∃ p ∈ cloud.points, ∃ ray, Casts origin p bounds res ml ray (some z)}

/-- The array has at most `B` entries, and so few that its bytes can be counted in isize. -/
def GridFits (B : ℕ) (m : GridMap D F F) : Prop := m.data.data.length ≤ B ∧ 4 * m.data.data.length < 2 ^ 63

/-- Nothing that is kept while the scan is integrated has more than `B` entries: the array of the map `me`, grown for
the scan, each ray, the passed cells, the cells of ends, and, if changes are recorded, the changed cells. -/
structure MemFits (B : ℕ) (me : GridMap D F F) (ml : F) (origin : Point D F) (cloud : PointCloud D F) : Prop where
  grid : GridFits B me
  ray : ∀ p ∈ cloud.points, ∀ ray e, Casts origin p me.bounds me.resolution ml ray e → ray.length ≤ B
  passed : (passed origin cloud me.bounds me.resolution ml).ncard ≤ B
  ends : (ends origin cloud me.bounds me.resolution ml).ncard ≤ B
  changed : me.trackChanges = true → me.changedCells.length +
    (Spec.passed origin cloud me.bounds me.resolution ml ∪ Spec.ends origin cloud me.bounds me.resolution ml).ncard ≤ B

end Verif.Spec
