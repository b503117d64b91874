import Verif.Spec.Noise

/-!
# Specification vocabulary: the order of scans
-/

namespace Verif.Spec

variable {F : Type} [Scalar F] {D : ℕ}

/-- The cloud fits into the map: neither this map nor any other with the same bounds, resolution and tile size
has to grow for it. -/
def Fits (m : GridMap D F F) (cloud : PointCloud D F) : Prop :=
  ∀ m' : GridMap D F F, m'.bounds = m.bounds → m'.resolution = m.resolution → m'.tileSize = m.tileSize →
    m'.expandBounds cloud.bounds (Scalar.lit 0) = .ok m'

/-- Integrating scans (sensor position and cloud) one after the other leads from one map to the other. The hash
orders may differ from scan to scan. -/
inductive Scans (nm : LidarNoiseModel F) :
    GridMap D F F → List (Point D F × PointCloud D F) → GridMap D F F → Prop
  | done (m) : Scans nm m [] m
  | step {m m1 m' ord s rest} : IsOrder ord → Integrates ord nm m s.1 s.2 m1 →
      Scans nm m1 rest m' → Scans nm m (s :: rest) m'

/-- Some scan sees a point in the cell. -/
def SomeHit (m : GridMap D F F) (maxLen : F) (scans : List (Point D F × PointCloud D F)) (c : Cell D) : Prop :=
  ∃ s ∈ scans, seen s.1 s.2 m.bounds m.resolution maxLen c = .hit

/-- Some scan passes the cell without seeing a point in it. -/
def SomeMiss (m : GridMap D F F) (maxLen : F) (scans : List (Point D F × PointCloud D F)) (c : Cell D) : Prop :=
  ∃ s ∈ scans, seen s.1 s.2 m.bounds m.resolution maxLen c = .miss

end Verif.Spec
