import Verif.Spec.Noise

/-!
# Playing recordings into a map
-/

namespace Verif.Spec

variable {D : ℕ} {F : Type} [Scalar F]

/-- The two maps differ at most in the record of changes. -/
def SameGrid (m m' : GridMap D F F) : Prop :=
  m'.data = m.data ∧ m'.bounds = m.bounds ∧ m'.resolution = m.resolution ∧ m'.tileSize = m.tileSize

/-- Scans integrated one after the other, starting from `m₀`; in between the record of changes may be switched on
and off and cleared. Each entry has the map right after the scan, and the scan. -/
inductive Playback (nm : LidarNoiseModel F) (m₀ : GridMap D F F) :
    List (GridMap D F F × Point D F × PointCloud D F) → GridMap D F F → Prop
  | start : Playback nm m₀ [] m₀
  | scan {hist m m1 ord origin cloud} : Playback nm m₀ hist m → IsOrder ord →
      Integrates ord nm m origin cloud m1 → Playback nm m₀ (hist ++ [(m1, origin, cloud)]) m1
  | marks {hist m m'} : Playback nm m₀ hist m → SameGrid m m' → Playback nm m₀ hist m'

/-- What a list of scans, each with the map right after it, makes of the value of a world cell. -/
noncomputable def foldSeen (nm : LidarNoiseModel F) (hist : List (GridMap D F F × Point D F × PointCloud D F))
    (w : Cell D) (v : F) : F :=
  hist.foldl (fun v s => Seen.apply nm v
    (seen s.2.1 s.2.2 s.1.bounds s.1.resolution nm.maxRange (localCell s.1 w))) v

/-- The first `k` scans when `n` recordings are played over and over. -/
def cyclic {α : Type} (recs : ℕ → α) (n k : ℕ) : List α := (List.range k).map fun j => recs (j % n)

end Verif.Spec
