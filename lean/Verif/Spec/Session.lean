import Verif.Spec.Noise

/-!
# What a client does with the record of changes
-/

namespace Verif.Spec

variable {D : ℕ} {F : Type} [Scalar F]

/-- One thing done to a map. `scan t` is the integration of a cloud that updates the cells `t`. -/
inductive TrackEv (D : ℕ)
  | track (b : Bool)
  | clear
  | scan (touched : List (Cell D))

/-- The map goes through these events. The cells of a scan are those of which it tells something. -/
inductive Session (nm : LidarNoiseModel F) : GridMap D F F → List (TrackEv D) → GridMap D F F → Prop
  | done (m) : Session nm m [] m
  | track {m m' es} (b) : Session nm (m.setTrackChanges b) es m' → Session nm m (.track b :: es) m'
  | clear {m m' es} : Session nm m.clearChangedCells es m' → Session nm m (.clear :: es) m'
  | scan {m m1 m' es ord origin cloud touched} : IsOrder ord → Integrates ord nm m origin cloud m1 →
      (∀ c, c ∈ touched ↔ seen origin cloud m1.bounds m1.resolution nm.maxRange c ≠ .nothing) →
      Session nm m1 es m' → Session nm m (.scan touched :: es) m'

/-- Whether changes are tracked after the events. -/
def trackedAfter (b : Bool) : List (TrackEv D) → Bool
  | [] => b
  | .track b' :: es => trackedAfter b' es
  | _ :: es => trackedAfter b es

end Verif.Spec
