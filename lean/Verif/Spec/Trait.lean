import Verif.Model.NoiseModel
import Verif.Spec.Grid

/-!
# Specification vocabulary: grid maps as an abstract data type
-/

namespace Verif.Spec
open Scalar

variable {D : ℕ} {F A S : Type}

/-- A call that a client makes on a grid map. -/
inductive Call (D : ℕ) (F A : Type) where
  | get (c : Cell D) | set (c : Cell D) (v : A) | resolution | bounds
  | pointFromCell (c : Cell D) | cellFromPoint (p : Point D F)
  | trackChanges | setTrackChanges (b : Bool) | changedCells | clearChangedCells
  | addChangedCells (cs : List (Cell D))

/-- What the client gets back. -/
inductive Answer (D : ℕ) (F A : Type) where
  | unit | value (v : A) | number (x : F) | box (b : Bounds D F) | point (p : Point D F) | cell (c : Cell D)
  | flag (b : Bool) | cells (cs : List (Cell D))

/-- The cells accessed by the calls are machine cells. -/
def Call.Machine : Call D F A → Prop
  | .get c | .set c _ => MachineCell c
  | _ => True

/-- A client's call on a value of a type that implements the trait. -/
def callOn (T : GridMapTrait S D F A) (s : S) : Call D F A → M (Answer D F A × S)
  | .get c => do .ok (.value (← T.get s c), s)
  | .set c v => do .ok (.unit, ← T.set s c v)
  | .resolution => .ok (.number (T.resolution s), s)
  | .bounds => .ok (.box (T.bounds s), s)
  | .pointFromCell c => .ok (.point (T.pointFromCell s c), s)
  | .cellFromPoint p => .ok (.cell (T.cellFromPoint s p), s)
  | .trackChanges => .ok (.flag (T.trackChanges s), s)
  | .setTrackChanges b => .ok (.unit, T.setTrackChanges s b)
  | .changedCells => .ok (.cells (T.changedCells s), s)
  | .clearChangedCells => .ok (.unit, T.clearChangedCells s)
  | .addChangedCells cs => .ok (.unit, T.addChangedCells s cs)

/-- A client's program: the answers to a sequence of calls, and the value after them. -/
def runOn (T : GridMapTrait S D F A) (s : S) : List (Call D F A) → M (List (Answer D F A) × S)
  | [] => .ok ([], s)
  | c :: cs => do
    let (a, s) ← callOn T s c
    let (as, s) ← runOn T s cs
    .ok (a :: as, s)

/-- An abstract map: a partial function from cells to values, a flag, a list of changes; resolution and
bounds never change. -/
structure AbsMap (D : ℕ) (F A : Type) where
  value : Cell D → Option A
  resolution : F
  bounds : Bounds D F
  track : Bool
  changed : List (Cell D)

/-- What an abstract map answers; `none` if the call is not allowed (the cell is not in the map). -/
def AbsMap.call [Scalar F] (a : AbsMap D F A) : Call D F A → Option (Answer D F A × AbsMap D F A)
  | .get c => (a.value c).map fun v => (.value v, a)
  | .set c v => (a.value c).map fun _ => (.unit, { a with value := Function.update a.value c (some v) })
  | .resolution => some (.number a.resolution, a)
  | .bounds => some (.box a.bounds, a)
  | .pointFromCell c => some (.point fun i => ofInt (c i) *. a.resolution +. a.bounds.min i, a)
  | .cellFromPoint p => some (.cell fun i => toInt (round ((p i -. a.bounds.min i) /. a.resolution)), a)
  | .trackChanges => some (.flag a.track, a)
  | .setTrackChanges b => some (.unit, { a with track := b })
  | .changedCells => some (.cells a.changed, a)
  | .clearChangedCells => some (.unit, { a with changed := [] })
  | .addChangedCells cs => some (.unit, { a with changed := a.changed ++ cs })

/-- The answers of an abstract map to a sequence of calls; `none` if one of them is not allowed. -/
def AbsMap.run [Scalar F] (a : AbsMap D F A) : List (Call D F A) → Option (List (Answer D F A) × AbsMap D F A)
  | [] => some ([], a)
  | c :: cs => do
    let (x, a) ← a.call c
    let (xs, a) ← a.run cs
    some (x :: xs, a)

/-- The abstract map that a grid map stands for: the values of its cells, and its settings. -/
def absOf [Scalar F] (m : GridMap D F A) : AbsMap D F A where
  value c := if MachineCell c then (m.get c).toOption else none
  resolution := m.resolution
  bounds := m.bounds
  track := m.trackChanges
  changed := m.changedCells

end Verif.Spec
