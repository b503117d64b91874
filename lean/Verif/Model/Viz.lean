import Verif.Model.NoiseModel

/-!
# Model of `viz/src/bin/draw_occupancy_grid.rs`

A transition system: the render thread and the worker threads it spawns, two mutexes (with
poisoning), the flag `finished`. Every access to shared state is one step; steps of different threads
interleave arbitrarily. Memory accesses are sequentially consistent (the flag uses `Relaxed`
ordering; `Verif/Model/VizWeak.lean` models that, and C83 shows that it makes no difference). Drawing is not modelled.

The map is abstract: `Map` with the operations used, so that the theorems hold for every map.
-/

namespace Verif.Viz

/-- How a call ends. -/
inductive Outcome (α : Type)
  | ret (a : α)
  | panic
  | hang

/-- The operations on the shared map used by the visualizer. `integrate i m` integrates recording
`i` with tracking on (`set_track_changes(true); integrate_point_cloud`). `changed m` are the recorded changed cells, `reset m` is
`clear_changed_cells; set_track_changes(false)`. `occupied m c` is `none` if reading panics. -/
structure MapOps (Map Cell Pt : Type) where
  integrate : ℕ → Map → Outcome Map
  changed : Map → List Cell
  reset : Map → Map
  occupied : Map → Cell → Option Bool
  point : Map → Cell → Pt

/-- Who holds a mutex. -/
inductive Owner
  | free
  | main
  | worker (id : ℕ)
deriving DecidableEq

/-- Where the render thread is in `integrate_next_pointcloud`
(`viz/src/bin/draw_occupancy_grid.rs:53-94`). -/
inductive MainPc
  /-- About to load `finished` (line 54). -/
  | check
  /-- About to lock `changed_cells` (line 58). -/
  | lockCells
  /-- About to lock `grid_map` (line 59). -/
  | lockMap
  /-- Holding both locks, about to process (lines 60-73). -/
  | process
  /-- About to store `finished = false` (lines 75-77). -/
  | clearFlag
  /-- About to read the recording, spawn the worker and advance the index (lines 78-93). -/
  | spawn
  /-- Panicked. -/
  | dead
deriving DecidableEq

/-- Where a worker is in the closure (`viz/src/bin/draw_occupancy_grid.rs:81-92`). -/
inductive WorkerPc
  /-- About to lock `grid_map` (line 82). -/
  | lockMap
  /-- Holding `grid_map`, about to integrate (lines 83-84). -/
  | integrate
  /-- About to lock `changed_cells` (line 86). -/
  | lockCells
  /-- About to copy the changed cells and unlock `changed_cells` (lines 87-88). -/
  | copy
  /-- About to reset the map (lines 89-90). -/
  | reset
  /-- About to store `finished = true` (line 91). -/
  | setFlag
  /-- About to drop the `grid_map` guard (line 92). -/
  | unlock
  | done
  /-- Panicked. -/
  | dead
deriving DecidableEq

/-- State of the program (`GridUpdater` and `AppState`, `viz/src/bin/draw_occupancy_grid.rs:28-50`).
`tracked` is the hash map of drawn cells as a function. -/
structure State (Map Cell Pt : Type) where
  map : Map
  mapOwner : Owner
  mapPoisoned : Bool
  cells : List Cell
  cellsOwner : Owner
  cellsPoisoned : Bool
  finished : Bool
  index : ℕ
  tracked : Cell → Option Pt
  main : MainPc
  /-- The workers spawned so far: place and recording number. -/
  workers : List (WorkerPc × ℕ)

variable {Map Cell Pt : Type} [DecidableEq Cell]

/-- Initial state (`viz/src/bin/draw_occupancy_grid.rs:35-41, 132-138`). -/
def init (m : Map) : State Map Cell Pt :=
  ⟨m, .free, false, [], .free, false, true, 0, fun _ => none, .check, []⟩

/-- The processing loop (`viz/src/bin/draw_occupancy_grid.rs:60-72`); `none` when reading a cell
panics. -/
def processCells (ops : MapOps Map Cell Pt) (m : Map) :
    List Cell → (Cell → Option Pt) → Option (Cell → Option Pt)
  | [], t => some t
  | c :: r, t =>
    match ops.occupied m c with
    | none => none
    | some true =>
      processCells ops m r (if (t c).isSome then t else Function.update t c (some (ops.point m c)))
    | some false =>
      processCells ops m r (if (t c).isSome then Function.update t c none else t)

/-- Replace worker `k`. -/
def setW (s : State Map Cell Pt) (k : ℕ) (pc : WorkerPc) (rec : ℕ) : State Map Cell Pt :=
  { s with workers := s.workers.set k (pc, rec) }

/-- Steps of the program with `n` recordings (poses and clouds; `main` asserts that there are as many
of both, line 121). -/
inductive Step (ops : MapOps Map Cell Pt) (n : ℕ) : State Map Cell Pt → State Map Cell Pt → Prop
  /-- Line 54: not finished, this frame does nothing. -/
  | checkBusy (s) : s.main = .check → s.finished = false → Step ops n s s
  | checkDone (s) : s.main = .check → s.finished = true → Step ops n s { s with main := .lockCells }
  | lockCells (s) : s.main = .lockCells → s.cellsOwner = .free → s.cellsPoisoned = false →
      Step ops n s { s with main := .lockMap, cellsOwner := .main }
  | lockCellsPoisoned (s) : s.main = .lockCells → s.cellsOwner = .free → s.cellsPoisoned = true →
      Step ops n s { s with main := .dead }
  | lockMap (s) : s.main = .lockMap → s.mapOwner = .free → s.mapPoisoned = false →
      Step ops n s { s with main := .process, mapOwner := .main }
  | lockMapPoisoned (s) : s.main = .lockMap → s.mapOwner = .free → s.mapPoisoned = true →
      Step ops n s { s with main := .dead, cellsOwner := .free, cellsPoisoned := true }
  | process (s) (t) : s.main = .process → processCells ops s.map s.cells s.tracked = some t →
      Step ops n s { s with main := .clearFlag, tracked := t, cells := [], mapOwner := .free,
                            cellsOwner := .free }
  | processPanic (s) : s.main = .process → processCells ops s.map s.cells s.tracked = none →
      Step ops n s { s with main := .dead, mapOwner := .free, cellsOwner := .free,
                            mapPoisoned := true, cellsPoisoned := true }
  | clearFlag (s) : s.main = .clearFlag → Step ops n s { s with main := .spawn, finished := false }
  | spawn (s) : s.main = .spawn → s.index < n →
      Step ops n s { s with main := .check, index := (s.index + 1) % n,
                            workers := s.workers ++ [(.lockMap, s.index)] }
  | spawnPanic (s) : s.main = .spawn → n ≤ s.index → Step ops n s { s with main := .dead }
  | wLockMap (s) (k r) : s.workers[k]? = some (.lockMap, r) → s.mapOwner = .free →
      s.mapPoisoned = false → Step ops n s { setW s k .integrate r with mapOwner := .worker k }
  | wLockMapPoisoned (s) (k r) : s.workers[k]? = some (.lockMap, r) → s.mapOwner = .free →
      s.mapPoisoned = true → Step ops n s (setW s k .dead r)
  | wIntegrate (s) (k r m) : s.workers[k]? = some (.integrate, r) → ops.integrate r s.map = .ret m →
      Step ops n s { setW s k .lockCells r with map := m }
  | wIntegratePanic (s) (k r) : s.workers[k]? = some (.integrate, r) → ops.integrate r s.map = .panic →
      Step ops n s { setW s k .dead r with mapOwner := .free, mapPoisoned := true }
  | wLockCells (s) (k r) : s.workers[k]? = some (.lockCells, r) → s.cellsOwner = .free →
      s.cellsPoisoned = false → Step ops n s { setW s k .copy r with cellsOwner := .worker k }
  | wLockCellsPoisoned (s) (k r) : s.workers[k]? = some (.lockCells, r) → s.cellsOwner = .free →
      s.cellsPoisoned = true →
      Step ops n s { setW s k .dead r with mapOwner := .free, mapPoisoned := true }
  | wCopy (s) (k r) : s.workers[k]? = some (.copy, r) →
      Step ops n s { setW s k .reset r with cells := ops.changed s.map, cellsOwner := .free }
  | wReset (s) (k r) : s.workers[k]? = some (.reset, r) →
      Step ops n s { setW s k .setFlag r with map := ops.reset s.map }
  | wSetFlag (s) (k r) : s.workers[k]? = some (.setFlag, r) →
      Step ops n s { setW s k .unlock r with finished := true }
  | wUnlock (s) (k r) : s.workers[k]? = some (.unlock, r) →
      Step ops n s { setW s k .done r with mapOwner := .free }

/-- Runs of the program, with the states passed. -/
inductive Reach (ops : MapOps Map Cell Pt) (n : ℕ) (m : Map) : State Map Cell Pt → Prop
  | init : Reach ops n m (init m)
  | step (s s') : Reach ops n m s → Step ops n s s' → Reach ops n m s'

end Verif.Viz
