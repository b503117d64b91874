import Verif.Model.Viz

/-!
# The visualizer with a relaxed flag

`finished` is loaded and stored with `Ordering::Relaxed`
(`viz/src/bin/draw_occupancy_grid.rs:54, 75-77, 91`). `Verif/Model/Viz.lean` treats it as sequentially consistent. Here it
is not: the stores to the flag have a modification order, which need not be the order in which they were executed;
every thread has a view, the latest store it knows of; a load may return any store that is not before the view; a
store may take any place after the view of its thread. Mutexes and `thread::spawn` pass views on (release and acquire),
the flag itself does not.

Simplification: a store becomes visible when it is executed, never earlier (no speculation).
-/

namespace Verif.Viz

/-- State with a relaxed flag. The field `finished` of `prog` is not used. -/
structure WState (Map Cell Pt : Type) where
  prog : State Map Cell Pt
  /-- The stores to the flag, in modification order. -/
  writes : List Bool
  /-- The store that the render thread knows of; those that the mutexes pass on; those that the workers know of. -/
  mainView : ℕ
  mapView : ℕ
  cellsView : ℕ
  workerView : ℕ → ℕ

variable {Map Cell Pt : Type} [DecidableEq Cell]

/-- Initial state (`viz/src/bin/draw_occupancy_grid.rs:35-41, 132-138`). -/
def wInit (m : Map) : WState Map Cell Pt := ⟨init m, [true], 0, 0, 0, fun _ => 0⟩

/-- The place of a store after a new one has taken place `p`. -/
def shift (p v : ℕ) : ℕ := if p ≤ v then v + 1 else v

/-- Store `b` at place `p` of the modification order. -/
def WState.store (w : WState Map Cell Pt) (p : ℕ) (b : Bool) : WState Map Cell Pt :=
  { w with
    writes := w.writes.insertIdx p b
    mainView := shift p w.mainView
    mapView := shift p w.mapView
    cellsView := shift p w.cellsView
    workerView := fun k => shift p (w.workerView k) }

/-- Steps with a relaxed flag (`viz/src/bin/draw_occupancy_grid.rs:53-94`); see `Step`. -/
inductive WStep (ops : MapOps Map Cell Pt) (n : ℕ) : WState Map Cell Pt → WState Map Cell Pt → Prop
  /-- Line 54: the load returns the store at place `p`. -/
  | check (w) (p) (b) : w.prog.main = .check → w.mainView ≤ p → w.writes[p]? = some b →
      WStep ops n w { w with
        mainView := p
        prog := { w.prog with main := if b then .lockCells else .check } }
  | lockCells (w) : w.prog.main = .lockCells → w.prog.cellsOwner = .free → w.prog.cellsPoisoned = false →
      WStep ops n w { w with
        mainView := max w.mainView w.cellsView
        prog := { w.prog with main := .lockMap, cellsOwner := .main } }
  | lockCellsPoisoned (w) : w.prog.main = .lockCells → w.prog.cellsOwner = .free → w.prog.cellsPoisoned = true →
      WStep ops n w { w with prog := { w.prog with main := .dead } }
  | lockMap (w) : w.prog.main = .lockMap → w.prog.mapOwner = .free → w.prog.mapPoisoned = false →
      WStep ops n w { w with
        mainView := max w.mainView w.mapView
        prog := { w.prog with main := .process, mapOwner := .main } }
  | lockMapPoisoned (w) : w.prog.main = .lockMap → w.prog.mapOwner = .free → w.prog.mapPoisoned = true →
      WStep ops n w { w with
        cellsView := w.mainView
        prog := { w.prog with main := .dead, cellsOwner := .free, cellsPoisoned := true } }
  | process (w) (t) : w.prog.main = .process →
      processCells ops w.prog.map w.prog.cells w.prog.tracked = some t →
      WStep ops n w { w with
        mapView := w.mainView
        cellsView := w.mainView
        prog := { w.prog with main := .clearFlag, tracked := t, cells := [], mapOwner := .free, cellsOwner := .free } }
  | processPanic (w) : w.prog.main = .process →
      processCells ops w.prog.map w.prog.cells w.prog.tracked = none →
      WStep ops n w { w with
        mapView := w.mainView
        cellsView := w.mainView
        prog := { w.prog with
          main := .dead, mapOwner := .free, cellsOwner := .free, mapPoisoned := true, cellsPoisoned := true } }
  /-- Lines 75-77: the store takes place `p`. -/
  | clearFlag (w) (p) : w.prog.main = .clearFlag → w.mainView < p → p ≤ w.writes.length →
      WStep ops n w { w.store p false with mainView := p, prog := { w.prog with main := .spawn } }
  | spawn (w) : w.prog.main = .spawn → w.prog.index < n →
      WStep ops n w { w with
        workerView := Function.update w.workerView w.prog.workers.length w.mainView
        prog := { w.prog with
          main := .check, index := (w.prog.index + 1) % n, workers := w.prog.workers ++ [(.lockMap, w.prog.index)] } }
  | spawnPanic (w) : w.prog.main = .spawn → n ≤ w.prog.index →
      WStep ops n w { w with prog := { w.prog with main := .dead } }
  | wLockMap (w) (k r) : w.prog.workers[k]? = some (.lockMap, r) → w.prog.mapOwner = .free →
      w.prog.mapPoisoned = false →
      WStep ops n w { w with
        workerView := Function.update w.workerView k (max (w.workerView k) w.mapView)
        prog := { setW w.prog k .integrate r with mapOwner := .worker k } }
  | wLockMapPoisoned (w) (k r) : w.prog.workers[k]? = some (.lockMap, r) → w.prog.mapOwner = .free →
      w.prog.mapPoisoned = true → WStep ops n w { w with prog := setW w.prog k .dead r }
  | wIntegrate (w) (k r m) : w.prog.workers[k]? = some (.integrate, r) → ops.integrate r w.prog.map = .ret m →
      WStep ops n w { w with prog := { setW w.prog k .lockCells r with map := m } }
  | wIntegratePanic (w) (k r) : w.prog.workers[k]? = some (.integrate, r) → ops.integrate r w.prog.map = .panic →
      WStep ops n w { w with
        mapView := w.workerView k
        prog := { setW w.prog k .dead r with mapOwner := .free, mapPoisoned := true } }
  | wLockCells (w) (k r) : w.prog.workers[k]? = some (.lockCells, r) → w.prog.cellsOwner = .free →
      w.prog.cellsPoisoned = false →
      WStep ops n w { w with
        workerView := Function.update w.workerView k (max (w.workerView k) w.cellsView)
        prog := { setW w.prog k .copy r with cellsOwner := .worker k } }
  | wLockCellsPoisoned (w) (k r) : w.prog.workers[k]? = some (.lockCells, r) → w.prog.cellsOwner = .free →
      w.prog.cellsPoisoned = true →
      WStep ops n w { w with
        mapView := w.workerView k
        prog := { setW w.prog k .dead r with mapOwner := .free, mapPoisoned := true } }
  | wCopy (w) (k r) : w.prog.workers[k]? = some (.copy, r) →
      WStep ops n w { w with
        cellsView := w.workerView k
        prog := { setW w.prog k .reset r with cells := ops.changed w.prog.map, cellsOwner := .free } }
  | wReset (w) (k r) : w.prog.workers[k]? = some (.reset, r) →
      WStep ops n w { w with prog := { setW w.prog k .setFlag r with map := ops.reset w.prog.map } }
  /-- Line 91: the store takes place `p`. -/
  | wSetFlag (w) (k r) (p) : w.prog.workers[k]? = some (.setFlag, r) → w.workerView k < p → p ≤ w.writes.length →
      WStep ops n w { w.store p true with
        workerView := Function.update (w.store p true).workerView k p
        prog := setW w.prog k .unlock r }
  | wUnlock (w) (k r) : w.prog.workers[k]? = some (.unlock, r) →
      WStep ops n w { w with
        mapView := w.workerView k
        prog := { setW w.prog k .done r with mapOwner := .free } }

/-- Runs with a relaxed flag. -/
inductive WReach (ops : MapOps Map Cell Pt) (n : ℕ) (m : Map) : WState Map Cell Pt → Prop
  | init : WReach ops n m (wInit m)
  | step (w w') : WReach ops n m w → WStep ops n w w' → WReach ops n m w'

end Verif.Viz
