import Verif.Model.Viz

/-!
# Specification vocabulary: the visualizer
-/

namespace Verif.Spec
open Viz

variable {Map Cell Pt : Type} [DecidableEq Cell]

/-- The worker has announced its end or will never do so. -/
def Ended (pc : WorkerPc) : Prop := pc = .unlock ∨ pc = .done ∨ pc = .dead

/-- `k` steps, none of which is a frame that does nothing, and none of which starts a worker. -/
inductive Quiet (ops : MapOps Map Cell Pt) (n : ℕ) :
    ℕ → State Map Cell Pt → State Map Cell Pt → Prop
  | nil (s) : Quiet ops n 0 s s
  | step {k s s' s''} : Quiet ops n k s s' → Step ops n s' s'' → s'' ≠ s' →
      s''.workers.length = s'.workers.length → Quiet ops n (k + 1) s s''

/-- Steps one after the other. -/
inductive Steps (ops : MapOps Map Cell Pt) (n : ℕ) : State Map Cell Pt → State Map Cell Pt → Prop
  | nil (s) : Steps ops n s s
  | step {s s' s''} : Steps ops n s s' → Step ops n s' s'' → Steps ops n s s''

/-- What an observer sees. -/
inductive Event (Cell : Type)
  /-- The renderer has processed these changed cells. -/
  | processed (cells : List Cell)
  /-- Worker `k` is started with recording `r`. -/
  | started (k r : ℕ)
  /-- Worker `k` has integrated recording `r`; the map has recorded these changed cells. -/
  | integrated (k r : ℕ) (cells : List Cell)

/-- What a step shows. -/
inductive Shows (ops : MapOps Map Cell Pt) : State Map Cell Pt → State Map Cell Pt → List (Event Cell) → Prop
  | processed (s s') : s.main = .process → s'.main = .clearFlag → Shows ops s s' [.processed s.cells]
  | started (s s') (r) : s'.workers = s.workers ++ [(.lockMap, r)] →
      Shows ops s s' [.started s.workers.length r]
  | integrated (s s') (k r) : s.workers[k]? = some (.integrate, r) →
      s'.workers[k]? = some (.lockCells, r) → Shows ops s s' [.integrated k r (ops.changed s'.map)]
  | nothing (s s') : (s.main = .process → s'.main = .process ∨ s'.main = .dead) →
      s'.workers.length = s.workers.length →
      (∀ (k r : ℕ), s.workers[k]? = some (.integrate, r) → s'.workers[k]? ≠ some (.lockCells, r)) →
      Shows ops s s' []

/-- Runs with what an observer sees. -/
inductive Run (ops : MapOps Map Cell Pt) (n : ℕ) (m : Map) :
    List (Event Cell) → State Map Cell Pt → Prop
  | init : Run ops n m [] (init m)
  | step {evs e s s'} : Run ops n m evs s → Step ops n s s' → Shows ops s s' e →
      Run ops n m (evs ++ e) s'

/-- Cycles `k`, `k + 1`, …: the changes of the previous integration are processed, then the next
integration is started and recorded. Integration `k` uses recording `k mod n`. -/
def cycles (n : ℕ) : ℕ → List Cell → List (List Cell) → List (Event Cell)
  | _, _, [] => []
  | k, prev, cs :: r =>
    .processed prev :: .started k (k % n) :: .integrated k (k % n) cs :: cycles n (k + 1) cs r

/-- The renderer's table is what the map says, for the cells satisfying `C`: a cell is in the table exactly
if the map reports it occupied, and then with the map's point for it. -/
def Mirrors (ops : MapOps Map Cell Pt) (C : Cell → Prop) (t : Cell → Option Pt) (m : Map) : Prop :=
  ∀ c, C c → t c = if ops.occupied m c = some true then some (ops.point m c) else none

end Verif.Spec
