import Verif.Spec.Weak
import Verif.Props.Alive

/-!
# C83: relaxed ordering of the flag is enough
-/

namespace Verif.Props
open Spec Viz

variable {Map Cell Pt : Type} [DecidableEq Cell] {ops : MapOps Map Cell Pt} {n : ℕ} {m₀ : Map}

/-- The invariant of the views. -/
structure WInv (w : WState Map Cell Pt) : Prop where
  pos : 0 < w.writes.length
  main_le : w.mainView < w.writes.length
  map_le : w.mapView < w.writes.length
  cells_le : w.cellsView < w.writes.length
  worker_le : ∀ k, w.workerView k < w.writes.length
  /-- Whoever may store knows the last store. -/
  main_last : w.prog.main ≠ .check → w.mainView + 1 = w.writes.length
  worker_last : ∀ (k : ℕ) (pc : WorkerPc) (r : ℕ), w.prog.workers[k]? = some (pc, r) → Busy pc →
    w.workerView k + 1 = w.writes.length
  /-- The render thread knows every store but a last `true`. -/
  stale : ∀ p, w.mainView ≤ p → p + 1 < w.writes.length → w.writes[p]? = some false
  cleared : w.writes.getLastD true = false → w.mainView + 1 = w.writes.length

omit [DecidableEq Cell] in
lemma seen_main (w : WState Map Cell Pt) : (flagNow w).main = w.prog.main := rfl

omit [DecidableEq Cell] in
lemma WInv.init : WInv (wInit m₀ : WState Map Cell Pt) := by
  constructor <;> simp [wInit, Viz.init]

lemma last_at {l : List Bool} {p : ℕ} {b : Bool} (h : l[p]? = some b) (hp : p + 1 = l.length) :
    l.getLastD true = b := by
  obtain ⟨hlt, e⟩ := List.getElem?_eq_some_iff.mp h
  rw [List.getLastD_eq_getLast?, List.getLast?_eq_getElem?]
  simp [← hp, e, hlt]

lemma insert_end {l : List Bool} (b : Bool) : l.insertIdx l.length b = l ++ [b] := by
  rw [List.insertIdx_length_self]

lemma shift_lt {p v : ℕ} (h : v < p) : shift p v = v := by rw [shift, if_neg (by omega)]

/-- Updating one view to one that is not new keeps all views bounded. -/
lemma update_le {f : ℕ → ℕ} {N k v : ℕ} (hf : ∀ j, f j < N) (hv : v < N) (j : ℕ) : Function.update f k v j < N := by
  rcases eq_or_ne j k with rfl | h
  · rwa [Function.update_self]
  · rw [Function.update_of_ne h]; exact hf j

set_option maxHeartbeats 4000000 in
lemma WInv.step {w w' : WState Map Cell Pt} (h : WInv w) (hv : VInv (flagNow w)) (hs : WStep ops n w w') :
    WInv w' ∧ (Step ops n (flagNow w) (flagNow w') ∨ flagNow w' = flagNow w ∧ w.prog.main = .check ∧ (flagNow w).finished = true) := by
  have busy : ∀ (k : ℕ) (pc : WorkerPc) (r : ℕ), w.prog.workers[k]? = some (pc, r) → Busy pc →
      w.prog.main = .check ∧ w.writes.getLastD true = false ∧ k + 1 = w.prog.workers.length := hv.busy
  obtain ⟨a1, a2, a3, a4, a5, a6, a7, a8, a9⟩ := h
  have hset : ∀ {k r : ℕ} {pc pc' : WorkerPc}, w.prog.workers[k]? = some (pc, r) → (Busy pc' → Busy pc) →
      ∀ (j : ℕ) (q : WorkerPc) (r' : ℕ), (w.prog.workers.set k (pc', r))[j]? = some (q, r') → Busy q →
      w.workerView j + 1 = w.writes.length := by
    intro k r pc pc' hk hb j q r' hj hq
    rcases eq_or_ne j k with rfl | hne
    · rw [List.getElem?_set_self (lt_of_getW hk)] at hj
      cases hj
      exact a7 j _ _ hk (hb hq)
    · rw [List.getElem?_set_ne hne.symm] at hj
      exact a7 j _ _ hj hq
  cases hs
  case check p b h1 h2 h3 =>
    have hp := (List.getElem?_eq_some_iff.mp h3).1
    rcases Nat.lt_or_ge (p + 1) w.writes.length with h4 | h4
    · have h5 := a8 p h2 h4
      rw [h3] at h5
      cases h5
      refine ⟨⟨a1, hp, a3, a4, a5, by simp, a7, fun q hq => a8 q (by simp only at hq; omega), fun h => ?_⟩, .inr ⟨?_, h1, ?_⟩⟩
      · have := a9 h; omega
      · simp [flagNow, h1]
      · by_contra hf
        have := a9 (by simpa [flagNow] using hf)
        omega
    · have h5 := last_at h3 (by omega)
      refine ⟨⟨a1, hp, a3, a4, a5, fun _ => by simp only; omega, a7, fun q hq => a8 q (by simp only at hq; omega), fun h => ?_⟩,
        .inl ?_⟩
      · simp only; omega
      · cases b
        · simpa [flagNow, h1] using Step.checkBusy (ops := ops) (n := n) (flagNow w) h1 h5
        · simpa [flagNow] using Step.checkDone (ops := ops) (n := n) (flagNow w) h1 h5
  case clearFlag p h1 h2 h3 =>
    have h4 := a6 (by rw [h1]; simp)
    obtain rfl : p = w.writes.length := by omega
    have hl : (w.store w.writes.length false).writes = w.writes ++ [false] := insert_end _
    refine ⟨⟨?_, ?_, ?_, ?_, ?_, ?_, ?_, ?_, ?_⟩, .inl ?_⟩ <;> simp only [hl, List.length_append, List.length_singleton]
    · omega
    · omega
    · simp only [WState.store, shift_lt a3]; omega
    · simp only [WState.store, shift_lt a4]; omega
    · intro k; simp only [WState.store, shift_lt (a5 k)]; have := a5 k; omega
    · simp
    · intro k pc r hk hb
      have := (busy k pc r hk hb).1
      rw [h1] at this; cases this
    · intro q hq; omega
    · simp
    · have := Step.clearFlag (ops := ops) (n := n) (flagNow w) h1
      simpa [flagNow, hl, WState.store] using this
  case wSetFlag k r p h1 h2 h3 =>
    have h4 := a7 k _ r h1 (by simp [Busy])
    obtain ⟨b1, b2, b3⟩ := busy k _ r h1 (by simp [Busy])
    obtain rfl : p = w.writes.length := by omega
    have hl : (w.store w.writes.length true).writes = w.writes ++ [true] := insert_end _
    have hm := a9 b2
    refine ⟨⟨?_, ?_, ?_, ?_, ?_, ?_, ?_, ?_, ?_⟩, .inl ?_⟩ <;> simp only [hl, List.length_append, List.length_singleton]
    · omega
    · simp only [WState.store, shift_lt a2]; omega
    · simp only [WState.store, shift_lt a3]; omega
    · simp only [WState.store, shift_lt a4]; omega
    · refine update_le (fun j => ?_) (by omega)
      simp only [WState.store, shift_lt (a5 j)]; have := a5 j; omega
    · intro h; exact absurd b1 h
    · intro j pc r' hj hb
      simp only [setW] at hj
      rcases eq_or_ne j k with rfl | hne
      · rw [List.getElem?_set_self (lt_of_getW h1)] at hj
        cases hj
        exact absurd rfl hb.1
      · rw [List.getElem?_set_ne hne.symm] at hj
        have := (busy j pc r' hj hb).2.2
        omega
    · intro q hq hq2
      simp only [WState.store, shift_lt a2] at hq
      obtain rfl : q = w.mainView := by omega
      rw [List.getElem?_append_left a2]
      have := List.getElem?_eq_getElem a2
      rw [this, ← last_at this hm, b2]
    · simp
    · have := Step.wSetFlag (ops := ops) (n := n) (flagNow w) k r h1
      simpa [flagNow, hl, WState.store, setW] using this
  case lockCells h1 h2 h3 =>
    have h4 := a6 (by rw [h1]; simp)
    have e : max w.mainView w.cellsView = w.mainView := by omega
    rw [e]
    exact ⟨⟨a1, a2, a3, a4, a5, fun _ => h4, a7, a8, a9⟩, .inl (.lockCells (flagNow w) h1 h2 h3)⟩
  case lockMap h1 h2 h3 =>
    have h4 := a6 (by rw [h1]; simp)
    have e : max w.mainView w.mapView = w.mainView := by omega
    rw [e]
    exact ⟨⟨a1, a2, a3, a4, a5, fun _ => h4, a7, a8, a9⟩, .inl (.lockMap (flagNow w) h1 h2 h3)⟩
  case lockCellsPoisoned h1 h2 h3 =>
    have h4 := a6 (by rw [h1]; simp)
    exact ⟨⟨a1, a2, a3, a4, a5, fun _ => h4, a7, a8, a9⟩, .inl (.lockCellsPoisoned (flagNow w) h1 h2 h3)⟩
  case lockMapPoisoned h1 h2 h3 =>
    have h4 := a6 (by rw [h1]; simp)
    exact ⟨⟨a1, a2, a3, a2, a5, fun _ => h4, a7, a8, a9⟩, .inl (.lockMapPoisoned (flagNow w) h1 h2 h3)⟩
  case process t h1 h2 =>
    have h4 := a6 (by rw [h1]; simp)
    exact ⟨⟨a1, a2, a2, a2, a5, fun _ => h4, a7, a8, a9⟩, .inl (.process (flagNow w) t h1 h2)⟩
  case processPanic h1 h2 =>
    have h4 := a6 (by rw [h1]; simp)
    exact ⟨⟨a1, a2, a2, a2, a5, fun _ => h4, a7, a8, a9⟩, .inl (.processPanic (flagNow w) h1 h2)⟩
  case spawn h1 h2 =>
    have h4 := a6 (by rw [h1]; simp)
    refine ⟨⟨a1, a2, a3, a4, update_le a5 a2, fun _ => h4, ?_, a8, a9⟩, .inl (.spawn (flagNow w) h1 h2)⟩
    intro k pc r hk hb
    rcases Nat.lt_trichotomy k w.prog.workers.length with hlt | rfl | hlt
    · simp only [List.getElem?_append_left hlt] at hk
      have := (busy k pc r hk hb).1
      rw [h1] at this; cases this
    · simp only [Function.update_self]; exact h4
    · simp only at hk
      rw [List.getElem?_eq_none (by simp; omega)] at hk; cases hk
  case spawnPanic h1 h2 =>
    have h4 := a6 (by rw [h1]; simp)
    exact ⟨⟨a1, a2, a3, a4, a5, fun _ => h4, a7, a8, a9⟩, .inl (.spawnPanic (flagNow w) h1 h2)⟩
  case wLockMap k r h1 h2 h3 =>
    have h4 := a7 k _ r h1 (by simp [Busy])
    have e : max (w.workerView k) w.mapView = w.workerView k := by omega
    rw [e, Function.update_eq_self]
    exact ⟨⟨a1, a2, a3, a4, a5, a6, hset h1 (by simp [Busy]), a8, a9⟩, .inl (.wLockMap (flagNow w) k r h1 h2 h3)⟩
  case wLockCells k r h1 h2 h3 =>
    have h4 := a7 k _ r h1 (by simp [Busy])
    have e : max (w.workerView k) w.cellsView = w.workerView k := by omega
    rw [e, Function.update_eq_self]
    exact ⟨⟨a1, a2, a3, a4, a5, a6, hset h1 (by simp [Busy]), a8, a9⟩, .inl (.wLockCells (flagNow w) k r h1 h2 h3)⟩
  case wLockMapPoisoned k r h1 h2 h3 =>
    exact ⟨⟨a1, a2, a3, a4, a5, a6, hset h1 (by simp [Busy]), a8, a9⟩, .inl (.wLockMapPoisoned (flagNow w) k r h1 h2 h3)⟩
  case wIntegrate k r m h1 h2 =>
    exact ⟨⟨a1, a2, a3, a4, a5, a6, hset h1 (by simp [Busy]), a8, a9⟩, .inl (.wIntegrate (flagNow w) k r m h1 h2)⟩
  case wIntegratePanic k r h1 h2 =>
    exact ⟨⟨a1, a2, a5 k, a4, a5, a6, hset h1 (by simp [Busy]), a8, a9⟩, .inl (.wIntegratePanic (flagNow w) k r h1 h2)⟩
  case wLockCellsPoisoned k r h1 h2 h3 =>
    exact ⟨⟨a1, a2, a5 k, a4, a5, a6, hset h1 (by simp [Busy]), a8, a9⟩,
      .inl (.wLockCellsPoisoned (flagNow w) k r h1 h2 h3)⟩
  case wCopy k r h1 =>
    exact ⟨⟨a1, a2, a3, a5 k, a5, a6, hset h1 (by simp [Busy]), a8, a9⟩, .inl (.wCopy (flagNow w) k r h1)⟩
  case wReset k r h1 =>
    exact ⟨⟨a1, a2, a3, a4, a5, a6, hset h1 (by simp [Busy]), a8, a9⟩, .inl (.wReset (flagNow w) k r h1)⟩
  case wUnlock k r h1 =>
    exact ⟨⟨a1, a2, a5 k, a4, a5, a6, hset h1 (by simp [Busy]), a8, a9⟩, .inl (.wUnlock (flagNow w) k r h1)⟩

lemma WReach.inv {w : WState Map Cell Pt} (h : WReach ops n m₀ w) : WInv w ∧ Reach ops n m₀ (flagNow w) := by
  induction h with
  | init => exact ⟨WInv.init, Reach.init⟩
  | step w w' _ hs ih =>
    obtain ⟨h1, h2⟩ := ih.1.step (Reach.inv ih.2) hs
    refine ⟨h1, ?_⟩
    rcases h2 with h2 | ⟨h2, -⟩
    · exact .step _ _ ih.2 h2
    · rw [h2]; exact ih.2

/-- C83: relaxed ordering of the flag is enough. Every state that the visualizer reaches with a relaxed flag is reached
with a sequentially consistent one; so all theorems about the latter hold with the relaxed flag. -/
theorem C83_relaxed {w : WState Map Cell Pt} (h : WReach ops n m₀ w) : Reach ops n m₀ (flagNow w) := (WReach.inv h).2

/-- C83: step by step: a step with the relaxed flag is a step with the sequentially consistent one, or it is a frame in
which the render thread does not see yet that the worker has finished, and does nothing. -/
theorem C83_step {w w' : WState Map Cell Pt} (h : WReach ops n m₀ w) (hs : WStep ops n w w') :
    Step ops n (flagNow w) (flagNow w') ∨ flagNow w' = flagNow w ∧ w.prog.main = .check ∧ (flagNow w).finished = true := by
  obtain ⟨h1, h2⟩ := WReach.inv h
  exact (h1.step (Reach.inv h2) hs).2

/-- C83: the stores to the flag take effect in the order in which they are executed. -/
theorem C83_order {w w' : WState Map Cell Pt} (h : WReach ops n m₀ w) (hs : WStep ops n w w') :
    w'.writes = w.writes ∨ ∃ b, w'.writes = w.writes ++ [b] := by
  obtain ⟨h1, -⟩ := WReach.inv h
  cases hs
  case clearFlag p e1 e2 e3 =>
    have h4 := h1.main_last (by rw [e1]; simp)
    obtain rfl : p = w.writes.length := by omega
    exact .inr ⟨_, insert_end _⟩
  case wSetFlag k r p e1 e2 e3 =>
    have h4 := h1.worker_last k _ r e1 (by simp [Busy])
    obtain rfl : p = w.writes.length := by omega
    exact .inr ⟨_, insert_end _⟩
  all_goals exact .inl rfl

lemma WInv.complete {w : WState Map Cell Pt} (h1 : WInv w) {s' : State Map Cell Pt}
    (hs : Step ops n (flagNow w) s') : ∃ w', WStep ops n w w' ∧ flagNow w' = s' := by
  have hlast : w.writes[w.writes.length - 1]? = some (w.writes.getLastD true) := by
    rw [List.getLastD_eq_getLast?, List.getLast?_eq_getElem?]
    have := h1.pos
    simp [List.getElem?_eq_getElem (show w.writes.length - 1 < w.writes.length by omega)]
  have hle : w.mainView ≤ w.writes.length - 1 := by have := h1.main_le; omega
  cases hs
  case checkBusy e1 e2 =>
    have e2' : w.writes.getLastD true = false := e2
    exact ⟨_, .check w _ _ e1 hle hlast, by simp only [e2']; have e1' : w.prog.main = .check := e1; simp [flagNow, e1']⟩
  case checkDone e1 e2 =>
    have e2' : w.writes.getLastD true = true := e2
    exact ⟨_, .check w _ _ e1 hle hlast, by simp only [e2']; rfl⟩
  case lockCells e1 e2 e3 => exact ⟨_, .lockCells w e1 e2 e3, rfl⟩
  case lockCellsPoisoned e1 e2 e3 => exact ⟨_, .lockCellsPoisoned w e1 e2 e3, rfl⟩
  case lockMap e1 e2 e3 => exact ⟨_, .lockMap w e1 e2 e3, rfl⟩
  case lockMapPoisoned e1 e2 e3 => exact ⟨_, .lockMapPoisoned w e1 e2 e3, rfl⟩
  case process t e1 e2 => exact ⟨_, .process w t e1 e2, rfl⟩
  case processPanic e1 e2 => exact ⟨_, .processPanic w e1 e2, rfl⟩
  case clearFlag e1 =>
    exact ⟨_, .clearFlag w w.writes.length e1 h1.main_le le_rfl, by simp [flagNow, WState.store]⟩
  case spawn e1 e2 => exact ⟨_, .spawn w e1 e2, rfl⟩
  case spawnPanic e1 e2 => exact ⟨_, .spawnPanic w e1 e2, rfl⟩
  case wLockMap k r e1 e2 e3 => exact ⟨_, .wLockMap w k r e1 e2 e3, rfl⟩
  case wLockMapPoisoned k r e1 e2 e3 => exact ⟨_, .wLockMapPoisoned w k r e1 e2 e3, rfl⟩
  case wIntegrate k r m e1 e2 => exact ⟨_, .wIntegrate w k r m e1 e2, rfl⟩
  case wIntegratePanic k r e1 e2 => exact ⟨_, .wIntegratePanic w k r e1 e2, rfl⟩
  case wLockCells k r e1 e2 e3 => exact ⟨_, .wLockCells w k r e1 e2 e3, rfl⟩
  case wLockCellsPoisoned k r e1 e2 e3 => exact ⟨_, .wLockCellsPoisoned w k r e1 e2 e3, rfl⟩
  case wCopy k r e1 => exact ⟨_, .wCopy w k r e1, rfl⟩
  case wReset k r e1 => exact ⟨_, .wReset w k r e1, rfl⟩
  case wSetFlag k r e1 =>
    exact ⟨_, .wSetFlag w k r w.writes.length e1 (h1.worker_le k) le_rfl, by simp [flagNow, WState.store, setW]⟩
  case wUnlock k r e1 => exact ⟨_, .wUnlock w k r e1, rfl⟩

/-- C83: conversely whatever can happen with a sequentially consistent flag can happen with the relaxed one. -/
theorem C83_complete {w : WState Map Cell Pt} (h : WReach ops n m₀ w) {s' : State Map Cell Pt}
    (hs : Step ops n (flagNow w) s') : ∃ w', WStep ops n w w' ∧ flagNow w' = s' := (WReach.inv h).1.complete hs

/-- Every state reached with the sequentially consistent flag is reached with the relaxed one. -/
lemma reach_weak {s : State Map Cell Pt} (h : Reach ops n m₀ s) : ∃ w, WReach ops n m₀ w ∧ flagNow w = s := by
  induction h with
  | init => exact ⟨_, .init, rfl⟩
  | step s s' _ hs ih =>
    obtain ⟨w, h1, rfl⟩ := ih
    obtain ⟨w', h2, h3⟩ := C83_complete h1 hs
    exact ⟨w', .step _ _ h1 h2, h3⟩

lemma wexec_reach {τ : ℕ → WState Map Cell Pt} (h : WExecution ops n m₀ τ) : ∀ i, WReach ops n m₀ (τ i)
  | 0 => h.start ▸ .init
  | i + 1 => (h.step i).elim (.step _ _ (wexec_reach h i)) fun e => e ▸ wexec_reach h i

/-- C83: an infinite run with the relaxed flag is one with the sequentially consistent flag, and if it is fair, so is
that one. -/
theorem C83_execution {τ : ℕ → WState Map Cell Pt} (h : WExecution ops n m₀ τ) :
    Execution ops n m₀ (fun i => flagNow (τ i)) ∧ (WFair ops n τ → Fair ops n fun i => flagNow (τ i)) := by
  refine ⟨⟨by rw [h.start]; rfl, fun i => ?_⟩, fun hf i ⟨s', h1, h2⟩ => ?_⟩
  · rcases h.step i with h1 | h1
    · exact (C83_step (wexec_reach h i) h1).imp_right And.left
    · right; simp only [h1]
  · obtain ⟨w', h3, rfl⟩ := C83_complete (wexec_reach h i) h1
    exact hf i ⟨w', h3, h2⟩

/-- C83: so with the relaxed flag too every fair run, in which at every moment some thread can go on, plays every number
of scans and draws their changes. -/
theorem C83_fair {τ : ℕ → WState Map Cell Pt} (h : WExecution ops n m₀ τ) (hf : WFair ops n τ)
    (hgo : ∀ s, Reach ops n m₀ s → ∃ s', Step ops n s s' ∧ s' ≠ s) (k : ℕ) :
    ∃ i, (τ i).prog.main = .clearFlag ∧ (τ i).prog.workers.length = k := by
  obtain ⟨h1, h2⟩ := C83_execution h
  exact C82_fair h1 (h2 hf) (fun i => hgo _ (C83_relaxed (wexec_reach h i))) k

/-- There is a fair run with the relaxed flag, if at every moment some thread can go on. -/
lemma wfair_exists (hgo : ∀ s, Reach ops n m₀ s → ∃ s', Step ops n s s' ∧ s' ≠ s) :
    ∃ τ, WExecution ops n m₀ τ ∧ WFair ops n τ := by
  have hw : ∀ w, WReach ops n m₀ w → ∃ w', WStep ops n w w' ∧ flagNow w' ≠ flagNow w := by
    intro w hw
    obtain ⟨s', h1, h2⟩ := hgo _ (C83_relaxed hw)
    obtain ⟨w', h3, rfl⟩ := C83_complete hw h1
    exact ⟨w', h3, h2⟩
  choose! f h1 h2 using hw
  have hr : ∀ i, WReach ops n m₀ (f^[i] (wInit m₀)) := by
    intro i
    induction i with
    | zero => exact .init
    | succ i ih => rw [Function.iterate_succ_apply']; exact .step _ _ ih (h1 _ ih)
  refine ⟨fun i => f^[i] (wInit m₀), ⟨rfl, fun i => ?_⟩, fun i _ => ⟨i, le_rfl, ?_⟩⟩
  · simp only [Function.iterate_succ_apply']; exact .inl (h1 _ (hr i))
  · simp only [Function.iterate_succ_apply']; exact h2 _ (hr i)

/-- With the flag set and the only worker done the render thread goes on. -/
lemma toy_no_step {s s' : State (List ℕ × List ℕ) ℕ ℕ} (hs : Step toyOps 3 s s') (a1 : s.main = .check)
    (a2 : s.finished = true) (a3 : s'.main = .check) (a4 : s.workers = [(.done, 0)]) : False := by
  have hk : ∀ {k r : ℕ} {pc : WorkerPc}, s.workers[k]? = some (pc, r) → pc ≠ .done → False := by
    intro k r pc h1 h2
    rw [a4] at h1
    rcases k with _ | k
    · simp only [List.getElem?_cons_zero, Option.some.injEq, Prod.mk.injEq] at h1
      exact h2 h1.1.symm
    · simp at h1
  cases hs <;> first | exact hk (by assumption) (by simp) | simp_all

/-- The relaxed flag does allow more steps: the worker has finished and released the map, and the render thread, having
missed it, polls again without any effect. -/
example : ∃ w w' : WState (List ℕ × List ℕ) ℕ ℕ, WReach toyOps 3 ([], []) w ∧ WStep toyOps 3 w w' ∧
    w.prog.workers = [(.done, 0)] ∧ (flagNow w).finished = true ∧ ¬ Step toyOps 3 (flagNow w) (flagNow w') ∧
    w'.prog.main = .check := by
  have h0 : WReach toyOps 3 ([], []) (wInit ([], [])) := .init
  have h1 := h0.step _ _ (.check _ 0 true rfl le_rfl rfl)
  have h2 := h1.step _ _ (.lockCells _ rfl rfl rfl)
  have h3 := h2.step _ _ (.lockMap _ rfl rfl rfl)
  have h4 := h3.step _ _ (.process _ (fun _ => none) rfl rfl)
  have h5 := h4.step _ _ (.clearFlag _ 1 rfl (by decide) (by decide))
  have h6 := h5.step _ _ (.spawn _ rfl (by decide))
  have h7 := h6.step _ _ (.wLockMap _ 0 0 rfl rfl rfl)
  have h8 := h7.step _ _ (.wIntegrate _ 0 0 ([0], [0]) rfl rfl)
  have h9 := h8.step _ _ (.wLockCells _ 0 0 rfl rfl rfl)
  have h10 := h9.step _ _ (.wCopy _ 0 0 rfl)
  have h11 := h10.step _ _ (.wReset _ 0 0 rfl)
  have h12 := h11.step _ _ (.wSetFlag _ 0 0 2 rfl (by decide) (by decide))
  have h13 := h12.step _ _ (.wUnlock _ 0 0 rfl)
  refine ⟨_, _, h13, .check _ 1 false rfl (by decide) rfl, rfl, rfl, ?_, rfl⟩
  intro hs
  exact toy_no_step hs rfl rfl rfl rfl

/-- A fair run with the relaxed flag, clear recordings and the occupancy map. -/
example : ∃ τ, WExecution (occOps defaultNM clearRecs fun _ l => l) 1 smallMap τ ∧
    WFair (occOps defaultNM clearRecs fun _ l => l) 1 τ ∧
    ∃ i, (τ i).prog.main = .clearFlag ∧ (τ i).prog.workers.length = 9 := by
  have ho : ∀ r : ℕ, IsOrder ((fun _ l => l : ℕ → List (Verif.Cell 2) → List (Verif.Cell 2)) r) := fun _ l => List.Perm.refl l
  have hgo := fun s hs => (C82_visualizer (nm := defaultNM) (recs := clearRecs) (n := 1) (K := 8) (N := 11) (s := s)
    (.inl rfl) (by norm_num) smallMap_placed rfl rfl ho (by norm_num) (by norm_num) (M := 8) (by norm_num) rfl
    (by norm_num) (fun r _ => ⟨_, clearRecs_clear r⟩) hs).2.2
  obtain ⟨τ, h1, h2⟩ := wfair_exists hgo
  exact ⟨τ, h1, h2, C83_fair h1 h2 hgo 9⟩

end Verif.Props
