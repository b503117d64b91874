import Verif.Spec.Viz
import Mathlib.Data.List.Basic
import Mathlib.Tactic.Ring

/-!
# C52 – C55: the visualizer
-/

namespace Verif.Props
open Viz Spec

variable {Map Cell Pt : Type} [DecidableEq Cell] {ops : MapOps Map Cell Pt} {n : ℕ} {m₀ : Map}

/-- A worker that has not announced its end. -/
def Busy (pc : WorkerPc) : Prop := pc ≠ .unlock ∧ pc ≠ .done ∧ pc ≠ .dead

/-- A worker that holds the map. -/
def HoldsMap (pc : WorkerPc) : Prop := pc ≠ .lockMap ∧ pc ≠ .done ∧ pc ≠ .dead

/-- The invariant of the visualizer. -/
structure VInv (s : State Map Cell Pt) : Prop where
  busy : ∀ (k : ℕ) (pc : WorkerPc) (r : ℕ), s.workers[k]? = some (pc, r) → Busy pc →
    s.main = .check ∧ s.finished = false ∧ k + 1 = s.workers.length
  old : ∀ (k : ℕ) (pc : WorkerPc) (r : ℕ), s.workers[k]? = some (pc, r) →
    k + 1 < s.workers.length → pc = .unlock ∨ pc = .done
  deadW : ∀ (k r : ℕ), s.workers[k]? = some (WorkerPc.dead, r) → s.main = .check ∧ s.finished = false
  unfin : s.finished = false → s.main = .spawn ∨ s.main = .dead ∨ s.main = .check ∧
    0 < s.workers.length ∧ ∀ (pc : WorkerPc) (r : ℕ), s.workers[s.workers.length - 1]? = some (pc, r) →
      Busy pc ∨ pc = .dead
  fin : s.finished = true → s.main ≠ .spawn
  mapW : ∀ k, s.mapOwner = .worker k → ∃ pc r, s.workers[k]? = some (pc, r) ∧ HoldsMap pc
  mapW' : ∀ (k : ℕ) (pc : WorkerPc) (r : ℕ), s.workers[k]? = some (pc, r) → HoldsMap pc →
    s.mapOwner = .worker k
  mapM : s.mapOwner = .main ↔ s.main = .process
  cellsW : ∀ k, s.cellsOwner = .worker k → ∃ r, s.workers[k]? = some (WorkerPc.copy, r)
  cellsW' : ∀ (k r : ℕ), s.workers[k]? = some (WorkerPc.copy, r) → s.cellsOwner = .worker k
  cellsM : s.cellsOwner = .main ↔ s.main = .lockMap ∨ s.main = .process
  poisonM : s.mapPoisoned = true → s.main = .dead ∨ 0 < s.workers.length ∧
    ∀ (pc : WorkerPc) (r : ℕ), s.workers[s.workers.length - 1]? = some (pc, r) → pc = .dead
  poisonC : s.cellsPoisoned = true → s.main = .dead

omit [DecidableEq Cell] in
lemma VInv.init : VInv (Viz.init m₀ : State Map Cell Pt) := by
  constructor <;> simp [Viz.init]

omit [DecidableEq Cell] in
lemma lt_of_getW {s : State Map Cell Pt} {k : ℕ} {x : WorkerPc × ℕ} (h : s.workers[k]? = some x) :
    k < s.workers.length := by
  by_contra hc
  rw [List.getElem?_eq_none (by omega)] at h
  cases h

set_option maxHeartbeats 4000000 in
lemma VInv.step {s s' : State Map Cell Pt} (h : VInv s) (hs : Step ops n s s') : VInv s' := by
  cases hs
  case checkBusy => exact h
  all_goals
    obtain ⟨a1, a2, a3, a4, a5, a6, a7, a8, a9, a10, a11, a12, a13⟩ := h
  case wLockCells k r h1 h2 h3 =>
    have hk := lt_of_getW h1
    constructor <;> simp only [setW, List.length_set]
    case cellsW =>
      intro j hj
      injection hj with hj
      subst hj
      exact ⟨r, by rw [List.getElem?_set_self hk]⟩
    all_goals grind [Busy, HoldsMap]
  all_goals
    constructor <;> simp only [setW, List.length_set] <;> grind [Busy, HoldsMap]

lemma Reach.inv {s : State Map Cell Pt} (h : Reach ops n m₀ s) : VInv s := by
  induction h with
  | init => exact VInv.init
  | step s s' _ hs ih => exact ih.step hs

/-! ## C52 -/

/-- C52: at most one worker has not announced its end. While there is one, the render thread only polls
the flag; all earlier workers have announced their end. -/
theorem C52_one_worker {s : State Map Cell Pt} (h : Reach ops n m₀ s) {k j : ℕ} {pc pc' : WorkerPc}
    {r r' : ℕ} (hk : s.workers[k]? = some (pc, r)) (hpc : ¬ Ended pc)
    (hj : s.workers[j]? = some (pc', r')) (hpc' : ¬ Ended pc') : j = k ∧ s.main = .check := by
  have hi := Reach.inv h
  simp only [Ended, not_or] at hpc hpc'
  have h1 := hi.busy _ _ _ hk hpc
  have h2 := hi.busy _ _ _ hj hpc'
  exact ⟨by omega, h1.1⟩

/-- C52: at most one thread is integrating or reading the map. -/
theorem C52_map_exclusive {s : State Map Cell Pt} (h : Reach ops n m₀ s) {k : ℕ} {pc : WorkerPc}
    {r : ℕ} (hk : s.workers[k]? = some (pc, r)) (h1 : pc ≠ .lockMap) (h2 : pc ≠ .done)
    (h3 : pc ≠ .dead) : s.main ≠ .process ∧ ∀ (j : ℕ) pc' r', s.workers[j]? = some (pc', r') →
      pc' ≠ .lockMap → pc' ≠ .done → pc' ≠ .dead → j = k := by
  have hi := Reach.inv h
  have ho := hi.mapW' _ _ _ hk ⟨h1, h2, h3⟩
  constructor
  · intro hm
    rw [← hi.mapM, ho] at hm
    cases hm
  · intro j pc' r' hj e1 e2 e3
    have := hi.mapW' _ _ _ hj ⟨e1, e2, e3⟩
    rw [ho] at this
    injection this with this
    exact this.symm

/-- The last worker exists. -/
lemma last_worker {s : State Map Cell Pt} (h : 0 < s.workers.length) :
    ∃ pc r, s.workers[s.workers.length - 1]? = some (pc, r) :=
  ⟨_, _, List.getElem?_eq_getElem (by omega)⟩

lemma ne_of_main {s s' : State Map Cell Pt} (h : s'.main ≠ s.main) : s' ≠ s := fun e => h (by rw [e])

lemma ne_of_worker {s s' : State Map Cell Pt} {k : ℕ} (h : s'.workers[k]? ≠ s.workers[k]?) : s' ≠ s :=
  fun e => h (by rw [e])

/-- A worker that is not waiting can step. -/
lemma worker_steps {s : State Map Cell Pt} (hi : VInv s) {k : ℕ} {pc : WorkerPc} {r : ℕ}
    (hk : s.workers[k]? = some (pc, r)) (hh : HoldsMap pc)
    (hang : pc = .integrate → ops.integrate r s.map ≠ .hang) :
    ∃ s', Step ops n s s' ∧ s' ≠ s := by
  have hlt := lt_of_getW hk
  have key : ∀ (pc' : WorkerPc) (s' : State Map Cell Pt), s'.workers = s.workers.set k (pc', r) →
      pc' ≠ pc → s' ≠ s := by
    intro pc' s' h1 h2
    refine ne_of_worker (k := k) ?_
    rw [h1, hk, List.getElem?_set_self hlt]
    simpa using h2
  cases pc with
  | lockMap => exact absurd rfl hh.1
  | done => exact absurd rfl hh.2.1
  | dead => exact absurd rfl hh.2.2
  | integrate =>
    cases hr : ops.integrate r s.map with
    | ret m => exact ⟨_, Step.wIntegrate s k r m hk hr, key .lockCells _ rfl (by simp)⟩
    | panic => exact ⟨_, Step.wIntegratePanic s k r hk hr, key .dead _ rfl (by simp)⟩
    | hang => exact absurd hr (hang rfl)
  | lockCells =>
    have hb := hi.busy _ _ _ hk (by simp [Busy])
    have hfree : s.cellsOwner = .free := by
      cases hc : s.cellsOwner with
      | free => rfl
      | main =>
        rcases hi.cellsM.mp hc with h | h <;> rw [hb.1] at h <;> cases h
      | worker j =>
        obtain ⟨r', hr'⟩ := hi.cellsW j hc
        have := hi.busy _ _ _ hr' (by simp [Busy])
        have : j = k := by omega
        subst this
        rw [hk] at hr'
        cases hr'
    cases hp : s.cellsPoisoned with
    | false => exact ⟨_, Step.wLockCells s k r hk hfree hp, key .copy _ rfl (by simp)⟩
    | true => exact ⟨_, Step.wLockCellsPoisoned s k r hk hfree hp, key .dead _ rfl (by simp)⟩
  | copy => exact ⟨_, Step.wCopy s k r hk, key .reset _ rfl (by simp)⟩
  | reset => exact ⟨_, Step.wReset s k r hk, key .setFlag _ rfl (by simp)⟩
  | setFlag => exact ⟨_, Step.wSetFlag s k r hk, key .unlock _ rfl (by simp)⟩
  | unlock => exact ⟨_, Step.wUnlock s k r hk, key .done _ rfl (by simp)⟩

/-- C52: no deadlock. In every reachable state in which no thread has panicked and no integration hangs,
some thread can take a step that is not just polling the flag. -/
theorem C52_no_deadlock {s : State Map Cell Pt} (h : Reach ops n m₀ s) (hm : s.main ≠ .dead)
    (hw : ∀ (k r : ℕ), s.workers[k]? ≠ some (.dead, r))
    (hang : ∀ (k r : ℕ), s.workers[k]? = some (.integrate, r) → ops.integrate r s.map ≠ .hang) :
    ∃ s', Step ops n s s' ∧ s' ≠ s := by
  have hi := Reach.inv h
  -- whoever holds the map can step
  have hold : ∀ k, s.mapOwner = .worker k → ∃ s', Step ops n s s' ∧ s' ≠ s := by
    intro k hk
    obtain ⟨pc, r, h1, h2⟩ := hi.mapW k hk
    exact worker_steps hi h1 h2 fun e => hang k r (e ▸ h1)
  cases hmain : s.main with
  | dead => exact absurd hmain hm
  | clearFlag => exact ⟨_, Step.clearFlag s hmain, ne_of_main (by simp [hmain])⟩
  | spawn =>
    rcases Nat.lt_or_ge s.index n with hn | hn
    · exact ⟨_, Step.spawn s hmain hn, ne_of_main (by simp [hmain])⟩
    · exact ⟨_, Step.spawnPanic s hmain hn, ne_of_main (by simp [hmain])⟩
  | process =>
    cases hp : processCells ops s.map s.cells s.tracked with
    | none => exact ⟨_, Step.processPanic s hmain hp, ne_of_main (by simp [hmain])⟩
    | some t => exact ⟨_, Step.process s t hmain hp, ne_of_main (by simp [hmain])⟩
  | lockMap =>
    cases hp : s.mapOwner with
    | free =>
      cases hq : s.mapPoisoned with
      | false => exact ⟨_, Step.lockMap s hmain hp hq, ne_of_main (by simp [hmain])⟩
      | true => exact ⟨_, Step.lockMapPoisoned s hmain hp hq, ne_of_main (by simp [hmain])⟩
    | main => rw [hi.mapM, hmain] at hp; cases hp
    | worker k => exact hold k hp
  | lockCells =>
    cases hp : s.cellsOwner with
    | free =>
      cases hq : s.cellsPoisoned with
      | false => exact ⟨_, Step.lockCells s hmain hp hq, ne_of_main (by simp [hmain])⟩
      | true => exact ⟨_, Step.lockCellsPoisoned s hmain hp hq, ne_of_main (by simp [hmain])⟩
    | main => rw [hi.cellsM, hmain] at hp; simp at hp
    | worker k =>
      obtain ⟨r, hr⟩ := hi.cellsW k hp
      have := (hi.busy _ _ _ hr (by simp [Busy])).1
      rw [hmain] at this
      cases this
  | check =>
    cases hf : s.finished with
    | true => exact ⟨_, Step.checkDone s hmain hf, ne_of_main (by simp [hmain])⟩
    | false =>
      rcases hi.unfin hf with h1 | h1 | ⟨-, h2, h3⟩
      · rw [hmain] at h1; cases h1
      · rw [hmain] at h1; cases h1
      · obtain ⟨pc, r, hl⟩ := last_worker h2
        rcases h3 pc r hl with hb | rfl
        · cases hp : s.mapOwner with
          | main => rw [hi.mapM, hmain] at hp; cases hp
          | worker k => exact hold k hp
          | free =>
            by_cases he : pc = .lockMap
            · subst he
              have hlt := lt_of_getW hl
              have hq : s.mapPoisoned = false := by
                cases hq : s.mapPoisoned with
                | false => rfl
                | true =>
                  rcases hi.poisonM hq with h4 | ⟨-, h4⟩
                  · exact absurd h4 hm
                  · cases h4 _ _ hl
              refine ⟨_, Step.wLockMap s _ r hl hp hq, ne_of_worker (k := s.workers.length - 1) ?_⟩
              simp only [setW]
              rw [hl, List.getElem?_set_self hlt]
              simp
            · have := hi.mapW' _ _ _ hl ⟨he, hb.2.1, hb.2.2⟩
              rw [hp] at this
              cases this
        · exact absurd hl (hw _ _)

end Verif.Props
