import Verif.Spec.Alive
import Verif.Props.VizRuns

/-!
# C82: fair runs
-/

namespace Verif.Props
open Spec Viz

section
variable {Map Cell Pt : Type} [DecidableEq Cell] {ops : MapOps Map Cell Pt} {n : ℕ} {m₀ : Map}
  {σ : ℕ → State Map Cell Pt}

lemma exec_reach (h : Execution ops n m₀ σ) : ∀ i, Reach ops n m₀ (σ i)
  | 0 => h.start ▸ .init
  | i + 1 => (h.step i).elim (.step _ _ (exec_reach h i)) fun e => e ▸ exec_reach h i

lemma step_workers {s s' : State Map Cell Pt} (h : Step ops n s s') :
    s'.workers.length = s.workers.length ∨ s'.workers.length = s.workers.length + 1 ∧ s.main = .spawn := by
  cases h <;> simp_all [setW]

lemma exec_workers (h : Execution ops n m₀ σ) (i : ℕ) : (σ (i + 1)).workers.length = (σ i).workers.length ∨
    (σ (i + 1)).workers.length = (σ i).workers.length + 1 ∧ (σ i).main = .spawn :=
  (h.step i).elim step_workers fun e => .inl (by rw [e])

lemma exec_weight (h : Execution ops n m₀ σ) {i : ℕ} (hne : σ (i + 1) ≠ σ i)
    (hl : (σ (i + 1)).workers.length = (σ i).workers.length) : weight (σ (i + 1)) < weight (σ i) :=
  weight_step ((h.step i).resolve_right hne) hne hl

lemma workers_mono (h : Execution ops n m₀ σ) {i j : ℕ} (hij : i ≤ j) :
    (σ i).workers.length ≤ (σ j).workers.length := by
  induction j, hij using Nat.le_induction with
  | base => rfl
  | succ j _ ih => rcases exec_workers h j with h1 | ⟨h1, -⟩ <;> omega

/-- The next worker is started. -/
lemma exec_next (h : Execution ops n m₀ σ) (hf : Fair ops n σ)
    (hgo : ∀ i, ∃ s', Step ops n (σ i) s' ∧ s' ≠ σ i) (w : ℕ) : ∀ i, weight (σ i) ≤ w →
    ∃ j, i ≤ j ∧ (σ i).workers.length < (σ j).workers.length := by
  induction w with
  | zero =>
    intro i hi
    obtain ⟨s', h1, h2⟩ := hgo i
    by_contra hno
    push Not at hno
    obtain ⟨j, h3, h4⟩ := hf i ⟨s', h1, h2⟩
    have hw : ∀ j, i ≤ j → weight (σ j) ≤ 0 := by
      intro j hj
      induction j, hj using Nat.le_induction with
      | base => exact hi
      | succ j hj ih =>
        by_cases he : σ (j + 1) = σ j
        · rw [he]; exact ih
        · have a := hno j hj
          have b := hno (j + 1) (by omega)
          have c := workers_mono h (show j ≤ j + 1 by omega)
          have d := workers_mono h hj
          exact (exec_weight h he (by omega)).le.trans ih
    have a := hno j h3
    have b := hno (j + 1) (by omega)
    have c := workers_mono h (show j ≤ j + 1 by omega)
    have d := workers_mono h h3
    have := exec_weight h h4 (by omega)
    have := hw j h3
    omega
  | succ w ih =>
    intro i hi
    obtain ⟨s', h1, h2⟩ := hgo i
    obtain ⟨j, h3, h4⟩ := hf i ⟨s', h1, h2⟩
    by_contra hno
    push Not at hno
    have hlen : ∀ j, i ≤ j → (σ j).workers.length = (σ i).workers.length := fun j hj =>
      le_antisymm (hno j hj) (workers_mono h hj)
    have hw : ∀ j, i ≤ j → weight (σ j) ≤ w + 1 := by
      intro j hj
      induction j, hj using Nat.le_induction with
      | base => exact hi
      | succ j hj ih =>
        by_cases he : σ (j + 1) = σ j
        · rw [he]; exact ih
        · exact (exec_weight h he (by rw [hlen j hj, hlen (j + 1) (by omega)])).le.trans ih
    have h5 := exec_weight h h4 (by rw [hlen j h3, hlen (j + 1) (by omega)])
    obtain ⟨l, h6, h7⟩ := ih (j + 1) (by have := hw j h3; omega)
    have := hno l (by omega)
    rw [hlen (j + 1) (by omega)] at h7
    omega

lemma exec_unbounded (h : Execution ops n m₀ σ) (hf : Fair ops n σ)
    (hgo : ∀ i, ∃ s', Step ops n (σ i) s' ∧ s' ≠ σ i) (k : ℕ) : ∃ i, k ≤ (σ i).workers.length := by
  induction k with
  | zero => exact ⟨0, Nat.zero_le _⟩
  | succ k ih =>
    obtain ⟨i, hi⟩ := ih
    obtain ⟨j, -, hj⟩ := exec_next h hf hgo _ i le_rfl
    exact ⟨j, by omega⟩

/-- When the render thread is about to start a worker, it has processed the changes before, and no worker was started
since. -/
lemma exec_cleared (h : Execution ops n m₀ σ) : ∀ i, (σ i).main = .spawn →
    ∃ j < i, (σ j).main = .clearFlag ∧ (σ j).workers.length = (σ i).workers.length
  | 0, hs => by rw [h.start] at hs; cases hs
  | i + 1, hs => by
    by_cases hc : (σ i).main = .clearFlag
    · refine ⟨i, by omega, hc, ?_⟩
      rcases exec_workers h i with h1 | ⟨-, h2⟩
      · exact h1.symm
      · rw [h2] at hc; cases hc
    · have hm : (σ i).main = .spawn ∧ (σ (i + 1)).workers.length = (σ i).workers.length := by
        rcases h.step i with hstep | e
        · generalize σ (i + 1) = s' at hstep hs
          cases hstep <;> simp_all [setW]
        · rw [e] at hs ⊢; exact ⟨hs, rfl⟩
      obtain ⟨j, h1, h2, h3⟩ := exec_cleared h i hm.1
      exact ⟨j, by omega, h2, h3.trans hm.2.symm⟩

/-- C82, for any map: in every fair run in which at every moment some thread can go on, for every `k` a moment comes when
`k` scans have been played and their changes drawn. -/
theorem C82_fair (h : Execution ops n m₀ σ) (hf : Fair ops n σ)
    (hgo : ∀ i, ∃ s', Step ops n (σ i) s' ∧ s' ≠ σ i) (k : ℕ) :
    ∃ i, (σ i).main = .clearFlag ∧ (σ i).workers.length = k := by
  obtain ⟨i, hi⟩ := exec_unbounded h hf hgo (k + 1)
  induction i with
  | zero => rw [h.start] at hi; simp [Viz.init] at hi
  | succ i ih =>
    by_cases hk : k + 1 ≤ (σ i).workers.length
    · exact ih hk
    · rcases exec_workers h i with h1 | ⟨h1, h2⟩
      · omega
      · obtain ⟨j, -, h3, h4⟩ := exec_cleared h i h2
        exact ⟨j, h3, by omega⟩

/-- There is a fair run. -/
lemma fair_exists (hgo : ∀ s, Reach ops n m₀ s → ∃ s', Step ops n s s' ∧ s' ≠ s) :
    ∃ σ, Execution ops n m₀ σ ∧ Fair ops n σ := by
  choose! f h1 h2 using hgo
  have hr : ∀ i, Reach ops n m₀ (f^[i] (Viz.init m₀)) := by
    intro i
    induction i with
    | zero => exact .init
    | succ i ih => rw [Function.iterate_succ_apply']; exact .step _ _ ih (h1 _ ih)
  refine ⟨fun i => f^[i] (Viz.init m₀), ⟨rfl, fun i => ?_⟩, fun i _ => ⟨i, le_rfl, ?_⟩⟩
  · simp only [Function.iterate_succ_apply']; exact .inl (h1 _ (hr i))
  · simp only [Function.iterate_succ_apply']; exact h2 _ (hr i)

end

end Verif.Props
