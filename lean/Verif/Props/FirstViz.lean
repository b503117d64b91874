import Verif.Spec.First
import Verif.Props.BadViz

/-!
# C102: the visualizer when a scan is met again and then does not return
-/

namespace Verif.Props
open Spec Viz

section
variable {Map Cell Pt : Type} [DecidableEq Cell] {ops : MapOps Map Cell Pt} {n K : ℕ} {m₀ : Map}

/-- `j` scans have been integrated so far: the last worker has got past integrating and there are `j` workers, or it
has not and there are `j + 1`. -/
def Scanned (s : State Map Cell Pt) (j : ℕ) : Prop :=
  (j = s.workers.length ∧ ∀ pc r, s.workers[j - 1]? = some (pc, r) → ¬ NotPast pc) ∨
    (j + 1 = s.workers.length ∧ ∃ pc r, s.workers[j]? = some (pc, r) ∧ NotPast pc)

omit [DecidableEq Cell] in
lemma Scanned.set {s s' : State Map Cell Pt} {j k r : ℕ} {pc pc' : WorkerPc} (h : Scanned s j)
    (hk : s.workers[k]? = some (pc, r)) (hp : NotPast pc ↔ NotPast pc') (hs : s'.workers = s.workers.set k (pc', r)) :
    Scanned s' j := by
  rcases h with ⟨h1, h2⟩ | ⟨h1, pc1, r1, h2, h3⟩
  · refine .inl ⟨by rw [hs, List.length_set]; exact h1, fun pc1 r1 h => ?_⟩
    rw [hs, List.getElem?_set] at h
    split_ifs at h with h4 h5
    · simp only [Option.some.injEq, Prod.mk.injEq] at h
      rw [← h.1, ← hp]
      exact h2 pc r (by rw [← h4]; exact hk)
    · exact h2 _ _ h
  · refine .inr ⟨by rw [hs, List.length_set]; exact h1, ?_⟩
    rw [hs, List.getElem?_set]
    split_ifs with h4 h5
    · refine ⟨pc', r, rfl, hp.mp ?_⟩
      rw [h4, h2] at hk
      cases hk
      exact h3
    · exact absurd (lt_of_getW hk) h5
    · exact ⟨pc1, r1, h2, h3⟩

omit [DecidableEq Cell] in
/-- The worker that is about to integrate is number `j`. -/
lemma Scanned.last {s : State Map Cell Pt} {j k r : ℕ} {pc : WorkerPc} (h : Scanned s j)
    (hk : s.workers[k]? = some (pc, r)) (hp : NotPast pc) (hl : k + 1 = s.workers.length) : j = k := by
  rcases h with ⟨h1, h2⟩ | ⟨h1, -⟩
  · exact absurd hp (h2 pc r (by rw [h1, ← hl]; exact hk))
  · omega

/-- C102, for any map: if worker `K` cannot return from integrating, whatever map the `K` before it may leave, then no
later one is started; it never gets past integrating; the render thread does not panic; and a worker that has panicked did
so integrating. -/
theorem C102_stuck (hn : 0 < n) {I : ℕ → Map → Prop} {R : Map → Cell → Prop} (h0 : I 0 m₀)
    (hI : ∀ j < K, ∀ m m', I j m → ops.integrate (j % n) m = .ret m' → I (j + 1) m' ∧ ∀ c, R m c → R m' c)
    (hreset : ∀ j m, I j m → I j (ops.reset m) ∧ ∀ c, R m c → R (ops.reset m) c)
    (hch : ∀ j m, I j m → ∀ c ∈ ops.changed m, R m c) (hR : ∀ m c, R m c → ops.occupied m c ≠ none)
    (hno : ∀ m m', I K m → ops.integrate (K % n) m ≠ .ret m') {s : State Map Cell Pt} (hr : Reach ops n m₀ s) :
    s.workers.length ≤ K + 1 ∧ (∀ pc r, s.workers[K]? = some (pc, r) → NotPast pc) ∧ s.main ≠ .dead ∧
      (∀ k r : ℕ, s.workers[k]? = some (.dead, r) → ∃ m, I k m ∧ ops.integrate (k % n) m = .panic) ∧
      ∃ j ≤ K, Scanned s j ∧ I j s.map := by
  suffices key : s.main ≠ .dead ∧
      (∀ k r : ℕ, s.workers[k]? = some (.dead, r) → ∃ m, I k m ∧ ops.integrate (k % n) m = .panic) ∧
      (∀ c ∈ s.cells, R s.map c) ∧ ∃ j ≤ K, Scanned s j ∧ I j s.map by
    obtain ⟨a1, a2, -, j, hj, a4, a5⟩ := key
    refine ⟨?_, fun pc r h => ?_, a1, a2, j, hj, a4, a5⟩
    · rcases a4 with ⟨h1, -⟩ | ⟨h1, -⟩ <;> omega
    · have := lt_of_getW h
      rcases a4 with ⟨h1, -⟩ | ⟨h1, pc', r', h2, h3⟩
      · omega
      · obtain rfl : j = K := by omega
        rw [h] at h2
        cases h2
        exact h3
  induction hr with
  | init => exact ⟨by simp [Viz.init], by simp [Viz.init], by simp [Viz.init], 0, Nat.zero_le _,
      .inl ⟨by simp [Viz.init], by simp [Viz.init]⟩, h0⟩
  | step s s' hr hs ih =>
    obtain ⟨a1, a2, a3, j, hj, a4, a5⟩ := ih
    have hinv := Reach.inv hr
    have hcyc := C54_cyclic hr hn
    have hmain : s'.main ≠ .dead := by
      intro hd
      rcases C52_main_panics hr hs a1 hd with ⟨-, h2⟩ | ⟨-, h2⟩
      · obtain ⟨t', ht⟩ := processCells_some (ops := ops) (m := s.map) s.tracked fun c hc => hR _ c (a3 c hc)
        rw [ht] at h2
        cases h2
      · have := hcyc.2.1
        omega
    have hset : ∀ {k r : ℕ} {pc' : WorkerPc}, pc' ≠ .dead →
        ∀ k' r' : ℕ, (s.workers.set k (pc', r))[k']? = some (.dead, r') → ∃ m, I k' m ∧ ops.integrate (k' % n) m = .panic := by
      intro k r pc' hpc' k' r' h
      rw [List.getElem?_set] at h
      split_ifs at h
      · simp only [Option.some.injEq, Prod.mk.injEq] at h
        exact absurd h.1 hpc'
      · exact a2 _ _ h
    cases hs
    case checkBusy h1 h2 => exact ⟨a1, a2, a3, j, hj, a4, a5⟩
    case checkDone h1 h2 => exact ⟨hmain, a2, a3, j, hj, a4, a5⟩
    case lockCells h1 h2 h3 => exact ⟨hmain, a2, a3, j, hj, a4, a5⟩
    case lockCellsPoisoned h1 h2 h3 => exact absurd rfl hmain
    case lockMap h1 h2 h3 => exact ⟨hmain, a2, a3, j, hj, a4, a5⟩
    case lockMapPoisoned h1 h2 h3 => exact absurd rfl hmain
    case process t h1 h2 => exact ⟨hmain, a2, by simp, j, hj, a4, a5⟩
    case processPanic h1 h2 => exact absurd rfl hmain
    case clearFlag h1 => exact ⟨hmain, a2, a3, j, hj, a4, a5⟩
    case spawn h1 h2 =>
      have hlen : j = s.workers.length := by
        rcases a4 with ⟨h3, -⟩ | ⟨h3, pc, r, h4, h5⟩
        · exact h3
        · rcases h5 with h5 | h5 | h5 <;> subst h5
          · have := (hinv.busy _ _ _ h4 (by simp [Busy])).1
            rw [h1] at this; cases this
          · have := (hinv.busy _ _ _ h4 (by simp [Busy])).1
            rw [h1] at this; cases this
          · have := (hinv.deadW _ _ h4).1
            rw [h1] at this; cases this
      refine ⟨hmain, fun k r h => ?_, a3, j, hj, .inr ⟨by simp [hlen], .lockMap, s.index, by simp [hlen], .inl rfl⟩, a5⟩
      rw [List.getElem?_append] at h
      split_ifs at h
      · exact a2 _ _ h
      · have := List.mem_of_getElem? h
        simp at this
    case spawnPanic h1 h2 => exact absurd rfl hmain
    case wLockMap k r h1 h2 h3 =>
      exact ⟨hmain, hset (by simp), a3, j, hj, a4.set h1 (by simp [NotPast]) rfl, a5⟩
    case wLockMapPoisoned k r h1 h2 h3 =>
      rcases hinv.poisonM h3 with h4 | ⟨-, h4⟩
      · exact absurd h4 a1
      · have h5 := (hinv.busy _ _ _ h1 (by simp [Busy])).2.2
        have := h4 _ _ (by rw [← h5]; exact h1)
        cases this
    case wIntegrate k r m h1 h2 =>
      have h5 := (hinv.busy _ _ _ h1 (by simp [Busy])).2.2
      obtain rfl := a4.last h1 (by simp [NotPast]) h5
      obtain rfl := hcyc.2.2 _ _ _ h1
      have hlt : j < K := by
        refine lt_of_le_of_ne hj ?_
        rintro rfl
        exact hno _ _ a5 h2
      obtain ⟨b1, b2⟩ := hI j hlt _ _ a5 h2
      refine ⟨hmain, hset (by simp), fun c hc => b2 c (a3 c hc), j + 1, hlt, .inl ⟨by simp [setW, h5], fun pc r h => ?_⟩, b1⟩
      simp only [setW, Nat.add_sub_cancel, List.getElem?_set] at h
      rw [if_pos trivial, if_pos (lt_of_getW h1)] at h
      cases h
      simp [NotPast]
    case wIntegratePanic k r h1 h2 =>
      have h5 := (hinv.busy _ _ _ h1 (by simp [Busy])).2.2
      obtain rfl := a4.last h1 (by simp [NotPast]) h5
      refine ⟨hmain, fun k' r' h => ?_, a3, j, hj, a4.set h1 (by simp [NotPast]) rfl, a5⟩
      simp only [setW, List.getElem?_set] at h
      split_ifs at h with h6 h7
      · obtain rfl := hcyc.2.2 _ _ _ h1
        exact h6 ▸ ⟨_, a5, h2⟩
      · exact a2 _ _ h
    case wLockCells k r h1 h2 h3 =>
      exact ⟨hmain, hset (by simp), a3, j, hj, a4.set h1 (by simp [NotPast]) rfl, a5⟩
    case wLockCellsPoisoned k r h1 h2 h3 => exact absurd (hinv.poisonC h3) a1
    case wCopy k r h1 =>
      exact ⟨hmain, hset (by simp), hch _ _ a5, j, hj, a4.set h1 (by simp [NotPast]) rfl, a5⟩
    case wReset k r h1 =>
      obtain ⟨b1, b2⟩ := hreset _ _ a5
      exact ⟨hmain, hset (by simp), fun c hc => b2 c (a3 c hc), j, hj, a4.set h1 (by simp [NotPast]) rfl, b1⟩
    case wSetFlag k r h1 =>
      exact ⟨hmain, hset (by simp), a3, j, hj, a4.set h1 (by simp [NotPast]) rfl, a5⟩
    case wUnlock k r h1 =>
      exact ⟨hmain, hset (by simp), a3, j, hj, a4.set h1 (by simp [NotPast]) rfl, a5⟩

/-- C102, for any map: if besides worker `K` can only panic and no call hangs, in every fair run some worker, number `K`
or one before it, panics in the end. -/
theorem C102_fair (hn : 0 < n) {I : ℕ → Map → Prop} {R : Map → Cell → Prop} (h0 : I 0 m₀)
    (hI : ∀ j < K, ∀ m m', I j m → ops.integrate (j % n) m = .ret m' → I (j + 1) m' ∧ ∀ c, R m c → R m' c)
    (hreset : ∀ j m, I j m → I j (ops.reset m) ∧ ∀ c, R m c → R (ops.reset m) c)
    (hch : ∀ j m, I j m → ∀ c ∈ ops.changed m, R m c) (hR : ∀ m c, R m c → ops.occupied m c ≠ none)
    (hpanic : ∀ m, I K m → ops.integrate (K % n) m = .panic)
    (hhang : ∀ j < K, ∀ m, I j m → ops.integrate (j % n) m ≠ .hang)
    {σ : ℕ → State Map Cell Pt} (h : Execution ops n m₀ σ) (hf : Fair ops n σ) :
    ∃ i k r' : ℕ, k ≤ K ∧ (σ i).workers[k]? = some (.dead, r') ∧ ∃ m, I k m ∧ ops.integrate (k % n) m = .panic := by
  have hs := fun i => C102_stuck hn h0 hI hreset hch hR (fun m m' hm => by rw [hpanic m hm]; simp) (exec_reach h i)
  have hlt : ∀ i (k r' : ℕ) pc, (σ i).workers[k]? = some (pc, r') → k ≤ K := by
    intro i k r' pc hk
    have h2 := lt_of_getW hk
    have h3 := (hs i).1
    omega
  by_contra hcon
  have hcon : ∀ i k r' : ℕ, (σ i).workers[k]? ≠ some (.dead, r') :=
    fun i k r' h2 => hcon ⟨i, k, r', hlt _ _ _ _ h2, h2, (hs i).2.2.2.1 _ _ h2⟩
  obtain ⟨i, -, hi⟩ := C82_fair h hf (fun i => C52_no_deadlock (exec_reach h i) (hs i).2.2.1
    (fun k r' hk => hcon i k r' hk) fun k r' hk => by
      obtain ⟨-, -, -, -, j, hj, b1, b2⟩ := hs i
      have h5 := ((Reach.inv (exec_reach h i)).busy _ _ _ hk (by simp [Busy])).2.2
      obtain rfl := b1.last hk (by simp [NotPast]) h5
      obtain rfl := (C54_cyclic (exec_reach h i) hn).2.2 _ _ _ hk
      by_cases hK : j = K
      · subst hK
        rw [hpanic _ b2]
        simp
      · exact hhang j (by omega) _ b2) (K + 2)
  have := (hs i).1
  omega

/-- What is known of the state while the first recording is on its way, the integration of which makes `m'` of `m₀`. -/
def FirstRound (ops : MapOps Map Cell Pt) (m₀ m' : Map) (s : State Map Cell Pt) : Prop :=
  (s.workers = [] ∧ s.map = m₀ ∧ s.cells = [] ∧ s.tracked = (fun _ => none)) ∨
    (∃ pc r, s.workers = [(pc, r)] ∧ s.tracked = (fun _ => none) ∧ s.main ≠ .clearFlag ∧ s.main ≠ .spawn ∧
      ((pc = .lockMap ∨ pc = .integrate) ∧ s.map = m₀ ∨ (pc = .lockCells ∨ pc = .copy) ∧ s.map = m' ∨
        pc = .reset ∧ s.map = m' ∧ s.cells = ops.changed m' ∨
        (pc = .setFlag ∨ pc = .unlock ∨ pc = .done) ∧ s.map = ops.reset m' ∧ s.cells = ops.changed m' ∨ pc = .dead)) ∨
    (∃ pc r, s.workers = [(pc, r)] ∧ (pc = .unlock ∨ pc = .done) ∧ (s.main = .clearFlag ∨ s.main = .spawn) ∧
      s.map = ops.reset m' ∧ processCells ops (ops.reset m') (ops.changed m') (fun _ => none) = some s.tracked) ∨
    2 ≤ s.workers.length ∨ s.main = .dead

set_option maxHeartbeats 1000000 in
lemma firstRound (hn : 0 < n) {m' : Map} (hret : ops.integrate 0 m₀ = .ret m') {s : State Map Cell Pt}
    (hr : Reach ops n m₀ s) : FirstRound ops m₀ m' s := by
  induction hr with
  | init => exact .inl ⟨rfl, rfl, rfl, rfl⟩
  | step s s' hr hs ih =>
    have hinv := Reach.inv hr
    have hcyc := C54_cyclic hr hn
    have hlen : s.workers.length ≤ s'.workers.length := by
      cases hs <;> simp [setW]
    rcases ih with ⟨b1, b2, b3, b4⟩ | ⟨pc, r, b1, b2, b3, b4, b5⟩ | ⟨pc, r, b1, b2, b3, b4, b5⟩ | b1 | b1
    · cases hs <;> simp_all [FirstRound, processCells]
    · have hget : ∀ {k : ℕ} {x : WorkerPc × ℕ}, s.workers[k]? = some x → k = 0 ∧ x = (pc, r) := by
        intro k x h
        rw [b1] at h
        cases k with
        | zero => simpa using h.symm
        | succ k => simp at h
      have hr0 : r = 0 := by
        have := hcyc.2.2 0 pc r (by rw [b1]; rfl)
        simpa using this
      have hbusy : Busy pc → s.main = .check ∧ s.finished = false := fun h =>
        ⟨(hinv.busy 0 pc r (by rw [b1]; rfl) h).1, (hinv.busy 0 pc r (by rw [b1]; rfl) h).2.1⟩
      have hdead : pc = .dead → s.main = .check ∧ s.finished = false := fun h =>
        hinv.deadW 0 r (by rw [b1, h]; rfl)
      cases hs
      case checkBusy h1 h2 => exact .inr (.inl ⟨pc, r, b1, b2, b3, b4, b5⟩)
      case checkDone h1 h2 => exact .inr (.inl ⟨pc, r, b1, b2, by simp, by simp, b5⟩)
      case lockCells h1 h2 h3 => exact .inr (.inl ⟨pc, r, b1, b2, by simp, by simp, b5⟩)
      case lockCellsPoisoned h1 h2 h3 => exact .inr (.inr (.inr (.inr rfl)))
      case lockMap h1 h2 h3 => exact .inr (.inl ⟨pc, r, b1, b2, by simp, by simp, b5⟩)
      case lockMapPoisoned h1 h2 h3 => exact .inr (.inr (.inr (.inr rfl)))
      case process t h1 h2 =>
        refine .inr (.inr (.inl ⟨pc, r, b1, ?_⟩))
        have hpc : pc = .unlock ∨ pc = .done := by
          by_contra hc
          by_cases hd : pc = .dead
          · rw [(hdead hd).1] at h1; cases h1
          · have hb : Busy pc := by
              rw [not_or] at hc
              exact ⟨hc.1, hc.2, hd⟩
            rw [(hbusy hb).1] at h1; cases h1
        rcases b5 with ⟨c1, -⟩ | ⟨c1, -⟩ | ⟨c1, -⟩ | ⟨c1, c2, c3⟩ | c1
        · rcases hpc with rfl | rfl <;> rcases c1 with c1 | c1 <;> cases c1
        · rcases hpc with rfl | rfl <;> rcases c1 with c1 | c1 <;> cases c1
        · rcases hpc with rfl | rfl <;> cases c1
        · rw [c2, c3, b2] at h2
          exact ⟨hpc, .inl rfl, c2, h2⟩
        · rcases hpc with rfl | rfl <;> cases c1
      case processPanic h1 h2 => exact .inr (.inr (.inr (.inr rfl)))
      case clearFlag h1 => exact absurd h1 b3
      case spawn h1 h2 => exact absurd h1 b4
      case spawnPanic h1 h2 => exact absurd h1 b4
      case wLockMap k r' h1 h2 h3 =>
        obtain ⟨rfl, e⟩ := hget h1
        cases e
        simp at b5
        exact .inr (.inl ⟨.integrate, r, by simp [setW, b1], b2, b3, b4, .inl ⟨.inr rfl, b5⟩⟩)
      case wLockMapPoisoned k r' h1 h2 h3 =>
        obtain ⟨rfl, e⟩ := hget h1
        cases e
        exact .inr (.inl ⟨.dead, r, by simp [setW, b1], b2, b3, b4, .inr (.inr (.inr (.inr rfl)))⟩)
      case wIntegrate k r' m h1 h2 =>
        obtain ⟨rfl, e⟩ := hget h1
        cases e
        simp at b5
        rw [b5, hr0, hret] at h2
        cases h2
        exact .inr (.inl ⟨.lockCells, r, by simp [setW, b1], b2, b3, b4, .inr (.inl ⟨.inl rfl, rfl⟩)⟩)
      case wIntegratePanic k r' h1 h2 =>
        obtain ⟨rfl, e⟩ := hget h1
        cases e
        exact .inr (.inl ⟨.dead, r, by simp [setW, b1], b2, b3, b4, .inr (.inr (.inr (.inr rfl)))⟩)
      case wLockCells k r' h1 h2 h3 =>
        obtain ⟨rfl, e⟩ := hget h1
        cases e
        simp at b5
        exact .inr (.inl ⟨.copy, r, by simp [setW, b1], b2, b3, b4, .inr (.inl ⟨.inr rfl, b5⟩)⟩)
      case wLockCellsPoisoned k r' h1 h2 h3 =>
        obtain ⟨rfl, e⟩ := hget h1
        cases e
        exact .inr (.inl ⟨.dead, r, by simp [setW, b1], b2, b3, b4, .inr (.inr (.inr (.inr rfl)))⟩)
      case wCopy k r' h1 =>
        obtain ⟨rfl, e⟩ := hget h1
        cases e
        simp at b5
        exact .inr (.inl ⟨.reset, r, by simp [setW, b1], b2, b3, b4, .inr (.inr (.inl ⟨rfl, b5, by rw [← b5]⟩))⟩)
      case wReset k r' h1 =>
        obtain ⟨rfl, e⟩ := hget h1
        cases e
        simp at b5
        exact .inr (.inl ⟨.setFlag, r, by simp [setW, b1], b2, b3, b4,
          .inr (.inr (.inr (.inl ⟨.inl rfl, by rw [← b5.1], b5.2⟩)))⟩)
      case wSetFlag k r' h1 =>
        obtain ⟨rfl, e⟩ := hget h1
        cases e
        simp at b5
        exact .inr (.inl ⟨.unlock, r, by simp [setW, b1], b2, b3, b4, .inr (.inr (.inr (.inl ⟨.inr (.inl rfl), b5⟩)))⟩)
      case wUnlock k r' h1 =>
        obtain ⟨rfl, e⟩ := hget h1
        cases e
        simp at b5
        exact .inr (.inl ⟨.done, r, by simp [setW, b1], b2, b3, b4, .inr (.inr (.inr (.inl ⟨.inr (.inr rfl), b5⟩)))⟩)
    · have hget : ∀ {k : ℕ} {x : WorkerPc × ℕ}, s.workers[k]? = some x → k = 0 ∧ x = (pc, r) := by
        intro k x h
        rw [b1] at h
        cases k with
        | zero => simpa using h.symm
        | succ k => simp at h
      have hmain : ∀ {q : MainPc}, s.main = q → q = .clearFlag ∨ q = .spawn := fun h => by rw [← h]; exact b3
      cases hs
      case checkBusy h1 h2 => simpa using hmain h1
      case checkDone h1 h2 => simpa using hmain h1
      case lockCells h1 h2 h3 => simpa using hmain h1
      case lockCellsPoisoned h1 h2 h3 => simpa using hmain h1
      case lockMap h1 h2 h3 => simpa using hmain h1
      case lockMapPoisoned h1 h2 h3 => simpa using hmain h1
      case process t h1 h2 => simpa using hmain h1
      case processPanic h1 h2 => simpa using hmain h1
      case clearFlag h1 => exact .inr (.inr (.inl ⟨pc, r, b1, b2, .inr rfl, b4, b5⟩))
      case spawn h1 h2 => exact .inr (.inr (.inr (.inl (by simp [b1]))))
      case spawnPanic h1 h2 => exact .inr (.inr (.inr (.inr rfl)))
      case wUnlock k r' h1 =>
        obtain ⟨rfl, e⟩ := hget h1
        cases e
        exact .inr (.inr (.inl ⟨.done, r, by simp [setW, b1], .inr rfl, b3, b4, b5⟩))
      all_goals
        rename_i h1
        obtain ⟨rfl, e⟩ := hget (by assumption)
        cases e
        simp at b2
    · exact .inr (.inr (.inr (.inl (b1.trans hlen))))
    · refine .inr (.inr (.inr (.inr ?_)))
      cases hs <;> simp_all [setW]

/-- C102, for any map: the first recording. If integrating it on the fresh map returns, then until a second one is
started nothing is drawn but what that map shows of the cells it lists as changed; and when the next recording can be
started this has been drawn. -/
theorem C102_first (hn : 0 < n) {m' : Map} (hret : ops.integrate 0 m₀ = .ret m') {s : State Map Cell Pt}
    (hr : Reach ops n m₀ s) (hl : s.workers.length ≤ 1) (hd : s.main ≠ .dead) :
    (s.tracked = (fun _ => none) ∨
      processCells ops (ops.reset m') (ops.changed m') (fun _ => none) = some s.tracked) ∧
    (s.workers.length = 1 → s.main = .clearFlag ∨ s.main = .spawn → s.map = ops.reset m' ∧
      processCells ops (ops.reset m') (ops.changed m') (fun _ => none) = some s.tracked) := by
  rcases firstRound hn hret hr with ⟨b1, b2, b3, b4⟩ | ⟨pc, r, b1, b2, b3, b4, b5⟩ | ⟨pc, r, b1, b2, b3, b4, b5⟩ | b1 | b1
  · exact ⟨.inl b4, fun h => by simp [b1] at h⟩
  · exact ⟨.inl b2, fun _ h => absurd h (not_or.mpr ⟨b3, b4⟩)⟩
  · exact ⟨.inr b5, fun _ _ => ⟨b4, b5⟩⟩
  · omega
  · exact absurd b1 hd

/-- There are fair runs, whatever the map does. -/
lemma someFair_exists (ops : MapOps Map Cell Pt) (n : ℕ) (m₀ : Map) :
    ∃ σ, Execution ops n m₀ σ ∧ Fair ops n σ := by
  have hgo : ∀ x : State Map Cell Pt, ∃ y,
      (Step ops n x y ∨ y = x) ∧ ((∃ y, Step ops n x y ∧ y ≠ x) → y ≠ x) := by
    intro x
    by_cases h : ∃ y, Step ops n x y ∧ y ≠ x
    · obtain ⟨y, h1, h2⟩ := h
      exact ⟨y, .inl h1, fun _ => h2⟩
    · exact ⟨x, .inr rfl, fun h' => absurd h' h⟩
  choose f h1 h2 using hgo
  refine ⟨fun i => f^[i] (Viz.init m₀), ⟨rfl, fun i => ?_⟩, fun i hi => ⟨i, le_rfl, ?_⟩⟩
  · rw [Function.iterate_succ_apply']
    exact h1 _
  · dsimp only
    rw [Function.iterate_succ_apply']
    exact h2 _ hi

end

end Verif.Props
