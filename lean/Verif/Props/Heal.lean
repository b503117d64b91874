import Verif.Spec.Heal
import Verif.Props.Machine
import Mathlib.Tactic.FinCases

/-!
# C93: how a stale picture heals
-/

namespace Verif.Props
open Spec Scalar Viz

section
variable {D : ℕ} {nm : LidarNoiseModel F32} {recs : ℕ → Point D F32 × PointCloud D F32} {n : ℕ} {m₀ : GridMap D F32 F32}
  {ord : ℕ → List (Cell D) → List (Cell D)} {ρ : ℚ}

lemma execution_reach {σ : ℕ → State (GridMap D F32 F32) (Cell D) (Point D F32)}
    (h : Execution (occOps nm recs ord) n m₀ σ) : ∀ i, Reach (occOps nm recs ord) n m₀ (σ i)
  | 0 => h.start ▸ .init
  | i + 1 => (h.step i).elim (.step _ _ (execution_reach h i)) fun e => e ▸ execution_reach h i

lemma shown_eq {m : GridMap D F32 F32} {c : Cell D} : shown nm m c =
    if (occOps nm recs ord).occupied m c = some true then some ((occOps nm recs ord).point m c) else none := by
  have : (occOps nm recs ord).occupied m c = some true ↔ nm.occupied m c = .ok true := by
    simp only [occOps]
    cases nm.occupied m c <;> simp [Except.toOption]
  simp only [this]
  rfl

lemma mirrors_one {t : Cell D → Option (Point D F32)} {m : GridMap D F32 F32} {c : Cell D} :
    Mirrors (occOps nm recs ord) (· = c) t m ↔ t c = shown nm m c := by
  rw [shown_eq (recs := recs) (ord := ord)]
  exact ⟨fun h => h c rfl, fun h d e => by subst e; exact h⟩

lemma drawn_rest {C : Cell D → Prop} {s : State (GridMap D F32 F32) (Cell D) (Point D F32)}
    (hr : Reach (occOps nm recs ord) n m₀ s) (h : Drawn (occOps nm recs ord) C s) (hm : AtRest s) :
    Mirrors (occOps nm recs ord) C s.tracked s.map ∧ (occOps nm recs ord).changed s.map = [] := by
  obtain ⟨b1, -, b3, -⟩ := Reach.inv hr
  unfold AtRest at hm
  cases h with
  | processed a1 a2 a3 => exact ⟨a2, a3⟩
  | _ => grind [Busy]

lemma rest_changed (ht0 : m₀.changedCells = []) {s : State (GridMap D F32 F32) (Cell D) (Point D F32)}
    (hr : Reach (occOps nm recs ord) n m₀ s) (hm : AtRest s) : (occOps nm recs ord).changed s.map = [] := by
  have hS : Sound (occOps nm recs ord) n m₀ fun _ => False :=
    ⟨⟨ht0, fun _ h => h.elim⟩, fun m => ⟨rfl, fun c => ⟨rfl, rfl⟩⟩,
      fun _ _ _ _ _ _ _ _ => ⟨fun _ h => h.elim, fun _ h => h.elim⟩⟩
  have hd : Drawn (occOps nm recs ord) (fun _ => False) s := by
    clear hm
    induction hr with
    | init => exact .announced rfl (.inl rfl) (fun c hc => hc.elim) ht0
    | step s s' hr hs ih => exact ih.step hS hr hs
  exact (drawn_rest hr hd hm).2

lemma drawn_keeps (hD : D ≤ 3) (h0 : Placed m₀ CellBounds.empty ρ) (hth : FLe (Fp.lit 0) nm.threshold)
    (ho : ∀ r, IsOrder (ord r)) (hc : ∀ r, CloudInRange (recs r).2 ρ)
    {σ : ℕ → State (GridMap D F32 F32) (Cell D) (Point D F32)} (hσ : Execution (occOps nm recs ord) n m₀ σ) {A B : ℕ}
    (hfix : SteadyCorner (fun i => (σ i).map) A B) {c : Cell D} (hcm : MachineCell c) {i j : ℕ} (hAi : A ≤ i) (hij : i ≤ j)
    (hjB : j ≤ B) (h : Drawn (occOps nm recs ord) (· = c) (σ i)) : Drawn (occOps nm recs ord) (· = c) (σ j) := by
  induction j, hij using Nat.le_induction with
  | base => exact h
  | succ j hij ih =>
    have ih := ih (by omega)
    rcases hσ.step j with hs | hs
    · have hr := execution_reach hσ j
      obtain ⟨cb, hP⟩ := viz_placed hD h0 ho hc hr
      refine ih.step_local (fun m => ⟨rfl, fun c => ⟨rfl, rfl⟩⟩) (fun k r h1 h2 h3 => ?_) hr hs
      obtain ⟨g1, g2⟩ := fixed_sound hD hth ho hc hP h2 (hfix j (by omega) (by omega)) h3
      exact ⟨fun d e => by subst e; exact g1 _ hcm, fun d e => by subst e; exact g2 _ hcm⟩
    · rw [hs]; exact ih

/-- A step of the renderer that processes a batch. -/
lemma processes_step {σ : ℕ → State (GridMap D F32 F32) (Cell D) (Point D F32)}
    (hσ : Execution (occOps nm recs ord) n m₀ σ) {i : ℕ} (h1 : (σ i).main = .process) (h2 : (σ (i + 1)).main = .clearFlag) :
    (σ (i + 1)).map = (σ i).map ∧
      processCells (occOps nm recs ord) (σ i).map (σ i).cells (σ i).tracked = some (σ (i + 1)).tracked := by
  rcases hσ.step i with hs | hs
  · generalize σ (i + 1) = s' at *
    generalize σ i = s at *
    cases hs
    case process t g1 g2 => exact ⟨rfl, g2⟩
    all_goals simp_all [setW]
  · rw [hs, h1] at h2; cases h2

/-- Another step leaves the table alone. -/
lemma tracked_keeps {σ : ℕ → State (GridMap D F32 F32) (Cell D) (Point D F32)}
    (hσ : Execution (occOps nm recs ord) n m₀ σ) {i : ℕ} (h : ¬ ((σ i).main = .process ∧ (σ (i + 1)).main = .clearFlag)) :
    (σ (i + 1)).tracked = (σ i).tracked := by
  rcases hσ.step i with hs | hs
  · generalize σ (i + 1) = s' at *
    generalize σ i = s at *
    cases hs
    case process t g1 g2 => exact absurd ⟨g1, rfl⟩ h
    all_goals simp [setW]
  · rw [hs]

lemma healed {σ : ℕ → State (GridMap D F32 F32) (Cell D) (Point D F32)} (ht0 : m₀.changedCells = [])
    (hσ : Execution (occOps nm recs ord) n m₀ σ) {c : Cell D} {i : ℕ} (hp : Processes σ c i)
    (hw : nm.occupied (σ i).map c = .ok false ∨ (σ i).tracked c = none) :
    Drawn (occOps nm recs ord) (· = c) (σ (i + 1)) := by
  obtain ⟨h1, h2, h3⟩ := hp
  obtain ⟨e1, e2⟩ := processes_step hσ h1 h2
  refine .processed (.inl h2) (mirrors_one.mpr ?_) (rest_changed ht0 (execution_reach hσ _) (.inl h2))
  rw [e1, shown_eq (recs := recs) (ord := ord)]
  rcases (processCells_spec e2).2 c h3 with ⟨o1, o2⟩ | ⟨o1, o2⟩
  · rw [if_pos o1]
    rcases o2 with ⟨o2, o3⟩ | o2
    · rcases hw with hw | hw
      · change (nm.occupied (σ i).map c).toOption = some true at o1
        rw [hw] at o1
        cases o1
      · rw [hw] at o3; cases o3
    · exact o2
  · rw [if_neg (by rw [o1]; simp)]; exact o2

/-- One step while the cell is not known to be drawn as the map says: the entry stays, and a batch with the cell finds it
occupied and in the table. -/
lemma undrawn_step {σ : ℕ → State (GridMap D F32 F32) (Cell D) (Point D F32)} (ht0 : m₀.changedCells = [])
    (hσ : Execution (occOps nm recs ord) n m₀ σ) {c : Cell D} {i : ℕ}
    (h : ¬ Drawn (occOps nm recs ord) (· = c) (σ (i + 1))) :
    (σ (i + 1)).tracked c = (σ i).tracked c ∧
      (Processes σ c i → nm.occupied (σ i).map c = .ok true ∧ (σ i).tracked c ≠ none) := by
  by_cases hp : (σ i).main = .process ∧ (σ (i + 1)).main = .clearFlag
  · obtain ⟨h1, h2⟩ := hp
    obtain ⟨e1, e2⟩ := processes_step hσ h1 h2
    by_cases h3 : c ∈ (σ i).cells
    · rcases (processCells_spec e2).2 c h3 with ⟨o1, o2⟩ | ⟨o1, o2⟩
      · rcases o2 with ⟨o2, o3⟩ | o2
        · refine ⟨o2, fun _ => ⟨?_, fun e => by rw [e] at o3; cases o3⟩⟩
          revert o1
          change (nm.occupied (σ i).map c).toOption = some true → _
          cases nm.occupied (σ i).map c <;> simp [Except.toOption]
        · refine absurd (.processed (.inl h2) (mirrors_one.mpr ?_) (rest_changed ht0 (execution_reach hσ _) (.inl h2))) h
          rw [e1, shown_eq (recs := recs) (ord := ord), if_pos o1, o2]
      · refine absurd (healed ht0 hσ ⟨h1, h2, h3⟩ (.inl ?_)) h
        revert o1
        change (nm.occupied (σ i).map c).toOption = some false → _
        cases nm.occupied (σ i).map c <;> simp [Except.toOption]
    · exact ⟨(processCells_spec e2).1 c h3, fun hp => absurd hp.2.2 h3⟩
  · exact ⟨by rw [tracked_keeps hσ hp], fun hq => absurd ⟨hq.1, hq.2.1⟩ hp⟩

lemma shown_same {m m' : GridMap D F32 F32} (h : SameButOrder m m') (c : Cell D) : shown nm m c = shown nm m' c := by
  unfold shown LidarNoiseModel.occupied GridMap.get GridMap.pointFromCell
  rw [h.data, h.bounds, h.resolution]

lemma steady_same {τ : ℕ → WState (GridMap D F32 F32) (Cell D) (Point D F32)}
    {σ : ℕ → State (GridMap D F32 F32) (Cell D) (Point D F32)} (h : ∀ i, SameView (flagNow (τ i)) (σ i)) {A B : ℕ}
    (hfix : SteadyCorner (fun i => (τ i).prog.map) A B) : SteadyCorner (fun i => (σ i).map) A B := by
  intro i h1 h2
  have e : ∀ i, (τ i).prog.map.bounds = (σ i).map.bounds := fun i => (h i).map.bounds
  have e' : ∀ i, (τ i).prog.map.data = (σ i).map.data := fun i => (h i).map.data
  have := hfix i h1 h2
  unfold InGrid at this ⊢
  simpa only [e, e'] using this

variable {τ : ℕ → WState (GridMap D F32 F32) (Cell D) (Point D F32)} {A B i j : ℕ} {c : Cell D}

/-- C93: while the lower corner of the grid stays, a cell that is drawn as the map says is so for good: whenever the
renderer has processed a batch again, it is again drawn as the map then says. -/
theorem C93_stays (hD : D ≤ 3) (h0 : Placed m₀ CellBounds.empty ρ) (ht0 : m₀.changedCells = [])
    (hth : FLe (Fp.lit 0) nm.threshold) (hc : ∀ r, CloudInRange (recs r).2 ρ) (hτ : AnyWExecution nm recs n m₀ τ)
    (hfix : SteadyCorner (fun i => (τ i).prog.map) A B) (hcm : MachineCell c) (hAi : A ≤ i) (hij : i ≤ j) (hjB : j ≤ B)
    (hi : AtRest (τ i).prog) (hj : AtRest (τ j).prog) (h : (τ i).prog.tracked c = shown nm (τ i).prog.map c) :
    (τ j).prog.tracked c = shown nm (τ j).prog.map c := by
  have ho : ∀ r : ℕ, IsOrder ((fun _ l => l : ℕ → List (Cell D) → List (Cell D)) r) := fun _ l => .refl l
  obtain ⟨σ, hσ, hv, -⟩ := C90_runs ho hτ
  have hm : ∀ k, (τ k).prog.main = (σ k).main := fun k => (hv k).main
  have ht : ∀ k, (τ k).prog.tracked = (σ k).tracked := fun k => (hv k).tracked
  have hs : ∀ k, shown nm (τ k).prog.map c = shown nm (σ k).map c := fun k => shown_same (hv k).map c
  unfold AtRest at hi hj
  rw [hm] at hi hj
  rw [ht, hs] at h ⊢
  have hd : Drawn _ (· = c) (σ i) :=
    .processed hi (mirrors_one.mpr h) (rest_changed ht0 (execution_reach hσ _) hi)
  exact mirrors_one.mp (drawn_rest (execution_reach hσ j)
    (drawn_keeps hD h0 hth ho hc hσ (steady_same hv hfix) hcm hAi hij hjB hd) hj).1

/-- C93: if the renderer processes a batch with a cell that is free, or that is not drawn, then from then on, while the
lower corner of the grid stays, the cell is drawn as the map says whenever a batch has been processed. -/
theorem C93_heals (hD : D ≤ 3) (h0 : Placed m₀ CellBounds.empty ρ) (ht0 : m₀.changedCells = [])
    (hth : FLe (Fp.lit 0) nm.threshold) (hc : ∀ r, CloudInRange (recs r).2 ρ) (hτ : AnyWExecution nm recs n m₀ τ)
    (hfix : SteadyCorner (fun i => (τ i).prog.map) A B) (hcm : MachineCell c) (hAi : A ≤ i) (hij : i < j) (hjB : j ≤ B)
    (hp : Processes (fun i => (τ i).prog) c i)
    (hw : nm.occupied (τ i).prog.map c = .ok false ∨ (τ i).prog.tracked c = none) (hj : AtRest (τ j).prog) :
    (τ j).prog.tracked c = shown nm (τ j).prog.map c := by
  have ho : ∀ r : ℕ, IsOrder ((fun _ l => l : ℕ → List (Cell D) → List (Cell D)) r) := fun _ l => .refl l
  obtain ⟨σ, hσ, hv, -⟩ := C90_runs ho hτ
  have hm : ∀ k, (τ k).prog.main = (σ k).main := fun k => (hv k).main
  have ht : ∀ k, (τ k).prog.tracked = (σ k).tracked := fun k => (hv k).tracked
  have hs : ∀ k, shown nm (τ k).prog.map c = shown nm (σ k).map c := fun k => shown_same (hv k).map c
  have hp' : Processes σ c i := ⟨(hm i).symm.trans hp.1, (hm _).symm.trans hp.2.1, (hv i).cells.mem_iff.mp hp.2.2⟩
  have hw' : nm.occupied (σ i).map c = .ok false ∨ (σ i).tracked c = none := by
    have e : (τ i).prog.map.data = (σ i).map.data := (hv i).map.data
    rw [ht] at hw
    unfold LidarNoiseModel.occupied GridMap.get at hw ⊢
    rwa [e] at hw
  unfold AtRest at hj
  rw [hm] at hj
  rw [ht, hs]
  exact mirrors_one.mp (drawn_rest (execution_reach hσ j)
    (drawn_keeps hD h0 hth ho hc hσ (steady_same hv hfix) hcm (by omega) hij hjB (healed ht0 hσ hp' hw')) hj).1

/-- C93: what is still wrong was wrong before, and has not been touched: if, while the lower corner of the grid stayed, a
cell is not drawn as the map says, then what is drawn for it is what was drawn at the beginning, it was wrong then, and
whenever since the renderer processed a batch with the cell, the cell was occupied and already in the table. -/
theorem C93_stale (hD : D ≤ 3) (h0 : Placed m₀ CellBounds.empty ρ) (ht0 : m₀.changedCells = [])
    (hth : FLe (Fp.lit 0) nm.threshold) (hc : ∀ r, CloudInRange (recs r).2 ρ) (hτ : AnyWExecution nm recs n m₀ τ)
    (hfix : SteadyCorner (fun i => (τ i).prog.map) A B) (hcm : MachineCell c) (hAB : A ≤ B)
    (hA : AtRest (τ A).prog) (hB : AtRest (τ B).prog) (h : (τ B).prog.tracked c ≠ shown nm (τ B).prog.map c) :
    (τ B).prog.tracked c = (τ A).prog.tracked c ∧ (τ A).prog.tracked c ≠ shown nm (τ A).prog.map c ∧
    ∀ i, A ≤ i → i < B → Processes (fun i => (τ i).prog) c i →
      nm.occupied (τ i).prog.map c = .ok true ∧ (τ i).prog.tracked c ≠ none := by
  have ho : ∀ r : ℕ, IsOrder ((fun _ l => l : ℕ → List (Cell D) → List (Cell D)) r) := fun _ l => .refl l
  obtain ⟨σ, hσ, hv, -⟩ := C90_runs ho hτ
  have hm : ∀ k, (τ k).prog.main = (σ k).main := fun k => (hv k).main
  have ht : ∀ k, (τ k).prog.tracked = (σ k).tracked := fun k => (hv k).tracked
  have hs : ∀ k, shown nm (τ k).prog.map c = shown nm (σ k).map c := fun k => shown_same (hv k).map c
  have hoc : ∀ k, nm.occupied (τ k).prog.map c = nm.occupied (σ k).map c := fun k => by
    have e : (τ k).prog.map.data = (σ k).map.data := (hv k).map.data
    unfold LidarNoiseModel.occupied GridMap.get
    rw [e]
  unfold AtRest at hA hB
  rw [hm] at hA hB
  simp only [ht, hs, hoc] at h ⊢
  have hn : ∀ i, A ≤ i → i ≤ B → ¬ Drawn (occOps nm recs fun _ l => l) (· = c) (σ i) := fun i h1 h2 hd =>
    h (mirrors_one.mp (drawn_rest (execution_reach hσ B)
      (drawn_keeps hD h0 hth ho hc hσ (steady_same hv hfix) hcm h1 h2 le_rfl hd) hB).1)
  refine ⟨?_, fun e => hn A le_rfl hAB
    (.processed hA (mirrors_one.mpr e) (rest_changed ht0 (execution_reach hσ _) hA)), fun i h1 h2 hp => ?_⟩
  · have : ∀ i, A ≤ i → i ≤ B → (σ i).tracked c = (σ A).tracked c := fun i hi => by
      induction i, hi using Nat.le_induction with
      | base => exact fun _ => rfl
      | succ i hi ih =>
        exact fun h2 => (undrawn_step ht0 hσ (hn (i + 1) (by omega) h2)).1.trans (ih (by omega))
    exact this B hAB le_rfl
  · exact (undrawn_step ht0 hσ (hn (i + 1) (by omega) (by omega))).2
      ⟨(hm i).symm.trans hp.1, (hm _).symm.trans hp.2.1, (hv i).cells.mem_iff.mp hp.2.2⟩

/-- C93: and nothing else heals: a point that is drawn for a cell stays drawn there, right or wrong, as long as the batches
with the cell find it occupied, however the grid grows. -/
theorem C93_stuck (hτ : AnyWExecution nm recs n m₀ τ) {p : Point D F32} (hAB : A ≤ B)
    (hA : (τ A).prog.tracked c = some p)
    (h : ∀ i, A ≤ i → i < B → Processes (fun i => (τ i).prog) c i → nm.occupied (τ i).prog.map c = .ok true) :
    (τ B).prog.tracked c = some p := by
  have ho : ∀ r : ℕ, IsOrder ((fun _ l => l : ℕ → List (Cell D) → List (Cell D)) r) := fun _ l => .refl l
  obtain ⟨σ, hσ, hv, -⟩ := C90_runs ho hτ
  have hm : ∀ k, (τ k).prog.main = (σ k).main := fun k => (hv k).main
  have ht : ∀ k, (τ k).prog.tracked = (σ k).tracked := fun k => (hv k).tracked
  have hoc : ∀ k, nm.occupied (τ k).prog.map c = nm.occupied (σ k).map c := fun k => by
    have e : (τ k).prog.map.data = (σ k).map.data := (hv k).map.data
    unfold LidarNoiseModel.occupied GridMap.get
    rw [e]
  rw [ht] at hA ⊢
  induction B, hAB using Nat.le_induction with
  | base => exact hA
  | succ B hAB ih =>
    have ih := ih fun i h1 h2 => h i h1 (by omega)
    by_cases hp : (σ B).main = .process ∧ (σ (B + 1)).main = .clearFlag
    · obtain ⟨h1, h2⟩ := hp
      obtain ⟨-, e2⟩ := processes_step hσ h1 h2
      rcases processCells_by_set (ops := occOps nm recs fun _ l => l) (m := (σ B).map) (σ B).cells (σ B).tracked with
        ⟨-, e⟩ | ⟨-, e⟩
      · rw [e] at e2; cases e2
      · rw [e] at e2
        rw [← Option.some.inj e2]
        by_cases h3 : c ∈ (σ B).cells
        · have h4 := h B hAB (by omega) ⟨(hm B).trans h1, (hm _).trans h2, (hv B).cells.mem_iff.mpr h3⟩
          rw [hoc] at h4
          have h5 : (occOps nm recs fun _ l => l).occupied (σ B).map c = some true := by simp [occOps, h4, Except.toOption]
          simp [h3, h5, ih]
        · simp [h3, ih]
    · rw [tracked_keeps hσ hp, ih]

/-- Every reached state is passed by some run. -/
lemma execution_exists {s : State (GridMap D F32 F32) (Cell D) (Point D F32)} (h : Reach (occOps nm recs ord) n m₀ s) :
    ∃ σ K, Execution (occOps nm recs ord) n m₀ σ ∧ σ K = s := by
  induction h with
  | init => exact ⟨fun _ => Viz.init m₀, 0, ⟨rfl, fun _ => .inr rfl⟩, rfl⟩
  | step s s' _ hs ih =>
    obtain ⟨σ, K, h1, rfl⟩ := ih
    refine ⟨fun i => if i ≤ K then σ i else s', K + 1, ⟨by simp [h1.start], fun i => ?_⟩, by simp⟩
    rcases Nat.lt_trichotomy i K with h | rfl | h
    · simpa [h.le, Nat.succ_le_of_lt h] using h1.step i
    · simpa using .inl hs
    · simp [h.not_ge, show ¬ i + 1 ≤ K by omega]

/-- A run can be continued by any sequence of steps. -/
lemma execution_append {σ f : ℕ → State (GridMap D F32 F32) (Cell D) (Point D F32)} {K : ℕ}
    (h : Execution (occOps nm recs ord) n m₀ σ) (h0 : f 0 = σ K)
    (hf : ∀ i, Step (occOps nm recs ord) n (f i) (f (i + 1)) ∨ f (i + 1) = f i) :
    ∃ σ', Execution (occOps nm recs ord) n m₀ σ' ∧ ∀ i, σ' (K + i) = f i := by
  refine ⟨fun i => if i < K then σ i else f (i - K), ⟨?_, fun i => ?_⟩, fun i => by simp⟩
  · rcases K with _ | K
    · simp [h0, h.start]
    · simp [h.start]
  · rcases Nat.lt_trichotomy (i + 1) K with g | g | g
    · simpa [g, show i < K by omega] using h.step i
    · have : i < K := by omega
      simp only [this, if_true, g, Nat.sub_self, h0]
      simpa [g] using h.step i
    · simp only [show ¬ i < K by omega, show ¬ i + 1 < K by omega, if_false, show i + 1 - K = i - K + 1 by omega]
      exact hf _

/-- Every run with a sequentially consistent flag and fixed orders is one with a relaxed flag and any orders. -/
lemma execution_weak (ho : ∀ r, IsOrder (ord r)) {σ : ℕ → State (GridMap D F32 F32) (Cell D) (Point D F32)}
    (h : Execution (occOps nm recs ord) n m₀ σ) :
    ∃ τ, AnyWExecution nm recs n m₀ τ ∧ ∀ i, flagNow (τ i) = σ i := by
  have key : ∀ i (w : {w // AnyWReach nm recs n m₀ w ∧ flagNow w = σ i}),
      ∃ w' : {w // AnyWReach nm recs n m₀ w ∧ flagNow w = σ (i + 1)},
        AnyWStep nm recs n w.1 w'.1 ∨ w'.1 = w.1 := by
    rintro i ⟨w, h1, h2⟩
    rcases h.step i with h3 | h3
    · rw [← h2] at h3
      obtain ⟨w', h4, h5⟩ := (anyWReach_inv h1).1.complete h3
      exact ⟨⟨w', .step _ _ h1 ⟨ord, ho, h4⟩, h5⟩, .inl ⟨ord, ho, h4⟩⟩
    · exact ⟨⟨w, h1, h2.trans h3.symm⟩, .inr rfl⟩
  choose f hf using key
  let τ : (i : ℕ) → {w // AnyWReach nm recs n m₀ w ∧ flagNow w = σ i} := fun i =>
    Nat.rec ⟨wInit m₀, .init, h.start.symm⟩ (fun i w => f i w) i
  exact ⟨fun i => (τ i).1, ⟨rfl, fun i => hf i (τ i)⟩, fun i => (τ i).2.2⟩

/-- The states of one whole cycle. -/
def cycle {Map C Pt : Type} (ops : MapOps Map C Pt) (m m' : Map) (t t' : C → Option Pt) (ws : List (WorkerPc × ℕ)) (r n : ℕ) :
    ℕ → State Map C Pt
  | 0 => drawn m t ws r
  | 1 => { drawn m t ws r with main := .spawn, finished := false }
  | 2 => { drawn m t ws r with main := .check, finished := false, index := (r + 1) % n, workers := ws ++ [(.lockMap, r)] }
  | 3 => working m t ws r ((r + 1) % n)
  | 4 => { working m t ws r ((r + 1) % n) with map := m', workers := ws ++ [(.lockCells, r)] }
  | 5 => { working m t ws r ((r + 1) % n) with map := m', workers := ws ++ [(.copy, r)], cellsOwner := .worker ws.length }
  | 6 => { working m t ws r ((r + 1) % n) with map := m', workers := ws ++ [(.reset, r)], cells := ops.changed m' }
  | 7 => { working m t ws r ((r + 1) % n) with map := ops.reset m', workers := ws ++ [(.setFlag, r)], cells := ops.changed m' }
  | 8 => { working m t ws r ((r + 1) % n) with
            map := ops.reset m', workers := ws ++ [(.unlock, r)], cells := ops.changed m', finished := true }
  | 9 => idle (ops.reset m') (ops.changed m') t (ws ++ [(.done, r)]) ((r + 1) % n)
  | 10 => { idle (ops.reset m') (ops.changed m') t (ws ++ [(.done, r)]) ((r + 1) % n) with main := .lockCells }
  | 11 => { idle (ops.reset m') (ops.changed m') t (ws ++ [(.done, r)]) ((r + 1) % n) with
            main := .lockMap, cellsOwner := .main }
  | 12 => { idle (ops.reset m') (ops.changed m') t (ws ++ [(.done, r)]) ((r + 1) % n) with
            main := .process, cellsOwner := .main, mapOwner := .main }
  | _ => drawn (ops.reset m') t' (ws ++ [(.done, r)]) ((r + 1) % n)

lemma cycle_steps {Map C Pt : Type} [DecidableEq C] {ops : MapOps Map C Pt} {m m' : Map} {t t' : C → Option Pt}
    {ws : List (WorkerPc × ℕ)} {r n : ℕ} (hr : r < n) (hm : ops.integrate r m = .ret m')
    (hp : processCells ops (ops.reset m') (ops.changed m') t = some t') :
    ∀ i, Step ops n (cycle ops m m' t t' ws r n i) (cycle ops m m' t t' ws r n (i + 1)) ∨
      cycle ops m m' t t' ws r n (i + 1) = cycle ops m m' t t' ws r n i := by
  intro i
  match i with
  | 0 => exact .inl (.clearFlag _ rfl)
  | 1 => exact .inl (.spawn _ rfl hr)
  | 2 =>
    have := Step.wLockMap (ops := ops) (n := n) (cycle ops m m' t t' ws r n 2) ws.length r (by simp [cycle]) rfl rfl
    exact .inl (by simpa [cycle, setW, drawn, working] using this)
  | 3 =>
    have := Step.wIntegrate (ops := ops) (n := n) (cycle ops m m' t t' ws r n 3) ws.length r m' (by simp [cycle, working]) hm
    exact .inl (by simpa [cycle, setW, drawn, working] using this)
  | 4 =>
    have := Step.wLockCells (ops := ops) (n := n) (cycle ops m m' t t' ws r n 4) ws.length r (by simp [cycle]) rfl rfl
    exact .inl (by simpa [cycle, setW, drawn, working] using this)
  | 5 =>
    have := Step.wCopy (ops := ops) (n := n) (cycle ops m m' t t' ws r n 5) ws.length r (by simp [cycle])
    exact .inl (by simpa [cycle, setW, drawn, working] using this)
  | 6 =>
    have := Step.wReset (ops := ops) (n := n) (cycle ops m m' t t' ws r n 6) ws.length r (by simp [cycle])
    exact .inl (by simpa [cycle, setW, drawn, working] using this)
  | 7 =>
    have := Step.wSetFlag (ops := ops) (n := n) (cycle ops m m' t t' ws r n 7) ws.length r (by simp [cycle])
    exact .inl (by simpa [cycle, setW, drawn, working] using this)
  | 8 =>
    have := Step.wUnlock (ops := ops) (n := n) (cycle ops m m' t t' ws r n 8) ws.length r (by simp [cycle])
    exact .inl (by simpa [cycle, setW, drawn, working, idle] using this)
  | 9 => exact .inl (.checkDone _ rfl rfl)
  | 10 => exact .inl (.lockCells _ rfl rfl rfl)
  | 11 => exact .inl (.lockMap _ rfl rfl rfl)
  | 12 => exact .inl (.process _ t' rfl hp)
  | _ + 13 => exact .inr rfl

lemma cycle_map {Map C Pt : Type} {ops : MapOps Map C Pt} {m m' : Map} {t t' : C → Option Pt}
    {ws : List (WorkerPc × ℕ)} {r n : ℕ} (i : ℕ) : (cycle ops m m' t t' ws r n i).map = m ∨
      (cycle ops m m' t t' ws r n i).map = m' ∨ (cycle ops m m' t t' ws r n i).map = ops.reset m' := by
  match i with
  | 0 | 1 | 2 | 3 => exact .inl rfl
  | 4 | 5 | 6 => exact .inr (.inl rfl)
  | 7 | 8 | 9 | 10 | 11 | 12 | _ + 13 => exact .inr (.inr rfl)

/-- The hypotheses of the three theorems can be met, and the picture does heal: with the two small recordings in turn,
after the second (which makes the grid grow downwards) the cell of the first point is not drawn, though the map says that
it is occupied; the third scan sees the point again, and then it is drawn. -/
example : ∃ (τ : ℕ → WState (GridMap 2 F32 F32) (Cell 2) (Point 2 F32)) (A i j : ℕ) (c : Cell 2),
    AnyWExecution smallNM smallRecs 2 smallMap τ ∧ SteadyCorner (fun i => (τ i).prog.map) A j ∧ MachineCell c ∧
    A < i ∧ i < j ∧ AtRest (τ A).prog ∧ (τ A).prog.tracked c ≠ shown smallNM (τ A).prog.map c ∧
    Processes (fun i => (τ i).prog) c i ∧ (τ i).prog.tracked c = none ∧ AtRest (τ j).prog ∧
    (τ j).prog.tracked c = shown smallNM (τ j).prog.map c := by
  have h : (do
      let m1 ← smallNM.integratePointCloud id 20 (smallMap.setTrackChanges true) (smallRecs 0).1 (smallRecs 0).2
      let m1' := m1.clearChangedCells.setTrackChanges false
      let m2 ← smallNM.integratePointCloud id 20 (m1'.setTrackChanges true) (smallRecs 1).1 (smallRecs 1).2
      let m2' := m2.clearChangedCells.setTrackChanges false
      let m3 ← smallNM.integratePointCloud id 20 (m2'.setTrackChanges true) (smallRecs 0).1 (smallRecs 0).2
      let b1 ← m1.changedCells.mapM (smallNM.occupied m1')
      let b2 ← m2.changedCells.mapM (smallNM.occupied m2')
      let b3 ← m3.changedCells.mapM (smallNM.occupied (m3.clearChangedCells.setTrackChanges false))
      let b ← smallNM.occupied m2' ![7, 1]
      if b = true ∧ ![7, 1] ∉ m1.changedCells ∧ ![7, 1] ∉ m2.changedCells ∧ ![7, 1] ∈ m3.changedCells ∧
        m3.bounds.min = m2.bounds.min then Except.ok ()
      else .error .fuel) = .ok () := by decide +kernel
  rw [Verif.M.bind_eq_ok] at h
  obtain ⟨m1, h1, h⟩ := h
  simp only at h
  rw [Verif.M.bind_eq_ok] at h
  obtain ⟨m2, h2, h⟩ := h
  rw [Verif.M.bind_eq_ok] at h
  obtain ⟨m3, h3, h⟩ := h
  rw [Verif.M.bind_eq_ok] at h
  obtain ⟨b1, g1, h⟩ := h
  rw [Verif.M.bind_eq_ok] at h
  obtain ⟨b2, g2, h⟩ := h
  rw [Verif.M.bind_eq_ok] at h
  obtain ⟨b3, g3, h⟩ := h
  rw [Verif.M.bind_eq_ok] at h
  obtain ⟨b, g4, h⟩ := h
  split_ifs at h with h6
  obtain ⟨rfl, k1, k2, k3, k4⟩ := h6
  have r0 : Reach (occOps smallNM smallRecs fun _ => id) 2 smallMap (idle smallMap [] (fun _ => none) [] 0) := Reach.init
  have r1 := reach_cycle r0 rfl (by decide) (occOps_integrate ⟨20, h1⟩)
  obtain ⟨t1, p1, q1⟩ := processCells_other (fun _ => none) g1
  have r2 := reach_cycle r1 p1 (by decide) (occOps_integrate ⟨20, h2⟩)
  obtain ⟨t2, p2, q2⟩ := processCells_other t1 g2
  have r3 := reach_drawn r2 p2
  obtain ⟨t3, p3, -⟩ := processCells_other t2 g3
  obtain ⟨σ, A, e1, e2⟩ := execution_exists r3
  obtain ⟨σ', e3, e4⟩ := execution_append (f := cycle (occOps smallNM smallRecs fun _ => id)
      (m2.clearChangedCells.setTrackChanges false) m3 t2 t3 [(.done, 0), (.done, 1)] 0 2) e1 e2.symm
    (cycle_steps (ops := occOps smallNM smallRecs fun _ => id) (t' := t3) (r := 0) (n := 2) (by decide) (occOps_integrate ⟨20, h3⟩) p3)
  obtain ⟨τ, e5, e6⟩ := execution_weak (fun _ _ => List.Perm.refl _) e3
  have hn : t2 ![7, 1] = none := (q2 _ k2).trans (q1 _ k1)
  have f1 : ∀ i, (τ i).prog.main = (σ' i).main := fun i => by rw [← e6 i]; rfl
  have f2 : ∀ i, (τ i).prog.map = (σ' i).map := fun i => by rw [← e6 i]; rfl
  have f3 : ∀ i, (τ i).prog.tracked = (σ' i).tracked := fun i => by rw [← e6 i]; rfl
  have f4 : ∀ i, (τ i).prog.cells = (σ' i).cells := fun i => by rw [← e6 i]; rfl
  have hA : σ' A = _ := e4 0
  have hfix : SteadyCorner (fun i => (τ i).prog.map) A (A + 13) := by
    have : ∀ i, A ≤ i → (τ i).prog.map.bounds.min = m2.bounds.min := fun i hi => by
      obtain ⟨i, rfl⟩ := Nat.exists_eq_add_of_le hi
      rw [f2, e4]
      rcases cycle_map i with h | h | h <;> rw [h]
      · rfl
      · exact k4
      · exact k4
    exact fun i hi _ => .inl ((this _ (by omega)).trans (this i hi).symm)
  have hp : Processes (fun i => (τ i).prog) ![7, 1] (A + 12) := by
    refine ⟨?_, ?_, ?_⟩
    · change (τ (A + 12)).prog.main = _
      rw [f1, e4]; rfl
    · change (τ (A + 13)).prog.main = _
      rw [f1, e4]; rfl
    · change _ ∈ (τ (A + 12)).prog.cells
      rw [f4, e4]; exact k3
  have h12 : (τ (A + 12)).prog.tracked ![7, 1] = none := by rw [f3, e4]; exact hn
  have h13 : AtRest (τ (A + 13)).prog := .inl (by rw [f1, e4]; rfl)
  have hcm : MachineCell (![7, 1] : Cell 2) := by
    intro i
    fin_cases i <;> · unfold InIsize isizeMin isizeMax; decide
  refine ⟨τ, A, A + 12, A + 13, ![7, 1], e5, hfix, hcm, by omega, by omega, .inl (by rw [f1, hA]; rfl), ?_, hp, h12, h13, ?_⟩
  · rw [f3, f2, hA]
    change t2 ![7, 1] ≠ shown smallNM (m2.clearChangedCells.setTrackChanges false) ![7, 1]
    rw [hn, shown, if_pos g4]
    simp
  · exact C93_heals (by norm_num) smallMap_placed rfl (by decide +kernel) small_inRange e5 hfix hcm (by omega) (by omega)
      le_rfl hp (.inr h12) h13

end
end Verif.Props
