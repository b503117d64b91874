import Verif.Spec.Alive
import Verif.Props.Obstacle
import Verif.Props.Fair

/-!
# C82: a clear recording plays without end
-/

namespace Verif.Props
open Spec Viz

section
variable {Map Cell Pt : Type} [DecidableEq Cell] {ops : MapOps Map Cell Pt} {n : ℕ} {m₀ : Map}

lemma processCells_some {m : Map} : ∀ {l : List Cell} (t : Cell → Option Pt), (∀ c ∈ l, ops.occupied m c ≠ none) →
    ∃ t', processCells ops m l t = some t'
  | [], t, _ => ⟨t, rfl⟩
  | c :: l, t, h => by
    unfold processCells
    cases ho : ops.occupied m c with
    | none => exact absurd ho (h c List.mem_cons_self)
    | some b => cases b <;> exact processCells_some _ fun c hc => h c (List.mem_cons_of_mem _ hc)

/-- If a condition on the map is kept by integrating and resetting and makes every changed cell readable, readable cells
stay readable, and every integration that is reached returns, then nothing in the program ever panics. -/
lemma alive_reach (hn : 0 < n) {I : Map → Prop} {R : Map → Cell → Prop} (h0 : I m₀)
    (hret : ∀ s (k r : ℕ), Reach ops n m₀ s → I s.map → s.workers[k]? = some (.integrate, r) →
      ∃ m', ops.integrate r s.map = .ret m')
    (hI : ∀ r < n, ∀ m m', I m → ops.integrate r m = .ret m' → I m' ∧ ∀ c, R m c → R m' c)
    (hreset : ∀ m, I m → I (ops.reset m) ∧ ∀ c, R m c → R (ops.reset m) c)
    (hch : ∀ m, I m → ∀ c ∈ ops.changed m, R m c) (hR : ∀ m c, R m c → ops.occupied m c ≠ none)
    {s : State Map Cell Pt} (hr : Reach ops n m₀ s) :
    Alive s ∧ I s.map ∧ ∀ (k r : ℕ), s.workers[k]? = some (.integrate, r) → ∃ m', ops.integrate r s.map = .ret m' := by
  have key : Alive s ∧ I s.map ∧ (∀ c ∈ s.cells, R s.map c) ∧ s.mapPoisoned = false ∧ s.cellsPoisoned = false := by
    induction hr with
    | init => exact ⟨⟨by simp [Viz.init], by simp [Viz.init]⟩, h0, by simp [Viz.init], rfl, rfl⟩
    | step s s' hr hs ih =>
      obtain ⟨⟨a1, a2⟩, a3, a4, a5, a6⟩ := ih
      have hcyc := C54_cyclic hr hn
      have hset : ∀ {k r : ℕ} {pc pc' : WorkerPc}, s.workers[k]? = some (pc, r) → pc' ≠ .dead →
          ∀ (j r' : ℕ), (s.workers.set k (pc', r))[j]? ≠ some (.dead, r') := by
        intro k r pc pc' _ hpc' j r' hj
        rw [List.getElem?_set] at hj
        split_ifs at hj
        · simp only [Option.some.injEq, Prod.mk.injEq] at hj
          exact hpc' hj.1
        · exact a2 _ _ hj
      have hrn : ∀ {k r : ℕ} {pc : WorkerPc}, s.workers[k]? = some (pc, r) → r < n := by
        intro k r pc h
        rw [hcyc.2.2 k pc r h]
        exact Nat.mod_lt _ hn
      cases hs
      case checkBusy h1 h2 => exact ⟨⟨a1, a2⟩, a3, a4, a5, a6⟩
      case checkDone h1 h2 => exact ⟨⟨by simp, a2⟩, a3, a4, a5, a6⟩
      case lockCells h1 h2 h3 => exact ⟨⟨by simp, a2⟩, a3, a4, a5, a6⟩
      case lockCellsPoisoned h1 h2 h3 => rw [a6] at h3; cases h3
      case lockMap h1 h2 h3 => exact ⟨⟨by simp, a2⟩, a3, a4, a5, a6⟩
      case lockMapPoisoned h1 h2 h3 => rw [a5] at h3; cases h3
      case process t h1 h2 => exact ⟨⟨by simp, a2⟩, a3, by simp, a5, a6⟩
      case processPanic h1 h2 =>
        obtain ⟨t', ht⟩ := processCells_some (ops := ops) (m := s.map) s.tracked fun c hc => hR _ c (a4 c hc)
        rw [ht] at h2
        cases h2
      case clearFlag h1 => exact ⟨⟨by simp, a2⟩, a3, a4, a5, a6⟩
      case spawn h1 h2 =>
        refine ⟨⟨by simp, fun j r' hj => ?_⟩, a3, a4, a5, a6⟩
        rcases List.mem_append.mp (List.mem_of_getElem? hj) with h3 | h3
        · obtain ⟨k, hk⟩ := List.getElem?_of_mem h3
          exact a2 k r' hk
        · simp at h3
      case spawnPanic h1 h2 => have := hcyc.2.1; omega
      case wLockMap k r h1 h2 h3 => exact ⟨⟨a1, hset h1 (by simp)⟩, a3, a4, a5, a6⟩
      case wLockMapPoisoned k r h1 h2 h3 => rw [a5] at h3; cases h3
      case wIntegrate k r m h1 h2 =>
        obtain ⟨b1, b2⟩ := hI r (hrn h1) _ _ a3 h2
        exact ⟨⟨a1, hset h1 (by simp)⟩, b1, fun c hc => b2 c (a4 c hc), a5, a6⟩
      case wIntegratePanic k r h1 h2 =>
        obtain ⟨m', hm⟩ := hret s k r hr a3 h1
        rw [hm] at h2
        cases h2
      case wLockCells k r h1 h2 h3 => exact ⟨⟨a1, hset h1 (by simp)⟩, a3, a4, a5, a6⟩
      case wLockCellsPoisoned k r h1 h2 h3 => rw [a6] at h3; cases h3
      case wCopy k r h1 => exact ⟨⟨a1, hset h1 (by simp)⟩, a3, hch _ a3, a5, a6⟩
      case wReset k r h1 =>
        obtain ⟨b1, b2⟩ := hreset _ a3
        exact ⟨⟨a1, hset h1 (by simp)⟩, b1, fun c hc => b2 c (a4 c hc), a5, a6⟩
      case wSetFlag k r h1 => exact ⟨⟨a1, hset h1 (by simp)⟩, a3, a4, a5, a6⟩
      case wUnlock k r h1 => exact ⟨⟨a1, hset h1 (by simp)⟩, a3, a4, a5, a6⟩
  obtain ⟨b1, b2, -⟩ := key
  exact ⟨b1, b2, fun k r hk => hret s k r hr b2 hk⟩

/-- C82, for any map: if a condition on the map is kept by integrating and resetting, makes every integration return
and every changed cell readable, and readable cells stay readable, then nothing in the program ever panics. -/
theorem C82_alive (hn : 0 < n) {I : Map → Prop} {R : Map → Cell → Prop} (h0 : I m₀)
    (hret : ∀ r < n, ∀ m, I m → ∃ m', ops.integrate r m = .ret m')
    (hI : ∀ r < n, ∀ m m', I m → ops.integrate r m = .ret m' → I m' ∧ ∀ c, R m c → R m' c)
    (hreset : ∀ m, I m → I (ops.reset m) ∧ ∀ c, R m c → R (ops.reset m) c)
    (hch : ∀ m, I m → ∀ c ∈ ops.changed m, R m c) (hR : ∀ m c, R m c → ops.occupied m c ≠ none)
    {s : State Map Cell Pt} (hr : Reach ops n m₀ s) :
    Alive s ∧ I s.map ∧ ∀ (k r : ℕ), s.workers[k]? = some (.integrate, r) → ∃ m', ops.integrate r s.map = .ret m' := by
  refine alive_reach hn h0 (fun s k r hs hi hk => hret r ?_ _ hi) hI hreset hch hR hr
  rw [(C54_cyclic hs hn).2.2 k _ r hk]
  exact Nat.mod_lt _ hn

/-- If nothing ever panics and every integration that is reached returns, for every `k` a run exists that plays `k`
scans and draws the changes. -/
lemma runs_of_alive (hn : 0 < n) (h : ∀ s, Reach ops n m₀ s → Alive s ∧ ∀ (k r : ℕ),
      s.workers[k]? = some (.integrate, r) → ∃ m', ops.integrate r s.map = .ret m') (k : ℕ) :
    ∃ m t, Reach ops n m₀ (drawn m t ((List.range k).map fun j => (.done, j % n)) (k % n)) := by
  have hdraw : ∀ {m cells t ws i}, Reach ops n m₀ (idle m cells t ws i) →
      ∃ t', Reach ops n m₀ (drawn m t' ws i) := by
    intro m cells t ws i hi
    have h1 := Reach.step _ _ hi (.checkDone _ rfl rfl)
    have h2 := Reach.step _ _ h1 (.lockCells _ rfl rfl rfl)
    have h3 := Reach.step _ _ h2 (.lockMap _ rfl rfl rfl)
    cases hp : processCells ops m cells t with
    | none => exact absurd rfl (h _ (Reach.step _ _ h3 (.processPanic _ rfl hp))).1.1
    | some t' => exact ⟨t', reach_drawn hi hp⟩
  induction k with
  | zero =>
    obtain ⟨t, ht⟩ := hdraw (m := m₀) (cells := []) (t := fun _ => none) (ws := []) (i := 0)
      (by simpa [idle, Viz.init] using Reach.init)
    exact ⟨m₀, t, by simpa using ht⟩
  | succ k ih =>
    obtain ⟨m, t, hk⟩ := ih
    have hw := reach_working hk (Nat.mod_lt _ hn)
    obtain ⟨m', hm⟩ := (h _ hw).2 k (k % n) (by simp [working])
    have hi := reach_idle hw hm
    obtain ⟨t', ht⟩ := hdraw hi
    refine ⟨ops.reset m', t', ?_⟩
    rw [List.range_succ, List.map_append, List.map_singleton]
    rwa [Nat.mod_add_mod] at ht

end

section
variable {D : ℕ} {M N K n : ℕ} {m m₀ : GridMap D F32 F32} {ρ : ℚ} {nm : LidarNoiseModel F32}
  {recs : ℕ → Point D F32 × PointCloud D F32} {ord : ℕ → List (Cell D) → List (Cell D)}

/-- What holds of the map all along. -/
def MapOk (M T : ℕ) (ρ : ℚ) (m : GridMap D F32 F32) : Prop :=
  (∃ cb, Placed m cb ρ ∧ LowCorner M T cb) ∧ m.tileSize = T ∧ ∀ c ∈ m.changedCells, MachineCell c ∧ InGrid m c

lemma clear_within {T : ℕ} {x : Fin D → ℚ} {origin : Point D F32} {cloud : PointCloud D F32}
    (h : ClearRec M N K T ρ x origin cloud) : WithinCells M ρ cloud := fun p hp i =>
  let ⟨y, h1, h2, _⟩ := h.points p hp i
  ⟨y, h1, h2⟩

lemma clear_rec_scan {T : ℕ} {x : Fin D → ℚ} {origin : Point D F32} {cloud : PointCloud D F32} {cb : CellBounds D}
    (hlo : 1 / 2 ^ 20 ≤ ρ) (hhi : ρ ≤ 2 ^ 20) (hN : N = M + T + 1) (hN18 : N ≤ 2 ^ 18) (hT : m.tileSize = T)
    (hc : ∀ i, |cb.min i| ≤ N) (h : ClearRec M N K T ρ x origin cloud) : ClearScan N K m cb ρ x origin cloud := by
  have hpos : 0 < ρ := lt_of_lt_of_le (by norm_num) hlo
  have hMN : (M : ℚ) * ρ ≤ N * ρ := by
    have : (M : ℚ) ≤ N := by rw [hN]; push_cast; linarith [(Nat.cast_nonneg T : (0 : ℚ) ≤ T)]
    gcongr
  refine ⟨hlo, hhi, by omega, hN18, hc, h.sensor, fun i => (h.sensor_near i).trans hMN,
    fun i => .inr (h.sensor_inside i), fun i => by rw [hT]; exact h.sensor_tile i, fun p hp i => ?_⟩
  obtain ⟨y, h1, h2, h3, h4, h5⟩ := h.points p hp i
  exact ⟨y, h1, h2.trans hMN, by rw [hT]; exact h3, h4, by rw [hT]; exact h5⟩

lemma mapOk_step {T : ℕ} {m m' : GridMap D F32 F32} {ord : List (Cell D) → List (Cell D)} {origin : Point D F32}
    {cloud : PointCloud D F32} (hD : D = 2 ∨ D = 3) (hM1 : 1 ≤ M) (hM18 : M + T + 1 ≤ 2 ^ 18) (ho : IsOrder ord)
    (hw : WithinCells M ρ cloud) (hm : MapOk M T ρ m)
    (hI : Integrates ord nm (m.setTrackChanges true) origin cloud m') :
    MapOk M T ρ m' ∧ ∀ c, (MachineCell c ∧ InGrid m c) → MachineCell c ∧ InGrid m' c := by
  obtain ⟨⟨cb, hP, hl⟩, hT', hch⟩ := hm
  have hP1 : Placed (m.setTrackChanges true) cb ρ := placed_of_shape hP rfl rfl rfl rfl
  obtain ⟨me, free, occ, e1, e2, e3, e4, -, e6, e7, e8, -, e10⟩ := C38_integrate ho hI
  obtain ⟨ncb, q1, q2, q3, q5⟩ := low_corner (by omega) hP1 hM1 (by omega) hw (by
    change LowCorner M m.tileSize cb; rw [hT']; exact hl) e1
  have q4 : me.tileSize = T := q3.trans hT'
  have hP' := placed_of_shape q1 e7 e6 e8 e10
  have hkeep : ∀ c, InGrid m c → InGrid m' c := by
    intro c hc i
    have h1 := hc i
    have h2 : m.data.shape i ≤ me.data.shape i := q5 i
    rw [e10]
    omega
  have hnew : ∀ c, c ∈ free ∨ c ∈ occ → MachineCell c ∧ InGrid m' c := by
    intro c hc
    obtain ⟨k1, k2⟩ := castsRays_machine e2
    have hm : MachineCell c := hc.elim (k1 c) (k2 c)
    refine ⟨hm, ?_⟩
    by_contra hno
    have h1 := (C31_get m' hm).2 hno
    rcases hc with hc | hc
    · obtain ⟨v, -, hv⟩ := e3 c hc
      rw [h1] at hv
      cases hv
    · obtain ⟨v, -, hv⟩ := e4 c hc
      rw [h1] at hv
      cases hv
  refine ⟨⟨⟨ncb, hP', by rw [← hT']; exact q2⟩, by rw [e8, q4], fun c hc => ?_⟩, fun c hc => ⟨hc.1, hkeep c hc.2⟩⟩
  obtain ⟨me', free', occ', new, f1, f2, f3, -, f5, -⟩ := C40_tracked ho hI rfl
  rw [e1] at f1
  cases f1
  rw [f3] at hc
  rcases List.mem_append.mp hc with hc | hc
  · obtain ⟨g1, g2⟩ := hch c hc
    exact ⟨g1, hkeep c g2⟩
  · have hocc : c ∈ occ' ↔ c ∈ occ := (C28_occupied f2 c).trans (C28_occupied e2 c).symm
    refine hnew c (((f5 c).mp hc).imp (fun h => ?_) hocc.mp)
    obtain ⟨g1, g2⟩ := (C28_free f2 c).mp h
    exact (C28_free e2 c).mpr ⟨g1, fun h => g2 (hocc.mpr h)⟩

/-- C82: a recording of clear scans, played into a map without cells, plays without end: nothing ever panics, and
every integration that is reached returns. So (`C52_no_deadlock`) some thread can always go on. -/
theorem C82_visualizer {T : ℕ} (hD : D = 2 ∨ D = 3) (hn : 0 < n) (h0 : Placed m₀ CellBounds.empty ρ)
    (ht0 : m₀.changedCells = []) (hT : m₀.tileSize = T) (ho : ∀ r, IsOrder (ord r)) (hlo : 1 / 2 ^ 20 ≤ ρ)
    (hhi : ρ ≤ 2 ^ 20) (hM1 : 1 ≤ M) (hN : N = M + T + 1) (hN18 : N ≤ 2 ^ 18)
    (hcl : ∀ r < n, ∃ x, ClearRec M N K T ρ x (recs r).1 (recs r).2)
    {s : State (GridMap D F32 F32) (Cell D) (Point D F32)} (hr : Reach (occOps nm recs ord) n m₀ s) :
    Alive s ∧ (∀ (k r : ℕ), s.workers[k]? = some (.integrate, r) →
      ∃ m', Integrates (ord r) nm (s.map.setTrackChanges true) (recs r).1 (recs r).2 m') ∧
    ∃ s', Step (occOps nm recs ord) n s s' ∧ s' ≠ s := by
  have hT1 : 1 ≤ T := hT ▸ h0.tile_pos
  have key := C82_alive (ops := occOps nm recs ord) (m₀ := m₀) hn (I := MapOk M T ρ)
    (R := fun m c => MachineCell c ∧ InGrid m c)
    ⟨⟨_, h0, .inl rfl⟩, hT, by rw [ht0]; simp⟩
    (fun r hr m hm => by
      obtain ⟨⟨cb, hP, hl⟩, hT', -⟩ := hm
      obtain ⟨x, hx⟩ := hcl r hr
      obtain ⟨m', hm'⟩ := C44_no_panic_partial (nm := nm) (m := m.setTrackChanges true) hD
        (placed_of_shape hP rfl rfl rfl rfl)
        (clear_rec_scan (m := m.setTrackChanges true) hlo hhi hN hN18 hT'
          (fun i => by rw [hN]; exact hl.abs_le hT1 i) hx) (ho r)
      exact ⟨m', occOps_integrate hm'⟩)
    (fun r hr m m' hm hi => by
      obtain ⟨x, hx⟩ := hcl r hr
      exact mapOk_step hD hM1 (by omega) (ho r) (clear_within hx) hm (occOps_ret hi))
    (fun m hm => by
      obtain ⟨⟨cb, hP, hl⟩, hT', -⟩ := hm
      exact ⟨⟨⟨cb, placed_of_shape hP rfl rfl rfl rfl, hl⟩, hT', fun c hc => by cases hc⟩, fun c hc => hc⟩)
    (fun m hm c hc => hm.2.2 c hc)
    (fun m c hc => by
      obtain ⟨v, hv⟩ := (C31_get m hc.1).1 hc.2
      obtain ⟨b, hb, -⟩ := (C43_occupied (nm := nm) hc.1).1 v hv
      simp [occOps, hb, Except.toOption])
    hr
  obtain ⟨k1, -, k3⟩ := key
  refine ⟨k1, fun k r hk => ?_, C52_no_deadlock hr k1.1 k1.2 fun k r hk => ?_⟩
  · obtain ⟨m', hm⟩ := k3 k r hk
    exact ⟨m', occOps_ret hm⟩
  · obtain ⟨m', hm⟩ := k3 k r hk
    rw [hm]
    simp

/-- C82: and it gets there: for every `k` a run plays `k` scans, the recordings in turn, and draws the changes. -/
theorem C82_plays {T : ℕ} (hD : D = 2 ∨ D = 3) (hn : 0 < n) (h0 : Placed m₀ CellBounds.empty ρ)
    (ht0 : m₀.changedCells = []) (hT : m₀.tileSize = T) (ho : ∀ r, IsOrder (ord r)) (hlo : 1 / 2 ^ 20 ≤ ρ)
    (hhi : ρ ≤ 2 ^ 20) (hM1 : 1 ≤ M) (hN : N = M + T + 1) (hN18 : N ≤ 2 ^ 18)
    (hcl : ∀ r < n, ∃ x, ClearRec M N K T ρ x (recs r).1 (recs r).2) (k : ℕ) :
    ∃ s, Reach (occOps nm recs ord) n m₀ s ∧ s.main = .clearFlag ∧
      s.workers = (List.range k).map fun j => (.done, j % n) := by
  obtain ⟨m, t, h⟩ := runs_of_alive (ops := occOps nm recs ord) (m₀ := m₀) hn (fun s hs => by
    obtain ⟨a1, a2, -⟩ := C82_visualizer hD hn h0 ht0 hT ho hlo hhi hM1 hN hN18 hcl hs
    refine ⟨a1, fun k r hk => ?_⟩
    obtain ⟨m', hm⟩ := a2 k r hk
    exact ⟨m', occOps_integrate hm⟩) k
  exact ⟨_, h, rfl, rfl⟩

/-- C82: every fair run of the visualizer on clear recordings plays every number of scans and draws their changes. -/
theorem C82_every_run {T : ℕ} (hD : D = 2 ∨ D = 3) (hn : 0 < n) (h0 : Placed m₀ CellBounds.empty ρ)
    (ht0 : m₀.changedCells = []) (hT : m₀.tileSize = T) (ho : ∀ r, IsOrder (ord r)) (hlo : 1 / 2 ^ 20 ≤ ρ)
    (hhi : ρ ≤ 2 ^ 20) (hM1 : 1 ≤ M) (hN : N = M + T + 1) (hN18 : N ≤ 2 ^ 18)
    (hcl : ∀ r < n, ∃ x, ClearRec M N K T ρ x (recs r).1 (recs r).2)
    {σ : ℕ → State (GridMap D F32 F32) (Cell D) (Point D F32)} (h : Execution (occOps nm recs ord) n m₀ σ)
    (hf : Fair (occOps nm recs ord) n σ) (k : ℕ) : ∃ i, (σ i).main = .clearFlag ∧ (σ i).workers.length = k :=
  C82_fair h hf (fun i => (C82_visualizer hD hn h0 ht0 hT ho hlo hhi hM1 hN hN18 hcl (exec_reach h i)).2.2) k

end

/-! ## From real numbers -/

lemma off_of_real {T : ℕ} {ρ : ℚ} {ε Y : ℝ} {y : ℚ} (hy : |(y : ℝ) - Y| ≤ ε) (h : OffTileEdgeReal T ρ ε Y) :
    OffTileEdge T ρ y := by
  rintro k ⟨h1, h2⟩
  rw [← Rat.cast_le (K := ℝ)] at h1
  rw [← Rat.cast_lt (K := ℝ)] at h2
  push_cast at h1 h2
  have h3 := abs_le.mp hy
  rcases h k with h4 | h4 <;> linarith

lemma above_of_real {D T : ℕ} {ρ : ℚ} {ε Y : ℝ} {y : ℚ} {X : Fin D → ℝ} {pts : List (Fin D → ℝ)} {origin : Point D F32}
    {cloud : PointCloud D F32} (hs : NearScan ε origin cloud X pts) {i : Fin D} (hy : |(y : ℝ) - Y| ≤ ε)
    (h : ClearAboveReal T ρ ε pts i Y) : ClearAbove T ρ cloud i y := by
  refine h.imp (off_of_real hy) ?_
  rintro ⟨Z, hZ, h1⟩
  obtain ⟨p, hp, hn⟩ := forall₂_left hs.2.flip hZ
  obtain ⟨z, hz, hd⟩ := hn i
  refine ⟨p, hp, z, hz, ?_⟩
  have h3 := abs_le.mp hd
  have h4 := abs_le.mp hy
  have : (y : ℝ) + ρ ≤ z := by linarith
  exact_mod_cast this

lemma clear_of_real {D M N K T : ℕ} {ρ : ℚ} {ε : ℝ} {X : Fin D → ℝ} {pts : List (Fin D → ℝ)} {origin : Point D F32}
    {cloud : PointCloud D F32} (hs : NearScan ε origin cloud X pts)
    (h : ClearReal M N K T ρ ε X pts) : ∃ x, ClearRec M N K T ρ x origin cloud := by
  choose x hx using hs.1
  refine ⟨x, fun i => (hx i).1, fun i => ?_, fun i => ⟨?_, ?_⟩, fun i => above_of_real hs (hx i).2 (h.sensor_tile i),
    fun p hp i => ?_⟩
  · have h2 := abs_sub_abs_le_abs_sub (x i : ℝ) (X i)
    have : |(x i : ℝ)| ≤ M * ρ := by linarith [h.sensor_near i, (hx i).2]
    exact_mod_cast this
  · obtain ⟨Y, hY, h1⟩ := (h.sensor_inside i).1
    obtain ⟨p, hp, hn⟩ := forall₂_left hs.2.flip hY
    obtain ⟨y, hy, hd⟩ := hn i
    refine Fp.FLe_trans (((C14_bounds_contain cloud i).2.2 p hp (Fp.notNaN_is hy)).1) ((Fp.FLe_is hy (hx i).1).mpr ?_)
    have h3 := abs_le.mp hd
    have h4 := abs_le.mp (hx i).2
    have : (y : ℝ) ≤ x i := by linarith
    exact_mod_cast this
  · obtain ⟨Y, hY, h1⟩ := (h.sensor_inside i).2
    obtain ⟨p, hp, hn⟩ := forall₂_left hs.2.flip hY
    obtain ⟨y, hy, hd⟩ := hn i
    refine Fp.FLe_trans ((Fp.FLe_is (hx i).1 hy).mpr ?_) ((C14_bounds_contain cloud i).2.2 p hp (Fp.notNaN_is hy)).2
    have h3 := abs_le.mp hd
    have h4 := abs_le.mp (hx i).2
    have : (x i : ℝ) ≤ y := by linarith
    exact_mod_cast this
  · obtain ⟨Y, hY, hn⟩ := forall₂_left hs.2 hp
    obtain ⟨y, hy, hd⟩ := hn i
    obtain ⟨h1, h2, h3, h4, h5⟩ := h.points Y hY i
    have hdd : |(y : ℝ) - x i - (Y i - X i)| ≤ 2 * ε := by
      rw [show (y : ℝ) - x i - (Y i - X i) = (y - Y i) - (x i - X i) by ring]
      have := abs_sub ((y : ℝ) - Y i) (x i - X i)
      linarith [(hx i).2]
    refine ⟨y, hy, ?_, above_of_real hs hd h2, ?_, .inr ⟨?_, fun n => ?_⟩⟩
    · have h6 := abs_sub_abs_le_abs_sub (y : ℝ) (Y i)
      have : |(y : ℝ)| ≤ M * ρ := by linarith
      exact_mod_cast this
    · have h6 := abs_sub_abs_le_abs_sub ((y : ℝ) - x i) (Y i - X i)
      have : |(y : ℝ) - x i| ≤ K * ρ := by linarith
      exact_mod_cast this
    · have h6 := abs_sub_abs_le_abs_sub (Y i - X i) ((y : ℝ) - x i)
      rw [abs_sub_comm] at hdd
      have : (ρ : ℝ) / 2 ^ 40 ≤ |(y : ℝ) - x i| := by linarith
      exact_mod_cast this
    · have h6 := abs_sub_le (Y i) (y : ℝ) ((n + 1 / 2) * ρ)
      rw [abs_sub_comm (Y i) (y : ℝ)] at h6
      have h7 := h5 n
      rw [← Rat.cast_le (K := ℝ)]
      push_cast
      linarith

section
variable [T : Trig F32] [Libm F32]
open Kitti

/-- C82: from the bytes of a recording folder. If, going by the numbers in the files, all scans are clear, the program
never panics: the window opens, and at every moment of every run of the visualizer no thread has panicked, the
integration of a worker that is about to integrate returns, and some thread can go on; every number of scans is played
by some run and, at some moment, by every fair run. -/
theorem C82_folder (hl : TestedLn) (hT : AccurateTrig T) {cos : F64 → F64} {radPerDeg : F64} {cast : F64 → F32}
    (he : AccurateEnv (parsingEnv cos radPerDeg cast (Quat.fromEuler (F := F32))))
    {w₁ w₂ : ℕ} {ext ext' : List (Fin 256)} {idx : List ℕ} {po pv : List (List (Fin 256))}
    (ho : IndexFolder w₁ ext idx po) (hv : IndexFolder w₂ ext' idx pv)
    {oxtBytes cloudBytes : List (Fin 256) → List (BitVec 8)} {place : ℕ → Place} {roll pitch yaw : ℕ → ℚ} {L S ε : ℝ}
    (htext : ∀ i ∈ idx, ∃ text, oxtBytes (indexName w₁ ext i) = utf8 text ∧ (place i).Ok ∧
      Says text (place i) (roll i) (pitch i) (yaw i))
    (hang : ∀ i ∈ idx, |roll i| ≤ 4 ∧ |pitch i| ≤ 4 ∧ |yaw i| ≤ 4)
    (hcloud : ∀ i ∈ idx, 16 ∣ (cloudBytes (indexName w₂ ext' i)).length ∧
      ∀ j < (cloudBytes (indexName w₂ ext' i)).length / 16, ∀ n : Fin 3,
        (f32OfBits (wordAt (cloudBytes (indexName w₂ ext' i)) (16 * j + 4 * n.val))).isFin = true ∧
        |((f32OfBits (wordAt (cloudBytes (indexName w₂ ext' i)) (16 * j + 4 * n.val))).val : ℝ)| ≤ L)
    {i0 : ℕ} (hi0 : idx[0]? = some i0) (hS : ∀ i ∈ idx, ∀ n, |(place i).offset (place i0) n| ≤ S)
    (hL1 : 1 ≤ L) (hL2 : L ≤ 2 ^ 100) (hε : ε = (1130 * L + 2 * S) / 2 ^ 24 + 1 / 2 ^ 18)
    {X : ℕ → Fin 3 → ℝ} (hX : ∀ i, X i = (place i).offset (place i0)) {pts : ℕ → List (Fin 3 → ℝ)}
    (hpts : ∀ i, pts i = movedPoints (roll i) (pitch i) (yaw i) (X i) (cloudBytes (indexName w₂ ext' i)))
    {M N K : ℕ} (hM1 : 1 ≤ M) (hN : N = M + 101) (hN18 : N ≤ 2 ^ 18)
    {ρ : ℚ} (hρ : ρ = (Fp.lit 0.1 : F32).val) (hclear : ∀ i ∈ idx, ClearReal M N K 100 ρ ε (X i) (pts i))
    {o : OccupancyGridMap 3 F32} (hdef : OccupancyGridMap.default_ = .ok o) :
    ∃ rs, main (parsingEnv cos radPerDeg cast Quat.fromEuler) (some (some (byteFolder po pv oxtBytes cloudBytes))) =
        .ok (.window rs) ∧ rs.clouds.length = idx.length ∧
      ∀ ord : ℕ → List (Verif.Cell 3) → List (Verif.Cell 3), (∀ r, IsOrder (ord r)) →
        (∀ s, Reach (occOps o.noiseModel rs.get ord) rs.clouds.length o.gridMap s →
          Alive s ∧ (∀ (k r : ℕ), s.workers[k]? = some (.integrate, r) →
            ∃ m', Integrates (ord r) o.noiseModel (s.map.setTrackChanges true) (rs.get r).1 (rs.get r).2 m') ∧
          ∃ s', Step (occOps o.noiseModel rs.get ord) rs.clouds.length s s' ∧ s' ≠ s) ∧
        (∀ k, ∃ s, Reach (occOps o.noiseModel rs.get ord) rs.clouds.length o.gridMap s ∧ s.main = .clearFlag ∧
          s.workers = (List.range k).map fun j => (.done, j % idx.length)) ∧
        ∀ σ, Execution (occOps o.noiseModel rs.get ord) rs.clouds.length o.gridMap σ →
          Fair (occOps o.noiseModel rs.get ord) rs.clouds.length σ →
          ∀ k, ∃ i, (σ i).main = .clearFlag ∧ (σ i).workers.length = k := by
  obtain ⟨rs, hmain, hlen, hε0, -, hnear⟩ := folder_scans hT he ho hv htext hang hcloud hi0 hS hL1 hL2 hε hX hpts
  refine ⟨rs, hmain, hlen, fun ord hord => ?_⟩
  have hidx : 0 < idx.length := (List.getElem?_eq_some_iff.mp hi0).1
  have hrlo : (1 : ℚ) / 2 ^ 20 ≤ ρ := by rw [hρ]; decide +kernel
  have hrhi : ρ ≤ (2 : ℚ) ^ 20 := by rw [hρ]; decide +kernel
  obtain ⟨m0, rfl, e2, e3, e4⟩ := default_start hl hρ hdef
  have hcl : ∀ r < idx.length, ∃ x, ClearRec M N K 100 ρ x (rs.get r).1 (rs.get r).2 := by
    intro r hr
    have hk : idx[r]? = some idx[r] := List.getElem?_eq_getElem hr
    exact clear_of_real (hnear r _ hk) (hclear _ (List.mem_of_getElem? hk))
  rw [hlen]
  exact ⟨fun s hr => C82_visualizer (.inr rfl) hidx e2 e4 e3 hord hrlo hrhi hM1 hN hN18 hcl hr,
    C82_plays (.inr rfl) hidx e2 e4 e3 hord hrlo hrhi hM1 hN hN18 hcl,
    fun σ h1 h2 => C82_every_run (.inr rfl) hidx e2 e4 e3 hord hrlo hrhi hM1 hN hN18 hcl h1 h2⟩

end

/-! ## An example -/

/-- The scan of `smallScan_clear`, played over and over. -/
def clearRecs (_ : ℕ) : Point 2 F32 × PointCloud 2 F32 :=
  (![Fp.lit (1 / 2), Fp.lit (1 / 2)],
    PointCloud.fromPoints [![Fp.lit (9 / 4), Fp.lit (1 / 2)], ![Fp.lit (-3), Fp.lit (1 / 4)]])

lemma clearRecs_clear (r : ℕ) : ClearRec 8 11 8 2 1 ![1 / 2, 1 / 2] (clearRecs r).1 (clearRecs r).2 := by
  have h := smallScan_clear
  have hT : smallMap.tileSize = 2 := rfl
  have half : ∀ (y : ℚ) (a : ℤ), (a : ℚ) - 1 / 4 ≤ y → y ≤ a + 1 / 4 → ∀ n : ℤ, 1 / 4 ≤ |y - (n + 1 / 2) * 1| := by
    intro y a h1 h2 n
    rcases lt_or_ge n a with h | h
    · have : (n : ℚ) + 1 ≤ a := by exact_mod_cast h
      exact le_trans (by linarith) (le_abs_self _)
    · have : (a : ℚ) ≤ n := by exact_mod_cast h
      exact le_trans (by linarith) (neg_le_abs _)
  have hd : (13 * (11 : ℕ) + 8 * (2 : ℕ) + (8 : ℕ) ^ 2 + 14 * (8 : ℕ) + 80 : ℚ) / 2 ^ 24 * 1 ≤ 1 / 4 := by norm_num
  refine ⟨h.sensor, h.sensor_near, ?_, h.sensor_tile, ?_⟩
  · intro i; revert i; unfold clearRecs; decide +kernel
  · intro p hp i
    obtain ⟨y, h1, h2, h3, h4, h5⟩ := h.points p hp i
    refine ⟨y, h1, h2, h3, h4, ?_⟩
    rw [clearRecs, C13_points_fromPoints] at hp
    have uniq : ∀ {a : F32} {u v : ℚ}, a.Is u → a.Is v → u = v := fun hu hv => hu.unique hv
    rcases List.mem_pair.mp hp with rfl | rfl
    · fin_cases i
      · obtain rfl := uniq h1 (show (Fp.lit (9 / 4) : F32).Is (9 / 4) by decide +kernel)
        exact .inr ⟨by norm_num, fun n => hd.trans (half _ 2 (by norm_num) (by norm_num) n)⟩
      · obtain rfl := uniq h1 (show (Fp.lit (1 / 2) : F32).Is (1 / 2) by decide +kernel)
        exact .inl rfl
    · fin_cases i
      · obtain rfl := uniq h1 (show (Fp.lit (-3) : F32).Is (-3) by decide +kernel)
        exact .inr ⟨by norm_num, fun n => hd.trans (half _ (-3) (by norm_num) (by norm_num) n)⟩
      · obtain rfl := uniq h1 (show (Fp.lit (1 / 4) : F32).Is (1 / 4) by decide +kernel)
        exact .inr ⟨by norm_num, fun n => hd.trans (half _ 0 (by norm_num) (by norm_num) n)⟩

lemma clearRecs_aims (r : ℕ) : Aims 11 8 1 (clearRecs r).1 ![Fp.lit (-3), Fp.lit (1 / 4)] ![1 / 2, 1 / 2]
    ![-3, 1 / 4] := by
  refine ⟨by norm_num, by norm_num, by norm_num, by norm_num, by unfold clearRecs; decide +kernel, ?_,
    by decide +kernel, ?_, ?_, ?_⟩
  · intro i; fin_cases i <;> norm_num
  · intro i; fin_cases i <;> norm_num [abs_le]
  · intro i; fin_cases i <;> norm_num [abs_le]
  · intro i; right; fin_cases i <;> norm_num [le_abs]

lemma clearRecs_hits (r : ℕ) : Hits 11 8 1 60 (clearRecs r).1 (clearRecs r).2 ![-3, 0] := by
  refine ⟨![Fp.lit (-3), Fp.lit (1 / 4)], ?_, ![1 / 2, 1 / 2], ![-3, 1 / 4], 4, clearRecs_aims r, ?_, ⟨by norm_num, ?_⟩,
    by norm_num⟩
  · rw [clearRecs, C13_points_fromPoints]; simp
  · intro i; unfold rayTol; fin_cases i <;> norm_num
  · norm_num [distSq, Fin.sum_univ_two]

lemma clearRecs_passes (r : ℕ) : PassesCell 11 8 1 60 (clearRecs r).1 (clearRecs r).2 ![-1, 0] := by
  refine ⟨⟨![Fp.lit (-3), Fp.lit (1 / 4)], ?_, ![1 / 2, 1 / 2], ![-3, 1 / 4], 2, clearRecs_aims r, ⟨![-3, 0], ?_⟩,
    ⟨9 / 20, by norm_num, by norm_num, ?_⟩, ⟨by norm_num, ?_⟩, by norm_num⟩, ?_⟩
  · rw [clearRecs, C13_points_fromPoints]; simp
  · intro i; unfold rayTol; fin_cases i <;> norm_num
  · intro i; unfold rayTol; fin_cases i <;> norm_num [abs_lt]
  · norm_num [distSq, Fin.sum_univ_two]
  · intro p hp
    rw [clearRecs, C13_points_fromPoints] at hp
    rcases List.mem_pair.mp hp with rfl | rfl
    · exact ⟨![9 / 4, 1 / 2], by decide +kernel, by intro i; fin_cases i <;> norm_num [abs_le], 0, by
        unfold rayTol; norm_num [lt_abs]⟩
    · exact ⟨![-3, 1 / 4], by decide +kernel, by intro i; fin_cases i <;> norm_num [abs_le], 0, by
        unfold rayTol; norm_num [lt_abs]⟩

/-- The default noise model and a map with cells of side 1: after nine scans nothing has panicked, the cell with the
point (-3, 1/4) is occupied and a cell on the way to it is not. -/
example : ∃ s, Reach (occOps defaultNM clearRecs fun _ l => l) 1 smallMap s ∧ Alive s ∧ s.workers.length = 9 ∧
    ∃ cb, Placed s.map cb 1 ∧ defaultNM.occupied s.map (fun i => ![-3, 0] i - cb.min i) = .ok true ∧
      defaultNM.occupied s.map (fun i => ![-1, 0] i - cb.min i) = .ok false := by
  have ho : ∀ r : ℕ, IsOrder ((fun _ l => l : ℕ → List (Cell 2) → List (Cell 2)) r) := fun _ l => List.Perm.refl l
  obtain ⟨s, h1, h2, h3⟩ := C82_plays (nm := defaultNM) (recs := clearRecs) (ord := fun _ l => l) (n := 1)
    (m₀ := smallMap) (K := 8) (N := 11) (.inl rfl) (by norm_num) smallMap_placed rfl rfl ho (by norm_num) (by norm_num)
    (M := 8) (by norm_num) rfl (by norm_num) (fun r _ => ⟨_, clearRecs_clear r⟩) 9
  have hlen : s.workers.length = 9 := by rw [h3]; simp
  obtain ⟨ha, -⟩ := C82_visualizer (K := 8) (N := 11) (.inl rfl) (by norm_num) smallMap_placed rfl rfl ho (by norm_num)
    (by norm_num) (M := 8) (by norm_num) rfl (by norm_num) (fun r _ => ⟨_, clearRecs_clear r⟩) h1
  obtain ⟨k, cb, -, -, g3, g4, g5⟩ := C81_visualizer (M := 8) (N := 11) (K := 8) (.inl rfl) (by norm_num) smallMap_placed
    ho (by norm_num) rfl (by norm_num) (fun r => clear_within (clearRecs_clear r)) (by unfold rayTol; norm_num) h1
  have hk : k = 9 := (g3 (.inl h2)).trans hlen
  exact ⟨s, h1, ha, hlen, cb, g4, ((g5 _).1 (by omega) fun j _ _ => clearRecs_hits _).2,
    ((g5 _).2 (by omega) fun j _ _ => clearRecs_passes _).2⟩

/-- A fair run with clear recordings. -/
example : ∃ σ, Execution (occOps defaultNM clearRecs fun _ l => l) 1 smallMap σ ∧
    Fair (occOps defaultNM clearRecs fun _ l => l) 1 σ ∧ ∃ i, (σ i).main = .clearFlag ∧ (σ i).workers.length = 9 := by
  have ho : ∀ r : ℕ, IsOrder ((fun _ l => l : ℕ → List (Cell 2) → List (Cell 2)) r) := fun _ l => List.Perm.refl l
  obtain ⟨σ, h1, h2⟩ := fair_exists fun s hs => (C82_visualizer (nm := defaultNM) (recs := clearRecs) (n := 1) (K := 8) (N := 11)
    (.inl rfl) (by norm_num) smallMap_placed rfl rfl ho (by norm_num) (by norm_num) (M := 8) (by norm_num) rfl
    (by norm_num) (fun r _ => ⟨_, clearRecs_clear r⟩) hs).2.2
  exact ⟨σ, h1, h2, C82_every_run (K := 8) (N := 11) (.inl rfl) (by norm_num) smallMap_placed rfl rfl ho (by norm_num)
    (by norm_num) (M := 8) (by norm_num) rfl (by norm_num) (fun r _ => ⟨_, clearRecs_clear r⟩) h1 h2 9⟩

section
open Kitti

/-! ## An example with files -/

/-- One cloud file: the points (2, 1, 1/2) and (-2, -1, -1/2). -/
def twoPoints : List (BitVec 8) :=
  [0x00, 0x00, 0x00, 0x40, 0x00, 0x00, 0x80, 0x3F, 0x00, 0x00, 0x00, 0x3F, 0x00, 0x00, 0x00, 0x00,
   0x00, 0x00, 0x00, 0xC0, 0x00, 0x00, 0x80, 0xBF, 0x00, 0x00, 0x00, 0xBF, 0x00, 0x00, 0x00, 0x00]

/-- The two points as real numbers. -/
noncomputable def twoReal : List (Fin 3 → ℝ) := [![2, 1, 1 / 2], ![-2, -1, -1 / 2]]

lemma twoPoints_moved : movedPoints (0 : ℚ) (0 : ℚ) (0 : ℚ) ![0, 0, 0] twoPoints = twoReal := by
  have e : List.range (twoPoints.length / 16) = [0, 1] := by decide
  have h0 : ∀ m : Fin 3, (f32OfBits (wordAt twoPoints (16 * 0 + 4 * m.val))).val = ![2, 1, 1 / 2] m := by decide +kernel
  have h1 : ∀ m : Fin 3, (f32OfBits (wordAt twoPoints (16 * 1 + 4 * m.val))).val = ![-2, -1, -1 / 2] m := by
    decide +kernel
  unfold movedPoints twoReal
  rw [e]
  simp only [List.map_cons, List.map_nil, h0, h1]
  congr 1
  · funext i; fin_cases i <;> simp [rigid, rotX, rotY, rotZ]
  · congr 1; funext i; fin_cases i <;> simp [rigid, rotX, rotY, rotZ]

/-- The side of a cell of the default map. -/
lemma side_val : (Fp.lit 0.1 : F32).val = 13421773 / 2 ^ 27 := by decide +kernel

lemma border_off (y : ℝ) (a : ℤ) (h : |y - a * (13421773 / 2 ^ 27)| ≤ 1 / 1000) (n : ℤ) :
    1 / 25 ≤ |y - (n + 1 / 2) * (13421773 / 2 ^ 27)| := by
  have h' := abs_le.mp h
  rcases lt_or_ge n a with hn | hn
  · have : (n : ℝ) + 1 ≤ a := by exact_mod_cast hn
    exact le_trans (by linarith [h'.1]) (le_abs_self _)
  · have : (a : ℝ) ≤ n := by exact_mod_cast hn
    exact le_trans (by linarith [h'.2]) (neg_le_abs _)

lemma tile_off (y : ℝ) (h0 : 1 / 4 ≤ y) (h2 : y ≤ 3) :
    OffTileEdgeReal 100 (13421773 / 2 ^ 27) (2260 / 2 ^ 24 + 1 / 2 ^ 18) y := by
  intro k
  rcases lt_or_ge 0 k with hk | hk
  · left
    have : (1 : ℝ) ≤ k := by exact_mod_cast hk
    push_cast
    linarith
  · right
    have : (k : ℝ) ≤ 0 := by exact_mod_cast hk
    push_cast
    linarith

lemma twoReal_clear : ClearReal 30 131 30 100 (13421773 / 2 ^ 27) (2260 / 2 ^ 24 + 1 / 2 ^ 18) ![0, 0, 0] twoReal := by
  have up : ∀ i, ∃ Y ∈ twoReal, (1 : ℝ) / 2 ≤ Y i := fun i =>
    ⟨_, List.mem_cons_self, by fin_cases i <;> norm_num⟩
  refine ⟨?_, ?_, ?_, ?_⟩
  · intro i; fin_cases i <;> norm_num
  · intro i
    exact ⟨⟨![-2, -1, -1 / 2], by simp [twoReal], by fin_cases i <;> norm_num⟩,
      ⟨![2, 1, 1 / 2], by simp [twoReal], by fin_cases i <;> norm_num⟩⟩
  · intro i
    obtain ⟨Y, h1, h2⟩ := up i
    exact .inr ⟨Y, h1, by fin_cases i <;> norm_num at h2 ⊢ <;> linarith⟩
  · intro Y hY i
    rcases List.mem_pair.mp hY with rfl | rfl
    · refine ⟨by fin_cases i <;> norm_num [abs_le], .inl (tile_off _ ?_ ?_), by fin_cases i <;> norm_num,
        by fin_cases i <;> norm_num, fun n => le_trans ?_ (border_off _ (![20, 10, 5] i) ?_ n)⟩
      · fin_cases i <;> norm_num
      · fin_cases i <;> norm_num
      · norm_num
      · fin_cases i <;> norm_num [abs_le]
    · obtain ⟨Y, h1, h2⟩ := up i
      refine ⟨by fin_cases i <;> norm_num, .inr ⟨Y, h1, ?_⟩, by fin_cases i <;> norm_num,
        by fin_cases i <;> norm_num, fun n => le_trans ?_ (border_off _ (![-20, -10, -5] i) ?_ n)⟩
      · fin_cases i <;> norm_num at h2 ⊢ <;> linarith
      · norm_num
      · fin_cases i <;> norm_num [abs_le]

lemma twoReal_aims : AimsReal 131 30 (13421773 / 2 ^ 27) (2260 / 2 ^ 24 + 1 / 2 ^ 18) ![0, 0, 0]
    ![(2 : ℝ), 1, 1 / 2] := by
  refine ⟨?_, ?_, ?_, ?_⟩ <;> intro i <;> fin_cases i <;> norm_num

lemma twoReal_hits : HitsReal 131 30 (13421773 / 2 ^ 27) 60 (2260 / 2 ^ 24 + 1 / 2 ^ 18) ![0, 0, 0] twoReal
    ![20, 10, 5] := by
  refine ⟨_, List.mem_cons_self, twoReal_aims, ?_, ?_⟩
  · intro i; unfold rayTol; fin_cases i <;> norm_num [← le_sub_iff_add_le, abs_le]
  · have : √(sqLen ![0, 0, 0] ![(2 : ℝ), 1, 1 / 2]) ≤ 3 :=
      Real.sqrt_le_iff.mpr ⟨by norm_num, by
        rw [sqLen, Fin.sum_univ_three, show ((2 : Fin 3)) = Fin.last 2 from rfl]; norm_num [Fin.last]⟩
    linarith

lemma twoReal_passes : PassesReal 131 30 (13421773 / 2 ^ 27) 60 (2260 / 2 ^ 24 + 1 / 2 ^ 18) ![0, 0, 0] twoReal
    ![12, 6, 3] := by
  refine ⟨⟨_, List.mem_cons_self, twoReal_aims, ⟨![20, 10, 5], ?_⟩, ⟨3 / 5, by norm_num, by norm_num, ?_⟩, ?_⟩, ?_⟩
  · intro i; unfold rayTol; fin_cases i <;> norm_num [← le_sub_iff_add_le, abs_le]
  · intro i; unfold rayTol; fin_cases i <;> norm_num [← lt_sub_iff_add_lt, abs_lt]
  · have : √(sqLen ![0, 0, 0] fun i => ((![12, 6, 3] i : ℤ) : ℝ) * (13421773 / 2 ^ 27)) ≤ 3 :=
      Real.sqrt_le_iff.mpr ⟨by norm_num, by
        rw [sqLen, Fin.sum_univ_three, show ((2 : Fin 3)) = Fin.last 2 from rfl]; norm_num [Fin.last]⟩
    linarith
  · intro Y hY
    rcases List.mem_pair.mp hY with rfl | rfl
    · exact ⟨by intro i; fin_cases i <;> norm_num, 0, by unfold rayTol; norm_num [lt_abs]⟩
    · exact ⟨by intro i; fin_cases i <;> norm_num, 0, by unfold rayTol; norm_num [lt_abs]⟩

/-- A folder with one recording: the window opens, and there is a run in which after nine scans nothing has panicked,
the cell of the point (2, 1, 1/2) is occupied and the cell at 3/5 of the way is not. -/
example : ∃ (rs : _) (s : _) (o : OccupancyGridMap 3 F32),
    main (parsingEnv someEnv.cos someEnv.radPerDeg someEnv.cast (@Quat.fromEuler F32 _ someTrig))
      (some (some (byteFolder [indexName 10 (ascii ".txt") 0] [indexName 10 (ascii ".bin") 0]
        (fun _ => utf8 "49 8.4 116.4 0 0 0".toList) fun _ => twoPoints))) = .ok (.window rs) ∧
    @OccupancyGridMap.default_ F32 _ 3 testedLibm = .ok o ∧
    Reach (occOps o.noiseModel rs.get fun _ l => l) rs.clouds.length o.gridMap s ∧ Alive s ∧ s.workers.length = 9 ∧
    ∃ cb, Placed s.map cb (13421773 / 2 ^ 27) ∧
      o.noiseModel.occupied s.map (fun i => ![20, 10, 5] i - cb.min i) = .ok true ∧
      o.noiseModel.occupied s.map (fun i => ![12, 6, 3] i - cb.min i) = .ok false := by
  let _ := someTrig
  let _ := testedLibm
  have hl : TestedLn := by constructor <;> decide +kernel
  have hok : (⟨49, 42 / 5, 582 / 5⟩ : Place).Ok := ⟨by norm_num, by norm_num [abs_le], by norm_num [abs_le]⟩
  have hoff : (⟨49, 42 / 5, 582 / 5⟩ : Place).offset ⟨49, 42 / 5, 582 / 5⟩ = ![0, 0, 0] := by
    funext n; fin_cases n <;> simp [Place.offset]
  have hdef : ∃ o : OccupancyGridMap 3 F32, OccupancyGridMap.default_ = .ok o := by
    obtain ⟨m0, e1, -⟩ := new_empty_placed (D := 3) (ρ := 13421773 / 2 ^ 27) (r := (Fp.lit 0.1 : F32)) (by norm_num)
      (by refine ⟨by decide +kernel, ?_, ?_⟩ <;> norm_num) (t := 100) (by norm_num) (by norm_num) (Fp.lit 0 : F32)
    refine ⟨⟨m0, defaultNM⟩, ((C42_default_model hl).2.1 _).mpr ?_⟩
    unfold OccupancyGridMap.new
    rw [Verif.M.bind_eq_ok]
    exact ⟨m0, e1, rfl⟩
  obtain ⟨o, ho⟩ := hdef
  have htext : ∀ i ∈ [0], ∃ text, utf8 "49 8.4 116.4 0 0 0".toList = utf8 text ∧ (⟨49, 42 / 5, 582 / 5⟩ : Place).Ok ∧
      Says text ⟨49, 42 / 5, 582 / 5⟩ 0 0 0 := fun i _ =>
    ⟨_, rfl, hok, "49".toList, "8.4".toList, "116.4".toList, "0".toList, "0".toList, "0".toList, [],
      fields_iff.mpr (by decide +kernel), by decide +kernel, by decide +kernel, by decide +kernel, by decide +kernel,
      by decide +kernel, by decide +kernel⟩
  have hcloud : ∀ i ∈ [0], 16 ∣ twoPoints.length ∧ ∀ j < twoPoints.length / 16, ∀ n : Fin 3,
      (f32OfBits (wordAt twoPoints (16 * j + 4 * n.val))).isFin = true ∧
      |((f32OfBits (wordAt twoPoints (16 * j + 4 * n.val))).val : ℝ)| ≤ 2 := by
    have key : ∀ j < twoPoints.length / 16, ∀ n : Fin 3, (f32OfBits (wordAt twoPoints (16 * j + 4 * n.val))).isFin =
        true ∧ |(f32OfBits (wordAt twoPoints (16 * j + 4 * n.val))).val| ≤ 2 := by decide +kernel
    exact fun i _ => ⟨by decide, fun j hj n => ⟨(key j hj n).1, by exact_mod_cast (key j hj n).2⟩⟩
  have hε : (2260 / 2 ^ 24 + 1 / 2 ^ 18 : ℝ) = (1130 * 2 + 2 * 0) / 2 ^ 24 + 1 / 2 ^ 18 := by norm_num
  have hT := someTrig_accurate
  have he := C76_accurate (euler := Quat.fromEuler (F := F32)) someEnv_accurate.cos someEnv_accurate.radPerDeg
    someEnv_accurate.cast
  obtain ⟨rs, h1, hlen, h2⟩ := C82_folder (w₁ := 10) (w₂ := 10) (ext := ascii ".txt") (ext' := ascii ".bin") hl hT he
    (idx := [0]) (po := [indexName 10 (ascii ".txt") 0]) (pv := [indexName 10 (ascii ".bin") 0])
    (oxtBytes := fun _ => utf8 "49 8.4 116.4 0 0 0".toList) (cloudBytes := fun _ => twoPoints)
    (place := fun _ => ⟨49, 42 / 5, 582 / 5⟩) (roll := fun _ => 0) (pitch := fun _ => 0) (yaw := fun _ => 0)
    (X := fun _ => ![0, 0, 0]) (pts := fun _ => twoReal)
    ⟨by simp, by decide, by simp⟩ ⟨by simp, by decide, by simp⟩ htext (by simp) hcloud (i0 := 0) rfl
    (fun i _ n => by simp only [hoff]; fin_cases n <;> simp) (by norm_num) (by norm_num) hε (fun _ => hoff.symm)
    (fun _ => twoPoints_moved.symm) (M := 30) (by norm_num) rfl (by norm_num) side_val.symm
    (fun _ _ => by push_cast; exact twoReal_clear) ho
  obtain ⟨rs', h1', hlen', h2'⟩ := C81_folder (w₁ := 10) (w₂ := 10) (ext := ascii ".txt") (ext' := ascii ".bin") hl hT he
    (idx := [0]) (po := [indexName 10 (ascii ".txt") 0]) (pv := [indexName 10 (ascii ".bin") 0])
    (oxtBytes := fun _ => utf8 "49 8.4 116.4 0 0 0".toList) (cloudBytes := fun _ => twoPoints)
    (place := fun _ => ⟨49, 42 / 5, 582 / 5⟩) (roll := fun _ => 0) (pitch := fun _ => 0) (yaw := fun _ => 0)
    (X := fun _ => ![0, 0, 0]) (pts := fun _ => twoReal)
    ⟨by simp, by decide, by simp⟩ ⟨by simp, by decide, by simp⟩ htext (by simp) hcloud (i0 := 0) rfl
    (fun i _ n => by simp only [hoff]; fin_cases n <;> simp) (by norm_num) (by norm_num) hε (fun _ => hoff.symm)
    (fun _ => twoPoints_moved.symm) (M := 30) (by norm_num) rfl (by norm_num) (K := 30) (by unfold rayTol; norm_num)
    side_val.symm (fun _ _ Y hY n => by push_cast; exact (twoReal_clear.points Y hY n).1) ho
  obtain rfl : rs = rs' := by simpa using h1.symm.trans h1'
  have hord : ∀ r : ℕ, IsOrder ((fun _ l => l : ℕ → List (Verif.Cell 3) → List (Verif.Cell 3)) r) :=
    fun _ l => List.Perm.refl l
  obtain ⟨h3, h4, -⟩ := h2 _ hord
  obtain ⟨s, h5, h6, h7⟩ := h4 9
  have hlen9 : s.workers.length = 9 := by rw [h7]; simp
  obtain ⟨k, cb, -, -, g3, g4, g5⟩ := h2' _ s hord h5
  have hk : k = 9 := (g3 (.inl h6)).trans hlen9
  refine ⟨rs, s, o, h1, ho, h5, (h3 s h5).1, hlen9, cb, g4, ((g5 _).1 (by omega) fun j i _ _ _ => ?_).2,
    ((g5 _).2 (by omega) fun j i _ _ _ => ?_).2⟩
  · push_cast; exact twoReal_hits
  · push_cast; exact twoReal_passes

end
end Verif.Props
