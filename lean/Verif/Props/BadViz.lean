import Verif.Props.BadInf
import Verif.Props.Alive

/-!
# C98: the visualizer on a recording with a NaN number
-/

namespace Verif.Props
open Spec Viz

section
variable {Map Cell Pt : Type} [DecidableEq Cell] {ops : MapOps Map Cell Pt} {n r : ℕ} {m₀ : Map}

/-- C98 and C99, for any map: if integrating recording `r` does not return on any map with some property, one that the
recordings before it keep, then it is the last one that is started, its worker never gets past integrating, and the render
thread does not panic. -/
theorem C98_stuck (hrn : r < n) {I : Map → Prop} {R : Map → Cell → Prop} (h0 : I m₀)
    (hI : ∀ r' < r, ∀ m m', I m → ops.integrate r' m = .ret m' → I m' ∧ ∀ c, R m c → R m' c)
    (hreset : ∀ m, I m → I (ops.reset m) ∧ ∀ c, R m c → R (ops.reset m) c)
    (hch : ∀ m, I m → ∀ c ∈ ops.changed m, R m c) (hR : ∀ m c, R m c → ops.occupied m c ≠ none)
    (hno : ∀ m m', I m → ops.integrate r m ≠ .ret m') {s : State Map Cell Pt} (hr : Reach ops n m₀ s) :
    s.workers.length ≤ r + 1 ∧ (∀ (k : ℕ) pc, s.workers[k]? = some (pc, r) → NotPast pc) ∧ s.main ≠ .dead ∧ I s.map := by
  have hn : 0 < n := by omega
  suffices key : s.workers.length ≤ r + 1 ∧ (∀ (k : ℕ) pc, s.workers[k]? = some (pc, r) → NotPast pc) ∧
      s.main ≠ .dead ∧ I s.map ∧ ∀ c ∈ s.cells, R s.map c by
    obtain ⟨a1, a2, a3, a4, -⟩ := key
    exact ⟨a1, a2, a3, a4⟩
  induction hr with
  | init => exact ⟨by simp [Viz.init], by simp [Viz.init], by simp [Viz.init], h0, by simp [Viz.init]⟩
  | step s s' hr hs ih =>
    obtain ⟨a1, a2, a3, a4, a5⟩ := ih
    have hinv := Reach.inv hr
    have hcyc := C54_cyclic hr hn
    have hmain : s'.main ≠ .dead := by
      intro hd
      rcases C52_main_panics hr hs a3 hd with ⟨-, h2⟩ | ⟨-, h2⟩
      · obtain ⟨t', ht⟩ := processCells_some (ops := ops) (m := s.map) s.tracked fun c hc => hR _ c (a5 c hc)
        rw [ht] at h2
        cases h2
      · have := hcyc.2.1
        omega
    have hrec : ∀ {k r' : ℕ} {pc : WorkerPc}, s.workers[k]? = some (pc, r') → r' ≤ r := by
      intro k r' pc h
      have h1 := hcyc.2.2 k pc r' h
      have h2 := lt_of_getW h
      rw [Nat.mod_eq_of_lt (by omega)] at h1
      omega
    have hset : ∀ {k r' : ℕ} {pc' : WorkerPc}, (r' = r → NotPast pc') →
        ∀ (j : ℕ) pc, (s.workers.set k (pc', r'))[j]? = some (pc, r) → NotPast pc := by
      intro k r' pc' hpc' j pc hj
      rw [List.getElem?_set] at hj
      split_ifs at hj
      · simp only [Option.some.injEq, Prod.mk.injEq] at hj
        rw [← hj.1]
        exact hpc' hj.2
      · exact a2 _ _ hj
    have hnot : ∀ {k r' : ℕ} {pc : WorkerPc}, s.workers[k]? = some (pc, r') → ¬ NotPast pc → r' ≠ r := by
      rintro k r' pc h1 h2 rfl
      exact h2 (a2 _ _ h1)
    have hlen : ∀ {k : ℕ} {x : WorkerPc × ℕ}, (s.workers.set k x).length ≤ r + 1 := by
      intro k x
      rw [List.length_set]; exact a1
    cases hs
    case checkBusy h1 h2 => exact ⟨a1, a2, a3, a4, a5⟩
    case checkDone h1 h2 => exact ⟨a1, a2, hmain, a4, a5⟩
    case lockCells h1 h2 h3 => exact ⟨a1, a2, hmain, a4, a5⟩
    case lockCellsPoisoned h1 h2 h3 => exact absurd rfl hmain
    case lockMap h1 h2 h3 => exact ⟨a1, a2, hmain, a4, a5⟩
    case lockMapPoisoned h1 h2 h3 => exact absurd rfl hmain
    case process t h1 h2 => exact ⟨a1, a2, hmain, a4, by simp⟩
    case processPanic h1 h2 => exact absurd rfl hmain
    case clearFlag h1 => exact ⟨a1, a2, hmain, a4, a5⟩
    case spawn h1 h2 =>
      have hlt : s.workers.length < r + 1 := by
        refine lt_of_le_of_ne a1 fun he => ?_
        obtain ⟨⟨pc, r'⟩, hx⟩ : ∃ x, s.workers[r]? = some x := ⟨_, List.getElem?_eq_getElem (by omega)⟩
        have h3 := hcyc.2.2 r pc r' hx
        rw [Nat.mod_eq_of_lt hrn] at h3
        subst h3
        rcases a2 _ _ hx with h4 | h4 | h4 <;> subst h4
        · have := (hinv.busy _ _ _ hx (by simp [Busy])).1
          rw [h1] at this; cases this
        · have := (hinv.busy _ _ _ hx (by simp [Busy])).1
          rw [h1] at this; cases this
        · have := (hinv.deadW _ _ hx).1
          rw [h1] at this; cases this
      refine ⟨by simpa using hlt, fun j pc hj => ?_, hmain, a4, a5⟩
      rcases List.mem_append.mp (List.mem_of_getElem? hj) with h3 | h3
      · obtain ⟨k, hk⟩ := List.getElem?_of_mem h3
        exact a2 k pc hk
      · simp only [List.mem_singleton, Prod.mk.injEq] at h3
        exact .inl h3.1
    case spawnPanic h1 h2 => exact absurd rfl hmain
    case wLockMap k r h1 h2 h3 => exact ⟨hlen, hset fun _ => .inr (.inl rfl), hmain, a4, a5⟩
    case wLockMapPoisoned k r h1 h2 h3 => exact ⟨hlen, hset fun _ => .inr (.inr rfl), hmain, a4, a5⟩
    case wIntegrate k r' m h1 h2 =>
      have hne : r' ≠ r := by
        rintro rfl
        exact hno _ _ a4 h2
      obtain ⟨b1, b2⟩ := hI r' (by have := hrec h1; omega) _ _ a4 h2
      exact ⟨hlen, hset fun h => absurd h hne, hmain, b1, fun c hc => b2 c (a5 c hc)⟩
    case wIntegratePanic k r h1 h2 => exact ⟨hlen, hset fun _ => .inr (.inr rfl), hmain, a4, a5⟩
    case wLockCells k r h1 h2 h3 =>
      exact ⟨hlen, hset fun h => absurd h (hnot h1 (by simp [NotPast])), hmain, a4, a5⟩
    case wLockCellsPoisoned k r h1 h2 h3 => exact ⟨hlen, hset fun _ => .inr (.inr rfl), hmain, a4, a5⟩
    case wCopy k r h1 =>
      exact ⟨hlen, hset fun h => absurd h (hnot h1 (by simp [NotPast])), hmain, a4, hch _ a4⟩
    case wReset k r h1 =>
      obtain ⟨b1, b2⟩ := hreset _ a4
      exact ⟨hlen, hset fun h => absurd h (hnot h1 (by simp [NotPast])), hmain, b1, fun c hc => b2 c (a5 c hc)⟩
    case wSetFlag k r h1 =>
      exact ⟨hlen, hset fun h => absurd h (hnot h1 (by simp [NotPast])), hmain, a4, a5⟩
    case wUnlock k r h1 =>
      exact ⟨hlen, hset fun h => absurd h (hnot h1 (by simp [NotPast])), hmain, a4, a5⟩

/-- C98, for any map: if besides no call hangs, in every fair run some worker panics in the end (and from then on
nothing happens any more, `C52_worker_panic_freezes`). -/
theorem C98_fair (hrn : r < n) {I : Map → Prop} {R : Map → Cell → Prop} (h0 : I m₀)
    (hI : ∀ r' < r, ∀ m m', I m → ops.integrate r' m = .ret m' → I m' ∧ ∀ c, R m c → R m' c)
    (hreset : ∀ m, I m → I (ops.reset m) ∧ ∀ c, R m c → R (ops.reset m) c)
    (hch : ∀ m, I m → ∀ c ∈ ops.changed m, R m c) (hR : ∀ m c, R m c → ops.occupied m c ≠ none)
    (hpanic : ∀ m, I m → ops.integrate r m = .panic) (hhang : ∀ r' < r, ∀ m, I m → ops.integrate r' m ≠ .hang)
    {σ : ℕ → State Map Cell Pt} (h : Execution ops n m₀ σ) (hf : Fair ops n σ) :
    ∃ i k r' : ℕ, r' ≤ r ∧ (σ i).workers[k]? = some (.dead, r') := by
  by_contra hcon
  have hcon : ∀ i k r' : ℕ, r' ≤ r → (σ i).workers[k]? ≠ some (.dead, r') := fun i k r' h1 h2 => hcon ⟨i, k, r', h1, h2⟩
  have hs := fun i => C98_stuck hrn h0 hI hreset hch hR (fun m m' hm => by rw [hpanic m hm]; simp) (exec_reach h i)
  have hrec : ∀ i (k r' : ℕ) pc, (σ i).workers[k]? = some (pc, r') → r' ≤ r := by
    intro i k r' pc hk
    have h1 := (C54_cyclic (exec_reach h i) (by omega)).2.2 k pc r' hk
    have h2 := lt_of_getW hk
    have h3 := (hs i).1
    rw [Nat.mod_eq_of_lt (by omega)] at h1
    omega
  obtain ⟨i, -, hi⟩ := C82_fair h hf (fun i => C52_no_deadlock (exec_reach h i) (hs i).2.2.1
    (fun k r' hk => hcon i k r' (hrec i k r' _ hk) hk) fun k r' hk => by
      have h1 := hrec i k r' _ hk
      by_cases hr : r' = r
      · rw [hr, hpanic _ (hs i).2.2.2]
        simp
      · exact hhang r' (by omega) _ (hs i).2.2.2) (r + 2)
  have := (hs i).1
  omega

end

section
variable {D M : ℕ} {ρ lam : ℚ} {nm : LidarNoiseModel F32} {recs : ℕ → Point D F32 × PointCloud D F32}
  {ord : ℕ → List (Verif.Cell D) → List (Verif.Cell D)} {n r T : ℕ} {m₀ : GridMap D F32 F32} {d : Fin D} {k : ℤ}

/-- What the recordings before the bad one keep. -/
def MapAbove (M T : ℕ) (ρ : ℚ) (d : Fin D) (k : ℤ) (m : GridMap D F32 F32) : Prop :=
  (∃ cb, Placed m cb ρ ∧ LowCorner M T cb ∧ (cb = CellBounds.empty ∨ k * T ≤ cb.min d)) ∧ m.tileSize = T ∧
    ∀ c ∈ m.changedCells, MachineCell c ∧ InGrid m c

lemma mapAbove_integrate (hD : D = 2 ∨ D = 3) (ho : IsOrder (ord r)) (hM1 : 1 ≤ M) (hM : M + T + 1 ≤ 2 ^ 18)
    (hk : k ≤ 0) {x : Fin D → ℚ} (hx : NanScan M ρ (recs r).1 (recs r).2 x)
    (ha : Above d (k * T * ρ) (recs r).2) {m m' : GridMap D F32 F32} (hm : MapAbove M T ρ d k m)
    (hi : (occOps nm recs ord).integrate r m = .ret m') :
    MapAbove M T ρ d k m' ∧ ∀ c, MachineCell c ∧ InGrid m c → MachineCell c ∧ InGrid m' c := by
  obtain ⟨⟨cb, hP, hl, hcb⟩, hT', hch⟩ := hm
  have hI := occOps_ret hi
  have hP1 : Placed (m.setTrackChanges true) cb ρ := placed_of_shape hP rfl rfl rfl rfl
  have hT1 : (m.setTrackChanges true).tileSize = T := hT'
  obtain ⟨me, free, occ, e1, e2, e3, e4, -, e6, e7, e8, -, e10⟩ := C38_integrate ho hI
  obtain ⟨me', ncb, e1', q1, q2, q3, q4, -⟩ := nan_setup (by omega) hP1 hM1 (by omega) (by rw [hT1]; exact hl) hx.coords hk
    (by rw [hT1]; exact hcb) (by rw [hT1]; exact ha)
  rw [e1] at e1'
  cases e1'
  rw [hT1] at q2 q3 q4
  have q5 : ∀ i, m.data.shape i ≤ me.data.shape i := by
    have hcl := clean_within hP.res.pos hx.coords
    obtain ⟨-, -, -, -, h5⟩ := low_corner (by omega) hP1 hM1 (by omega) hcl (by rw [hT1]; exact hl)
      (me := me) (by rw [nan_bounds hx.coords]; exact e1)
    exact h5
  have hP' := placed_of_shape q1 e7 e6 e8 e10
  have hkeep : ∀ c, InGrid m c → InGrid m' c := by
    intro c hc i
    have h1 := hc i
    have h2 := q5 i
    rw [e10]
    omega
  have hnew : ∀ c, c ∈ free ∨ c ∈ occ → MachineCell c ∧ InGrid m' c := by
    intro c hc
    obtain ⟨k1, k2⟩ := castsRays_machine e2
    have hm : MachineCell c := hc.elim (k1 c) (k2 c)
    refine ⟨hm, ?_⟩
    by_contra hno
    have h1 := (C31_get m' hm).2 hno
    rcases hc with hc | hc
    · obtain ⟨v, -, hv⟩ := e3 c hc
      rw [h1] at hv
      cases hv
    · obtain ⟨v, -, hv⟩ := e4 c hc
      rw [h1] at hv
      cases hv
  refine ⟨⟨⟨ncb, hP', q2, .inr q4⟩, by rw [e8, q3], fun c hc => ?_⟩, fun c hc => ⟨hc.1, hkeep c hc.2⟩⟩
  obtain ⟨me', free', occ', new, f1, f2, f3, -, f5, -⟩ := C40_tracked ho hI rfl
  rw [e1] at f1
  cases f1
  rw [f3] at hc
  rcases List.mem_append.mp hc with hc | hc
  · obtain ⟨g1, g2⟩ := hch c hc
    exact ⟨g1, hkeep c g2⟩
  · have hocc : c ∈ occ' ↔ c ∈ occ := (C28_occupied f2 c).trans (C28_occupied e2 c).symm
    refine hnew c (((f5 c).mp hc).imp (fun h => ?_) hocc.mp)
    obtain ⟨g1, g2⟩ := (C28_free f2 c).mp h
    exact (C28_free e2 c).mpr ⟨g1, fun h => g2 (hocc.mpr h)⟩

lemma occOps_panic {m me : GridMap D F32 F32} (he : (m.setTrackChanges true).expandBounds (recs r).2.bounds (Fp.lit 0) = .ok me)
    (h : PanicsIndex (ord r) nm (m.setTrackChanges true) (recs r).1 (recs r).2) :
    (occOps nm recs ord).integrate r m = .panic := by
  obtain ⟨fuel, h⟩ := h
  simp only [occOps]
  rw [dif_neg, if_pos ⟨fuel, _, h⟩]
  rintro ⟨m', n', h'⟩
  exact integrate_panics_not_ok he h h'

lemma mapAbove_reset {m : GridMap D F32 F32} (hm : MapAbove M T ρ d k m) :
    MapAbove M T ρ d k ((occOps nm recs ord).reset m) ∧
      ∀ c, MachineCell c ∧ InGrid m c → MachineCell c ∧ InGrid ((occOps nm recs ord).reset m) c := by
  obtain ⟨⟨cb, hP, hl⟩, hT', -⟩ := hm
  exact ⟨⟨⟨cb, placed_of_shape hP rfl rfl rfl rfl, hl⟩, hT', fun c hc => by cases hc⟩, fun c hc => hc⟩

lemma mapAbove_occupied {m : GridMap D F32 F32} {c : Verif.Cell D} (hc : MachineCell c ∧ InGrid m c) :
    (occOps nm recs ord).occupied m c ≠ none := by
  obtain ⟨v, hv⟩ := (C31_get m hc.1).1 hc.2
  obtain ⟨b, hb, -⟩ := (C43_occupied (nm := nm) hc.1).1 v hv
  simp [occOps, hb, Except.toOption]

lemma badPlay_panic (hD : D = 2 ∨ D = 3) (ho : IsOrder (ord r)) (hml : nm.maxRange.Is lam)
    (h : BadPlay M T ρ lam d k r recs) {m : GridMap D F32 F32} (hm : MapAbove M T ρ d k m) :
    (occOps nm recs ord).integrate r m = .panic := by
  obtain ⟨⟨cb, hP, hl, hcb⟩, hT', -⟩ := hm
  have hP1 : Placed (m.setTrackChanges true) cb ρ := placed_of_shape hP rfl rfl rfl rfl
  have hT1 : (m.setTrackChanges true).tileSize = T := hT'
  have hM := h.M_hi
  rcases h.bad with ⟨x, hx, ha, ⟨p, hp, hb, hs⟩, hfl⟩ | ⟨t1, t2, hinf⟩
  swap
  · obtain ⟨q, hq⟩ := C98_infinite (nm := nm) (ord := ord r) (origin := (recs r).1) hP1.res.1 hP1.res.pos hP1.tile_pos
      hP1.tile_le (by rw [hT1]; exact t1) (by rw [hT1]; exact t2) hinf
    simp only [occOps]
    rw [dif_neg, if_pos ⟨0, _, hq 0⟩]
    rintro ⟨m', n', h'⟩
    rw [hq] at h'
    cases h'
  obtain ⟨me, ncb, e1, -⟩ := nan_setup (by omega) hP1 h.M_lo (by omega) (by rw [hT1]; exact hl) hx.coords h.k_le
    (by rw [hT1]; exact hcb) (by rw [hT1]; exact ha)
  exact occOps_panic e1 (C98_panics hD hP1 h.M_lo (by rw [hT1]; exact hM) (by rw [hT1]; exact hl) ho hx h.last h.k_le
    (by rw [hT1]; exact hcb) (by rw [hT1]; exact ha) hml h.lam_lo h.lam_hi (by rw [hT1]; exact hfl) hp hb hs)

/-- C98, the visualizer: recording `r` is the last that is started; its worker never gets past integrating; the
render thread does not panic. -/
theorem C98_visualizer (hD : D = 2 ∨ D = 3) (hrn : r < n) (h0 : Placed m₀ CellBounds.empty ρ)
    (ht0 : m₀.changedCells = []) (hT : m₀.tileSize = T) (ho : ∀ r, IsOrder (ord r)) (hml : nm.maxRange.Is lam)
    (h : BadPlay M T ρ lam d k r recs)
    {s : State (GridMap D F32 F32) (Verif.Cell D) (Point D F32)} (hr : Reach (occOps nm recs ord) n m₀ s) :
    s.workers.length ≤ r + 1 ∧ (∀ (k : ℕ) pc, s.workers[k]? = some (pc, r) → NotPast pc) ∧ s.main ≠ .dead := by
  obtain ⟨a1, a2, a3, -⟩ := C98_stuck (ops := occOps nm recs ord) (I := MapAbove M T ρ d k)
    (R := fun m c => MachineCell c ∧ InGrid m c) hrn ⟨⟨_, h0, .inl rfl, .inl rfl⟩, hT, by rw [ht0]; simp⟩
    (fun r' hr' m m' hm hi => by
      obtain ⟨x, hx, ha⟩ := h.scans r' hr'
      exact mapAbove_integrate hD (ho r') h.M_lo h.M_hi h.k_le hx ha hm hi)
    (fun m hm => mapAbove_reset hm) (fun m hm c hc => hm.2.2 c hc) (fun m c hc => mapAbove_occupied hc)
    (fun m m' hm => by rw [badPlay_panic hD (ho r) hml h hm]; simp) hr
  exact ⟨a1, a2, a3⟩

/-- C98, the visualizer: in every fair run a worker panics, on recording `r` or one before it, and from then on
nothing new is drawn and no recording is started. -/
theorem C98_freezes (hD : D = 2 ∨ D = 3) (hrn : r < n) (h0 : Placed m₀ CellBounds.empty ρ)
    (ht0 : m₀.changedCells = []) (hT : m₀.tileSize = T) (ho : ∀ r, IsOrder (ord r)) (hml : nm.maxRange.Is lam)
    (h : BadPlay M T ρ lam d k r recs)
    {σ : ℕ → State (GridMap D F32 F32) (Verif.Cell D) (Point D F32)} (he : Execution (occOps nm recs ord) n m₀ σ)
    (hf : Fair (occOps nm recs ord) n σ) :
    ∃ i : ℕ, (∃ k r' : ℕ, r' ≤ r ∧ (σ i).workers[k]? = some (.dead, r')) ∧ ∀ j, i ≤ j → (σ j).main = .check ∧
      (σ j).finished = false ∧ (σ j).tracked = (σ i).tracked ∧ (σ j).workers.length = (σ i).workers.length := by
  obtain ⟨i, w, r', h1, h2⟩ := C98_fair (ops := occOps nm recs ord) (I := MapAbove M T ρ d k)
    (R := fun m c => MachineCell c ∧ InGrid m c) hrn ⟨⟨_, h0, .inl rfl, .inl rfl⟩, hT, by rw [ht0]; simp⟩
    (fun r' hr' m m' hm hi => by
      obtain ⟨x, hx, ha⟩ := h.scans r' hr'
      exact mapAbove_integrate hD (ho r') h.M_lo h.M_hi h.k_le hx ha hm hi)
    (fun m hm => mapAbove_reset hm) (fun m hm c hc => hm.2.2 c hc) (fun m c hc => mapAbove_occupied hc)
    (fun m hm => badPlay_panic hD (ho r) hml h hm)
    (fun r' hr' m hm => by
      obtain ⟨⟨cb, hP, hl, hcb⟩, hT', -⟩ := hm
      obtain ⟨x, hx, ha⟩ := h.scans r' hr'
      have hP1 : Placed (m.setTrackChanges true) cb ρ := placed_of_shape hP rfl rfl rfl rfl
      have hT1 : (m.setTrackChanges true).tileSize = T := hT'
      have hM := h.M_hi
      obtain ⟨me, ncb, e1, -⟩ := nan_setup (by omega) hP1 h.M_lo (by omega) (by rw [hT1]; exact hl) hx.coords h.k_le
        (by rw [hT1]; exact hcb) (by rw [hT1]; exact ha)
      rcases nan_ends (nm := nm) (ord := ord r') hD hP1 h.M_lo (by rw [hT1]; exact hM) (by rw [hT1]; exact hl) (ho r')
        hx h.k_le (by rw [hT1]; exact hcb) (by rw [hT1]; exact ha) hml (lt_of_lt_of_le (by norm_num) h.lam_lo) h.lam_hi with
        ⟨m', hm'⟩ | hp
      · rw [occOps_integrate hm']; simp
      · rw [occOps_panic e1 hp]; simp) he hf
  refine ⟨i, ⟨w, r', h1, h2⟩, fun j hj => ?_⟩
  have hst : Steps (occOps nm recs ord) n (σ i) (σ j) := by
    induction j, hj using Nat.le_induction with
    | base => exact .nil _
    | succ j hj ih =>
      rcases he.step j with h3 | h3
      · exact .step ih h3
      · rw [h3]; exact ih
  obtain ⟨b1, b2, b3, -, b5⟩ := C52_worker_panic_freezes (exec_reach he i) h2 hst
  exact ⟨b1, b2, b3, b5⟩

end

/-- A recording without NaN coordinates, then one with. -/
def nanRecs (r : ℕ) : Point 2 F32 × PointCloud 2 F32 :=
  (nanSensor, if r % 2 = 0 then PointCloud.fromPoints [![Fp.lit (-1 / 2), Fp.lit (1 / 4)]] else nanCloud)

lemma nanRecs_play : BadPlay 60 2 1 60 1 (-1) 1 nanRecs := by
  have e : (((-1 : ℤ) : ℚ) * (2 : ℕ) * 1) = -2 := by norm_num
  refine ⟨by decide, by norm_num, by norm_num, by norm_num, fun r' hr' => ?_, .inl ⟨_, nanCloud_scan, ?_,
    ⟨_, nanCloud_aside⟩, by norm_num⟩, by norm_num, by norm_num⟩
  · obtain rfl : r' = 0 := by omega
    have hsub : ∀ p ∈ (nanRecs 0).2.points, p ∈ nanCloud.points := by
      intro p hp
      rw [nanCloud, C13_points_fromPoints]
      have hp' : p ∈ (PointCloud.fromPoints [![Fp.lit (-1 / 2), Fp.lit (1 / 4)]] : PointCloud 2 F32).points := hp
      rw [C13_points_fromPoints] at hp'
      exact List.mem_cons_of_mem _ hp'
    have h := nanCloud_scan
    refine ⟨![5 / 2, 1 / 2], ⟨h.res_lo, h.res_hi, h.sensor, h.sensor_near, fun p hp => h.coords p (hsub p hp),
      fun p hp => h.apart p (hsub p hp)⟩, fun p hp y hy => ?_⟩
    rw [e]
    exact nanCloud_above p (hsub p hp) y hy
  · rw [e]; exact nanCloud_above

/-- The recordings are played over and over: in every run at most two are started. -/
example {s : State (GridMap 2 F32 F32) (Verif.Cell 2) (Point 2 F32)}
    (hr : Reach (occOps defaultNM nanRecs fun _ l => l) 2 smallMap s) :
    s.workers.length ≤ 2 ∧ (∀ (k : ℕ) pc, s.workers[k]? = some (pc, 1) → NotPast pc) ∧ s.main ≠ .dead :=
  C98_visualizer (.inl rfl) (by norm_num) smallMap_placed rfl rfl (fun _ l => List.Perm.refl l) (by decide +kernel)
    nanRecs_play hr

end Verif.Props
