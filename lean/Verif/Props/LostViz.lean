import Verif.Props.Lost

/-!
# C99: the visualizer on a recording whose sensor position is not known
-/

namespace Verif.Props
open Spec Viz

section
variable {Map Cell Pt : Type} [DecidableEq Cell] {ops : MapOps Map Cell Pt} {n r : ℕ} {m₀ : Map}

/-- C99, for any map: if integrating recording `r` does not return on any map with some property, one that the
recordings before it keep, then once recording `r` has been started the render thread only polls the flag, nothing
new is drawn and no recording is started. -/
theorem C99_stays (hrn : r < n) {I : Map → Prop} {R : Map → Cell → Prop} (h0 : I m₀)
    (hI : ∀ r' < r, ∀ m m', I m → ops.integrate r' m = .ret m' → I m' ∧ ∀ c, R m c → R m' c)
    (hreset : ∀ m, I m → I (ops.reset m) ∧ ∀ c, R m c → R (ops.reset m) c)
    (hch : ∀ m, I m → ∀ c ∈ ops.changed m, R m c) (hR : ∀ m c, R m c → ops.occupied m c ≠ none)
    (hno : ∀ m m', I m → ops.integrate r m ≠ .ret m') {s s' : State Map Cell Pt} (hr : Reach ops n m₀ s)
    (hlen : s.workers.length = r + 1) (hs : Steps ops n s s') :
    s'.main = .check ∧ s'.finished = false ∧ s'.tracked = s.tracked ∧ s'.workers.length = r + 1 := by
  -- at any moment with `r + 1` workers
  have key : ∀ s : State Map Cell Pt, Reach ops n m₀ s → s.workers.length = r + 1 →
      s.main = .check ∧ s.finished = false := by
    intro s hr hlen
    obtain ⟨-, a2, -⟩ := C98_stuck hrn h0 hI hreset hch hR hno hr
    have hinv := Reach.inv hr
    obtain ⟨⟨pc, r'⟩, hx⟩ : ∃ x, s.workers[r]? = some x := ⟨_, List.getElem?_eq_getElem (by omega)⟩
    have h3 := (C54_cyclic hr (by omega)).2.2 r pc r' hx
    rw [Nat.mod_eq_of_lt hrn] at h3
    subst h3
    rcases a2 _ _ hx with h4 | h4 | h4 <;> subst h4
    · obtain ⟨h5, h6, -⟩ := hinv.busy _ _ _ hx (by simp [Busy])
      exact ⟨h5, h6⟩
    · obtain ⟨h5, h6, -⟩ := hinv.busy _ _ _ hx (by simp [Busy])
      exact ⟨h5, h6⟩
    · exact hinv.deadW _ _ hx
  suffices H : Reach ops n m₀ s' ∧ s'.tracked = s.tracked ∧ s'.workers.length = r + 1 by
    obtain ⟨h1, h2, h3⟩ := H
    obtain ⟨h4, h5⟩ := key _ h1 h3
    exact ⟨h4, h5, h2, h3⟩
  induction hs with
  | nil => exact ⟨hr, rfl, hlen⟩
  | step hs hstep ih =>
    obtain ⟨h1, h2, h3⟩ := ih
    obtain ⟨h4, h5⟩ := key _ h1 h3
    refine ⟨.step _ _ h1 hstep, ?_⟩
    clear key hno hR hch hreset hI
    cases hstep <;> (try simp only [setW, List.length_set]) <;> grind

/-- C99, for any map: if besides no call before hangs, in every fair run a moment comes from which on the render
thread only polls the flag, nothing new is drawn and no recording is started. -/
theorem C99_fair (hrn : r < n) {I : Map → Prop} {R : Map → Cell → Prop} (h0 : I m₀)
    (hI : ∀ r' < r, ∀ m m', I m → ops.integrate r' m = .ret m' → I m' ∧ ∀ c, R m c → R m' c)
    (hreset : ∀ m, I m → I (ops.reset m) ∧ ∀ c, R m c → R (ops.reset m) c)
    (hch : ∀ m, I m → ∀ c ∈ ops.changed m, R m c) (hR : ∀ m c, R m c → ops.occupied m c ≠ none)
    (hno : ∀ m m', I m → ops.integrate r m ≠ .ret m') (hhang : ∀ r' < r, ∀ m, I m → ops.integrate r' m ≠ .hang)
    {σ : ℕ → State Map Cell Pt} (h : Execution ops n m₀ σ) (hf : Fair ops n σ) :
    ∃ i, ∀ j, i ≤ j → (σ j).main = .check ∧ (σ j).finished = false ∧ (σ j).tracked = (σ i).tracked ∧
      (σ j).workers.length = (σ i).workers.length := by
  have hst : ∀ i j, i ≤ j → Steps ops n (σ i) (σ j) := by
    intro i j hj
    induction j, hj using Nat.le_induction with
    | base => exact .nil _
    | succ j hj ih =>
      rcases h.step j with h3 | h3
      · exact .step ih h3
      · rw [h3]; exact ih
  by_cases hdead : ∃ i k r' : ℕ, (σ i).workers[k]? = some (.dead, r')
  · obtain ⟨i, k, r', hk⟩ := hdead
    refine ⟨i, fun j hj => ?_⟩
    obtain ⟨b1, b2, b3, -, b5⟩ := C52_worker_panic_freezes (exec_reach h i) hk (hst i j hj)
    exact ⟨b1, b2, b3, b5⟩
  by_cases hall : ∃ i, (σ i).workers.length = r + 1
  · obtain ⟨i, hi⟩ := hall
    refine ⟨i, fun j hj => ?_⟩
    rw [hi]
    exact C99_stays hrn h0 hI hreset hch hR hno (exec_reach h i) hi (hst i j hj)
  exfalso
  push Not at hdead hall
  have hs := fun i => C98_stuck hrn h0 hI hreset hch hR hno (exec_reach h i)
  obtain ⟨i, -, hi⟩ := C82_fair h hf (fun i => C52_no_deadlock (exec_reach h i) (hs i).2.2.1 (hdead i) fun k r' hk => by
      have h1 := (C54_cyclic (exec_reach h i) (by omega)).2.2 k _ r' hk
      have h2 := lt_of_getW hk
      have h3 := (hs i).1
      have h4 := hall i
      rw [Nat.mod_eq_of_lt (by omega)] at h1
      exact hhang r' (by omega) _ (hs i).2.2.2) (r + 2)
  have := (hs i).1
  omega

end

section
variable {D M : ℕ} {ρ lam : ℚ} {nm : LidarNoiseModel F32} {recs : ℕ → Point D F32 × PointCloud D F32}
  {ord : ℕ → List (Verif.Cell D) → List (Verif.Cell D)} {n r T : ℕ} {m₀ : GridMap D F32 F32} {d : Fin D}

lemma lostPlay_no (hD : D = 2 ∨ D = 3) (h : LostPlay M T ρ lam d r recs) {k : ℤ} {m m' : GridMap D F32 F32}
    (hm : MapAbove M T ρ d k m) : (occOps nm recs ord).integrate r m ≠ .ret m' := by
  obtain ⟨⟨cb, hP, hl, -⟩, hT', -⟩ := hm
  have hP1 : Placed (m.setTrackChanges true) cb ρ := placed_of_shape hP rfl rfl rfl rfl
  have hT1 : (m.setTrackChanges true).tileSize = T := hT'
  intro hi
  obtain ⟨fuel, hI⟩ := occOps_ret hi
  rcases h.lost with ⟨hlost, p, hp, he⟩ | ⟨t1, t2, hinf⟩
  · exact (C99_scan (nm := nm) (ord := ord r) hD h.last hP1 h.M_lo (by rw [hT1]; exact h.M_hi) (by rw [hT1]; exact hl)
      hlost hp he).1 ⟨m', fuel, hI⟩
  · obtain ⟨q, hq⟩ := C98_infinite (nm := nm) (ord := ord r) (origin := (recs r).1) hP1.res.1 hP1.res.pos hP1.tile_pos
      hP1.tile_le (by rw [hT1]; exact t1) (by rw [hT1]; exact t2) hinf
    rw [hq] at hI
    cases hI

lemma lostPlay_keeps (hD : D = 2 ∨ D = 3) (ho : ∀ r, IsOrder (ord r)) (h : LostPlay M T ρ lam d r recs) {r' : ℕ}
    (hr' : r' < r) {m m' : GridMap D F32 F32} (hm : MapAbove M T ρ d (-2 ^ 18) m)
    (hi : (occOps nm recs ord).integrate r' m = .ret m') :
    MapAbove M T ρ d (-2 ^ 18) m' ∧ ∀ c, MachineCell c ∧ InGrid m c → MachineCell c ∧ InGrid m' c := by
  obtain ⟨x, hx⟩ := h.scans r' hr'
  obtain ⟨⟨cb, hP, -⟩, hT', -⟩ := id hm
  have hT1 : 1 ≤ T := by rw [← hT']; exact hP.tile_pos
  have := h.M_hi
  exact mapAbove_integrate hD (ho r') h.M_lo h.M_hi (by norm_num) hx
    (above_all hT1 (by omega) hP.res.pos hx.coords d) hm hi

/-- C99, the visualizer: recording `r` is the last that is started; its worker never gets past integrating; the
render thread does not panic; and once the recording has been started nothing new is drawn. -/
theorem C99_visualizer (hD : D = 2 ∨ D = 3) (hrn : r < n) (h0 : Placed m₀ CellBounds.empty ρ)
    (ht0 : m₀.changedCells = []) (hT : m₀.tileSize = T) (ho : ∀ r, IsOrder (ord r)) (h : LostPlay M T ρ lam d r recs)
    {s : State (GridMap D F32 F32) (Verif.Cell D) (Point D F32)} (hr : Reach (occOps nm recs ord) n m₀ s) :
    s.workers.length ≤ r + 1 ∧ (∀ (k : ℕ) pc, s.workers[k]? = some (pc, r) → NotPast pc) ∧ s.main ≠ .dead ∧
      (s.workers.length = r + 1 → ∀ s', Steps (occOps nm recs ord) n s s' → s'.main = .check ∧ s'.finished = false ∧
        s'.tracked = s.tracked) := by
  have hI0 : MapAbove M T ρ d (-2 ^ 18) m₀ := ⟨⟨_, h0, .inl rfl, .inl rfl⟩, hT, by rw [ht0]; simp⟩
  obtain ⟨a1, a2, a3, -⟩ := C98_stuck (ops := occOps nm recs ord) (I := MapAbove M T ρ d (-2 ^ 18))
    (R := fun m c => MachineCell c ∧ InGrid m c) hrn hI0 (fun r' hr' m m' hm hi => lostPlay_keeps hD ho h hr' hm hi)
    (fun m hm => mapAbove_reset hm) (fun m hm c hc => hm.2.2 c hc) (fun m c hc => mapAbove_occupied hc)
    (fun m m' hm => lostPlay_no hD h hm) hr
  refine ⟨a1, a2, a3, fun hlen s' hs => ?_⟩
  obtain ⟨b1, b2, b3, -⟩ := C99_stays (ops := occOps nm recs ord) (I := MapAbove M T ρ d (-2 ^ 18))
    (R := fun m c => MachineCell c ∧ InGrid m c) hrn hI0 (fun r' hr' m m' hm hi => lostPlay_keeps hD ho h hr' hm hi)
    (fun m hm => mapAbove_reset hm) (fun m hm c hc => hm.2.2 c hc) (fun m c hc => mapAbove_occupied hc)
    (fun m m' hm => lostPlay_no hD h hm) hr hlen hs
  exact ⟨b1, b2, b3⟩

/-- C99, the visualizer: in every fair run a moment comes from which on the render thread only polls the flag,
nothing new is drawn and no recording is started. -/
theorem C99_freezes (hD : D = 2 ∨ D = 3) (hrn : r < n) (h0 : Placed m₀ CellBounds.empty ρ)
    (ht0 : m₀.changedCells = []) (hT : m₀.tileSize = T) (ho : ∀ r, IsOrder (ord r)) (hml : nm.maxRange.Is lam)
    (h : LostPlay M T ρ lam d r recs)
    {σ : ℕ → State (GridMap D F32 F32) (Verif.Cell D) (Point D F32)} (he : Execution (occOps nm recs ord) n m₀ σ)
    (hf : Fair (occOps nm recs ord) n σ) :
    ∃ i, ∀ j, i ≤ j → (σ j).main = .check ∧ (σ j).finished = false ∧ (σ j).tracked = (σ i).tracked ∧
      (σ j).workers.length = (σ i).workers.length := by
  have hI0 : MapAbove M T ρ d (-2 ^ 18) m₀ := ⟨⟨_, h0, .inl rfl, .inl rfl⟩, hT, by rw [ht0]; simp⟩
  refine C99_fair (ops := occOps nm recs ord) (I := MapAbove M T ρ d (-2 ^ 18))
    (R := fun m c => MachineCell c ∧ InGrid m c) hrn hI0 (fun r' hr' m m' hm hi => lostPlay_keeps hD ho h hr' hm hi)
    (fun m hm => mapAbove_reset hm) (fun m hm c hc => hm.2.2 c hc) (fun m c hc => mapAbove_occupied hc)
    (fun m m' hm => lostPlay_no hD h hm) (fun r' hr' m hm => ?_) he hf
  obtain ⟨⟨cb, hP, hl, hcb⟩, hT', -⟩ := hm
  obtain ⟨x, hx⟩ := h.scans r' hr'
  have hP1 : Placed (m.setTrackChanges true) cb ρ := placed_of_shape hP rfl rfl rfl rfl
  have hT1 : (m.setTrackChanges true).tileSize = T := hT'
  have hT2 : 1 ≤ T := by rw [← hT']; exact hP.tile_pos
  have hM := h.M_hi
  have ha := above_all hT2 (by omega) hP.res.pos hx.coords d
  obtain ⟨me, ncb, e1, -⟩ := nan_setup (by omega) hP1 h.M_lo (by omega) (by rw [hT1]; exact hl) hx.coords
    (k := -2 ^ 18) (by norm_num) (by rw [hT1]; exact hcb) (by rw [hT1]; exact ha)
  rcases nan_ends (nm := nm) (ord := ord r') hD hP1 h.M_lo (by rw [hT1]; exact hM) (by rw [hT1]; exact hl) (ho r')
    hx (k := -2 ^ 18) (by norm_num) (by rw [hT1]; exact hcb) (by rw [hT1]; exact ha) hml h.lam_pos h.lam_hi with
    ⟨m', hm'⟩ | hp
  · rw [occOps_integrate hm']; simp
  · rw [occOps_panic e1 hp]; simp

end

/-! ## The hypotheses are met -/

/-- A recording without NaN coordinates, then one from a lost sensor. -/
def lostRecs (r : ℕ) : Point 2 F32 × PointCloud 2 F32 :=
  if r % 2 = 0 then nanRecs 0 else (lostSensor, lostCloud)

lemma lostRecs_play : LostPlay 60 2 1 60 1 1 lostRecs := by
  refine ⟨by decide, by norm_num, by norm_num, fun r' hr' => ?_, .inl ⟨lostCloud_scan, _, lostCloud_elsewhere⟩,
    by norm_num, by norm_num⟩
  obtain ⟨x, hx, -⟩ := nanRecs_play.scans 0 (by norm_num)
  obtain rfl : r' = 0 := by omega
  exact ⟨x, hx⟩

/-- The recordings are played over and over: in every run at most two are started. -/
example {s : State (GridMap 2 F32 F32) (Verif.Cell 2) (Point 2 F32)}
    (hr : Reach (occOps defaultNM lostRecs fun _ l => l) 2 smallMap s) :
    s.workers.length ≤ 2 ∧ (∀ (k : ℕ) pc, s.workers[k]? = some (pc, 1) → NotPast pc) ∧ s.main ≠ .dead := by
  obtain ⟨h1, h2, h3, -⟩ := C99_visualizer (.inl rfl) (by norm_num) smallMap_placed rfl rfl
    (fun _ l => List.Perm.refl l) lostRecs_play hr
  exact ⟨h1, h2, h3⟩

end Verif.Props
