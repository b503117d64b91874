import Verif.Spec.MemoryViz
import Verif.Props.Memory
import Verif.Props.LostViz

/-!
# C101: the visualizer on a machine with limited memory
-/

namespace Verif.Props
open Spec Viz Scalar

section
variable {Map Cell Pt : Type} [DecidableEq Cell] {ops : MapOps Map Cell Pt} {n : ℕ} {m₀ : Map}

/-- While a worker is in a call that does not return, nothing changes. -/
lemma hang_still {s s' : State Map Cell Pt} (hr : Reach ops n m₀ s) {k r : ℕ} (hk : s.workers[k]? = some (.integrate, r))
    (hh : ops.integrate r s.map = .hang) (hs : Step ops n s s') : s' = s := by
  obtain ⟨b1, b2, b3⟩ := (Reach.inv hr).busy k _ r hk (by simp [Busy])
  have other : ∀ {j : ℕ} {pc : WorkerPc} {r' : ℕ}, s.workers[j]? = some (pc, r') → pc = .done ∨ pc = .integrate ∧ r' = r := by
    intro j pc r' hj
    rcases C91_one_thread hr hj with h | h
    · obtain rfl : j = k := by omega
      rw [hj] at hk
      cases hk
      exact .inr ⟨rfl, rfl⟩
    · exact .inl h
  cases hs
  case checkBusy => rfl
  case wIntegrate j r' m h1 h2 =>
    rcases other h1 with h | ⟨-, rfl⟩
    · cases h
    · rw [hh] at h2; cases h2
  case wIntegratePanic j r' h1 h2 =>
    rcases other h1 with h | ⟨-, rfl⟩
    · cases h
    · rw [hh] at h2; cases h2
  all_goals
    exfalso
    clear hr
    grind

/-- The first worker to panic does so while it integrates. -/
lemma dead_of_panic {s s' : State Map Cell Pt} (hr : Reach ops n m₀ s) (hs : Step ops n s s') (hm : s.main ≠ .dead)
    (hd : ∀ k r : ℕ, s.workers[k]? ≠ some (.dead, r)) {k r : ℕ} (hk : s'.workers[k]? = some (.dead, r)) :
    ∃ j r' : ℕ, s.workers[j]? = some (.integrate, r') ∧ ops.integrate r' s.map = .panic := by
  have hi := Reach.inv hr
  have hset : ∀ {j r' : ℕ} {pc : WorkerPc}, pc ≠ .dead → (s.workers.set j (pc, r'))[k]? ≠ some (.dead, r) := by
    intro j r' pc hpc hj
    rw [List.getElem?_set] at hj
    split_ifs at hj
    · simp only [Option.some.injEq, Prod.mk.injEq] at hj
      exact hpc hj.1
    · exact hd _ _ hj
  have hM : ∀ {j : ℕ} {x : WorkerPc × ℕ}, s.workers[j]? = some x → s.mapPoisoned ≠ true := by
    intro j x hj hp
    rcases hi.poisonM hp with h | ⟨h1, h2⟩
    · exact hm h
    · obtain ⟨⟨pc, r'⟩, hx⟩ : ∃ x, s.workers[s.workers.length - 1]? = some x :=
        ⟨_, List.getElem?_eq_getElem (by omega)⟩
      obtain rfl := h2 _ _ hx
      exact hd _ _ hx
  cases hs
  case wIntegratePanic j r' h1 h2 => exact ⟨j, r', h1, h2⟩
  case wLockMapPoisoned j r' h1 h2 h3 => exact absurd h3 (hM h1)
  case wLockCellsPoisoned j r' h1 h2 h3 => exact absurd (hi.poisonC h3) hm
  case spawn h1 h2 =>
    rcases List.mem_append.mp (List.mem_of_getElem? hk) with h3 | h3
    · obtain ⟨j, hj⟩ := List.getElem?_of_mem h3
      exact absurd hj (hd _ _)
    · simp at h3
  all_goals first
    | exact absurd hk (hd _ _)
    | exact absurd hk (hset (by simp))

end

section
variable {D B : ℕ} {ρ lam : ℚ} {nm : LidarNoiseModel F32} {recs : ℕ → Point D F32 × PointCloud D F32}
  {ord : ℕ → List (Verif.Cell D) → List (Verif.Cell D)} {n r T M : ℕ} {m₀ : GridMap D F32 F32} {d : Fin D}

/-- What the limited machine returns, one without a limit returns. -/
lemma mem_integrates {ord : List (Verif.Cell D) → List (Verif.Cell D)} {m m' : GridMap D F32 F32} {origin : Point D F32}
    {cloud : PointCloud D F32} (h : Mem.integratePointCloud B ord nm m origin cloud = .ok m') :
    Integrates ord nm m origin cloud m' := by
  rw [mem_integrate_unfold, L_bind_eq_ok] at h
  obtain ⟨me, h1, h⟩ := h
  rw [L_bind_eq_ok] at h
  obtain ⟨⟨free, occ⟩, h2, h⟩ := h
  exact ⟨B, by rw [integrate_unfold', mem_expand_plain h1, M.bind_ok, (mem_castRays_ok.mp h2).1, M.bind_ok,
    (memEnter_ok.mp h).1]⟩

lemma memOps_ret {m m' : GridMap D F32 F32} (h : (memOps B nm recs ord).integrate r m = .ret m') :
    (occOps nm recs ord).integrate r m = .ret m' := by
  simp only [memOps] at h
  rcases hx : memIntegrate B nm recs ord r m with (_ | _) | m1 <;> rw [hx] at h <;> cases h
  exact occOps_integrate (mem_integrates hx)

lemma memOps_hang {m : GridMap D F32 F32} (h : (memOps B nm recs ord).integrate r m = .hang) :
    memIntegrate B nm recs ord r m = .error .abort := by
  simp only [memOps] at h
  rcases hx : memIntegrate B nm recs ord r m with (_ | _) | m1 <;> rw [hx] at h <;> first | rfl | cases h

lemma mem_reach {s : State (GridMap D F32 F32) (Verif.Cell D) (Point D F32)}
    (h : MemReach B nm recs ord n m₀ (some s)) : Reach (memOps B nm recs ord) n m₀ s := by
  generalize hx : some s = x at h
  induction h generalizing s with
  | init => cases hx; exact .init
  | step x y hr hs ih =>
    cases hs with
    | run s1 s' h1 => cases hx; exact .step _ _ (ih rfl) h1
    | abort => cases hx

/-- The array of a map in the working range has fewer than 2^61 entries. -/
lemma placed_bytes (hD : D ≤ 3) {m : GridMap D F32 F32} {cb : CellBounds D} (h : Placed m cb ρ) :
    4 * m.data.data.length < 2 ^ 63 := by
  have h1 : ∀ i, m.data.shape i ≤ 2 ^ 20 := by
    intro i
    have h1 := h.shape i
    have h2 : |cb.min i| ≤ 2 ^ 19 := (h.min_range i).elim (fun h => h.trans (by norm_num)) fun h => h.2
    have h3 : |cb.max i| ≤ 2 ^ 19 := (h.max_range i).elim (fun h => h.trans (by norm_num)) fun h => h.2
    rw [_root_.abs_le] at h2 h3
    omega
  have h2 := shapeProd_le h1
  have h3 : (2 ^ 20) ^ D ≤ (2 ^ 20) ^ 3 := Nat.pow_le_pow_right (by norm_num) hD
  rw [m.data.len]
  norm_num at h2 h3 ⊢
  omega

/-- C101: integrating a scan whose sensor position has a NaN coordinate, with a point that is not in the sensor's
cell or straight below, ends the process, however much memory there is (up to 2^62 cells). -/
theorem C101_lost_scan (hD : D = 2 ∨ D = 3) (hd : ∀ j, j ≤ d) {ord : List (Verif.Cell D) → List (Verif.Cell D)}
    {m : GridMap D F32 F32} {cb : CellBounds D} {origin : Point D F32} {cloud : PointCloud D F32}
    (hP : Placed m cb ρ) (hM1 : 1 ≤ M) (hM : M + m.tileSize + 1 ≤ 2 ^ 18) (hlow : LowCorner M m.tileSize cb)
    (h : LostScan M ρ origin cloud) {p : Point D F32} (hp : p ∈ cloud.points) (hel : Elsewhere ρ d origin p)
    (hB : B ≤ 2 ^ 62) : Mem.integratePointCloud B ord nm m origin cloud = .error .abort := by
  have hT1 := hP.tile_pos
  obtain ⟨me, ncb, e1, hP', -⟩ := nan_setup (by omega) hP hM1 (by omega) hlow h.coords (k := -2 ^ 18)
    (by norm_num) (lowCorner_all hT1 hM hlow d) (above_all hT1 (by omega) hP.res.pos h.coords d)
  exact C101_endless e1 (placed_bytes (by omega) hP') ((C99_scan hD hd hP hM1 hM hlow h hp hel).2 B hB)

/-- C101, the visualizer: on the limited machine too, if recording `r` is from a lost sensor, it is the last that is
started, its worker never gets past integrating and the render thread does not panic. -/
theorem C101_lost_visualizer (hD : D = 2 ∨ D = 3) (hrn : r < n) (h0 : Placed m₀ CellBounds.empty ρ)
    (ht0 : m₀.changedCells = []) (hT : m₀.tileSize = T) (ho : ∀ r, IsOrder (ord r)) (h : LostPlay M T ρ lam d r recs)
    {s : State (GridMap D F32 F32) (Verif.Cell D) (Point D F32)} (hr : MemReach B nm recs ord n m₀ (some s)) :
    s.workers.length ≤ r + 1 ∧ (∀ (k : ℕ) pc, s.workers[k]? = some (pc, r) → NotPast pc) ∧ s.main ≠ .dead := by
  have hI0 : MapAbove M T ρ d (-2 ^ 18) m₀ := ⟨⟨_, h0, .inl rfl, .inl rfl⟩, hT, by rw [ht0]; simp⟩
  obtain ⟨a1, a2, a3, -⟩ := C98_stuck (ops := memOps B nm recs ord) (I := MapAbove M T ρ d (-2 ^ 18))
    (R := fun m c => MachineCell c ∧ InGrid m c) hrn hI0
    (fun r' hr' m m' hm hi => lostPlay_keeps hD ho h hr' hm (memOps_ret hi))
    (fun m hm => mapAbove_reset (nm := nm) (recs := recs) (ord := ord) hm) (fun m hm c hc => hm.2.2 c hc)
    (fun m c hc => mapAbove_occupied (nm := nm) (recs := recs) (ord := ord) hc)
    (fun m m' hm hi => lostPlay_no hD h hm (memOps_ret hi)) (mem_reach hr)
  exact ⟨a1, a2, a3⟩

/-- C101, the visualizer: sooner or later a worker panics or the process ends. -/
theorem C101_lost_ends (hD : D = 2 ∨ D = 3) (hrn : r < n) (h0 : Placed m₀ CellBounds.empty ρ)
    (ht0 : m₀.changedCells = []) (hT : m₀.tileSize = T) (ho : ∀ r, IsOrder (ord r)) (h : LostPlay M T ρ lam d r recs)
    {σ : ℕ → Option (State (GridMap D F32 F32) (Verif.Cell D) (Point D F32))} (he : MemExecution B nm recs ord n m₀ σ)
    (hf : MemFair B nm recs ord n σ) :
    ∃ i, σ i = none ∨ ∃ s, σ i = some s ∧ ∃ k r' : ℕ, s.workers[k]? = some (.dead, r') := by
  by_contra hcon
  push Not at hcon
  have hsome : ∀ i, ∃ s, σ i = some s := fun i => Option.ne_none_iff_exists'.mp (hcon i).1
  choose τ hτ using hsome
  have hstart : τ 0 = init m₀ := by
    have := he.start
    rw [hτ] at this
    exact Option.some.inj this
  have hexec : Execution (memOps B nm recs ord) n m₀ τ := by
    refine ⟨hstart, fun i => ?_⟩
    have := he.step i
    rw [hτ, hτ] at this
    rcases this with h1 | h1
    · cases h1 with
      | run _ _ h2 => exact .inl h2
    · exact .inr (Option.some.inj h1)
  have hreach : ∀ i, MemReach B nm recs ord n m₀ (σ i) := by
    intro i
    induction i with
    | zero => rw [he.start]; exact .init
    | succ i ih =>
      rcases he.step i with h1 | h1
      · exact .step _ _ ih h1
      · rw [h1]; exact ih
  have hlive := fun i => C101_lost_visualizer hD hrn h0 ht0 hT ho h (hτ i ▸ hreach i)
  have hdead : ∀ (i k r' : ℕ), (τ i).workers[k]? ≠ some (.dead, r') := fun i => (hcon i).2 _ (hτ i)
  have hchange : ∀ i, (∃ y, MemStep B nm recs ord n (some (τ i)) y ∧ y ≠ some (τ i)) → ∃ j, i ≤ j ∧ τ (j + 1) ≠ τ j := by
    intro i hy
    obtain ⟨j, hj, h1⟩ := hf i (by rw [hτ]; exact hy)
    refine ⟨j, hj, fun h2 => h1 ?_⟩
    rw [hτ, hτ, h2]
  have hnohang : ∀ (i k r' : ℕ), (τ i).workers[k]? = some (.integrate, r') →
      (memOps B nm recs ord).integrate r' (τ i).map ≠ .hang := by
    intro i k r' hk hh
    obtain ⟨j, hj, h1⟩ := hchange i ⟨none, .abort _ k r' hk (memOps_hang hh), by simp⟩
    have same : ∀ j, i ≤ j → τ j = τ i := by
      intro j hj
      induction j, hj using Nat.le_induction with
      | base => rfl
      | succ j hj ih =>
        rcases hexec.step j with h2 | h2
        · rw [ih] at h2
          exact hang_still (exec_reach hexec i) hk hh h2
        · rw [h2, ih]
    exact h1 ((same _ (by omega)).trans (same _ hj).symm)
  have hfair : Fair (memOps B nm recs ord) n τ := by
    rintro i ⟨s', h1, h2⟩
    exact hchange i ⟨some s', .run _ _ h1, by simpa using h2⟩
  obtain ⟨i, -, hi⟩ := C82_fair hexec hfair (fun i =>
    C52_no_deadlock (exec_reach hexec i) (hlive i).2.2 (hdead i) (hnohang i)) (r + 2)
  have := (hlive i).1
  omega

/-- Where the array's bytes can be counted, a scan that can be integrated without a limit does not panic. -/
lemma mem_no_panic {ord : List (Verif.Cell D) → List (Verif.Cell D)} {m m' me : GridMap D F32 F32} {origin : Point D F32}
    {cloud : PointCloud D F32} (he : m.expandBounds cloud.bounds nm.defaultCellValue = .ok me)
    (hb : 4 * me.data.data.length < 2 ^ 63) (hi : Integrates ord nm m origin cloud m') {p : Panic} :
    Mem.integratePointCloud B ord nm m origin cloud ≠ .error (.panic p) := by
  intro h
  rw [mem_integrate_unfold] at h
  rcases mem_expand_cases (B := B) he hb with h1 | h1
  · rw [h1, L_bind_ok, L_bind_eq_error] at h
    obtain ⟨k, hk⟩ := hi
    rw [integrate_unfold', he, M.bind_ok, M.bind_eq_ok] at hk
    obtain ⟨fo, hc, hk⟩ := hk
    rcases h with h | ⟨fo', h2, h⟩
    · have h3 := castRays_panic_mono (mem_castRays_panic h) k
      rw [Nat.add_comm, castRays_mono hc B] at h3
      cases h3
    · have h3 := castRays_mono (mem_castRays_ok.mp h2).1 k
      rw [Nat.add_comm, castRays_mono hc B] at h3
      cases h3
      rw [memEnter_panic h] at hk
      cases hk
  · rw [h1] at h
    cases h

/-- C101, the visualizer: if the recordings before the lost one are clear, sooner or later the process ends. -/
theorem C101_process_ends {N K : ℕ} (hD : D = 2 ∨ D = 3) (hrn : r < n) (h0 : Placed m₀ CellBounds.empty ρ)
    (ht0 : m₀.changedCells = []) (hT : m₀.tileSize = T) (ho : ∀ r, IsOrder (ord r)) (hlo : 1 / 2 ^ 20 ≤ ρ)
    (hhi : ρ ≤ 2 ^ 20) (hd : ∀ j, j ≤ d) (hM1 : 1 ≤ M) (hN : N = M + T + 1) (hN18 : N ≤ 2 ^ 18)
    (hcl : ∀ r' < r, ∃ x, ClearRec M N K T ρ x (recs r').1 (recs r').2) (hl : LostScan M ρ (recs r).1 (recs r).2)
    {p : Point D F32} (hp : p ∈ (recs r).2.points) (hel : Elsewhere ρ d (recs r).1 p) (hB : B ≤ 2 ^ 62)
    {σ : ℕ → Option (State (GridMap D F32 F32) (Verif.Cell D) (Point D F32))} (he : MemExecution B nm recs ord n m₀ σ)
    (hf : MemFair B nm recs ord n σ) : ∃ i, σ i = none := by
  have hT1 : 1 ≤ T := hT ▸ h0.tile_pos
  have hpos := h0.res.pos
  have hnan : ∀ r' < r, ∃ x, NanScan M ρ (recs r').1 (recs r').2 x := by
    intro r' hr'
    obtain ⟨x, hx⟩ := hcl r' hr'
    refine ⟨x, hlo, hhi, hx.sensor, hx.sensor_near, fun p hp i => ?_, fun p hp _ i y hy => ?_⟩
    · obtain ⟨y, h1, h2⟩ := clear_within hx p hp i
      exact .inr ⟨y, h1, h2⟩
    · obtain ⟨y', h1, -, -, -, h5⟩ := hx.points p hp i
      obtain rfl := h1.unique hy
      exact h5.imp id fun h => h.1
  have hplay : LostPlay M T ρ ρ d r recs := by
    refine ⟨hd, hM1, by omega, hnan, .inl ⟨hl, p, hp, hel⟩, hpos, ?_⟩
    have : (1 : ℚ) ≤ M := by exact_mod_cast hM1
    nlinarith
  have hI0 : MapAbove M T ρ d (-2 ^ 18) m₀ := ⟨⟨_, h0, .inl rfl, .inl rfl⟩, hT, by rw [ht0]; simp⟩
  have hmap : ∀ {s : State (GridMap D F32 F32) (Verif.Cell D) (Point D F32)}, Reach (memOps B nm recs ord) n m₀ s →
      s.workers.length ≤ r + 1 ∧ s.main ≠ .dead ∧ MapAbove M T ρ d (-2 ^ 18) s.map := by
    intro s hr
    obtain ⟨a1, -, a3, a4⟩ := C98_stuck (ops := memOps B nm recs ord) (I := MapAbove M T ρ d (-2 ^ 18))
      (R := fun m c => MachineCell c ∧ InGrid m c) hrn hI0
      (fun r' hr' m m' hm hi => lostPlay_keeps hD ho hplay hr' hm (memOps_ret hi))
      (fun m hm => mapAbove_reset (nm := nm) (recs := recs) (ord := ord) hm) (fun m hm c hc => hm.2.2 c hc)
      (fun m c hc => mapAbove_occupied (nm := nm) (recs := recs) (ord := ord) hc)
      (fun m m' hm hi => lostPlay_no hD hplay hm (memOps_ret hi)) hr
    exact ⟨a1, a3, a4⟩
  have hnp : ∀ {r' : ℕ} {m : GridMap D F32 F32}, r' ≤ r → MapAbove M T ρ d (-2 ^ 18) m → ∀ q,
      memIntegrate B nm recs ord r' m ≠ .error (.panic q) := by
    rintro r' m hr' ⟨⟨cb, hP, hlc, hcb⟩, hT', -⟩ q
    have hP1 : Placed (m.setTrackChanges true) cb ρ := placed_of_shape hP rfl rfl rfl rfl
    have hTm : (m.setTrackChanges true).tileSize = T := hT'
    rcases lt_or_eq_of_le hr' with hlt | rfl
    · obtain ⟨x, hx⟩ := hcl r' hlt
      obtain ⟨x', hx'⟩ := hnan r' hlt
      obtain ⟨m', hm'⟩ := C44_no_panic_partial (nm := nm) (m := m.setTrackChanges true) hD hP1
        (clear_rec_scan (m := m.setTrackChanges true) hlo hhi hN hN18 hT'
          (fun i => by rw [hN]; exact hlc.abs_le hT1 i) hx) (ho r')
      obtain ⟨me, ncb, e1, hP', -⟩ := nan_setup (by omega) hP1 hM1 (by omega)
        (by rw [hTm]; exact hlc) hx'.coords (k := -2 ^ 18) (by norm_num) (by rw [hTm]; exact hcb)
        (by rw [hTm]; exact above_all hT1 (by omega) hpos hx'.coords d)
      exact mem_no_panic e1 (placed_bytes (by omega) hP') hm'
    · have := C101_lost_scan (nm := nm) (ord := ord r') hD hd hP1 hM1 (by rw [hTm]; omega) (by rw [hTm]; exact hlc) hl
        hp hel hB
      unfold memIntegrate
      rw [this]
      simp
  have hnd : ∀ {s : State (GridMap D F32 F32) (Verif.Cell D) (Point D F32)}, Reach (memOps B nm recs ord) n m₀ s →
      ∀ k r' : ℕ, s.workers[k]? ≠ some (.dead, r') := by
    intro s hr
    induction hr with
    | init => intro k r'; simp [Viz.init]
    | step s s' hr hs ih =>
      intro k r' hk
      obtain ⟨j, r1, h1, h2⟩ := dead_of_panic hr hs (hmap hr).2.1 ih hk
      have hcyc := (C54_cyclic hr (by omega)).2.2 j _ r1 h1
      have hj := lt_of_getW h1
      have hlen := (hmap hr).1
      rw [Nat.mod_eq_of_lt (by omega)] at hcyc
      simp only [memOps] at h2
      rcases hx : memIntegrate B nm recs ord r1 s.map with (q | _) | m1
      · exact hnp (by omega) (hmap hr).2.2 q hx
      · rw [hx] at h2; cases h2
      · rw [hx] at h2; cases h2
  have hreach : ∀ i, MemReach B nm recs ord n m₀ (σ i) := by
    intro i
    induction i with
    | zero => rw [he.start]; exact .init
    | succ i ih =>
      rcases he.step i with h1 | h1
      · exact .step _ _ ih h1
      · rw [h1]; exact ih
  obtain ⟨i, h1 | ⟨s, h1, k, r', h2⟩⟩ := C101_lost_ends hD hrn h0 ht0 hT ho hplay he hf
  · exact ⟨i, h1⟩
  · exact absurd h2 (hnd (mem_reach (h1 ▸ hreach i)) k r')

/-! ## Enough memory -/

/-- The rays of a scan in the working range return and have at most `R` cells. -/
lemma range_rays (hD : D = 2 ∨ D = 3) {N R : ℕ} {me : GridMap D F32 F32} {ncb : CellBounds D} (hP' : Placed me ncb ρ)
    (hN1 : 1 ≤ N) (hN : N + 1 ≤ 2 ^ 18) (hMN : M ≤ N) (hc : ∀ i, |ncb.min i| ≤ (N : ℕ)) {origin : Point D F32}
    {cloud : PointCloud D F32} {x : Fin D → ℚ} (h : NanScan M ρ origin cloud x) (hw : WithinCells M ρ cloud)
    (hml : nm.maxRange.Is lam) (hlam0 : 1 / 2 ^ 60 ≤ lam) (hle : lam ≤ M * ρ)
    (hR : √D * (lam * (1 + 1 / 2 ^ 20) / ρ) + 2 * D + 1 ≤ (R : ℝ)) :
    ∀ p ∈ cloud.points, (∃ ray e, Casts origin p me.bounds me.resolution nm.maxRange ray e) ∧
      ∀ ray e, Casts origin p me.bounds me.resolution nm.maxRange ray e → ray.length ≤ R := by
  have hpos := hP'.res.pos
  obtain ⟨q, g1, -, g3⟩ := corner_is hP' hN1 (by omega) hc
  have hNq : (N : ℚ) + 1 ≤ 262144 := by exact_mod_cast hN
  have hNq1 : (1 : ℚ) ≤ N := by exact_mod_cast hN1
  have hMN : (M : ℚ) ≤ N := by exact_mod_cast hMN
  have hnear : ∀ i z, |z| ≤ M * ρ → |z - q i| ≤ (2 * N + 1) * ρ := by
    intro i z hz
    have := abs_sub z (q i)
    have h1 : (M : ℚ) * ρ ≤ N * ρ := by gcongr
    linarith [g3 i]
  have hlam : lam ≤ (2 * N + 1) * ρ := hle.trans (by gcongr; linarith)
  intro p hp
  choose y hy1 hy2 using hw p hp
  have hb : ¬ IsBad p := by
    rintro ⟨i, hi⟩
    have := Fp.notNaN_is (hy1 i)
    rw [hi] at this
    cases this
  have hrr : RayRange (2 * N + 1) origin p me.bounds.min me.resolution x y q ρ :=
    ⟨hP'.res.1, h.res_lo, h.res_hi, by linarith, by norm_num; linarith, h.sensor, hy1, g1,
      fun i => hnear i _ (h.sensor_near i), fun i => hnear i _ (hy2 i), fun i => (g3 i).trans (by gcongr; linarith),
      fun i => h.apart p hp hb i (y i) (hy1 i)⟩
  refine ⟨C22_f32_returns hD hrr hml (lt_of_lt_of_le (by norm_num) hlam0) hlam, fun ray e hc => ?_⟩
  have := (C91_range hD hrr (by norm_num; linarith) hml hlam0 hlam hc).trans hR
  exact_mod_cast this

/-- If the rays have at most `R` cells and there are at most `P` points, everything that is kept has at most
`R P + P` entries, besides the array. -/
lemma fits_of {me : GridMap D F32 F32} {ml : F32} {origin : Point D F32} {cloud : PointCloud D F32} {R P : ℕ}
    (hg : GridFits B me) (hch : me.changedCells = [])
    (hr : ∀ p ∈ cloud.points, (∃ ray e, Casts origin p me.bounds me.resolution ml ray e) ∧
      ∀ ray e, Casts origin p me.bounds me.resolution ml ray e → ray.length ≤ R)
    (hP : cloud.points.length ≤ P) (hB : R * P + P ≤ B) : MemFits B me ml origin cloud := by
  obtain ⟨free, occ, hc⟩ := C28_returns_iff.mpr fun p hp => (hr p hp).1
  obtain ⟨-, h1, h2⟩ := C91_scan hc fun p hp => (hr p hp).2
  have hcard := castRays_card hc
  have h3 : R * cloud.points.length ≤ R * P := Nat.mul_le_mul_left _ hP
  have hfin : (passed origin cloud me.bounds me.resolution ml ∪ ends origin cloud me.bounds me.resolution ml).Finite := by
    refine Set.Finite.subset (List.finite_toSet (free ++ occ)) fun z hz => ?_
    rw [Set.mem_ofPred, List.mem_append, C28_free hc, C28_occupied hc]
    by_cases hx : ∃ p ∈ cloud.points, ∃ ray, Casts origin p me.bounds me.resolution ml ray (some z)
    · exact .inr hx
    · exact .inl ⟨hz.resolve_right hx, hx⟩
  refine ⟨hg, fun p hp ray e h => ?_, ?_, ?_, fun _ => ?_⟩
  · have h4 := (hr p hp).2 ray e h
    have h5 : 1 ≤ P := le_trans (List.length_pos_of_mem hp) hP
    have h6 : R * 1 ≤ R * P := Nat.mul_le_mul_left _ h5
    omega
  · have := Set.ncard_le_ncard Set.subset_union_left hfin
    omega
  · have := Set.ncard_le_ncard Set.subset_union_right hfin
    omega
  · rw [hch, hcard, List.length_nil]
    omega

/-- Two maps' operations that differ only in integrating, and not at this moment, have the same steps. -/
lemma step_congr {Map Cell Pt : Type} [DecidableEq Cell] {f g : ℕ → Map → Outcome Map} {ops : MapOps Map Cell Pt}
    {s s' : State Map Cell Pt}
    (h : ∀ {k r : ℕ}, s.workers[k]? = some (.integrate, r) → f r s.map = g r s.map)
    (hs : Step { ops with integrate := f } n s s') : Step { ops with integrate := g } n s s' := by
  have hproc : ∀ m l t, processCells { ops with integrate := f } m l t = processCells { ops with integrate := g } m l t := by
    intro m l
    induction l with
    | nil => exact fun t => rfl
    | cons c l ih =>
      intro t
      simp only [processCells, ih]
  cases hs
  case wIntegrate k r m h1 h2 => exact .wIntegrate s k r m h1 ((h h1).symm.trans h2)
  case wIntegratePanic k r h1 h2 => exact .wIntegratePanic s k r h1 ((h h1).symm.trans h2)
  case checkBusy h1 h2 => exact .checkBusy _ h1 h2
  case checkDone h1 h2 => exact .checkDone _ h1 h2
  case lockCells h1 h2 h3 => exact .lockCells _ h1 h2 h3
  case lockCellsPoisoned h1 h2 h3 => exact .lockCellsPoisoned _ h1 h2 h3
  case lockMap h1 h2 h3 => exact .lockMap _ h1 h2 h3
  case lockMapPoisoned h1 h2 h3 => exact .lockMapPoisoned _ h1 h2 h3
  case process t h1 h2 => exact .process _ t h1 (hproc _ _ _ ▸ h2)
  case processPanic h1 h2 => exact .processPanic _ h1 (hproc _ _ _ ▸ h2)
  case clearFlag h1 => exact .clearFlag _ h1
  case spawn h1 h2 => exact .spawn _ h1 h2
  case spawnPanic h1 h2 => exact .spawnPanic _ h1 h2
  case wLockMap k r h1 h2 h3 => exact .wLockMap _ k r h1 h2 h3
  case wLockMapPoisoned k r h1 h2 h3 => exact .wLockMapPoisoned _ k r h1 h2 h3
  case wLockCells k r h1 h2 h3 => exact .wLockCells _ k r h1 h2 h3
  case wLockCellsPoisoned k r h1 h2 h3 => exact .wLockCellsPoisoned _ k r h1 h2 h3
  case wCopy k r h1 => exact .wCopy (ops := { ops with integrate := g }) _ k r h1
  case wReset k r h1 => exact .wReset (ops := { ops with integrate := g }) _ k r h1
  case wSetFlag k r h1 => exact .wSetFlag _ k r h1
  case wUnlock k r h1 => exact .wUnlock _ k r h1

/-- With enough memory, a worker's call does what it does on a machine without a limit. -/
lemma mem_same (hD : D = 2 ∨ D = 3) (h0 : Placed m₀ CellBounds.empty ρ) (ht0 : m₀.changedCells = [])
    (ho : ∀ r, IsOrder (ord r)) (hM1 : 1 ≤ M) {N : ℕ} (hN : N = M + m₀.tileSize + 1) (hN2 : N + 1 ≤ 2 ^ 18)
    (hml : nm.maxRange.Is lam) (hlam0 : 1 / 2 ^ 60 ≤ lam) (hle : lam ≤ M * ρ) {R P : ℕ}
    (hR : √D * (lam * (1 + 1 / 2 ^ 20) / ρ) + 2 * D + 1 ≤ (R : ℝ))
    (hn : 0 < n) (hscan : ∀ r < n, ∃ x, NanScan M ρ (recs r).1 (recs r).2 x) (hcl : ∀ r, WithinCells M ρ (recs r).2)
    (hpts : ∀ r < n, (recs r).2.points.length ≤ P) (hB1 : (2 * N) ^ D ≤ B) (hB2 : R * P + P ≤ B)
    {s : State (GridMap D F32 F32) (Verif.Cell D) (Point D F32)} (hr : Reach (occOps nm recs ord) n m₀ s) {k r : ℕ}
    (hk : s.workers[k]? = some (.integrate, r)) :
    memIntegrate B nm recs ord r s.map ≠ .error .abort ∧
      (memOps B nm recs ord).integrate r s.map = (occOps nm recs ord).integrate r s.map := by
  obtain ⟨a1, -⟩ := stored_small (N := N) (by omega) ho h0 ht0 hM1 (by omega) hN hcl hr
  have hch : s.map.changedCells = [] := integrate_changed (ops := occOps nm recs ord) ht0 (fun _ => rfl) hr hk
  have hI1 : SmallMap M m₀.tileSize ρ (s.map.setTrackChanges true) := by
    obtain ⟨cb, b1, b2⟩ := a1
    exact ⟨cb, placed_of_shape b1 rfl rfl rfl rfl, b2⟩
  have fits : ∀ {m : GridMap D F32 F32}, SmallMap M m₀.tileSize ρ m → GridFits B m := by
    intro m hm
    have h1 := shapeProd_le hm.shape
    obtain ⟨cb, hP, -⟩ := hm
    refine ⟨?_, placed_bytes (by omega) hP⟩
    rw [m.data.len]
    rw [hN] at hB1
    exact h1.trans hB1
  obtain ⟨me, he, hme⟩ := smallMap_expand (by omega) hI1 hM1 (by omega) (hcl r)
  have hrn : r < n := by
    rw [(C54_cyclic hr hn).2.2 k _ r hk]
    exact Nat.mod_lt _ hn
  obtain ⟨x, hx⟩ := hscan r hrn
  have hcfg := C36_expandBounds he
  have hrays : ∀ p ∈ (recs r).2.points, (∃ ray e, Casts (recs r).1 p me.bounds me.resolution nm.maxRange ray e) ∧
      ∀ ray e, Casts (recs r).1 p me.bounds me.resolution nm.maxRange ray e → ray.length ≤ R := by
    obtain ⟨cb, hP, hT, hcb⟩ := id hme
    refine range_rays hD hP (N := N) (by omega) hN2 (by omega) (fun i => ?_) hx (hcl r) hml hlam0 hle hR
    have h4 : ((M + m₀.tileSize + 1) / m₀.tileSize : ℕ) * m₀.tileSize ≤ N := hN ▸ Nat.div_mul_le_self _ _
    have h5 : (((M + m₀.tileSize + 1) / m₀.tileSize : ℕ) : ℤ) * m₀.tileSize ≤ N := by exact_mod_cast h4
    rcases hcb with rfl | hcb
    · simp only [CellBounds.empty, abs_zero]
      positivity
    · obtain ⟨h1, h2⟩ := hcb i
      have h3 := hP.ordered i
      rw [neg_mul] at h1
      rw [_root_.abs_le]
      exact ⟨by linarith, by linarith⟩
  have hf : MemFits B me nm.maxRange (recs r).1 (recs r).2 :=
    fits_of (fits hme) (by rw [hcfg.2.2.2]; exact hch) hrays (hpts r hrn) hB2
  have hm := fits hI1
  obtain ⟨k1, k2⟩ := C101_same (ord := ord r) hm he (fun p hp => (hrays p hp).1) hf
  refine ⟨k1, ?_⟩
  simp only [memOps]
  rcases hy : memIntegrate B nm recs ord r s.map with (q | _) | m1
  · obtain ⟨f, hp⟩ := (k2 q).mp hy
    simp only [occOps]
    rw [dif_neg, if_pos ⟨f, q, hp⟩]
    rintro ⟨m', h'⟩
    have := (C101_returns_iff hm).mpr ⟨h', me, he, hf⟩
    change Mem.integratePointCloud _ _ _ _ _ _ = _ at hy
    rw [hy] at this
    cases this
  · exact absurd hy k1
  · exact (occOps_integrate (mem_integrates hy)).symm

/-- C101, the visualizer: with enough memory, all is as on a machine without a limit: the runs are the same, and the
process never ends. -/
theorem C101_enough (hD : D = 2 ∨ D = 3) (h0 : Placed m₀ CellBounds.empty ρ) (ht0 : m₀.changedCells = [])
    (ho : ∀ r, IsOrder (ord r)) (hM1 : 1 ≤ M) {N : ℕ} (hN : N = M + m₀.tileSize + 1) (hN2 : N + 1 ≤ 2 ^ 18)
    (hml : nm.maxRange.Is lam) (hlam0 : 1 / 2 ^ 60 ≤ lam) (hle : lam ≤ M * ρ) {R P : ℕ}
    (hR : √D * (lam * (1 + 1 / 2 ^ 20) / ρ) + 2 * D + 1 ≤ (R : ℝ))
    (hn : 0 < n) (hscan : ∀ r < n, ∃ x, NanScan M ρ (recs r).1 (recs r).2 x) (hcl : ∀ r, WithinCells M ρ (recs r).2)
    (hpts : ∀ r < n, (recs r).2.points.length ≤ P) (hB1 : (2 * N) ^ D ≤ B) (hB2 : R * P + P ≤ B)
    (x : Option (State (GridMap D F32 F32) (Verif.Cell D) (Point D F32))) :
    MemReach B nm recs ord n m₀ x ↔ ∃ s, x = some s ∧ Reach (occOps nm recs ord) n m₀ s := by
  have hsame : ∀ {s : State (GridMap D F32 F32) (Verif.Cell D) (Point D F32)}, Reach (occOps nm recs ord) n m₀ s →
      ∀ {k r : ℕ}, s.workers[k]? = some (.integrate, r) → memIntegrate B nm recs ord r s.map ≠ .error .abort ∧
        (memOps B nm recs ord).integrate r s.map = (occOps nm recs ord).integrate r s.map := fun hr _ _ hk =>
    mem_same hD h0 ht0 ho hM1 hN hN2 hml hlam0 hle hR hn hscan hcl hpts hB1 hB2 hr hk
  constructor
  · intro h
    induction h with
    | init => exact ⟨_, rfl, .init⟩
    | step x y hx hs ih =>
      obtain ⟨s, rfl, hr⟩ := ih
      cases hs with
      | run _ s' h1 => exact ⟨s', rfl, .step _ _ hr (step_congr (fun hk => (hsame hr hk).2) h1)⟩
      | abort _ k r h1 h2 => exact absurd h2 (hsame hr h1).1
  · rintro ⟨s, rfl, h⟩
    induction h with
    | init => exact .init
    | step s s' hr hs ih => exact .step _ _ ih (.run _ _ (step_congr (fun hk => (hsame hr hk).2.symm) hs))

/-! ## The hypotheses are met -/

/-- There are fair runs on the limited machine. -/
lemma memFair_exists : ∃ σ, MemExecution B nm recs ord n m₀ σ ∧ MemFair B nm recs ord n σ := by
  have hgo : ∀ x : Option (State (GridMap D F32 F32) (Verif.Cell D) (Point D F32)), ∃ y,
      (MemStep B nm recs ord n x y ∨ y = x) ∧ ((∃ y, MemStep B nm recs ord n x y ∧ y ≠ x) → y ≠ x) := by
    intro x
    by_cases h : ∃ y, MemStep B nm recs ord n x y ∧ y ≠ x
    · obtain ⟨y, h1, h2⟩ := h
      exact ⟨y, .inl h1, fun _ => h2⟩
    · exact ⟨x, .inr rfl, fun h' => absurd h' h⟩
  choose f h1 h2 using hgo
  refine ⟨fun i => f^[i] (some (init m₀)), ⟨rfl, fun i => ?_⟩, fun i hi => ⟨i, le_rfl, ?_⟩⟩
  · rw [Function.iterate_succ_apply']
    exact h1 _
  · dsimp only
    rw [Function.iterate_succ_apply']
    exact h2 _ hi

end

/-- A lost sensor, and memory for a million cells. -/
example : Mem.integratePointCloud (10 ^ 6) (fun l => l) defaultNM smallMap lostSensor lostCloud = .error .abort :=
  C101_lost_scan (d := 1) (.inl rfl) (by decide) smallMap_placed (M := 60) (by norm_num)
    (show 60 + 2 + 1 ≤ 2 ^ 18 by norm_num) (.inl rfl) lostCloud_scan lostCloud_elsewhere.1 lostCloud_elsewhere.2
    (by norm_num)

/-- The recordings are played over and over: at most two are started. -/
example {s : State (GridMap 2 F32 F32) (Verif.Cell 2) (Point 2 F32)}
    (hr : MemReach (10 ^ 6) defaultNM lostRecs (fun _ l => l) 2 smallMap (some s)) : s.workers.length ≤ 2 :=
  (C101_lost_visualizer (.inl rfl) (by norm_num) smallMap_placed rfl rfl (fun _ l => List.Perm.refl l) lostRecs_play
    hr).1

/-- There is a fair run, and in it a worker panics or the process ends. -/
example : ∃ σ, MemExecution (10 ^ 6) defaultNM lostRecs (fun _ l => l) 2 smallMap σ ∧
    MemFair (10 ^ 6) defaultNM lostRecs (fun _ l => l) 2 σ ∧
    ∃ i, σ i = none ∨ ∃ s, σ i = some s ∧ ∃ k r' : ℕ, s.workers[k]? = some (.dead, r') := by
  obtain ⟨σ, h1, h2⟩ := memFair_exists (B := 10 ^ 6) (nm := defaultNM) (recs := lostRecs) (ord := fun _ l => l)
    (n := 2) (m₀ := smallMap)
  exact ⟨σ, h1, h2, C101_lost_ends (.inl rfl) (by norm_num) smallMap_placed rfl rfl (fun _ l => List.Perm.refl l)
    lostRecs_play h1 h2⟩

/-- The recording of `clearRecs`, then one from a lost sensor. -/
def clearLost (r : ℕ) : Point 2 F32 × PointCloud 2 F32 := if r % 2 = 0 then clearRecs 0 else (lostSensor, lostCloud)

/-- There is a fair run with memory for a million cells, and in it the process ends. -/
example : ∃ σ, MemExecution (10 ^ 6) defaultNM clearLost (fun _ l => l) 2 smallMap σ ∧
    MemFair (10 ^ 6) defaultNM clearLost (fun _ l => l) 2 σ ∧ ∃ i, σ i = none := by
  obtain ⟨σ, h1, h2⟩ := memFair_exists (B := 10 ^ 6) (nm := defaultNM) (recs := clearLost) (ord := fun _ l => l)
    (n := 2) (m₀ := smallMap)
  have h8 : ClearRec 8 11 8 2 1 ![1 / 2, 1 / 2] (clearRecs 0).1 (clearRecs 0).2 := clearRecs_clear 0
  have hlost : LostScan 8 1 lostSensor lostCloud := by
    refine ⟨lostCloud_scan.1, fun i => ?_, fun p hp i => ?_⟩
    · fin_cases i
      · exact .inl rfl
      · exact .inr ⟨1 / 2, by decide +kernel, by norm_num [abs_le]⟩
    · rw [lostCloud, C13_points_fromPoints] at hp
      rcases List.mem_pair.mp hp with rfl | rfl <;> fin_cases i
      · exact .inl rfl
      · exact .inr ⟨5, by decide +kernel, by norm_num [abs_le]⟩
      · exact .inr ⟨2, by decide +kernel, by norm_num [abs_le]⟩
      · exact .inr ⟨1 / 4, by decide +kernel, by norm_num [abs_le]⟩
  refine ⟨σ, h1, h2, C101_process_ends (r := 1) (d := 1) (M := 8) (N := 11) (K := 8) (T := 2) (.inl rfl) (by norm_num)
    smallMap_placed rfl rfl (fun _ l => List.Perm.refl l) (by norm_num) (by norm_num) (by decide) (by norm_num) rfl
    (by norm_num) (fun r' hr' => ?_) hlost lostCloud_elsewhere.1 lostCloud_elsewhere.2 (by norm_num) h1 h2⟩
  obtain rfl : r' = 0 := by omega
  exact ⟨_, h8⟩

lemma clearRecs_nan (r : ℕ) : NanScan 60 1 (clearRecs r).1 (clearRecs r).2 ![1 / 2, 1 / 2] := by
  have uniq : ∀ {a : F32} {u v : ℚ}, a.Is u → a.Is v → u = v := fun hu hv => hu.unique hv
  refine ⟨by norm_num, by norm_num, by unfold clearRecs; decide +kernel, ?_, ?_, ?_⟩
  · intro i; fin_cases i <;> norm_num [abs_le]
  · intro p hp i
    obtain ⟨y, h1, h2⟩ := clear_within (clearRecs_clear r) p hp i
    exact .inr ⟨y, h1, h2.trans (by norm_num)⟩
  · intro p hp _ i y hy
    rw [clearRecs, C13_points_fromPoints] at hp
    rcases List.mem_pair.mp hp with rfl | rfl
    · fin_cases i
      · obtain rfl := uniq hy (show (Fp.lit (9 / 4) : F32).Is (9 / 4) by decide +kernel)
        right; norm_num [le_abs]
      · obtain rfl := uniq hy (show (Fp.lit (1 / 2) : F32).Is (1 / 2) by decide +kernel)
        left; norm_num
    · fin_cases i
      · obtain rfl := uniq hy (show (Fp.lit (-3) : F32).Is (-3) by decide +kernel)
        right; norm_num [le_abs]
      · obtain rfl := uniq hy (show (Fp.lit (1 / 4) : F32).Is (1 / 4) by decide +kernel)
        right; norm_num [le_abs]

/-- Memory for 16000 entries is enough to play the recordings of `clearRecs` over and over; each makes a run of the
limited machine, and after nine scans nothing has panicked. -/
example : ∃ s, MemReach 16000 defaultNM clearRecs (fun _ l => l) 1 smallMap (some s) ∧ Alive s ∧
    s.workers.length = 9 := by
  have ho : ∀ r : ℕ, IsOrder ((fun _ l => l : ℕ → List (Verif.Cell 2) → List (Verif.Cell 2)) r) :=
    fun _ l => List.Perm.refl l
  obtain ⟨s, h1, h2, h3⟩ := C82_plays (nm := defaultNM) (recs := clearRecs) (ord := fun _ l => l) (n := 1)
    (m₀ := smallMap) (K := 8) (N := 11) (.inl rfl) (by norm_num) smallMap_placed rfl rfl ho (by norm_num) (by norm_num)
    (M := 8) (by norm_num) rfl (by norm_num) (fun r _ => ⟨_, clearRecs_clear r⟩) 9
  obtain ⟨ha, -⟩ := C82_visualizer (K := 8) (N := 11) (.inl rfl) (by norm_num) smallMap_placed rfl rfl ho (by norm_num)
    (by norm_num) (M := 8) (by norm_num) rfl (by norm_num) (fun r _ => ⟨_, clearRecs_clear r⟩) h1
  have hs : √((2 : ℕ) : ℝ) ≤ 3 / 2 := by
    rw [Real.sqrt_le_left (by norm_num)]
    norm_num
  refine ⟨s, (C101_enough (M := 60) (N := 63) (lam := 60) (R := 97) (P := 2) (.inl rfl) smallMap_placed rfl ho
    (by norm_num) rfl (by norm_num) (by decide +kernel) (by norm_num) (by norm_num) ?_ (by norm_num) (fun r _ => ⟨_, clearRecs_nan r⟩)
    (fun r p hp i => ?_) (fun r _ => ?_) (by norm_num) (by norm_num) _).mpr ⟨s, rfl, h1⟩, ha, by rw [h3]; simp⟩
  · have : √((2 : ℕ) : ℝ) * (((60 : ℚ) : ℝ) * (1 + 1 / 2 ^ 20) / ((1 : ℚ) : ℝ)) ≤
        3 / 2 * (((60 : ℚ) : ℝ) * (1 + 1 / 2 ^ 20) / ((1 : ℚ) : ℝ)) := by gcongr
    norm_num at this ⊢
    linarith
  · obtain ⟨y, h1, h2⟩ := clear_within (clearRecs_clear r) p hp i
    exact ⟨y, h1, h2.trans (by norm_num)⟩
  · rw [clearRecs, C13_points_fromPoints]
    simp

end Verif.Props
