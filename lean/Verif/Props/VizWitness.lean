import Verif.Props.VizMap

/-!
# C52-C55: runs that exist

Whole cycles of the visualizer, a frozen run, and a run in which the drawing is wrong because the map
re-indexed its grid.
-/

namespace Verif.Props
open Viz Spec

variable {Map Cell Pt : Type} [DecidableEq Cell] {ops : MapOps Map Cell Pt} {n : ℕ} {m₀ : Map}

/-- No thread is inside a critical section and the last worker has announced its end. -/
def idle (m : Map) (cells : List Cell) (t : Cell → Option Pt) (ws : List (WorkerPc × ℕ)) (i : ℕ) :
    State Map Cell Pt :=
  ⟨m, .free, false, cells, .free, false, true, i, t, .check, ws⟩

/-- The state after processing, before the flag is cleared. -/
def drawn (m : Map) (t : Cell → Option Pt) (ws : List (WorkerPc × ℕ)) (i : ℕ) : State Map Cell Pt :=
  ⟨m, .free, false, [], .free, false, true, i, t, .clearFlag, ws⟩

/-- The state in which worker `ws.length` holds the map. -/
def working (m : Map) (t : Cell → Option Pt) (ws : List (WorkerPc × ℕ)) (i j : ℕ) : State Map Cell Pt :=
  ⟨m, .worker ws.length, false, [], .free, false, false, j, t, .check, ws ++ [(.integrate, i)]⟩

/-- From an idle state the render thread can process the changed cells. -/
lemma reach_drawn {m : Map} {cells : List Cell} {t t' : Cell → Option Pt} {ws : List (WorkerPc × ℕ)}
    {i : ℕ} (h : Reach ops n m₀ (idle m cells t ws i)) (hp : processCells ops m cells t = some t') :
    Reach ops n m₀ (drawn m t' ws i) := by
  have h1 := Reach.step _ _ h (.checkDone _ rfl rfl)
  have h2 := Reach.step _ _ h1 (.lockCells _ rfl rfl rfl)
  have h3 := Reach.step _ _ h2 (.lockMap _ rfl rfl rfl)
  exact Reach.step _ _ h3 (.process _ t' rfl hp)

/-- Then a worker can take the map. -/
lemma reach_working {m : Map} {t : Cell → Option Pt} {ws : List (WorkerPc × ℕ)}
    {i : ℕ} (h : Reach ops n m₀ (drawn m t ws i)) (hi : i < n) :
    Reach ops n m₀ (working m t ws i ((i + 1) % n)) := by
  have h1 := Reach.step _ _ h (.clearFlag _ rfl)
  have h2 := Reach.step _ _ h1 (.spawn _ rfl hi)
  have h3 := Reach.step _ _ h2 (.wLockMap _ ws.length i (by simp [drawn]) rfl rfl)
  simpa [setW, drawn, working] using h3

/-- And complete its integration. -/
lemma reach_idle {m m' : Map} {t : Cell → Option Pt} {ws : List (WorkerPc × ℕ)}
    {i j : ℕ} (h : Reach ops n m₀ (working m t ws i j)) (hm : ops.integrate i m = .ret m') :
    Reach ops n m₀ (idle (ops.reset m') (ops.changed m') t (ws ++ [(.done, i)]) j) := by
  have h1 := Reach.step _ _ h (.wIntegrate _ ws.length i m' (by simp [working]) hm)
  have h2 := Reach.step _ _ h1 (.wLockCells _ ws.length i (by simp [working, setW]) rfl rfl)
  have h3 := Reach.step _ _ h2 (.wCopy _ ws.length i (by simp [working, setW]))
  have h4 := Reach.step _ _ h3 (.wReset _ ws.length i (by simp [working, setW]))
  have h5 := Reach.step _ _ h4 (.wSetFlag _ ws.length i (by simp [working, setW]))
  have h6 := Reach.step _ _ h5 (.wUnlock _ ws.length i (by simp [working, setW]))
  simpa [setW, idle, working] using h6

/-- One whole cycle. -/
lemma reach_cycle {m m' : Map} {cells : List Cell} {t t' : Cell → Option Pt} {ws : List (WorkerPc × ℕ)}
    {i : ℕ} (h : Reach ops n m₀ (idle m cells t ws i)) (hp : processCells ops m cells t = some t')
    (hi : i < n) (hm : ops.integrate i m = .ret m') :
    Reach ops n m₀ (idle (ops.reset m') (ops.changed m') t' (ws ++ [(.done, i)]) ((i + 1) % n)) :=
  reach_idle (reach_working (reach_drawn h hp) hi) hm

/-- C52, C54: if no integration panics or hangs and no processed cell panics, the pipeline never stops:
for every `k` a run exists in which `k` workers have finished, each with its recording, and the program
is ready for the next one. -/
theorem C52_runs_forever (hn : 0 < n) (hint : ∀ i m, ∃ m', ops.integrate i m = .ret m')
    (hocc : ∀ m c, ops.occupied m c ≠ none) (k : ℕ) :
    ∃ m cells t, Reach ops n m₀ (idle m cells t ((List.range k).map fun j => (.done, j % n)) (k % n)) := by
  induction k with
  | zero => exact ⟨m₀, [], fun _ => none, by simpa [idle, Viz.init] using Reach.init⟩
  | succ k ih =>
    obtain ⟨m, cells, t, h⟩ := ih
    have hp : ∀ (l : List Cell) (t : Cell → Option Pt), ∃ t', processCells ops m l t = some t' := by
      intro l
      induction l with
      | nil => exact fun t => ⟨t, rfl⟩
      | cons c l ih =>
        intro t
        unfold processCells
        cases ho : ops.occupied m c with
        | none => exact absurd ho (hocc m c)
        | some b => cases b <;> exact ih _
    obtain ⟨t', ht⟩ := hp cells t
    obtain ⟨m', hm⟩ := hint (k % n) m
    refine ⟨ops.reset m', ops.changed m', t', ?_⟩
    have := reach_cycle h ht (Nat.mod_lt _ hn) hm
    rw [List.range_succ, List.map_append, List.map_singleton]
    rwa [Nat.mod_add_mod] at this

section Toy

/-- A toy map: a counter of integrations and the changed cells; integration `i` marks cell `i`; the
recording 7 panics. -/
def toyOps : MapOps (List ℕ × List ℕ) ℕ ℕ where
  integrate i m := if i = 7 then .panic else .ret (i :: m.1, [i])
  changed m := m.2
  reset m := (m.1, [])
  occupied m c := some (m.1.contains c)
  point _ c := 10 * c

/-- Two cycles and processing: cells 0 and 1 are drawn. -/
example : ∃ s : State (List ℕ × List ℕ) ℕ ℕ, Reach toyOps 3 ([], []) s ∧ s.main = .clearFlag ∧
    s.tracked 0 = some 0 ∧ s.tracked 1 = some 10 ∧ s.tracked 2 = none ∧ s.index = 2 ∧
    s.workers = [(.done, 0), (.done, 1)] := by
  have h0 : Reach toyOps 3 ([], []) (idle ([], []) [] (fun _ => none) [] 0) := Reach.init
  have h1 := reach_cycle h0 rfl (by decide) rfl
  have h2 := reach_cycle h1 rfl (by decide) rfl
  have h3 := reach_drawn h2 rfl
  exact ⟨_, h3, rfl, by decide, by decide, by decide, rfl, rfl⟩

/-- The hypotheses of `C55_mirrors` are met by the toy map with three recordings. -/
example : Sound toyOps 3 ([], []) (fun _ => True) := by
  refine ⟨⟨rfl, fun c _ => by simp [toyOps]⟩, fun m => ⟨rfl, fun c => ⟨rfl, rfl⟩⟩, ?_⟩
  intro s k r m' _ _ hi hc
  simp only [toyOps] at hi
  split_ifs at hi
  injection hi with hi
  subst hi
  refine ⟨fun c _ hcn => ?_, fun c _ _ => rfl⟩
  simp only [toyOps, List.mem_singleton] at hcn
  simp [toyOps, hcn]

/-- Those of `C52_runs_forever` by the toy map without its panic. -/
example : (∀ i m, ∃ m', ({ toyOps with integrate := fun i m => .ret (i :: m.1, [i]) } :
      MapOps (List ℕ × List ℕ) ℕ ℕ).integrate i m = .ret m') ∧
    ∀ m c, ({ toyOps with integrate := fun i m => .ret (i :: m.1, [i]) } :
      MapOps (List ℕ × List ℕ) ℕ ℕ).occupied m c ≠ none :=
  ⟨fun _ _ => ⟨_, rfl⟩, fun _ _ => by simp [toyOps]⟩

/-- A run whose eighth recording panics: the worker is dead while the render thread is polling
(hypotheses of `C52_worker_panic_freezes`). -/
example : ∃ s : State (List ℕ × List ℕ) ℕ ℕ, Reach toyOps 8 ([], []) s ∧
    s.workers[7]? = some (.dead, 7) ∧ s.main = .check ∧ s.finished = false := by
  have h0 : Reach toyOps 8 ([], []) (idle ([], []) [] (fun _ => none) [] 0) := Reach.init
  have h1 := reach_cycle h0 rfl (by decide) rfl
  have h2 := reach_cycle h1 rfl (by decide) rfl
  have h3 := reach_cycle h2 rfl (by decide) rfl
  have h4 := reach_cycle h3 rfl (by decide) rfl
  have h5 := reach_cycle h4 rfl (by decide) rfl
  have h6 := reach_cycle h5 rfl (by decide) rfl
  have h7 := reach_cycle h6 rfl (by decide) rfl
  have h8 := reach_working (reach_drawn h7 rfl) (by decide)
  have h9 := Reach.step _ _ h8 (.wIntegratePanic _ 7 7 rfl rfl)
  exact ⟨_, h9, rfl, rfl, rfl⟩

end Toy

section Stale

variable {D : ℕ}

/-- The result of an integration does not depend on the fuel that suffices. -/
lemma integrates_unique {ord : List (Verif.Cell D) → List (Verif.Cell D)} {nm : LidarNoiseModel F32}
    {m m₁ m₂ : GridMap D F32 F32} {o : Point D F32} {pc : PointCloud D F32}
    (h₁ : Integrates ord nm m o pc m₁) (h₂ : Integrates ord nm m o pc m₂) : m₁ = m₂ := by
  obtain ⟨n₁, h₁⟩ := h₁
  obtain ⟨n₂, h₂⟩ := h₂
  rw [integrate_unfold, M.bind_eq_ok] at h₁ h₂
  obtain ⟨me, a1, h₁⟩ := h₁
  obtain ⟨me', b1, h₂⟩ := h₂
  rw [a1] at b1
  cases b1
  rw [M.bind_eq_ok] at h₁ h₂
  obtain ⟨fo, a2, h₁⟩ := h₁
  obtain ⟨fo', b2, h₂⟩ := h₂
  have c1 := castRays_mono a2 n₂
  have c2 := castRays_mono b2 n₁
  rw [Nat.add_comm, c2] at c1
  cases c1
  rw [h₁] at h₂
  cases h₂
  rfl

lemma occOps_integrate {nm : LidarNoiseModel F32} {recs : ℕ → Point D F32 × PointCloud D F32}
    {ord : ℕ → List (Verif.Cell D) → List (Verif.Cell D)} {m m' : GridMap D F32 F32} {r : ℕ}
    (h : Integrates (ord r) nm (m.setTrackChanges true) (recs r).1 (recs r).2 m') :
    (occOps nm recs ord).integrate r m = .ret m' := by
  have hex : ∃ m' fuel, nm.integratePointCloud (ord r) fuel (m.setTrackChanges true) (recs r).1 (recs r).2
      = .ok m' := ⟨m', h⟩
  simp only [occOps]
  rw [dif_pos hex, integrates_unique hex.choose_spec h]

/-- If no cell panics, processing returns and does not touch other cells. -/
lemma processCells_other {nm : LidarNoiseModel F32} {recs : ℕ → Point D F32 × PointCloud D F32}
    {ord : ℕ → List (Verif.Cell D) → List (Verif.Cell D)} {m : GridMap D F32 F32} :
    ∀ {l : List (Verif.Cell D)} {bs : List Bool} (t : Verif.Cell D → Option (Point D F32)),
      l.mapM (nm.occupied m) = .ok bs →
      ∃ t', processCells (occOps nm recs ord) m l t = some t' ∧ ∀ c, c ∉ l → t' c = t c
  | [], _, t, _ => ⟨t, rfl, fun _ _ => rfl⟩
  | c :: l, bs, t, h => by
    rw [List.mapM_cons, M.bind_eq_ok] at h
    obtain ⟨b, h1, h⟩ := h
    rw [M.bind_eq_ok] at h
    obtain ⟨bs', h2, -⟩ := h
    have ho : (occOps nm recs ord).occupied m c = some b := by simp only [occOps, h1, Except.toOption]
    unfold processCells
    rw [ho]
    cases b
    · obtain ⟨t', h3, h4⟩ := processCells_other (recs := recs) (ord := ord)
        (if (t c).isSome then Function.update t c none else t) h2
      refine ⟨t', h3, fun x hx => ?_⟩
      rw [h4 x fun h => hx (List.mem_cons_of_mem _ h)]
      split_ifs
      · rw [Function.update_of_ne fun e => hx (by rw [e]; exact List.mem_cons_self)]
      · rfl
    · obtain ⟨t', h3, h4⟩ := processCells_other (recs := recs) (ord := ord)
        (if (t c).isSome then t else Function.update t c (some ((occOps nm recs ord).point m c))) h2
      refine ⟨t', h3, fun x hx => ?_⟩
      rw [h4 x fun h => hx (List.mem_cons_of_mem _ h)]
      split_ifs
      · rfl
      · rw [Function.update_of_ne fun e => hx (by rw [e]; exact List.mem_cons_self)]

/-- A map without cells, resolution 1, tile size 2. -/
def smallMap : GridMap 2 F32 F32 := ⟨⟨fun _ => 0, [], rfl, by decide⟩, Fp.lit 1, Bounds.empty, 2, false, []⟩

/-- Hits and misses of one, limits ±4, threshold 0, range 60. -/
def smallNM : LidarNoiseModel F32 := ⟨Fp.lit 1, Fp.lit (-1), Fp.lit (-4), Fp.lit 4, Fp.lit 0, Fp.lit 60⟩

/-- The sensor at (1/2, 1/2) sees first (5/2, 1/2), then (-5/2, 1/2). -/
def smallRecs (r : ℕ) : Point 2 F32 × PointCloud 2 F32 :=
  (![Fp.lit (1 / 2), Fp.lit (1 / 2)],
    PointCloud.fromPoints [![Fp.lit (if r = 0 then 5 / 2 else -5 / 2), Fp.lit (1 / 2)]])

lemma smallMap_placed : Placed smallMap CellBounds.empty 1 := by
  refine ⟨⟨by decide +kernel, by norm_num, by norm_num⟩, ?_, by decide, by decide, by decide, by decide,
    by decide, by decide⟩
  ext i
  all_goals (revert i; decide +kernel)

lemma small_inRange (r : ℕ) : CloudInRange (smallRecs r).2 1 := by
  intro p hp
  rw [smallRecs, C13_points_fromPoints, List.mem_singleton] at hp
  subst hp
  intro i
  by_cases hr : r = 0
  · subst hr
    refine ⟨![5 / 2, 1 / 2] i, ?_, ?_⟩ <;> revert i <;> decide +kernel
  · simp only [hr, if_false]
    refine ⟨![-5 / 2, 1 / 2] i, ?_, ?_⟩ <;> revert i <;> decide +kernel

/-- If all recordings have the same extent, the lower corner of a map that has cells stays where it is. -/
lemma extent_fix {nm : LidarNoiseModel F32} {recs : ℕ → Point D F32 × PointCloud D F32}
    {ord : ℕ → List (Verif.Cell D) → List (Verif.Cell D)} {n : ℕ} {m₀ : GridMap D F32 F32} {ρ : ℚ}
    (hD : D ≤ 3) (h0 : Placed m₀ CellBounds.empty ρ)
    (ho : ∀ r, IsOrder (ord r)) (hD0 : 0 < D)
    (hc : ∀ r, CloudInRange (recs r).2 ρ) (hsame : ∀ r, (recs r).2.bounds = (recs 0).2.bounds) :
    ∀ (s : State (GridMap D F32 F32) (Verif.Cell D) (Point D F32)) (k r : ℕ) m',
      Reach (occOps nm recs ord) n m₀ s → s.workers[k]? = some (WorkerPc.integrate, r) →
      (occOps nm recs ord).integrate r s.map = .ret m' →
      m'.bounds.min = s.map.bounds.min ∨ ∀ c, ¬ InGrid s.map c := by
  have hreq : ∀ r, Request (recs r).2.bounds ρ := fun r => request_of_cloud h0.res.pos (hc r)
  obtain ⟨T, hT0, hTal, hTsub, -, -, -⟩ := newCellBounds_spec h0 (hreq 0)
  -- expanding a placed map
  have grow : ∀ {m m' : GridMap D F32 F32} {r : ℕ}, m.resolution = m₀.resolution → m.tileSize = m₀.tileSize →
      (Placed m CellBounds.empty ρ ∨ Placed m T ρ) →
      (occOps nm recs ord).integrate r m = .ret m' →
      m'.resolution = m₀.resolution ∧ m'.tileSize = m₀.tileSize ∧ Placed m' T ρ := by
    intro m m' r hres htile hP hi
    have hI := occOps_ret hi
    obtain ⟨me, free, occ, e1, -, -, -, -, e6, e7, e8, -, e10⟩ := C38_integrate (ho r) hI
    obtain ⟨q1, q2, -⟩ := C36_expandBounds e1
    suffices hme : Placed me T ρ by
      exact ⟨by rw [e7, q1]; exact hres, by rw [e8, q2]; exact htile, placed_of_shape hme e7 e6 e8 e10⟩
    rw [hsame r] at e1
    rcases hP with hP | hP
    · have hP1 : Placed (m.setTrackChanges true) CellBounds.empty ρ := placed_of_shape hP rfl rfl rfl rfl
      obtain ⟨me', ncb, g1, g2, g3, -⟩ := expand_spec hD hP1 (hreq 0) (Fp.lit 0 : F32)
      rw [e1] at g1
      cases g1
      have : (m.setTrackChanges true).newCellBounds (recs 0).2.bounds = m₀.newCellBounds (recs 0).2.bounds := by
        unfold GridMap.newCellBounds
        have hb : (m.setTrackChanges true).bounds = m₀.bounds := by
          rw [hP1.bounds, h0.bounds]; exact congrArg _ hres
        rw [hb]
        change (do
          let disc ← (recs 0).2.bounds.discretized m.resolution true
          (CellBounds.fromBounds (m₀.bounds.enclosing disc) m.resolution).discretized m.tileSize) = _
        rw [hres, htile]
      rw [this, hT0] at g2
      cases g2
      exact g3
    · have hP1 : Placed (m.setTrackChanges true) T ρ := placed_of_shape hP rfl rfl rfl rfl
      have := C35_covered hP1 (hreq 0) (Fp.lit 0 : F32)
        (by change Aligned m.tileSize T; rw [htile]; exact hTal) (fun b' hb' => by
          rw [discretized_eq hP1.res (hreq 0)] at hb'
          cases hb'
          rw [fromBounds_eq _ hP1.res.1 hP1.res.pos]
          change CellSub (discCells m.resolution _) T
          rw [hres]; exact hTsub)
      rw [this] at e1
      cases e1
      exact hP1
  have inv : ∀ {s : State (GridMap D F32 F32) (Verif.Cell D) (Point D F32)},
      Reach (occOps nm recs ord) n m₀ s → s.map.resolution = m₀.resolution ∧
        s.map.tileSize = m₀.tileSize ∧ (Placed s.map CellBounds.empty ρ ∨ Placed s.map T ρ) := by
    intro s hr
    induction hr with
    | init => exact ⟨rfl, rfl, .inl h0⟩
    | step s s' _ hs ih =>
      obtain ⟨i1, i2, i3⟩ := ih
      cases hs
      case wIntegrate k r m h1 h2 =>
        obtain ⟨j1, j2, j3⟩ := grow i1 i2 i3 h2
        exact ⟨j1, j2, .inr j3⟩
      case wReset k r h1 =>
        refine ⟨i1, i2, ?_⟩
        rcases i3 with h | h
        · exact .inl (placed_of_shape h rfl rfl rfl rfl)
        · exact .inr (placed_of_shape h rfl rfl rfl rfl)
      all_goals exact ⟨i1, i2, i3⟩
  intro s k r m' hs _ hi
  obtain ⟨i1, i2, i3⟩ := inv hs
  obtain ⟨j1, -, j3⟩ := grow i1 i2 i3 hi
  rcases i3 with i3 | i3
  · right
    intro c hg
    have h1 := hg ⟨0, hD0⟩
    have := i3.shape ⟨0, hD0⟩
    simp only [CellBounds.empty] at this
    omega
  · left
    rw [j3.bounds, i3.bounds, j1, i1]

/-- C55 holds if all recordings have the same extent. -/
theorem C55_same_extent {nm : LidarNoiseModel F32} {recs : ℕ → Point D F32 × PointCloud D F32}
    {ord : ℕ → List (Verif.Cell D) → List (Verif.Cell D)} {n : ℕ} {m₀ : GridMap D F32 F32} {ρ : ℚ}
    (hD : D ≤ 3) (h0 : Placed m₀ CellBounds.empty ρ) (ht0 : m₀.changedCells = [])
    (hth : FLe (Fp.lit 0) nm.threshold) (ho : ∀ r, IsOrder (ord r)) (hD0 : 0 < D)
    (hc : ∀ r, CloudInRange (recs r).2 ρ) (hsame : ∀ r, (recs r).2.bounds = (recs 0).2.bounds)
    {s : State (GridMap D F32 F32) (Verif.Cell D) (Point D F32)} (hr : Reach (occOps nm recs ord) n m₀ s)
    (hm : s.main = .clearFlag ∨ s.main = .spawn) :
    ∀ c, MachineCell c → s.tracked c =
      if nm.occupied s.map c = .ok true then some (s.map.pointFromCell c) else none :=
  C55_occupancy_map hD h0 ht0 hth ho hD0 hc (extent_fix hD h0 ho hD0 hc hsame) hr hm

/-- Its hypotheses hold for a sensor that repeats the first small recording. -/
example : Placed smallMap CellBounds.empty 1 ∧ FLe (Fp.lit 0) smallNM.threshold ∧
    ∀ r : ℕ, CloudInRange ((fun _ => smallRecs 0) r).2 1 :=
  ⟨smallMap_placed, by decide +kernel, fun _ => small_inRange 0⟩

/-- C55 does not hold once the map grows downwards. With one sensor and two recordings, both in the
working range, there is a run after which the map reports the cell of the first point occupied and the
renderer, having processed every batch, does not draw it: the second integration has shifted the
indices of the grid, and the shifted cells are not reported as changed. -/
theorem C55_reindex_refuted :
    ∃ s : State (GridMap 2 F32 F32) (Verif.Cell 2) (Point 2 F32),
      Reach (occOps smallNM smallRecs fun _ => id) 2 smallMap s ∧ s.main = .clearFlag ∧
      smallNM.occupied s.map ![7, 1] = .ok true ∧ s.tracked ![7, 1] = none := by
  have h : (do
      let m1 ← smallNM.integratePointCloud id 20 (smallMap.setTrackChanges true) (smallRecs 0).1 (smallRecs 0).2
      let m1' := m1.clearChangedCells.setTrackChanges false
      let m2 ← smallNM.integratePointCloud id 20 (m1'.setTrackChanges true) (smallRecs 1).1 (smallRecs 1).2
      let b1 ← m1.changedCells.mapM (smallNM.occupied m1')
      let b2 ← m2.changedCells.mapM (smallNM.occupied (m2.clearChangedCells.setTrackChanges false))
      let b ← smallNM.occupied m2 ![7, 1]
      if b = true ∧ ![7, 1] ∉ m1.changedCells ∧ ![7, 1] ∉ m2.changedCells then Except.ok ()
      else .error .fuel) = .ok () := by decide +kernel
  rw [M.bind_eq_ok] at h
  obtain ⟨m1, h1, h⟩ := h
  simp only at h
  rw [M.bind_eq_ok] at h
  obtain ⟨m2, h2, h⟩ := h
  rw [M.bind_eq_ok] at h
  obtain ⟨b1, h3, h⟩ := h
  rw [M.bind_eq_ok] at h
  obtain ⟨b2, h4, h⟩ := h
  rw [M.bind_eq_ok] at h
  obtain ⟨b, h5, h⟩ := h
  split_ifs at h with h6
  obtain ⟨rfl, h6, h7⟩ := h6
  have r0 : Reach (occOps smallNM smallRecs fun _ => id) 2 smallMap
      (idle smallMap [] (fun _ => none) [] 0) := Reach.init
  have r1 := reach_cycle r0 rfl (by decide) (occOps_integrate ⟨20, h1⟩)
  obtain ⟨t1, p1, q1⟩ := processCells_other (fun _ => none) h3
  have r2 := reach_cycle r1 p1 (by decide) (occOps_integrate ⟨20, h2⟩)
  obtain ⟨t2, p2, q2⟩ := processCells_other t1 h4
  have r3 := reach_drawn r2 p2
  refine ⟨_, r3, rfl, h5, ?_⟩
  exact (q2 _ h7).trans (q1 _ h6)

end Stale

end Verif.Props
