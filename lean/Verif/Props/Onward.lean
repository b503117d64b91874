import Verif.Props.Settle
import Verif.Props.Alive
import Verif.Props.Edge
import Verif.Props.VizWitness

/-!
# C108: two rounds are enough
-/

namespace Verif.Props
open Scalar Spec

section
variable {D : ℕ} {nm : LidarNoiseModel F32} {recs : ℕ → Point D F32 × PointCloud D F32} {n : ℕ}
  {m₀ m m' : GridMap D F32 F32} {ρ : ℚ} {cb : CellBounds D}
  {hist hist' : List (GridMap D F32 F32 × Point D F32 × PointCloud D F32)}

/-- Whether a scan can be integrated depends on the cells of the map, not on its values, and not on the hash orders. -/
lemma integrates_congr {ord ord' : List (Cell D) → List (Cell D)} {origin : Point D F32} {cloud : PointCloud D F32}
    (hD : D ≤ 3) (hP : Placed m cb ρ) (hP' : Placed m' cb ρ) (hr : m'.resolution = m.resolution)
    (ht : m'.tileSize = m.tileSize) (hc : CloudInRange cloud ρ) (ho : IsOrder ord) (ho' : IsOrder ord')
    {m1 : GridMap D F32 F32} (h : Integrates ord nm m origin cloud m1) :
    ∃ m1', Integrates ord' nm m' origin cloud m1' := by
  have hreq := request_of_cloud hP.res.pos hc
  have hreq' := request_of_cloud hP'.res.pos hc
  obtain ⟨me, free, occ, h1, h2, h3, h4⟩ := (C38_returns_iff ho).mp ⟨m1, h⟩
  obtain ⟨me0, ncb, e1, e0, e2, -, -⟩ := expand_spec hD hP hreq (Fp.lit 0 : F32)
  rw [h1] at e1
  cases e1
  obtain ⟨me', ncb', e1', e0', e2', -, -⟩ := expand_spec hD hP' hreq' (Fp.lit 0 : F32)
  have hb : m'.bounds = m.bounds := by rw [hP.bounds, hP'.bounds, hr]
  have hn : m'.newCellBounds cloud.bounds = m.newCellBounds cloud.bounds := by
    unfold GridMap.newCellBounds; rw [hb, hr, ht]
  rw [hn, e0] at e0'
  cases e0'
  obtain ⟨k1, k2, k3⟩ := expand_same hb hr ht h1 e1'
  have hsh : me'.data.shape = me.data.shape := by
    funext i
    have := e2.shape i
    have := e2'.shape i
    omega
  exact (C38_returns_iff ho').mpr ⟨me', free, occ, e1', by rw [k1, k2]; exact h2,
    fun c hc => (inGrid_congr hsh c).mpr (h3 c hc), fun c hc => (inGrid_congr hsh c).mpr (h4 c hc)⟩

lemma playback_take (h : Playback nm m₀ hist m) {k : ℕ} (hk : k ≤ hist.length) :
    ∃ mk, Playback nm m₀ (hist.take k) mk := by
  induction hist using List.reverseRecOn generalizing m with
  | nil => exact ⟨m, by simpa using h⟩
  | append_singleton l e ih =>
    rcases Nat.lt_or_ge l.length k with hlt | hle
    · exact ⟨m, by rw [List.take_of_length_le (by simp; omega)]; exact h⟩
    · obtain ⟨mb, ord, a1, -⟩ := playback_snoc h rfl
      rw [List.take_append_of_le_length hle]
      exact ih a1 hle

lemma cyclic_take {α : Type} {recs : ℕ → α} {n k j : ℕ} (h : j ≤ k) : (cyclic recs n k).take j = cyclic recs n j := by
  unfold cyclic
  rw [← List.map_take, List.take_range, min_eq_left h]

lemma cyclic_range (hn : 0 < n) (hc : ∀ r < n, CloudInRange (recs r).2 ρ) {k : ℕ}
    (hk : hist.map (·.2) = cyclic recs n k) : ∀ e ∈ hist, CloudInRange e.2.2 ρ := by
  intro e he
  have : e.2 ∈ cyclic recs n k := hk ▸ List.mem_map_of_mem he
  obtain ⟨j, -, hj⟩ := List.mem_map.mp this
  rw [← hj]
  exact hc _ (Nat.mod_lt _ hn)

lemma cyclic_length {α : Type} {recs : ℕ → α} {n k : ℕ} : (cyclic recs n k).length = k := by simp [cyclic]

/-- If some playback got through scan number `k`, every playback of `k` scans can be continued by it. -/
lemma next_returns (hD : D ≤ 3) (hn : 0 < n) (h0 : Placed m₀ cb ρ) (hc : ∀ r < n, CloudInRange (recs r).2 ρ)
    {k : ℕ} (h : Playback nm m₀ hist m) (hs : hist.map (·.2) = cyclic recs n k)
    (h' : Playback nm m₀ hist' m') {j : ℕ} (hs' : hist'.map (·.2) = cyclic recs n j) (hj : k < j)
    {ord : List (Cell D) → List (Cell D)} (ho : IsOrder ord) {m2 : GridMap D F32 F32} (hg : SameGrid m m2) :
    ∃ m1, Integrates ord nm m2 (recs (k % n)).1 (recs (k % n)).2 m1 := by
  have hlen : hist'.length = j := by rw [← cyclic_length (recs := recs) (n := n) (k := j), ← hs', List.length_map]
  obtain ⟨mk, p1⟩ := playback_take h' (k := k + 1) (by omega)
  have p2 : (hist'.take (k + 1)).map (·.2) = cyclic recs n (k + 1) := by
    rw [List.map_take, hs', cyclic_take (by omega)]
  rcases List.eq_nil_or_concat (hist'.take (k + 1)) with hnil | ⟨l, e, hle⟩
  · rw [hnil, cyclic_succ] at p2; simp at p2
  rw [List.concat_eq_append] at hle
  rw [hle] at p1 p2
  rw [List.map_append, cyclic_succ] at p2
  obtain ⟨p3, p4⟩ := List.append_inj' p2 rfl
  have he : e.2 = recs (k % n) := by simpa using p4
  obtain ⟨mb, ordb, a1, a2, a3, -⟩ := playback_snoc p1 rfl
  obtain ⟨⟨c1, c2, c3⟩, -⟩ := C106_same_bounds a1 h (hs.trans p3.symm)
  obtain ⟨cb1, q1, -⟩ := C69_values hD h0 (cyclic_range hn hc p3) a1
  obtain ⟨cb2, q2, -⟩ := C69_values hD h0 (cyclic_range hn hc hs) h
  have hcb : cb2 = cb1 := by rw [← q1.cells, ← q2.cells, c1, c2]
  subst hcb
  obtain ⟨g1, g2, g3, g4⟩ := hg
  rw [he] at a3
  exact integrates_congr hD q1 (placed_of_shape q2 g3 g2 g4 (by rw [g1])) (g3.trans c2) (g4.trans c3)
    (hc _ (Nat.mod_lt _ hn)) a2 ho a3

/-- C108: recordings that could be played twice in turn, with whatever hash orders, can be played for ever. -/
theorem C108_goes_on (hD : 1 ≤ D ∧ D ≤ 3) (hn : 0 < n) (h0 : Placed m₀ CellBounds.empty ρ)
    (hc : ∀ r < n, CloudInRange (recs r).2 ρ) (h : Playback nm m₀ hist m)
    (hs : hist.map (·.2) = cyclic recs n (2 * n)) (L : ℕ) :
    ∃ hist' m', Playback nm m₀ hist' m' ∧ hist'.map (·.2) = cyclic recs n L := by
  have hlen : hist.length = 2 * n := by rw [← cyclic_length (recs := recs) (n := n) (k := 2 * n), ← hs, List.length_map]
  rcases Nat.lt_or_ge L (2 * n) with hL | hL
  · obtain ⟨mk, p1⟩ := playback_take h (k := L) (by omega)
    exact ⟨_, mk, p1, by rw [List.map_take, hs, cyclic_take (by omega)]⟩
  · induction L, hL using Nat.le_induction with
    | base => exact ⟨hist, m, h, hs⟩
    | succ L hL ih =>
      obtain ⟨l, ml, p1, p2⟩ := ih
      have hll : l.length = L := by rw [← cyclic_length (recs := recs) (n := n) (k := L), ← p2, List.length_map]
      -- the same recording was integrated one round ago, into a map of the same cells
      obtain ⟨mk, q1⟩ := playback_take p1 (k := L - n + 1) (by omega)
      have q2 : (l.take (L - n + 1)).map (·.2) = cyclic recs n (L - n + 1) := by
        rw [List.map_take, p2, cyclic_take (by omega)]
      rcases List.eq_nil_or_concat (l.take (L - n + 1)) with hnil | ⟨l', e, hle⟩
      · rw [hnil, cyclic_succ] at q2; simp at q2
      rw [List.concat_eq_append] at hle
      rw [hle] at q1 q2
      rw [List.map_append, cyclic_succ] at q2
      obtain ⟨q3, q4⟩ := List.append_inj' q2 rfl
      have he : e.2 = recs (L % n) := by
        have : e.2 = recs ((L - n) % n) := by simpa using q4
        rw [this, ← Nat.mod_eq_sub_mod (by omega)]
      obtain ⟨mb, ord, a1, a2, a3, -⟩ := playback_snoc q1 rfl
      have hl' : l'.length = L - n := by rw [← cyclic_length (recs := recs) (n := n) (k := L - n), ← q3, List.length_map]
      obtain ⟨first, m1, f1, f2, -⟩ := C107_rounds hD.2 hn h0 hc p1 (by rw [hll]; exact p2) (by omega)
      obtain ⟨x1, x2, cb, x3, x4, -⟩ := after_round hD hn h0 hc f1 f2 p1 (by rw [hll]; exact p2) (by omega)
      obtain ⟨y1, y2, cb', y3, y4, -⟩ := after_round hD hn h0 hc f1 f2 a1 (by rw [hl']; exact q3) (by omega)
      have hcb : cb' = cb := by rw [← x3.cells, ← y3.cells]
      subst hcb
      obtain ⟨-, -, t1, -⟩ := playback_boxes hD.2 h0 (cyclic_range hn hc p2) p1
      obtain ⟨-, -, t2, -⟩ := playback_boxes hD.2 h0 (cyclic_range hn hc q3) a1
      rw [he] at a3
      obtain ⟨mn, hmn⟩ := integrates_congr hD.2 y4 x4 (x2.trans y2.symm) (t1.trans t2.symm)
        (hc _ (Nat.mod_lt _ hn)) a2 a2 a3
      exact ⟨_, mn, .scan p1 a2 hmn, by rw [List.map_append, p2, cyclic_succ]; rfl⟩
end

/-! ## The visualizer -/

open Viz

section
variable {D M N T n : ℕ} {nm : LidarNoiseModel F32} {recs : ℕ → Point D F32 × PointCloud D F32}
  {m₀ m : GridMap D F32 F32} {ρ : ℚ} {hist : List (GridMap D F32 F32 × Point D F32 × PointCloud D F32)}
  {ord ord' : ℕ → List (Verif.Cell D) → List (Verif.Cell D)}
  {s s' : State (GridMap D F32 F32) (Verif.Cell D) (Point D F32)}

lemma within_range {cloud : PointCloud D F32} (hpos : 0 < ρ) (hM : M ≤ 2 ^ 18) (h : WithinCells M ρ cloud) :
    CloudInRange cloud ρ := by
  intro p hp i
  obtain ⟨y, h1, h2⟩ := h p hp i
  have : (M : ℚ) ≤ 2 ^ 18 := by exact_mod_cast hM
  exact ⟨y, h1, h2.trans (by gcongr)⟩

/-- A worker that is integrating is the last one, and all scans before it have been carried out. -/
lemma integrating_playback (hn : 0 < n) (ho : ∀ r, IsOrder (ord r)) (hr : Reach (occOps nm recs ord) n m₀ s) {k r : ℕ}
    (hk : s.workers[k]? = some (.integrate, r)) :
    r = k % n ∧ ∃ hist, Playback nm m₀ hist s.map ∧ hist.map (·.2) = cyclic recs n k := by
  obtain ⟨hist, p1, p2, p3⟩ := playback_carried hn ho hr
  have h1 := p3.before k _ r hk (.inr rfl)
  have h2 := ((Reach.inv hr).busy k _ r hk (by simp [Busy])).2.2
  refine ⟨(C54_cyclic hr hn).2.2 k _ r hk, hist, p1, ?_⟩
  rw [p2]
  congr 1
  omega

/-- C108: at which scan the visualizer stops for good, if it does, does not depend on the schedule or on the hash orders:
if in some run the integration number `k` is under way and will not return, no run gets beyond it. -/
theorem C108_same_scan (hD : D ≤ 3) (hn : 0 < n) (h0 : Placed m₀ CellBounds.empty ρ)
    (hc : ∀ r < n, CloudInRange (recs r).2 ρ) (ho : ∀ r, IsOrder (ord r)) (ho' : ∀ r, IsOrder (ord' r))
    (hr : Reach (occOps nm recs ord) n m₀ s) {k r : ℕ} (hk : s.workers[k]? = some (.integrate, r))
    (hno : ¬ ∃ m', Integrates (ord r) nm (s.map.setTrackChanges true) (recs r).1 (recs r).2 m')
    (hr' : Reach (occOps nm recs ord') n m₀ s') :
    s'.workers.length ≤ k + 1 ∧ ∀ (j r' : ℕ), s'.workers[j]? = some (.integrate, r') → j = k →
      ¬ ∃ m', Integrates (ord' r') nm (s'.map.setTrackChanges true) (recs r').1 (recs r').2 m' := by
  obtain ⟨hrk, hist, p1, p2⟩ := integrating_playback hn ho hr hk
  have key : ∀ hist' m' j, Playback nm m₀ hist' m' → hist'.map (·.2) = cyclic recs n j → ¬ k < j := by
    intro hist' m' j q1 q2 hj
    rw [hrk] at hno
    exact hno (next_returns hD hn h0 hc p1 p2 q1 q2 hj (ho _) ⟨rfl, rfl, rfl, rfl⟩)
  refine ⟨?_, ?_⟩
  · obtain ⟨hist', q1, q2, -, q4, -⟩ := C69_playback hn ho' hr'
    have := key _ _ _ q1 q2
    omega
  · rintro j r' hj rfl ⟨m', hm⟩
    obtain ⟨hrj, hist', q1, q2⟩ := integrating_playback hn ho' hr' hj
    refine key _ _ (j + 1) (.scan (.marks (m' := s'.map.setTrackChanges true) q1 ⟨rfl, rfl, rfl, rfl⟩) (ho' r') hm) ?_ (by omega)
    rw [List.map_append, q2, cyclic_succ, hrj]
    rfl

/-- C108, for the visualizer: if the recordings could be played twice in turn, then in every run nothing ever panics,
every integration that is reached returns, and some thread can always go on. -/
theorem C108_visualizer (hD : D = 2 ∨ D = 3) (hn : 0 < n) (h0 : Placed m₀ CellBounds.empty ρ)
    (ht0 : m₀.changedCells = []) (ho : ∀ r, IsOrder (ord r)) (hM1 : 1 ≤ M) (hM18 : M + m₀.tileSize + 1 ≤ 2 ^ 18)
    (hcl : ∀ r < n, WithinCells M ρ (recs r).2) (h : Playback nm m₀ hist m)
    (hs : hist.map (·.2) = cyclic recs n (2 * n)) (hr : Reach (occOps nm recs ord) n m₀ s) :
    Alive s ∧ (∀ (k r : ℕ), s.workers[k]? = some (.integrate, r) →
      ∃ m', Integrates (ord r) nm (s.map.setTrackChanges true) (recs r).1 (recs r).2 m') ∧
    ∃ s', Step (occOps nm recs ord) n s s' ∧ s' ≠ s := by
  have hc : ∀ r < n, CloudInRange (recs r).2 ρ := fun r hr => within_range h0.res.pos (by omega) (hcl r hr)
  have hret : ∀ {s : State (GridMap D F32 F32) (Verif.Cell D) (Point D F32)} {k r : ℕ},
      Reach (occOps nm recs ord) n m₀ s → s.workers[k]? = some (.integrate, r) →
      ∃ m', Integrates (ord r) nm (s.map.setTrackChanges true) (recs r).1 (recs r).2 m' := by
    intro s k r hr hk
    obtain ⟨hrk, hist', p1, p2⟩ := integrating_playback hn ho hr hk
    obtain ⟨long, ml, q1, q2⟩ := C108_goes_on (by omega) hn h0 hc h hs (k + 1)
    have := next_returns (by omega) hn h0 hc p1 p2 q1 q2 (Nat.lt_succ_self k) (ho r)
      (m2 := s.map.setTrackChanges true) ⟨rfl, rfl, rfl, rfl⟩
    rwa [← hrk] at this
  have key := alive_reach (ops := occOps nm recs ord) (m₀ := m₀) hn (I := MapOk M m₀.tileSize ρ)
    (R := fun m c => MachineCell c ∧ InGrid m c)
    ⟨⟨_, h0, .inl rfl⟩, rfl, by rw [ht0]; simp⟩
    (fun s k r hs _ hk => by
      obtain ⟨m', hm⟩ := hret hs hk
      exact ⟨m', occOps_integrate hm⟩)
    (fun r hr m m' hm hi => mapOk_step hD hM1 hM18 (ho r) (hcl r hr) hm (occOps_ret hi))
    (fun m hm => by
      obtain ⟨⟨cb, hP, hl⟩, hT', -⟩ := hm
      exact ⟨⟨⟨cb, placed_of_shape hP rfl rfl rfl rfl, hl⟩, hT', fun c hc => by cases hc⟩, fun c hc => hc⟩)
    (fun m hm c hc => hm.2.2 c hc)
    (fun m c hc => by
      obtain ⟨v, hv⟩ := (C31_get m hc.1).1 hc.2
      obtain ⟨b, hb, -⟩ := (C43_occupied (nm := nm) hc.1).1 v hv
      simp [occOps, hb, Except.toOption])
    hr
  obtain ⟨k1, -, k3⟩ := key
  refine ⟨k1, fun k r hk => hret hr hk, C52_no_deadlock hr k1.1 k1.2 fun k r hk => ?_⟩
  obtain ⟨m', hm⟩ := k3 k r hk
  rw [hm]
  simp

/-- C108: so if a single run has gone through the recordings twice, every fair run, on any schedule and with any hash
orders, plays every number of scans and draws their changes. -/
theorem C108_every_run (hD : D = 2 ∨ D = 3) (hn : 0 < n) (h0 : Placed m₀ CellBounds.empty ρ)
    (ht0 : m₀.changedCells = []) (ho : ∀ r, IsOrder (ord r)) (ho' : ∀ r, IsOrder (ord' r)) (hM1 : 1 ≤ M)
    (hM18 : M + m₀.tileSize + 1 ≤ 2 ^ 18) (hcl : ∀ r < n, WithinCells M ρ (recs r).2)
    (hr : Reach (occOps nm recs ord) n m₀ s) (hw : 2 * n < s.workers.length)
    {σ : ℕ → State (GridMap D F32 F32) (Verif.Cell D) (Point D F32)} (h : Execution (occOps nm recs ord') n m₀ σ)
    (hf : Fair (occOps nm recs ord') n σ) (k : ℕ) : ∃ i, (σ i).main = .clearFlag ∧ (σ i).workers.length = k := by
  obtain ⟨hist, p1, p2, -, p4, -⟩ := C69_playback hn ho hr
  obtain ⟨mk, q1⟩ := playback_take p1 (k := 2 * n) (by omega)
  exact C82_fair h hf (fun i => (C108_visualizer hD hn h0 ht0 ho' hM1 hM18 hcl q1
    (by rw [List.map_take, p2, cyclic_take (by omega)]) (exec_reach h i)).2.2) k
end

/-! ## Examples -/

lemma flicker_within (r : ℕ) : WithinCells 4 1 (flickerRecs r).2 := by
  intro p hp i
  rw [flickerRecs, C13_points_fromPoints, List.mem_singleton] at hp
  subst hp
  refine ⟨![if r % 2 = 0 then 9 / 4 else 13 / 4, 1 / 4] i, ?_, ?_⟩ <;>
    rcases Nat.mod_two_eq_zero_or_one r with h | h <;> simp only [h] <;> revert i <;> decide +kernel

lemma flicker_twice : ∃ hist m, Playback smallNM smallMap hist m ∧ hist.map (·.2) = cyclic flickerRecs 2 (2 * 2) := by
  obtain ⟨m, hm⟩ := Option.isSome_iff_exists.mp flicker_values.1
  cases h : flicker 4 with
  | error e => rw [h] at hm; cases hm
  | ok m =>
    obtain ⟨hist, p1, p2⟩ := flicker_plays 4 h
    exact ⟨hist, m, p1, p2⟩

/-- The two recordings of the example for C107 were played twice, so they are played for ever, and the map settles. -/
example : (∀ L, ∃ hist m, Playback smallNM smallMap hist m ∧ hist.map (·.2) = cyclic flickerRecs 2 L) ∧
    (∀ s, Reach (occOps smallNM flickerRecs fun _ => id) 2 smallMap s →
      Alive s ∧ ∃ s', Step (occOps smallNM flickerRecs fun _ => id) 2 s s' ∧ s' ≠ s) ∧
    ∃ K, ∀ L, K ≤ L → ∃ hist m hist' m', Playback smallNM smallMap hist m ∧ Playback smallNM smallMap hist' m' ∧
      hist.map (·.2) = cyclic flickerRecs 2 L ∧ hist'.map (·.2) = cyclic flickerRecs 2 (L + 2) ∧
      ∃ cb, Placed m cb 1 ∧ Placed m' cb 1 ∧ ∀ w, ∃ v v', Before m cb w v ∧ Before m' cb w v' ∧ Alike v v' := by
  obtain ⟨hist, m, p1, p2⟩ := flicker_twice
  have hgo := C108_goes_on ⟨by norm_num, by norm_num⟩ (by norm_num) smallMap_placed (fun r _ => flicker_inRange r) p1 p2
  refine ⟨hgo, fun s hs => ?_, ?_⟩
  · obtain ⟨a, -, b⟩ := C108_visualizer (.inl rfl) (by norm_num) smallMap_placed rfl
      (fun _ l => List.Perm.refl l) (M := 4) (by norm_num) (by decide) (fun r _ => flicker_within r) p1 p2 hs
    exact ⟨a, b⟩
  · obtain ⟨K, hK⟩ := C107_settles (nm := smallNM) (a := 1) (b := -1) ⟨by norm_num, by norm_num⟩
      (by norm_num : 0 < 2) smallMap_placed (fun r _ => flicker_inRange r) (by decide +kernel) (by decide +kernel)
      (by decide +kernel) (by decide +kernel)
    refine ⟨K, fun L hL => ?_⟩
    obtain ⟨l1, m1, q1, q2⟩ := hgo L
    obtain ⟨l2, m2, r1, r2⟩ := hgo (L + 2)
    have e1 : l1.length = L := by rw [← cyclic_length (recs := flickerRecs) (n := 2) (k := L), ← q2, List.length_map]
    have e2 : l2.length = L + 2 := by
      rw [← cyclic_length (recs := flickerRecs) (n := 2) (k := L + 2), ← r2, List.length_map]
    obtain ⟨-, -, h⟩ := hK l1 m1 l2 m2 q1 r1 (by rw [e1]; exact q2) (by rw [e2]; exact r2) (by omega) (by omega)
      (by omega)
    exact ⟨l1, m1, l2, m2, q1, r1, q2, r2, h⟩

/-- A point in the strip at the upper edge of the cells of the map (C44). -/
def edgeRecs (_ : ℕ) : Point 2 F32 × PointCloud 2 F32 :=
  (![Fp.lit (1 / 4), Fp.lit (1 / 4)], PointCloud.fromPoints [![Fp.lit (15 / 4), Fp.lit (1 / 4)]])

lemma edge_panics : ((smallMap.setTrackChanges true).expandBounds (edgeRecs 0).2.bounds (Fp.lit 0)).toOption.isSome = true ∧
    (match smallNM.integratePointCloud id 40 (smallMap.setTrackChanges true) (edgeRecs 0).1 (edgeRecs 0).2 with
      | .error (.panic .index) => true | _ => false) = true := by
  decide +kernel

lemma edge_inRange (r : ℕ) : CloudInRange (edgeRecs r).2 1 := by
  intro p hp i
  rw [edgeRecs, C13_points_fromPoints, List.mem_singleton] at hp
  subst hp
  refine ⟨![15 / 4, 1 / 4] i, ?_, ?_⟩ <;> revert i <;> decide +kernel

lemma edge_stops : ¬ ∃ m', Integrates id smallNM (smallMap.setTrackChanges true) (edgeRecs 0).1 (edgeRecs 0).2 m' := by
  rintro ⟨m', fuel, h⟩
  obtain ⟨h1, h2⟩ := edge_panics
  cases he : (smallMap.setTrackChanges true).expandBounds (edgeRecs 0).2.bounds (Fp.lit 0) with
  | error e => rw [he] at h1; cases h1
  | ok me =>
    refine integrate_panics_not_ok he (n1 := 40) ?_ h
    split at h2
    · assumption
    · cases h2

/-- With that recording the program stops at the first scan, in every run and for every order of the cells. -/
example {ord' : ℕ → List (Cell 2) → List (Cell 2)} (ho' : ∀ r, IsOrder (ord' r))
    {s' : State (GridMap 2 F32 F32) (Cell 2) (Point 2 F32)} (hr' : Reach (occOps smallNM edgeRecs ord') 1 smallMap s') :
    s'.workers.length ≤ 1 := by
  have h1 : Reach (occOps smallNM edgeRecs fun _ => id) 1 smallMap (idle smallMap [] (fun _ => none) [] 0) := Reach.init
  have h2 := reach_working (reach_drawn h1 rfl) (by norm_num)
  exact (C108_same_scan (k := 0) (r := 0) (by norm_num) (by norm_num) smallMap_placed (fun r _ => edge_inRange r)
    (fun _ l => List.Perm.refl l) ho' h2 rfl edge_stops hr').1

/-- With the recordings of the first example there is a run with five workers, so every fair run, whatever the order of
the cells, comes to its thousandth worker. -/
example {ord' : ℕ → List (Cell 2) → List (Cell 2)} (ho' : ∀ r, IsOrder (ord' r)) :
    (∃ σ, Execution (occOps smallNM flickerRecs ord') 2 smallMap σ ∧ Fair (occOps smallNM flickerRecs ord') 2 σ) ∧
    ∀ σ, Execution (occOps smallNM flickerRecs ord') 2 smallMap σ → Fair (occOps smallNM flickerRecs ord') 2 σ →
      ∃ i, (σ i).main = .clearFlag ∧ (σ i).workers.length = 1000 := by
  obtain ⟨hist, m, p1, p2⟩ := flicker_twice
  have ho : ∀ r : ℕ, IsOrder ((fun _ => id : ℕ → List (Cell 2) → List (Cell 2)) r) := fun _ l => List.Perm.refl l
  have hgo : ∀ {ord : ℕ → List (Cell 2) → List (Cell 2)}, (∀ r, IsOrder (ord r)) → ∀ s,
      Reach (occOps smallNM flickerRecs ord) 2 smallMap s → ∃ s', Step (occOps smallNM flickerRecs ord) 2 s s' ∧ s' ≠ s :=
    fun ho s hs => (C108_visualizer (.inl rfl) (by norm_num) smallMap_placed rfl ho (M := 4) (by norm_num) (by decide)
      (fun r _ => flicker_within r) p1 p2 hs).2.2
  refine ⟨fair_exists (hgo ho'), fun σ' h' hf' => ?_⟩
  obtain ⟨σ, h, hf⟩ := fair_exists (hgo ho)
  obtain ⟨i, -, hi⟩ := C82_fair h hf (fun i => hgo ho _ (exec_reach h i)) 5
  exact C108_every_run (.inl rfl) (by norm_num) smallMap_placed rfl ho ho' (M := 4) (by norm_num)
    (by decide) (fun r _ => flicker_within r) (exec_reach h i) (by omega) h' hf' 1000

end Verif.Props
