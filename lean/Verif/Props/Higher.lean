import Verif.Spec.Higher
import Verif.Props.Onward
import Verif.Props.Math

/-!
# C109: a noise model that counts higher
-/

namespace Verif.Props
open Scalar Spec

section
variable {f : Fmt} {nm1 nm2 : LidarNoiseModel (Fp f)}

lemma add_mono_both {x y a b : Fp f} {p q : ℚ} (ha : a.Is p) (hb : b.Is q) (h : FLe x y) (hab : FLe a b) :
    FLe (x.add a) (y.add b) := by
  refine Fp.FLe_trans (Fp.add_mono_right ha h) ?_
  obtain ⟨_, _, _, rfl⟩ := ha
  obtain ⟨_, _, _, rfl⟩ := hb
  rcases Fp.FLe_cases hab with ⟨p', q', ⟨_, _, _, e1⟩, ⟨_, _, _, e2⟩, hpq⟩ | ⟨h1, -⟩ | ⟨h1, -⟩
  · cases e1
    cases e2
    rcases y with _ | s | ⟨r, _, _, _⟩
    · cases h.2.1
    · exact ⟨rfl, rfl, le_refl _⟩
    · exact Fp.FLe_ofRat (by linarith)
  · cases h1
  · cases h1

/-- C109: what one scan makes of a value is monotone in the value and in the noise model. -/
theorem C109_step (h : Higher nm1 nm2) (f1 : FiniteSteps nm1) (f2 : FiniteSteps nm2) (s : Seen) {v v' : Fp f}
    (hv : FLe v v') : FLe (Seen.apply nm1 v s) (Seen.apply nm2 v' s) := by
  obtain ⟨⟨a1, ha1⟩, b1, hb1⟩ := f1
  obtain ⟨⟨a2, ha2⟩, b2, hb2⟩ := f2
  cases s
  · have h1 := add_mono_both ha1 ha2 hv h.hit
    exact Fp.le_min (Fp.FLe_trans (Fp.min_le_left h1.1 h.max.1) h1) (Fp.FLe_trans (Fp.min_le_right h1.1 h.max.1) h.max)
  · have h1 := add_mono_both hb1 hb2 hv h.miss
    exact Fp.max_le (Fp.FLe_trans h1 (Fp.le_max_left h1.2.1 h.min.2.1)) (Fp.FLe_trans h.min (Fp.le_max_right h1.2.1 h.min.2.1))
  · exact hv

/-- C109: raising the probabilities given to `new`, with any monotone logarithm, makes a higher noise model. -/
theorem C109_new [Libm (Fp f)] (hl : GoodLibm f) {hit miss mn mx th range hit' miss' mn' mx' th' : Fp f}
    (h1 : LidarNoiseModel.new hit miss mn mx th range = .ok nm1)
    (h2 : LidarNoiseModel.new hit' miss' mn' mx' th' range = .ok nm2)
    (hh : FLe hit hit') (hm : FLe miss miss') (hn : FLe mn mn') (hx : FLe mx mx') :
    Higher nm1 nm2 ∧ (FLe th' th → FLe nm2.threshold nm1.threshold) := by
  have hp : ∀ {a b c d e : Fp f} {nm}, LidarNoiseModel.new a b c d e range = .ok nm →
      (∀ p ∈ [a, b, c, d, e], FLe (Fp.lit 0) p ∧ FLe p (Fp.lit 1)) ∧
      nm = ⟨logoddsFromProbability a, logoddsFromProbability b, logoddsFromProbability c, logoddsFromProbability d,
        logoddsFromProbability e, range⟩ := by
    intro a b c d e nm h
    have hp : ∀ p ∈ [a, b, c, d, e], FLe (Fp.lit 0) p ∧ FLe p (Fp.lit 1) := by
      by_contra hn
      rw [(C45_new a b c d e range).2 hn] at h
      cases h
    refine ⟨hp, ?_⟩
    unfold LidarNoiseModel.new at h
    split at h
    · exact (Except.ok.inj h).symm
    · cases h
  obtain ⟨p1, rfl⟩ := hp h1
  obtain ⟨p2, rfl⟩ := hp h2
  exact ⟨⟨C46_logodds_monotone hl (p1 _ (by simp)).1 hh (p2 _ (by simp)).2,
    C46_logodds_monotone hl (p1 _ (by simp)).1 hm (p2 _ (by simp)).2,
    C46_logodds_monotone hl (p1 _ (by simp)).1 hx (p2 _ (by simp)).2,
    C46_logodds_monotone hl (p1 _ (by simp)).1 hn (p2 _ (by simp)).2, rfl⟩,
    fun h => C46_logodds_monotone hl (p2 _ (by simp)).1 h (p1 _ (by simp)).2⟩
end

section
variable {D : ℕ} {nm nm1 nm2 : LidarNoiseModel F32} {m₀ m1 m2 : GridMap D F32 F32} {ρ : ℚ} {cb : CellBounds D}
  {hist1 hist2 : List (GridMap D F32 F32 × Point D F32 × PointCloud D F32)}

lemma integrates_swap {ord : List (Cell D) → List (Cell D)} (ho : IsOrder ord) {m m' : GridMap D F32 F32}
    {origin : Point D F32} {cloud : PointCloud D F32} (hr : nm2.maxRange = nm1.maxRange)
    (h : Integrates ord nm1 m origin cloud m') : ∃ m'', Integrates ord nm2 m origin cloud m'' := by
  rw [C38_returns_iff ho, hr, ← C38_returns_iff (nm := nm1) ho]
  exact ⟨m', h⟩

/-- C109: scans that were taken with one noise model can be taken with every other one of the same range limit. -/
theorem C109_plays (hD : D ≤ 3) (h0 : Placed m₀ cb ρ) (hr : nm2.maxRange = nm1.maxRange)
    (hc : ∀ e ∈ hist1, CloudInRange e.2.2 ρ) (h : Playback nm1 m₀ hist1 m1) :
    ∃ hist2 m2, Playback nm2 m₀ hist2 m2 ∧ hist2.map (·.2) = hist1.map (·.2) := by
  induction hist1 using List.reverseRecOn generalizing m1 with
  | nil => exact ⟨[], m₀, .start, rfl⟩
  | append_singleton l e ih =>
    obtain ⟨mb, ord, a1, a2, a3, -⟩ := playback_snoc h rfl
    have hcl : ∀ e ∈ l, CloudInRange e.2.2 ρ := fun e he => hc e (List.mem_append_left _ he)
    obtain ⟨l2, n2, b1, b2⟩ := ih hcl a1
    obtain ⟨⟨c1, c2, c3⟩, -⟩ := C106_same_bounds a1 b1 b2
    obtain ⟨cb1, q1, -⟩ := C69_values hD h0 hcl a1
    obtain ⟨cb2, q2, -⟩ := C69_values hD h0 (fun e he => by
      have : e.2 ∈ l.map (·.2) := b2 ▸ List.mem_map_of_mem he
      obtain ⟨e', he', hx⟩ := List.mem_map.mp this
      rw [← hx]; exact hcl e' he') b1
    have hcb : cb2 = cb1 := by rw [← q1.cells, ← q2.cells, c1, c2]
    subst hcb
    obtain ⟨m3, hm3⟩ := integrates_congr hD q1 q2 c2 c3 (hc _ (by simp)) a2 a2 a3
    obtain ⟨m4, hm4⟩ := integrates_swap a2 hr hm3
    exact ⟨_, m4, .scan b1 a2 hm4, by rw [List.map_append, List.map_append, b2]; rfl⟩

lemma foldSeen_higher (h : Higher nm1 nm2) (f1 : FiniteSteps nm1) (f2 : FiniteSteps nm2) (w : Cell D) {v v' : F32}
    (hv : FLe v v')
    (hf : List.Forall₂ (fun a b => b.2 = a.2 ∧ b.1.bounds = a.1.bounds ∧ b.1.resolution = a.1.resolution) hist1 hist2) :
    FLe (foldSeen nm1 hist1 w v) (foldSeen nm2 hist2 w v') := by
  unfold foldSeen
  induction hf generalizing v v' with
  | nil => exact hv
  | @cons a b _ _ hab _ ih =>
    obtain ⟨t1, t2, t3⟩ := hab
    have e : localCell b.1 w = localCell a.1 w := by unfold localCell; rw [t2, t3]
    rw [List.foldl_cons, List.foldl_cons, t1, t2, t3, e, h.range]
    have := ih (C109_step h f1 f2 (seen a.2.1 a.2.2 a.1.bounds a.1.resolution nm1.maxRange (localCell a.1 w)) hv)
    rw [h.range] at this
    exact this

/-- C109: the same scans taken into the same empty map with two noise models, the second counting higher: the bounds are
the same, and every cell has at least as high a value with the second. -/
theorem C109_playback (hD : 1 ≤ D ∧ D ≤ 3) (h0 : Placed m₀ CellBounds.empty ρ) (h : Higher nm1 nm2)
    (f1 : FiniteSteps nm1) (f2 : FiniteSteps nm2) (hc : ∀ e ∈ hist1, CloudInRange e.2.2 ρ)
    (h1 : Playback nm1 m₀ hist1 m1) (h2 : Playback nm2 m₀ hist2 m2) (hs : hist2.map (·.2) = hist1.map (·.2)) :
    m2.bounds = m1.bounds ∧ m2.resolution = m1.resolution ∧ ∃ cb, Placed m1 cb ρ ∧ Placed m2 cb ρ ∧
      ∀ w, ∃ v v', Before m1 cb w v ∧ Before m2 cb w v' ∧ FLe v v' := by
  obtain ⟨⟨c1, c2, c3⟩, c4⟩ := C106_same_bounds h1 h2 hs
  obtain ⟨cb1, q1, q2⟩ := C69_values hD.2 h0 hc h1
  obtain ⟨cb2, r1, r2⟩ := C69_values hD.2 h0 (fun e he => by
    have : e.2 ∈ hist1.map (·.2) := hs ▸ List.mem_map_of_mem he
    obtain ⟨e', he', hx⟩ := List.mem_map.mp this
    rw [← hx]; exact hc e' he') h2
  have hcb : cb2 = cb1 := by rw [← q1.cells, ← r1.cells, c1, c2]
  subst hcb
  refine ⟨c1, c2, cb2, q1, r1, fun w => ?_⟩
  have hz : worldValue m₀ CellBounds.empty w = .ok (Fp.lit 0) := if_neg fun h => by
    have := h ⟨0, by omega⟩
    simp only [CellBounds.empty] at this
    omega
  have hB : ∀ {m : GridMap D F32 F32} {x : F32}, worldValue m cb2 w = .ok x → Before m cb2 w x := by
    intro m x hv
    refine ⟨fun hin => ?_, fun hin => ?_⟩
    · rw [show worldValue m cb2 w = valueAt m cb2 w from if_pos hin] at hv
      exact hv
    · rw [show worldValue m cb2 w = .ok (Fp.lit 0) from if_neg hin] at hv
      exact (Except.ok.inj hv).symm
  have hv1 := q2 w
  have hv2 := r2 w
  rw [hz] at hv1 hv2
  exact ⟨_, _, hB hv1, hB hv2, foldSeen_higher h f1 f2 w
    ⟨Fp.notNaN_is F32.zero_is, Fp.notNaN_is F32.zero_is, le_refl _⟩ (c4.imp fun a b h => ⟨h.1, h.2.1, h.2.2.1⟩)⟩
end

/-! ## The visualizer -/

open Viz

section
variable {D : ℕ} {nm1 nm2 : LidarNoiseModel F32} {recs : ℕ → Point D F32 × PointCloud D F32} {n : ℕ}
  {m₀ : GridMap D F32 F32} {ρ : ℚ} {ord1 ord2 : ℕ → List (Verif.Cell D) → List (Verif.Cell D)}
  {s1 s2 : State (GridMap D F32 F32) (Verif.Cell D) (Point D F32)}

/-- C109: the log-odds have no part in where the program stops: if with one noise model the integration of scan number
`k` does not return in some run, then with every other one of the same range limit no run gets beyond it. -/
theorem C109_same_scan (hD : D ≤ 3) (hn : 0 < n) (h0 : Placed m₀ CellBounds.empty ρ)
    (hc : ∀ r < n, CloudInRange (recs r).2 ρ) (ho1 : ∀ r, IsOrder (ord1 r)) (ho2 : ∀ r, IsOrder (ord2 r))
    (hrg : nm2.maxRange = nm1.maxRange)
    (hr : Reach (occOps nm1 recs ord1) n m₀ s1) {k r : ℕ} (hk : s1.workers[k]? = some (.integrate, r))
    (hno : ¬ ∃ m', Integrates (ord1 r) nm1 (s1.map.setTrackChanges true) (recs r).1 (recs r).2 m')
    (hr2 : Reach (occOps nm2 recs ord2) n m₀ s2) :
    s2.workers.length ≤ k + 1 ∧ ∀ r', s2.workers[k]? = some (.integrate, r') →
      ¬ ∃ m', Integrates (ord2 r') nm2 (s2.map.setTrackChanges true) (recs r').1 (recs r').2 m' := by
  obtain ⟨hrk, hist, p1, p2⟩ := integrating_playback hn ho1 hr hk
  have key : ∀ hist' m' j, Playback nm2 m₀ hist' m' → hist'.map (·.2) = cyclic recs n j → ¬ k < j := by
    intro hist' m' j q1 q2 hj
    obtain ⟨h3, m3, t1, t2⟩ := C109_plays (nm2 := nm1) hD h0 hrg.symm (cyclic_range hn hc q2) q1
    rw [hrk] at hno
    exact hno (next_returns hD hn h0 hc p1 p2 t1 (t2.trans q2) hj (ho1 _) ⟨rfl, rfl, rfl, rfl⟩)
  refine ⟨?_, ?_⟩
  · obtain ⟨hist', q1, q2, -, q4, -⟩ := C69_playback hn ho2 hr2
    have := key _ _ _ q1 q2
    omega
  · rintro r' hj ⟨m', hm⟩
    obtain ⟨hrj, hist', q1, q2⟩ := integrating_playback hn ho2 hr2 hj
    refine key _ _ (k + 1) (.scan (.marks (m' := s2.map.setTrackChanges true) q1 ⟨rfl, rfl, rfl, rfl⟩) (ho2 r') hm) ?_ (by omega)
    rw [List.map_append, q2, cyclic_succ, hrj]
    rfl

/-- C109, for the visualizer: two runs with the same recordings, after as many scans, the second with a noise model that
counts higher: the maps have the same bounds, and every cell has at least as high a value in the second. -/
theorem C109_visualizer (hD : 1 ≤ D ∧ D ≤ 3) (hn : 0 < n) (h0 : Placed m₀ CellBounds.empty ρ)
    (hc : ∀ r < n, CloudInRange (recs r).2 ρ) (h : Higher nm1 nm2) (f1 : FiniteSteps nm1) (f2 : FiniteSteps nm2)
    (ho1 : ∀ r, IsOrder (ord1 r)) (ho2 : ∀ r, IsOrder (ord2 r))
    (hr1 : Reach (occOps nm1 recs ord1) n m₀ s1) (hr2 : Reach (occOps nm2 recs ord2) n m₀ s2)
    (hm1 : s1.main = .clearFlag ∨ s1.main = .spawn) (hm2 : s2.main = .clearFlag ∨ s2.main = .spawn)
    (hw : s2.workers.length = s1.workers.length) :
    s2.map.bounds = s1.map.bounds ∧ s2.map.resolution = s1.map.resolution ∧
    ∃ cb, Placed s1.map cb ρ ∧ Placed s2.map cb ρ ∧
      ∀ w, ∃ v v', Before s1.map cb w v ∧ Before s2.map cb w v' ∧ FLe v v' := by
  obtain ⟨hist1, p1, p2, -, -, p3⟩ := C69_playback hn ho1 hr1
  obtain ⟨hist2, q1, q2, -, -, q3⟩ := C69_playback hn ho2 hr2
  exact C109_playback hD h0 h f1 f2 (cyclic_range hn hc p2) p1 q1 (by rw [p2, q2, p3 hm1, q3 hm2, hw])

/-- C109, on the screen: if moreover the threshold of the second is no higher, and no recording reaches below the tiles
that the first one reaches, then every cell drawn with the first is drawn with the second, at the same point. -/
theorem C109_screen (hD : 1 ≤ D ∧ D ≤ 3) (hn : 0 < n) (h0 : Placed m₀ CellBounds.empty ρ)
    (ht0 : m₀.changedCells = []) (hth : FLe (Fp.lit 0) nm2.threshold) (htt : FLe nm2.threshold nm1.threshold)
    (hc : ∀ r, CloudInRange (recs r).2 ρ) {k : Fin D → ℤ} (hk : LowestFirst m₀.tileSize ρ recs k)
    (h : Higher nm1 nm2) (f1 : FiniteSteps nm1) (f2 : FiniteSteps nm2)
    (ho1 : ∀ r, IsOrder (ord1 r)) (ho2 : ∀ r, IsOrder (ord2 r))
    (hr1 : Reach (occOps nm1 recs ord1) n m₀ s1) (hr2 : Reach (occOps nm2 recs ord2) n m₀ s2)
    (hm1 : s1.main = .clearFlag ∨ s1.main = .spawn) (hm2 : s2.main = .clearFlag ∨ s2.main = .spawn)
    (hw : s2.workers.length = s1.workers.length) {c : Verif.Cell D} (hmc : MachineCell c) {p : Point D F32}
    (hp : s1.tracked c = some p) : s2.tracked c = some p := by
  obtain ⟨c1, c2, cb, d1, d2, d3⟩ := C109_visualizer hD hn h0 (fun r _ => hc r) h f1 f2 ho1 ho2 hr1 hr2 hm1 hm2 hw
  rw [C55_lowest_first hD.2 hn h0 ht0 (Fp.FLe_trans hth htt) ho1 hD.1 hc hk hr1 hm1 _ hmc] at hp
  rw [C55_lowest_first hD.2 hn h0 ht0 hth ho2 hD.1 hc hk hr2 hm2 _ hmc]
  split at hp
  case isFalse => cases hp
  case isTrue hocc =>
  have hpt : s2.map.pointFromCell c = s1.map.pointFromCell c := by
    unfold GridMap.pointFromCell; rw [c1, c2]
  rw [if_pos, hpt, hp]
  obtain ⟨v, v', b1, b2, b3⟩ := d3 fun i => c i + cb.min i
  have hcw : (fun i => (c i + cb.min i) - cb.min i) = c := by funext i; ring
  unfold LidarNoiseModel.occupied at hocc ⊢
  by_cases hin : InCells (fun i => c i + cb.min i) cb
  · have g1 := b1.1 hin
    have g2 := b2.1 hin
    unfold valueAt at g1 g2
    rw [hcw] at g1 g2
    rw [g1, Verif.M.bind_ok] at hocc
    rw [g2, Verif.M.bind_ok]
    have hlt : nm1.threshold.lt v = true := Except.ok.inj hocc
    refine congrArg Except.ok (show nm2.threshold.lt v' = true from ?_)
    rw [Fp.lt_iff] at hlt ⊢
    exact ⟨htt.1, b3.2.1, lt_of_le_of_lt htt.2.2 (lt_of_lt_of_le hlt.2.2 b3.2.2)⟩
  · rw [(C31_get s1.map hmc).2 fun h => hin ((inCells_iff d1 _).mpr (by rw [hcw]; exact h))] at hocc
    cases hocc
end

/-! ## Examples -/

/-- A noise model with twice the step for a hit, half the step for a miss, and a higher limit. -/
def highNM : LidarNoiseModel F32 := ⟨Fp.lit 2, Fp.lit (-1 / 2), Fp.lit (-4), Fp.lit 6, Fp.lit 0, Fp.lit 60⟩

lemma highNM_higher : Higher smallNM highNM := by
  refine ⟨?_, ?_, ?_, ?_, rfl⟩ <;> decide +kernel

lemma smallNM_steps : FiniteSteps smallNM := ⟨⟨1, by decide +kernel⟩, -1, by decide +kernel⟩
lemma highNM_steps : FiniteSteps highNM := ⟨⟨2, by decide +kernel⟩, -1 / 2, by decide +kernel⟩

/-- The hypotheses of `C109_step`, with a hit on a cell of value 1 resp. 2: the limit 4 is not reached. -/
example : FLe (Seen.apply smallNM (Fp.lit 1) .hit) (Seen.apply highNM (Fp.lit 2) .hit) ∧
    ¬ FLe (Seen.apply highNM (Fp.lit 2) .hit) (Seen.apply smallNM (Fp.lit 1) .hit) :=
  ⟨C109_step highNM_higher smallNM_steps highNM_steps .hit (by decide +kernel), by decide +kernel⟩

/-- Two rounds of the recordings of C107 can be played with both, and the values are in order. -/
example : ∃ hist1 m1 hist2 m2, Playback smallNM smallMap hist1 m1 ∧ Playback highNM smallMap hist2 m2 ∧
    hist1.map (·.2) = cyclic flickerRecs 2 (2 * 2) ∧ hist2.map (·.2) = hist1.map (·.2) ∧
    ∃ cb, Placed m1 cb 1 ∧ Placed m2 cb 1 ∧ ∀ w, ∃ v v', Before m1 cb w v ∧ Before m2 cb w v' ∧ FLe v v' := by
  obtain ⟨hist, m, p1, p2⟩ := flicker_twice
  have hc := cyclic_range (by norm_num) (fun r _ => flicker_inRange r) p2
  obtain ⟨hist2, m2, q1, q2⟩ := C109_plays (nm1 := smallNM) (nm2 := highNM) (by norm_num) smallMap_placed rfl hc p1
  exact ⟨hist, m, hist2, m2, p1, q1, p2, q2, (C109_playback ⟨by norm_num, by norm_num⟩ smallMap_placed highNM_higher
    smallNM_steps highNM_steps hc p1 q1 q2).2.2⟩

/-- There are runs with both after four scans; what is drawn in the first is drawn in the second. -/
example : ∃ s1 s2, Reach (occOps smallNM flickerRecs fun _ => id) 2 smallMap s1 ∧
    Reach (occOps highNM flickerRecs fun _ => id) 2 smallMap s2 ∧ s1.workers.length = 4 ∧ s2.workers.length = 4 ∧
    (∃ cb, Placed s1.map cb 1 ∧ Placed s2.map cb 1 ∧ ∀ w, ∃ v v', Before s1.map cb w v ∧ Before s2.map cb w v' ∧ FLe v v') ∧
    ∀ c, MachineCell c → ∀ p, s1.tracked c = some p → s2.tracked c = some p := by
  obtain ⟨hist, m, p1, p2⟩ := flicker_twice
  have hc := cyclic_range (by norm_num) (fun r _ => flicker_inRange r) p2
  obtain ⟨hist2, m2, q1, q2⟩ := C109_plays (nm1 := smallNM) (nm2 := highNM) (by norm_num) smallMap_placed rfl hc p1
  have ho : ∀ r : ℕ, IsOrder ((fun _ => id : ℕ → List (Cell 2) → List (Cell 2)) r) := fun _ l => List.Perm.refl l
  have hrun : ∀ {nm : LidarNoiseModel F32} {hist m}, Playback nm smallMap hist m →
      hist.map (·.2) = cyclic flickerRecs 2 (2 * 2) → ∃ s, Reach (occOps nm flickerRecs fun _ => id) 2 smallMap s ∧
        s.main = .clearFlag ∧ s.workers.length = 4 := by
    intro nm hist m p1 p2
    have hgo := fun s (hs : Reach (occOps nm flickerRecs fun _ => id) 2 smallMap s) =>
      (C108_visualizer (.inl rfl) (by norm_num) smallMap_placed rfl ho (M := 4) (by norm_num) (by decide)
        (fun r _ => flicker_within r) p1 p2 hs).2.2
    obtain ⟨σ, h, hf⟩ := fair_exists hgo
    obtain ⟨i, hi, hi'⟩ := C82_fair h hf (fun i => hgo _ (exec_reach h i)) 4
    exact ⟨σ i, exec_reach h i, hi, hi'⟩
  obtain ⟨s1, a1, a2, a3⟩ := hrun p1 p2
  obtain ⟨s2, b1, b2, b3⟩ := hrun q1 (q2.trans p2)
  refine ⟨s1, s2, a1, b1, a3, b3, (C109_visualizer ⟨by norm_num, by norm_num⟩ (by norm_num) smallMap_placed
    (fun r _ => flicker_inRange r) highNM_higher smallNM_steps highNM_steps ho ho a1 b1 (.inl a2) (.inl b2)
    (b3.trans a3.symm)).2.2, fun c hmc p hp => ?_⟩
  exact C109_screen ⟨by norm_num, by norm_num⟩ (by norm_num) smallMap_placed rfl (by decide +kernel) (by decide +kernel)
    flicker_inRange flicker_lowest highNM_higher smallNM_steps highNM_steps ho ho a1 b1 (.inl a2) (.inl b2)
    (b3.trans a3.symm) hmc hp

/-- With the recording in the edge strip the program stops at the first scan with the other noise model too. -/
example {ord' : ℕ → List (Cell 2) → List (Cell 2)} (ho' : ∀ r, IsOrder (ord' r))
    {s' : State (GridMap 2 F32 F32) (Cell 2) (Point 2 F32)} (hr' : Reach (occOps highNM edgeRecs ord') 1 smallMap s') :
    s'.workers.length ≤ 1 := by
  have h1 : Reach (occOps smallNM edgeRecs fun _ => id) 1 smallMap (idle smallMap [] (fun _ => none) [] 0) := Reach.init
  have h2 := reach_working (reach_drawn h1 rfl) (by norm_num)
  exact (C109_same_scan (nm1 := smallNM) (nm2 := highNM) (k := 0) (r := 0) (by norm_num) (by norm_num) smallMap_placed (fun r _ => edge_inRange r)
    (fun _ l => List.Perm.refl l) ho' rfl h2 rfl edge_stops hr').1

/-- The default probabilities and some higher ones, with any such logarithm (one is given in C46). -/
example [Libm F32] (hl : GoodLibm b32) : ∃ nm1 nm2,
    LidarNoiseModel.new (Fp.lit 0.7 : F32) (Fp.lit 0.4) (Fp.lit 0.1192) (Fp.lit 0.971) (Fp.lit 0.5) (Fp.lit 60) = .ok nm1 ∧
    LidarNoiseModel.new (Fp.lit 0.8 : F32) (Fp.lit 0.4) (Fp.lit 0.1192) (Fp.lit 0.98) (Fp.lit 0.4) (Fp.lit 60) = .ok nm2 ∧
    Higher nm1 nm2 ∧ FLe nm2.threshold nm1.threshold := by
  have h1 := (C45_new (Fp.lit 0.7 : F32) (Fp.lit 0.4) (Fp.lit 0.1192) (Fp.lit 0.971) (Fp.lit 0.5) (Fp.lit 60)).1
    (by decide +kernel)
  have h2 := (C45_new (Fp.lit 0.8 : F32) (Fp.lit 0.4) (Fp.lit 0.1192) (Fp.lit 0.98) (Fp.lit 0.4) (Fp.lit 60)).1
    (by decide +kernel)
  obtain ⟨h3, h4⟩ := C109_new hl h1 h2 (by decide +kernel) (by decide +kernel) (by decide +kernel) (by decide +kernel)
  exact ⟨_, _, h1, h2, h3, h4 (by decide +kernel)⟩

end Verif.Props
