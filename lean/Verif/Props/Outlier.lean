import Verif.Spec.Outlier
import Verif.Props.Stray

/-!
# C112: an outlier that enlarges the map
-/

namespace Verif.Props
open Scalar Spec

section
variable {F : Type} [Scalar F] {D : ℕ} {origin : Point D F} {cloud : PointCloud D F} {b b' : Bounds D F} {r ml : F}

/-- C112, any arithmetic: a ray depends on the lower corner of the bounds only. -/
theorem C112_ray (h : b'.min = b.min) (origin p : Point D F) (r ml : F) (ray : List (Cell D)) (e : Option (Cell D)) :
    Casts origin p b' r ml ray e ↔ Casts origin p b r ml ray e := by
  have : ∀ n, castRay n origin p b' r ml = castRay n origin p b r ml := by
    intro n
    unfold castRay rayCtx
    rw [h]
  unfold Casts
  simp only [this]

/-- C112, any arithmetic: what a scan tells depends on the lower corner of the bounds only. -/
theorem C112_scan (h : b'.min = b.min) (origin : Point D F) (cloud : PointCloud D F) (r ml : F) (c : Cell D) :
    seen origin cloud b' r ml c = seen origin cloud b r ml c := by
  unfold seen
  exact told_congr (by simp only [C112_ray h]) fun _ => by simp only [C112_ray h]
end

section
variable {D : ℕ} {nm : LidarNoiseModel F32} {m m' m₀ m1 m2 : GridMap D F32 F32} {ρ : ℚ} {cb : CellBounds D} {N : ℕ}
  {hist hist1 hist2 : List (GridMap D F32 F32 × Point D F32 × PointCloud D F32)}

lemma corner_local (h : SameCorner ρ m1 m2) : m2.bounds.min = m1.bounds.min ∧ ∀ w, localCell m2 w = localCell m1 w := by
  obtain ⟨h1, cb1, cb2, p1, p2, h2⟩ := h
  refine ⟨?_, fun w => ?_⟩
  · rw [p1.bounds, p2.bounds, h1]
    unfold Bounds.fromCellBounds
    rw [h2]
  · rw [local_eq p1, local_eq p2, h2]

/-- C112, for recordings: play two recordings with the same sensors, such that the maps after corresponding scans start at
the same world cell. A world cell that the lines through the points in exactly one of two corresponding scans stay off
by the tolerance has the same value in both maps, where a cell outside a map counts as 0. -/
theorem C112_playback {M : ℕ} (hD : D = 2 ∨ D = 3)
    (h0 : Placed m₀ CellBounds.empty ρ) (hM1 : 1 ≤ M) (hN : N = M + m₀.tileSize + 1) (hδ : rayTol N (2 * N) ≤ 1 / 2)
    (hcl1 : ∀ e ∈ hist1, WithinCells M ρ e.2.2) (hcl2 : ∀ e ∈ hist2, WithinCells M ρ e.2.2)
    (h1 : Playback nm m₀ hist1 m1) (h2 : Playback nm m₀ hist2 m2)
    (hs : List.Forall₂ (fun a b => b.2.1 = a.2.1 ∧ SameCorner ρ a.1 b.1) hist1 hist2) :
    ∃ cb1 cb2, Placed m1 cb1 ρ ∧ Placed m2 cb2 ρ ∧ ∀ w : Cell D,
      List.Forall₂ (fun a b => StraysPass N ρ (rayTol N (2 * N)) a.2.1 a.2.2 b.2.2 w) hist1 hist2 →
        ∃ v, Before m1 cb1 w v ∧ Before m2 cb2 w v := by
  have hres := h0.res.pos
  have hM18 : M ≤ 2 ^ 18 := by
    unfold rayTol at hδ
    rw [div_le_iff₀ (by norm_num)] at hδ
    have hMN : (M : ℚ) ≤ N := by exact_mod_cast (by omega : M ≤ N)
    have : (M : ℚ) ≤ 262144 := by
      have : (0 : ℚ) ≤ ((2 * N : ℕ) : ℚ) ^ 2 := by positivity
      push_cast at hδ this
      linarith
    exact_mod_cast this
  have hcr : ∀ {hist : List (GridMap D F32 F32 × Point D F32 × PointCloud D F32)},
      (∀ e ∈ hist, WithinCells M ρ e.2.2) → ∀ e ∈ hist, CloudInRange e.2.2 ρ := by
    intro hist hcl e he p hp i
    obtain ⟨y, h1, h2⟩ := hcl e he p hp i
    have : (M : ℚ) ≤ 262144 := by exact_mod_cast hM18
    exact ⟨y, h1, h2.trans (by norm_num; gcongr)⟩
  obtain ⟨cb1, q1, q2⟩ := C69_values (by omega) h0 (hcr hcl1) h1
  obtain ⟨cb2, r1, r2⟩ := C69_values (by omega) h0 (hcr hcl2) h2
  have sm1 := (playback_cells (by omega) h0 hM1 hM18 hcl1 h1).2
  have sm2 := (playback_cells (by omega) h0 hM1 hM18 hcl2 h2).2
  have hcor1 := (playback_corner (by omega) h0 hM1 hM18 hcl1 h1).2
  have hcor2 := (playback_corner (by omega) h0 hM1 hM18 hcl2 h2).2
  refine ⟨cb1, cb2, q1, r1, fun w hw => ?_⟩
  have hfold : ∀ v, foldSeen nm hist2 w v = foldSeen nm hist1 w v := by
    unfold foldSeen
    clear q2 r2 h1 h2 hcl1 hcl2
    induction hs with
    | nil => intro v; rfl
    | @cons a b _ _ hab _ ih =>
      intro v
      obtain ⟨t1, t2⟩ := hab
      obtain ⟨t4, t5⟩ := corner_local t2
      have t3 := t2.1
      obtain ⟨hwa, hw⟩ := List.forall₂_cons.mp hw
      obtain ⟨ca, hPa, hla⟩ := hcor1 _ List.mem_cons_self
      obtain ⟨cb, hPb, hlb⟩ := hcor2 _ List.mem_cons_self
      obtain ⟨u1, u2⟩ := sm1 _ List.mem_cons_self
      obtain ⟨u3, u4⟩ := sm2 _ List.mem_cons_self
      have hmina : ∀ i, |ca.min i| ≤ N := fun i => by rw [hN]; exact hla.abs_le h0.tile_pos i
      have hminb : ∀ i, |cb.min i| ≤ N := fun i => by rw [hN]; exact hlb.abs_le h0.tile_pos i
      rw [List.foldl_cons, List.foldl_cons, t1, t3, t5, C112_scan t4, C111_untouched fun p hp => ?_]
      · exact ih (fun e he => sm1 e (List.mem_cons_of_mem _ he)) (fun e he => sm2 e (List.mem_cons_of_mem _ he))
          (fun e he => hcor1 e (List.mem_cons_of_mem _ he)) (fun e he => hcor2 e (List.mem_cons_of_mem _ he)) hw _
      · obtain ⟨K', x, y, hA, ho⟩ := hwa p hp
        rcases hp with ⟨hp, -⟩ | ⟨hp, -⟩
        · refine C111_far_ray hD hPa hmina hδ hA (fun ray end_ hr z hz => u2 p hp ray end_ hr z hz) (fun i => ?_) ho
          have := u1.shape i
          omega
        · rintro ⟨ray, e, hr, hm⟩
          rw [← t1] at hA
          refine C111_far_ray (ml := nm.maxRange) hD hPb hminb hδ hA
            (fun ray end_ hr z hz => u4 p hp ray end_ hr z hz) (fun i => ?_) ho
            ⟨ray, e, by rw [t1, t3, C112_ray t4]; exact hr, by rw [t5]; exact hm⟩
          have := u3.shape i
          omega
  have hz : worldValue m₀ CellBounds.empty w = .ok (Fp.lit 0) := if_neg fun h => by
    have := h ⟨0, by omega⟩
    simp only [CellBounds.empty] at this
    omega
  have hb : ∀ {m : GridMap D F32 F32} {cb : CellBounds D} {v : F32}, worldValue m cb w = .ok v → Before m cb w v := by
    intro m cb v hv
    refine ⟨fun hin => ?_, fun hin => ?_⟩
    · rw [← hv]; exact (if_pos hin).symm
    · rw [show worldValue m cb w = .ok (Fp.lit 0) from if_neg hin] at hv
      exact (Except.ok.inj hv).symm
  refine ⟨foldSeen nm hist1 w (Fp.lit 0), hb ?_, hb ?_⟩
  · rw [q2 w, hz]; rfl
  · rw [r2 w, hz, ← hfold]; rfl

/-- The lower corner of the map after each scan of a playback. -/
lemma lowest_each {recs : ℕ → Point D F32 × PointCloud D F32} {k : Fin D → ℤ} (hD : D ≤ 3)
    (h0 : Placed m₀ CellBounds.empty ρ) (hk : LowestFirst m₀.tileSize ρ recs k)
    (hc : ∀ e ∈ hist, CloudInRange e.2.2 ρ) (hin : ∀ e ∈ hist, ∃ r, e.2 = recs r)
    (hfirst : ∀ e, hist.head? = some e → e.2 = recs 0) (h : Playback nm m₀ hist m) :
    ∀ e ∈ hist, ∃ cb, Placed e.1 cb ρ ∧ e.1.resolution = m₀.resolution ∧ ∀ i, cb.min i = k i * m₀.tileSize := by
  induction hist using List.reverseRecOn generalizing m with
  | nil => simp
  | append_singleton l a ih =>
    intro e he
    obtain ⟨n1, ord, a1, a2, a3, -⟩ := playback_snoc h rfl
    rcases List.mem_append.mp he with he | he
    · exact ih (fun e he => hc e (List.mem_append_left _ he)) (fun e he => hin e (List.mem_append_left _ he))
        (fun e he => hfirst e (by
          cases l with
          | nil => cases he
          | cons a l => exact he)) a1 e he
    · rw [List.mem_singleton] at he
      subst he
      obtain ⟨cb, b1, b2, -, -, b5⟩ := lowest_playback hD h0 hk hc hin hfirst (.scan a1 a2 a3)
      exact ⟨cb, b1, b2, b5 (by simp)⟩
end

/-! ## The visualizer -/

open Viz

section
variable {D N n : ℕ} {nm : LidarNoiseModel F32} {recs1 recs2 : ℕ → Point D F32 × PointCloud D F32}
  {m₀ : GridMap D F32 F32} {ρ : ℚ} {ord1 ord2 : ℕ → List (Verif.Cell D) → List (Verif.Cell D)}
  {s1 s2 : State (GridMap D F32 F32) (Verif.Cell D) (Point D F32)}

lemma cyclic_in {recs : ℕ → Point D F32 × PointCloud D F32} (hn : 0 < n)
    {hist : List (GridMap D F32 F32 × Point D F32 × PointCloud D F32)} {k : ℕ} (h : hist.map (·.2) = cyclic recs n k) :
    (∀ e ∈ hist, ∃ r < n, e.2 = recs r) ∧ ∀ e, hist.head? = some e → e.2 = recs 0 := by
  refine ⟨fun e he => ?_, fun e he => ?_⟩
  · have : e.2 ∈ cyclic recs n k := h ▸ List.mem_map_of_mem he
    unfold cyclic at this
    obtain ⟨j, -, hj⟩ := List.mem_map.mp this
    exact ⟨_, Nat.mod_lt _ hn, hj.symm⟩
  · have h1 : (hist.map (·.2)).head? = some e.2 := by rw [List.head?_map, he]; rfl
    rw [h] at h1
    unfold cyclic at h1
    cases k with
    | zero => simp at h1
    | succ k =>
      rw [List.range_succ_eq_map] at h1
      simp only [List.map_cons, List.head?_cons, Option.some.injEq, Nat.zero_mod] at h1
      exact h1.symm

/-- C112, for the visualizer: two runs on recordings with the same sensors, none of which reaches below the tiles that the
first of each reaches, and these are the same. At moments when the renderers have processed a batch and as many scans
have been started, the maps start at the same world cell, and agree on every world cell that the lines through the
points in exactly one of two corresponding scans stay off by the tolerance. -/
theorem C112_visualizer {M : ℕ} (hD : D = 2 ∨ D = 3) (hn : 0 < n) (h0 : Placed m₀ CellBounds.empty ρ)
    (ho1 : ∀ r, IsOrder (ord1 r)) (ho2 : ∀ r, IsOrder (ord2 r)) (hM1 : 1 ≤ M) (hN : N = M + m₀.tileSize + 1)
    (hδ : rayTol N (2 * N) ≤ 1 / 2) (hcl1 : ∀ r, WithinCells M ρ (recs1 r).2)
    (hcl2 : ∀ r, WithinCells M ρ (recs2 r).2) (hs : ∀ r < n, (recs2 r).1 = (recs1 r).1)
    {k : Fin D → ℤ} (hk1 : LowestFirst m₀.tileSize ρ recs1 k) (hk2 : LowestFirst m₀.tileSize ρ recs2 k)
    (hr1 : Reach (occOps nm recs1 ord1) n m₀ s1) (hr2 : Reach (occOps nm recs2 ord2) n m₀ s2)
    (hm1 : s1.main = .clearFlag ∨ s1.main = .spawn) (hm2 : s2.main = .clearFlag ∨ s2.main = .spawn)
    (hw : s2.workers.length = s1.workers.length) :
    s2.map.bounds.min = s1.map.bounds.min ∧ (∀ w, localCell s2.map w = localCell s1.map w) ∧
    s2.map.resolution = s1.map.resolution ∧
    ∃ cb1 cb2, Placed s1.map cb1 ρ ∧ Placed s2.map cb2 ρ ∧ ∀ w : Verif.Cell D,
      (∀ r < n, StraysPass N ρ (rayTol N (2 * N)) (recs1 r).1 (recs1 r).2 (recs2 r).2 w) →
      ∃ v, Before s1.map cb1 w v ∧ Before s2.map cb2 w v := by
  have hres := h0.res.pos
  have hMq : (M : ℚ) ≤ 262144 := by
    unfold rayTol at hδ
    rw [div_le_iff₀ (by norm_num)] at hδ
    have hMN : (M : ℚ) ≤ N := by exact_mod_cast (by omega : M ≤ N)
    have : (0 : ℚ) ≤ ((2 * N : ℕ) : ℚ) ^ 2 := by positivity
    push_cast at hδ this
    linarith
  have hcr : ∀ {recs : ℕ → Point D F32 × PointCloud D F32}, (∀ r, WithinCells M ρ (recs r).2) →
      ∀ r, CloudInRange (recs r).2 ρ := by
    intro recs hcl r p hp i
    obtain ⟨y, h1, h2⟩ := hcl r p hp i
    exact ⟨y, h1, h2.trans (by norm_num; gcongr)⟩
  obtain ⟨hist1, p1, p2, -, -, p3⟩ := C69_playback hn ho1 hr1
  obtain ⟨hist2, q1, q2, -, -, q3⟩ := C69_playback hn ho2 hr2
  rw [p3 hm1] at p2
  rw [q3 hm2, hw] at q2
  obtain ⟨i1, j1⟩ := cyclic_in hn p2
  obtain ⟨i2, j2⟩ := cyclic_in hn q2
  have pick : ∀ {recs : ℕ → Point D F32 × PointCloud D F32} {P : Point D F32 × PointCloud D F32 → Prop}
      {hist : List (GridMap D F32 F32 × Point D F32 × PointCloud D F32)}, (∀ e ∈ hist, ∃ r < n, e.2 = recs r) →
      (∀ r, P (recs r)) → ∀ e ∈ hist, P e.2 := by
    intro recs P hist h hP e he
    obtain ⟨r, -, hr⟩ := h e he
    rw [hr]; exact hP r
  have weak : ∀ {recs : ℕ → Point D F32 × PointCloud D F32}
      {hist : List (GridMap D F32 F32 × Point D F32 × PointCloud D F32)}, (∀ e ∈ hist, ∃ r < n, e.2 = recs r) →
      ∀ e ∈ hist, ∃ r, e.2 = recs r := by
    intro recs hist h e he
    obtain ⟨r, -, hr⟩ := h e he
    exact ⟨r, hr⟩
  have c1 := pick (P := fun s => CloudInRange s.2 ρ) i1 (hcr hcl1)
  have c2 := pick (P := fun s => CloudInRange s.2 ρ) i2 (hcr hcl2)
  have l1 := lowest_each (by omega) h0 hk1 c1 (weak i1) j1 p1
  have l2 := lowest_each (by omega) h0 hk2 c2 (weak i2) j2 q1
  have hF : List.Forall₂ (fun a b => b.2.1 = a.2.1 ∧ SameCorner ρ a.1 b.1) hist1 hist2 := by
    have hx := cyclic_both (P := fun a b => b.1 = a.1) hn p2 q2 hs
    clear p2 q2 p1 q1 p3 q3 i1 i2 j1 j2 c1 c2
    induction hx with
    | nil => exact .nil
    | @cons a b _ _ hab _ ih =>
      obtain ⟨ca, a1, a2, a3⟩ := l1 _ List.mem_cons_self
      obtain ⟨cb, b1, b2, b3⟩ := l2 _ List.mem_cons_self
      exact .cons ⟨hab, by rw [a2, b2], ca, cb, a1, b1, by funext i; rw [a3, b3]⟩
        (ih (fun e he => l1 e (List.mem_cons_of_mem _ he)) (fun e he => l2 e (List.mem_cons_of_mem _ he)))
  obtain ⟨cb1, cb2, d1, d2, d3⟩ := C112_playback hD h0 hM1 hN hδ (pick (P := fun s => WithinCells M ρ s.2) i1 hcl1)
    (pick (P := fun s => WithinCells M ρ s.2) i2 hcl2) p1 q1 hF
  have hcor : SameCorner ρ s1.map s2.map := by
    obtain ⟨ca, a1, a2, -, a4, a5⟩ := lowest_playback (by omega) h0 hk1 c1 (weak i1) j1 p1
    obtain ⟨cb, b1, b2, -, b4, b5⟩ := lowest_playback (by omega) h0 hk2 c2 (weak i2) j2 q1
    refine ⟨by rw [a2, b2], ca, cb, a1, b1, ?_⟩
    have hl := hF.length_eq
    by_cases he : hist1 = []
    · rw [a4 he, b4 (by rw [he] at hl; exact List.length_eq_zero_iff.mp hl.symm)]
    · funext i
      rw [a5 he, b5 (by
        intro h
        rw [h] at hl
        exact he (List.length_eq_zero_iff.mp hl))]
  obtain ⟨e1, e2⟩ := corner_local hcor
  exact ⟨e1, e2, hcor.1, cb1, cb2, d1, d2, fun w hx => d3 w
    (cyclic_both (P := fun a b => StraysPass N ρ (rayTol N (2 * N)) a.1 a.2 b.2 w) hn p2 q2 hx)⟩

/-- C112, on the screen: at such moments the same of these cells are drawn, at the same points. -/
theorem C112_screen {M : ℕ} (hD : D = 2 ∨ D = 3) (hn : 0 < n) (h0 : Placed m₀ CellBounds.empty ρ)
    (ht0 : m₀.changedCells = []) (hth : FLe (Fp.lit 0) nm.threshold)
    (ho1 : ∀ r, IsOrder (ord1 r)) (ho2 : ∀ r, IsOrder (ord2 r)) (hM1 : 1 ≤ M) (hN : N = M + m₀.tileSize + 1)
    (hδ : rayTol N (2 * N) ≤ 1 / 2) (hcl1 : ∀ r, WithinCells M ρ (recs1 r).2)
    (hcl2 : ∀ r, WithinCells M ρ (recs2 r).2) (hs : ∀ r < n, (recs2 r).1 = (recs1 r).1)
    {k : Fin D → ℤ} (hk1 : LowestFirst m₀.tileSize ρ recs1 k) (hk2 : LowestFirst m₀.tileSize ρ recs2 k)
    (hr1 : Reach (occOps nm recs1 ord1) n m₀ s1) (hr2 : Reach (occOps nm recs2 ord2) n m₀ s2)
    (hm1 : s1.main = .clearFlag ∨ s1.main = .spawn) (hm2 : s2.main = .clearFlag ∨ s2.main = .spawn)
    (hw : s2.workers.length = s1.workers.length) {w : Verif.Cell D} (hmc : MachineCell (localCell s1.map w))
    (hx : ∀ r < n, StraysPass N ρ (rayTol N (2 * N)) (recs1 r).1 (recs1 r).2 (recs2 r).2 w) :
    s2.tracked (localCell s2.map w) = s1.tracked (localCell s1.map w) := by
  have hres := h0.res.pos
  have hMq : (M : ℚ) ≤ 262144 := by
    unfold rayTol at hδ
    rw [div_le_iff₀ (by norm_num)] at hδ
    have hMN : (M : ℚ) ≤ N := by exact_mod_cast (by omega : M ≤ N)
    have : (0 : ℚ) ≤ ((2 * N : ℕ) : ℚ) ^ 2 := by positivity
    push_cast at hδ this
    linarith
  have hcr : ∀ {recs : ℕ → Point D F32 × PointCloud D F32}, (∀ r, WithinCells M ρ (recs r).2) →
      ∀ r, CloudInRange (recs r).2 ρ := by
    intro recs hcl r p hp i
    obtain ⟨y, h1, h2⟩ := hcl r p hp i
    exact ⟨y, h1, h2.trans (by norm_num; gcongr)⟩
  obtain ⟨c1, c2, c3, cb1, cb2, d1, d2, d3⟩ := C112_visualizer hD hn h0 ho1 ho2 hM1 hN hδ hcl1 hcl2 hs hk1 hk2 hr1 hr2
    hm1 hm2 hw
  rw [c2]
  have hloc1 := local_eq d1 w
  have hloc2 := (c2 w).symm.trans (local_eq d2 w)
  have hp : s2.map.pointFromCell (localCell s1.map w) = s1.map.pointFromCell (localCell s1.map w) := by
    unfold GridMap.pointFromCell; rw [c1, c3]
  rw [C55_lowest_first (by omega) hn h0 ht0 hth ho1 (by omega) (hcr hcl1) hk1 hr1 hm1 _ hmc,
    C55_lowest_first (by omega) hn h0 ht0 hth ho2 (by omega) (hcr hcl2) hk2 hr2 hm2 _ hmc, hp]
  obtain ⟨v, b1, b2⟩ := d3 w hx
  -- drawn means: inside, and above the threshold
  have key : ∀ {m : GridMap D F32 F32} {cb : CellBounds D}, Placed m cb ρ →
      localCell s1.map w = (fun i => w i - cb.min i) → Before m cb w v →
      (nm.occupied m (localCell s1.map w) = .ok true ↔ nm.threshold.lt v = true) := by
    intro m cb hP hloc hB
    unfold LidarNoiseModel.occupied
    by_cases hin : InCells w cb
    · have h1 := hB.1 hin
      unfold valueAt at h1
      rw [hloc, h1, Verif.M.bind_ok]
      exact ⟨fun h => Except.ok.inj h, fun h => congrArg Except.ok h⟩
    · rw [(C31_get m hmc).2 (by rw [hloc]; exact fun h => hin ((inCells_iff hP w).mpr h)), hB.2 hin]
      refine ⟨fun h => (by cases h), fun h => ?_⟩
      rw [Fp.lt_iff] at h
      exact absurd h.2.2 (not_lt.mpr hth.2.2)
  have h1 := key d1 hloc1 b1
  have h2 := key d2 hloc2 b2
  by_cases ht : nm.threshold.lt v = true
  · rw [if_pos (h1.mpr ht), if_pos (h2.mpr ht)]
  · rw [if_neg fun h => ht (h1.mp h), if_neg fun h => ht (h2.mp h)]
end

/-! ## Examples -/

/-- The scan `longScan` of C106 with an outlier at (10, 20). -/
def outlierScan : Point 2 F32 × PointCloud 2 F32 :=
  (longScan.1, PointCloud.fromPoints
    [![Fp.lit (9 / 4), Fp.lit 1], ![Fp.lit 10, Fp.lit 20], ![Fp.lit (81 / 4), Fp.lit (1 / 4)]])

lemma outlier_only {p : Point 2 F32} (h : Stray longScan.2 outlierScan.2 p) : p = ![Fp.lit 10, Fp.lit 20] := by
  unfold Stray at h
  rw [longScan, outlierScan, C13_points_fromPoints, C13_points_fromPoints] at h
  simp only [List.mem_cons, List.not_mem_nil, or_false] at h
  tauto

lemma outlier_within : WithinCells 21 1 outlierScan.2 := by
  intro p hp
  rw [outlierScan, C13_points_fromPoints] at hp
  simp only [List.mem_cons, List.not_mem_nil, or_false] at hp
  rcases hp with rfl | rfl | rfl <;> intro i
  · refine ⟨![9 / 4, 1] i, ?_, ?_⟩ <;> revert i <;> decide +kernel
  · refine ⟨![10, 20] i, ?_, ?_⟩ <;> revert i <;> decide +kernel
  · refine ⟨![81 / 4, 1 / 4] i, ?_, ?_⟩ <;> revert i <;> decide +kernel

lemma long_lowest : LowestFirst smallMap.tileSize 1 (fun _ => longScan) (fun _ => 0) := by
  refine ⟨by simp, fun r p hp i => ?_, fun _ => .inl rfl⟩
  rw [longScan, C13_points_fromPoints] at hp
  simp only [List.mem_cons, List.not_mem_nil, or_false] at hp
  rcases hp with rfl | rfl
  · refine ⟨![9 / 4, 1] i, ?_, ?_⟩ <;> revert i <;> decide +kernel
  · refine ⟨![81 / 4, 1 / 4] i, ?_, ?_⟩ <;> revert i <;> decide +kernel

lemma outlier_lowest : LowestFirst smallMap.tileSize 1 (fun _ => outlierScan) (fun _ => 0) := by
  refine ⟨by simp, fun r p hp i => ?_, fun _ => .inl rfl⟩
  rw [outlierScan, C13_points_fromPoints] at hp
  simp only [List.mem_cons, List.not_mem_nil, or_false] at hp
  rcases hp with rfl | rfl | rfl
  · refine ⟨![9 / 4, 1] i, ?_, ?_⟩ <;> revert i <;> decide +kernel
  · refine ⟨![10, 20] i, ?_, ?_⟩ <;> revert i <;> decide +kernel
  · refine ⟨![81 / 4, 1 / 4] i, ?_, ?_⟩ <;> revert i <;> decide +kernel

/-- The line to the outlier passes the cell (2, 1), where another point lies. -/
lemma outlier_passes : StraysPass 24 1 (rayTol 24 (2 * 24)) longScan.1 longScan.2 outlierScan.2 ![2, 1] := by
  intro p hp
  obtain rfl := outlier_only hp
  refine ⟨20, ![1 / 4, 1 / 4], ![10, 20], ⟨by norm_num, by norm_num, by norm_num, by norm_num, by decide +kernel, ?_,
    by decide +kernel, ?_, ?_, ?_⟩, fun t ht => ?_⟩
  iterate 4 decide +kernel
  have hδ : rayTol 24 (2 * 24) ≤ 1 / 100 := by norm_num [rayTol]
  by_cases h : t ≤ 1 / 10
  · refine ⟨0, ?_⟩
    simp only [lineAt, Matrix.cons_val_zero]
    rw [abs_sub_comm]
    refine lt_of_lt_of_le ?_ (le_abs_self _)
    norm_num
    linarith
  · refine ⟨1, ?_⟩
    simp only [lineAt, Matrix.cons_val_one, Matrix.cons_val_zero]
    refine lt_of_lt_of_le ?_ (le_abs_self _)
    norm_num
    linarith

lemma outlier_values : afterScan longScan ![10, 20] = none ∧ afterScan outlierScan ![10, 20] = some (Fp.lit 1) ∧
    (afterScan longScan ![2, 1]).isSome = true := by decide +kernel

/-- Without and with the outlier: the first map does not reach the cell (10, 20), the second does; the cell (2, 1) has
the same value in both. -/
example : (∃ m1 m2 : GridMap 2 F32 F32, Playback smallNM smallMap [(m1, longScan)] m1 ∧
      Playback smallNM smallMap [(m2, outlierScan)] m2 ∧ m2.bounds.min = m1.bounds.min ∧ m2.bounds ≠ m1.bounds ∧
      ∃ cb1 cb2, Placed m1 cb1 1 ∧ Placed m2 cb2 1 ∧ ∃ v, Before m1 cb1 ![2, 1] v ∧ Before m2 cb2 ![2, 1] v) ∧
    afterScan longScan ![10, 20] ≠ afterScan outlierScan ![10, 20] := by
  obtain ⟨h1, h2, h3⟩ := outlier_values
  refine ⟨?_, by rw [h1, h2]; decide +kernel⟩
  have hid : IsOrder (id : List (Verif.Cell 2) → List (Verif.Cell 2)) := fun l => List.Perm.refl l
  unfold afterScan at h1 h2 h3
  cases e1 : smallNM.integratePointCloud id 40 smallMap longScan.1 longScan.2 with
  | error e => rw [e1] at h3; cases h3
  | ok m1 =>
    cases e2 : smallNM.integratePointCloud id 40 smallMap outlierScan.1 outlierScan.2 with
    | error e => rw [e2] at h2; cases h2
    | ok m2 =>
      have p1 : Playback smallNM smallMap [(m1, longScan)] m1 := .scan .start hid ⟨40, e1⟩
      have p2 : Playback smallNM smallMap [(m2, outlierScan)] m2 := .scan .start hid ⟨40, e2⟩
      have hr : ∀ {M : ℕ} {c : PointCloud 2 F32}, M ≤ 2 ^ 18 → WithinCells M 1 c → CloudInRange c 1 := by
        intro M c hM h p hp i
        obtain ⟨y, h1, h2⟩ := h p hp i
        have : (M : ℚ) ≤ 2 ^ 18 := by exact_mod_cast hM
        exact ⟨y, h1, by linarith⟩
      obtain ⟨ca, a1, a2, a3⟩ := lowest_each (by norm_num) smallMap_placed long_lowest
        (by simpa using hr (by norm_num) long_within) (by simp) (by simp) p1 _ List.mem_cons_self
      obtain ⟨cb, b1, b2, b3⟩ := lowest_each (by norm_num) smallMap_placed outlier_lowest
        (by simpa using hr (by norm_num) outlier_within) (by simp) (by simp) p2 _ List.mem_cons_self
      have hcor : SameCorner 1 m1 m2 := ⟨by rw [show m2.resolution = _ from b2, show m1.resolution = _ from a2], ca, cb, a1, b1,
        by funext i; rw [a3, b3]⟩
      obtain ⟨cb1, cb2, q2, q3, q4⟩ := C112_playback (M := 21) (N := 24) (.inl rfl) smallMap_placed (by norm_num) rfl
        (by norm_num [rayTol]) (by simpa using long_within) (by simpa using outlier_within) p1 p2
        (.cons ⟨rfl, hcor⟩ .nil)
      refine ⟨m1, m2, p1, p2, (corner_local hcor).1, fun hb => ?_, cb1, cb2, q2, q3, q4 _ (.cons outlier_passes .nil)⟩
      rw [e1] at h1
      rw [e2] at h2
      have hcb : cb2 = cb1 := by rw [← q2.cells, ← q3.cells, hb, hcor.1]
      subst hcb
      have hshape : ∀ i, m2.data.shape i = m1.data.shape i := fun i => by
        have := q2.shape i
        have := q3.shape i
        omega
      have hmc : MachineCell (![10, 20] : Verif.Cell 2) := by decide
      have hin : InGrid m2 ![10, 20] := by
        by_contra hno
        change (m2.get ![10, 20]).toOption = _ at h2
        rw [(C31_get m2 hmc).2 hno] at h2
        cases h2
      obtain ⟨v, hv⟩ := (C31_get m1 hmc).1 fun i => by
        have := hin i
        rw [← hshape i]
        exact this
      change (m1.get ![10, 20]).toOption = _ at h1
      rw [hv] at h1
      cases h1

end Verif.Props
