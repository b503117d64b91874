import Verif.Spec.Stray
import Verif.Props.Longer
import Verif.Props.Cost

/-!
# C111: a stray point touches only its own ray
-/

namespace Verif.Props
open Scalar Spec

section
variable {F : Type} [Scalar F] {D : ℕ} {origin : Point D F} {cloud1 cloud2 : PointCloud D F} {bounds : Bounds D F}
  {r ml : F}

/-- C111, one scan in any arithmetic: more points tell no less about any cell. -/
theorem C111_no_less (h : ∀ p ∈ cloud1.points, p ∈ cloud2.points) (c : Cell D) :
    NoLess (seen origin cloud1 bounds r ml c) (seen origin cloud2 bounds r ml c) := by
  unfold seen
  by_cases h1 : ∃ p ∈ cloud1.points, ∃ ray, Casts origin p bounds r ml ray (some c)
  · have h2 : ∃ p ∈ cloud2.points, ∃ ray, Casts origin p bounds r ml ray (some c) := by
      obtain ⟨p, hp, x⟩ := h1
      exact ⟨p, h p hp, x⟩
    rw [if_pos h1, if_pos h2]
    rfl
  rw [if_neg h1]
  by_cases h3 : ∃ p ∈ cloud1.points, ∃ ray e, Casts origin p bounds r ml ray e ∧ c ∈ ray
  · have h4 : ∃ p ∈ cloud2.points, ∃ ray e, Casts origin p bounds r ml ray e ∧ c ∈ ray := by
      obtain ⟨p, hp, x⟩ := h3
      exact ⟨p, h p hp, x⟩
    rw [if_pos h3, if_pos h4]
    split_ifs <;> exact fun h => by cases h
  · rw [if_neg h3]
    trivial

/-- C111, one scan in any arithmetic: about a cell that no ray to a point in exactly one of the clouds passes or ends in,
the two clouds tell the same. -/
theorem C111_untouched {c : Cell D} (h : ∀ p, Stray cloud1 cloud2 p → ¬ RayTouches origin p bounds r ml c) :
    seen origin cloud2 bounds r ml c = seen origin cloud1 bounds r ml c := by
  have key : ∀ p, RayTouches origin p bounds r ml c → (p ∈ cloud2.points ↔ p ∈ cloud1.points) := by
    intro p hp
    by_contra hne
    refine h p ?_ hp
    unfold Stray
    tauto
  unfold seen
  refine told_congr ⟨?_, ?_⟩ fun _ => ⟨?_, ?_⟩
  · rintro ⟨p, hp, ray, hr⟩
    exact ⟨p, (key p ⟨ray, _, hr, .inr rfl⟩).mp hp, ray, hr⟩
  · rintro ⟨p, hp, ray, hr⟩
    exact ⟨p, (key p ⟨ray, _, hr, .inr rfl⟩).mpr hp, ray, hr⟩
  · rintro ⟨p, hp, ray, e, hr, hm⟩
    exact ⟨p, (key p ⟨ray, e, hr, .inl hm⟩).mp hp, ray, e, hr, hm⟩
  · rintro ⟨p, hp, ray, e, hr, hm⟩
    exact ⟨p, (key p ⟨ray, e, hr, .inl hm⟩).mpr hp, ray, e, hr, hm⟩
end

section
variable {D : ℕ} {nm : LidarNoiseModel F32} {m m' m₀ m1 m2 : GridMap D F32 F32} {ρ : ℚ} {cb : CellBounds D} {N : ℕ}
  {hist hist1 hist2 : List (GridMap D F32 F32 × Point D F32 × PointCloud D F32)}
  {origin p : Point D F32} {cloud : PointCloud D F32}

/-- C111, one ray in f32: the ray to a point does not touch a world cell that the line from the sensor through the point
and onward stays off by the tolerance. -/
theorem C111_far_ray (hD : D = 2 ∨ D = 3) (hP : Placed m cb ρ) (hc : ∀ i, |cb.min i| ≤ N) {K K' : ℕ}
    (hK1 : rayTol N K ≤ 1 / 2) {x y : Fin D → ℚ} (h : Aims N K' ρ origin p x y) {ml : F32}
    (hg : ∀ ray e, Casts origin p m.bounds m.resolution ml ray e → ∀ z ∈ ray ++ e.toList, InGrid m z)
    (hs : ∀ i, m.data.shape i ≤ K) {w : Cell D} (hw : ∀ t, 0 ≤ t → Outside (rayTol N K) ρ w (lineAt x y t)) :
    ¬ RayTouches origin p m.bounds m.resolution ml (localCell m w) := by
  rintro ⟨ray, e, hr, hm⟩
  have hpos := hP.res.pos
  have hNq1 : (1 : ℚ) ≤ N := by exact_mod_cast h.N_lo
  have hK0 : (0 : ℚ) ≤ K := by positivity
  obtain ⟨q, hq, hrr, -⟩ := aims_range hP hc h
  have hz : localCell m w ∈ ray ++ e.toList := by
    rcases hm with hm | rfl
    · exact List.mem_append_left _ hm
    · simp
  have hloc := local_eq hP w
  have hnear : ∃ t, 0 ≤ t ∧
      NearCell q ρ ((5 * (2 * N + 1) + K ^ 2 + 10 * K + 23) / 2 ^ 24 * ρ) (localCell m w) (lineAt x y t) := by
    by_cases hne : cellFromPoint origin m.bounds.min m.resolution = cellFromPoint p m.bounds.min m.resolution
    · obtain ⟨n, hn⟩ := hr
      unfold castRay at hn
      rw [if_pos hD] at hn
      dsimp only at hn
      rw [if_pos hne] at hn
      cases hn
      have hz' : localCell m w = cellFromPoint origin m.bounds.min m.resolution := by
        rw [hne]; simpa using hz
      refine ⟨0, le_rfl, fun i => ?_⟩
      have h1 := (origin_cell hrr i).2
      rw [hz']
      unfold lineAt
      rw [zero_mul, add_zero]
      refine h1.trans ?_
      have h2 : 0 ≤ (K : ℚ) ^ 2 / 2 ^ 24 * ρ := by positivity
      have h3 : 0 ≤ (K : ℚ) / 2 ^ 24 * ρ := by positivity
      have h4 : 0 ≤ (N : ℚ) / 2 ^ 24 * ρ := by positivity
      ring_nf at h2 h3 h4 ⊢
      linarith
    · have hgr := hg _ _ hr
      have h0 : InGrid m (cellFromPoint origin m.bounds.min m.resolution) := by
        obtain ⟨n, l, rfl, -⟩ := casts_loop hr hne
        exact hgr _ (by simp)
      obtain ⟨v, hv⟩ := C57_follows_line hD hrr hr hne (K := K) (by
        unfold rayTol at hK1
        rw [div_le_iff₀ (by norm_num)] at hK1
        have : (0 : ℚ) ≤ (K : ℚ) ^ 2 := by positivity
        linarith) (fun z hz i => by
        have h1 := hgr z hz i
        have h2 := h0 i
        have h3 := hs i
        rw [abs_le]
        omega)
      obtain ⟨t, t0, -, ht⟩ := Follows.mem hv hz
      exact ⟨t, t0, ht⟩
  obtain ⟨t, t0, ht⟩ := hnear
  obtain ⟨i, hi⟩ := hw t t0
  have h1 := ht i
  have h2 := hq i
  rw [hloc] at h1
  have h3 := abs_sub_le (lineAt x y t i) (q i + ((w i - cb.min i : ℤ) : ℚ) * ρ) (w i * ρ)
  have h4 : q i + ((w i - cb.min i : ℤ) : ℚ) * ρ - w i * ρ = q i - cb.min i * ρ := by push_cast; ring
  rw [h4] at h3
  have h5 : (1 / 2 + rayTol N K) * ρ < (1 / 2 + (5 * (2 * N + 1) + K ^ 2 + 10 * K + 23) / 2 ^ 24 + (3 * N + 2) / 2 ^ 24) * ρ := by
    refine lt_of_lt_of_le hi (h3.trans ?_)
    rw [add_mul, add_mul]
    linarith
  have h6 := lt_of_mul_lt_mul_right h5 hpos.le
  unfold rayTol at h6
  linarith

lemma integrates_cells {ord : List (Cell D) → List (Cell D)} (ho : IsOrder ord) (h : Integrates ord nm m origin cloud m')
    (hp : p ∈ cloud.points) {ray e} (hr : Casts origin p m'.bounds m'.resolution nm.maxRange ray e) {z : Cell D}
    (hz : z ∈ ray ++ e.toList) : InGrid m' z := by
  obtain ⟨me, free, occ, h1, h2, h3, h4, h5, h6, -⟩ := integrate_spec ho h
  have hb : m'.bounds = me.bounds := by rw [h5]
  have hs : m'.resolution = me.resolution := by rw [h5]
  rw [hb, hs] at hr
  suffices InGrid me z by
    unfold InGrid at *
    rwa [h6]
  by_cases hocc : z ∈ occ
  · exact h4 z hocc
  rcases List.mem_append.mp hz with hz | hz
  · exact h3 z ((C28_free h2 z).mpr ⟨⟨p, hp, ray, e, hr, hz⟩, hocc⟩)
  · rw [Option.mem_toList] at hz
    cases hz
    exact absurd ((C28_occupied h2 z).mpr ⟨p, hp, ray, hr⟩) hocc

/-- In a recording within `M` cells: the maps stay small, and every ray stays in the grid. -/
lemma playback_cells {M : ℕ} (hD : D ≤ 3) (h0 : Placed m₀ CellBounds.empty ρ) (hM1 : 1 ≤ M) (hM : M ≤ 2 ^ 18)
    (hcl : ∀ e ∈ hist, WithinCells M ρ e.2.2) (h : Playback nm m₀ hist m) :
    SmallMap M m₀.tileSize ρ m ∧ ∀ e ∈ hist, SmallMap M m₀.tileSize ρ e.1 ∧
      ∀ p ∈ e.2.2.points, ∀ ray end_, Casts e.2.1 p e.1.bounds e.1.resolution nm.maxRange ray end_ →
        ∀ z ∈ ray ++ end_.toList, InGrid e.1 z := by
  induction h with
  | start => exact ⟨⟨_, h0, rfl, .inl rfl⟩, by simp⟩
  | scan _ ho hi ih =>
    obtain ⟨i1, i2⟩ := ih fun e he => hcl e (List.mem_append_left _ he)
    have h1 := smallMap_integrate hD i1 hM1 hM (hcl _ (List.mem_append_right _ (List.mem_singleton_self _))) ho hi
    refine ⟨h1, fun e he => ?_⟩
    rcases List.mem_append.mp he with he | he
    · exact i2 e he
    · rw [List.mem_singleton] at he
      subst he
      exact ⟨h1, fun p hp ray end_ hr z hz => integrates_cells ho hi hp hr hz⟩
  | marks _ hg ih =>
    obtain ⟨⟨cb, c1, c2, c3⟩, i2⟩ := ih hcl
    obtain ⟨g1, g2, g3, g4⟩ := hg
    exact ⟨⟨cb, placed_of_shape c1 g3 g2 g4 (by rw [g1]), g4.trans c2, c3⟩, i2⟩

/-- C111: maps that have taken scans of the same extents have the same bounds, after each scan. -/
theorem C111_same_bounds (h1 : Playback nm m₀ hist1 m1) (h2 : Playback nm m₀ hist2 m2)
    (hs : List.Forall₂ (fun a b => SameExtent a.2 b.2) hist1 hist2) :
    (m2.bounds = m1.bounds ∧ m2.resolution = m1.resolution ∧ m2.tileSize = m1.tileSize) ∧
    List.Forall₂ (fun a b => b.1.bounds = a.1.bounds ∧ b.1.resolution = a.1.resolution) hist1 hist2 := by
  induction hist1 using List.reverseRecOn generalizing hist2 m1 m2 with
  | nil =>
    cases hs
    obtain ⟨-, a1, a2, a3⟩ := playback_nil h1 rfl
    obtain ⟨-, b1, b2, b3⟩ := playback_nil h2 rfl
    exact ⟨⟨by rw [a1, b1], by rw [a2, b2], by rw [a3, b3]⟩, .nil⟩
  | append_singleton l a ih =>
    rcases List.eq_nil_or_concat hist2 with rfl | ⟨l', b, rfl⟩
    · have := hs.length_eq
      simp at this
    rw [List.concat_eq_append] at *
    have hlen : l.length = l'.length := by
      have := hs.length_eq
      simpa using this
    have hs1 := List.forall₂_take l.length hs
    have hs2 := List.forall₂_drop l.length hs
    rw [List.take_left, hlen, List.take_left] at hs1
    rw [List.drop_left, hlen, List.drop_left] at hs2
    obtain ⟨hab1, hab2⟩ := (List.forall₂_cons.mp hs2).1
    obtain ⟨n1, ord1, a1, a2, a3, -, a5, a6, a7⟩ := playback_snoc h1 rfl
    obtain ⟨n2, ord2, b1, b2, b3, -, b5, b6, b7⟩ := playback_snoc h2 rfl
    obtain ⟨⟨i1, i2, i3⟩, i4⟩ := ih a1 b1 hs1
    obtain ⟨me1, f1, o1, c1, c2, -, -, -, c3, c4, c5, -⟩ := C38_integrate a2 a3
    obtain ⟨me2, f2, o2, d1, d2, -, -, -, d3, d4, d5, -⟩ := C38_integrate b2 b3
    rw [hab2] at d1
    obtain ⟨k1, k2, k3⟩ := expand_same i1 i2 i3 c1 d1
    have e1 : b.1.bounds = a.1.bounds := by rw [d3, c3, k1]
    have e2 : b.1.resolution = a.1.resolution := by rw [d4, c4, k2]
    have e3 : b.1.tileSize = a.1.tileSize := by rw [d5, c5, k3]
    exact ⟨⟨by rw [a5, b5, e1], by rw [a6, b6, e2], by rw [a7, b7, e3]⟩, List.rel_append i4 (.cons ⟨e1, e2⟩ .nil)⟩

/-- C111, for recordings: play two recordings, scan by scan of the same extents, with one noise model. A world cell that
the lines through the points in exactly one of two corresponding scans stay off by the tolerance has the same value in
both maps. -/
theorem C111_playback {M : ℕ} (hD : D = 2 ∨ D = 3)
    (h0 : Placed m₀ CellBounds.empty ρ) (hM1 : 1 ≤ M) (hN : N = M + m₀.tileSize + 1) (hδ : rayTol N (2 * N) ≤ 1 / 2)
    (hcl1 : ∀ e ∈ hist1, WithinCells M ρ e.2.2) (hcl2 : ∀ e ∈ hist2, WithinCells M ρ e.2.2)
    (h1 : Playback nm m₀ hist1 m1) (h2 : Playback nm m₀ hist2 m2)
    (hs : List.Forall₂ (fun a b => SameExtent a.2 b.2) hist1 hist2) :
    m2.bounds = m1.bounds ∧ m2.resolution = m1.resolution ∧ ∃ cb, Placed m1 cb ρ ∧ Placed m2 cb ρ ∧ ∀ w : Cell D,
      List.Forall₂ (fun a b => StraysPass N ρ (rayTol N (2 * N)) a.2.1 a.2.2 b.2.2 w) hist1 hist2 →
        ∃ v, Before m1 cb w v ∧ Before m2 cb w v := by
  have hres := h0.res.pos
  have hM18 : M ≤ 2 ^ 18 := by
    unfold rayTol at hδ
    rw [div_le_iff₀ (by norm_num)] at hδ
    have hMN : (M : ℚ) ≤ N := by exact_mod_cast (by omega : M ≤ N)
    have : (M : ℚ) ≤ 262144 := by
      have : (0 : ℚ) ≤ ((2 * N : ℕ) : ℚ) ^ 2 := by positivity
      push_cast at hδ this
      linarith
    exact_mod_cast this
  have hcr : ∀ {hist : List (GridMap D F32 F32 × Point D F32 × PointCloud D F32)},
      (∀ e ∈ hist, WithinCells M ρ e.2.2) → ∀ e ∈ hist, CloudInRange e.2.2 ρ := by
    intro hist hcl e he p hp i
    obtain ⟨y, h1, h2⟩ := hcl e he p hp i
    have : (M : ℚ) ≤ 262144 := by exact_mod_cast hM18
    exact ⟨y, h1, h2.trans (by norm_num; gcongr)⟩
  obtain ⟨cb, q1, q2⟩ := C69_values (by omega) h0 (hcr hcl1) h1
  obtain ⟨cb', r1, r2⟩ := C69_values (by omega) h0 (hcr hcl2) h2
  have sm1 := (playback_cells (by omega) h0 hM1 hM18 hcl1 h1).2
  have sm2 := (playback_cells (by omega) h0 hM1 hM18 hcl2 h2).2
  have hcor := (playback_corner (by omega) h0 hM1 hM18 hcl1 h1).2
  obtain ⟨⟨s1, s2, s3⟩, s4⟩ := C111_same_bounds h1 h2 hs
  have hcb : cb' = cb := by rw [← q1.cells, ← r1.cells, s1, s2]
  subst hcb
  refine ⟨s1, s2, cb', q1, r1, fun w hw => ?_⟩
  have hfold : ∀ v, foldSeen nm hist2 w v = foldSeen nm hist1 w v := by
    unfold foldSeen
    clear q2 r2 h1 h2 hcl1 hcl2
    induction s4 with
    | nil => intro v; rfl
    | @cons a b _ _ hab _ ih =>
      intro v
      obtain ⟨t2, t3⟩ := hab
      obtain ⟨⟨t1, -⟩, hs⟩ := List.forall₂_cons.mp hs
      obtain ⟨hwa, hw⟩ := List.forall₂_cons.mp hw
      obtain ⟨cb1, hP1, hlow⟩ := hcor _ List.mem_cons_self
      obtain ⟨u1, u2⟩ := sm1 _ List.mem_cons_self
      obtain ⟨u3, u4⟩ := sm2 _ List.mem_cons_self
      have e : localCell b.1 w = localCell a.1 w := by unfold localCell; rw [t2, t3]
      have hmin : ∀ i, |cb1.min i| ≤ N := fun i => by rw [hN]; exact hlow.abs_le h0.tile_pos i
      rw [List.foldl_cons, List.foldl_cons, t1, t2, t3, e, C111_untouched fun p hp => ?_]
      · exact ih hs (fun e he => sm1 e (List.mem_cons_of_mem _ he)) (fun e he => sm2 e (List.mem_cons_of_mem _ he))
          (fun e he => hcor e (List.mem_cons_of_mem _ he)) hw _
      · obtain ⟨K', x, y, hA, ho⟩ := hwa p hp
        refine C111_far_ray hD hP1 hmin hδ hA (fun ray end_ hr z hz => ?_) (fun i => ?_) ho
        · rcases hp with ⟨hp, -⟩ | ⟨hp, -⟩
          · exact u2 p hp ray end_ hr z hz
          · obtain ⟨cb2, hP2, -, -⟩ := u3
            have hcb2 : cb2 = cb1 := by rw [← hP1.cells, ← hP2.cells, t2, t3]
            have h1 := u4 p hp ray end_ (by rw [t1, t2, t3]; exact hr) z hz
            intro i
            have h2 := h1 i
            have h3 := hP1.shape i
            have h4 := hP2.shape i
            rw [hcb2] at h4
            omega
        · have := u1.shape i
          omega
  have hz : worldValue m₀ CellBounds.empty w = .ok (Fp.lit 0) := if_neg fun h => by
    have := h ⟨0, by omega⟩
    simp only [CellBounds.empty] at this
    omega
  have hb : ∀ {m : GridMap D F32 F32} {v : F32}, worldValue m cb' w = .ok v → Before m cb' w v := by
    intro m v hv
    refine ⟨fun hin => ?_, fun hin => ?_⟩
    · rw [← hv]; exact (if_pos hin).symm
    · rw [show worldValue m cb' w = .ok (Fp.lit 0) from if_neg hin] at hv
      exact (Except.ok.inj hv).symm
  refine ⟨foldSeen nm hist1 w (Fp.lit 0), hb ?_, hb ?_⟩
  · rw [q2 w, hz]; rfl
  · rw [r2 w, hz, ← hfold]; rfl
end

/-! ## The visualizer -/

open Viz

section
variable {D N n : ℕ} {nm : LidarNoiseModel F32} {recs1 recs2 : ℕ → Point D F32 × PointCloud D F32}
  {m₀ : GridMap D F32 F32} {ρ : ℚ} {ord1 ord2 : ℕ → List (Verif.Cell D) → List (Verif.Cell D)}
  {s1 s2 : State (GridMap D F32 F32) (Verif.Cell D) (Point D F32)}

lemma cyclic_both {P : Point D F32 × PointCloud D F32 → Point D F32 × PointCloud D F32 → Prop} (hn : 0 < n)
    {hist1 hist2 : List (GridMap D F32 F32 × Point D F32 × PointCloud D F32)} {k : ℕ}
    (h1 : hist1.map (·.2) = cyclic recs1 n k) (h2 : hist2.map (·.2) = cyclic recs2 n k)
    (hP : ∀ r < n, P (recs1 r) (recs2 r)) : List.Forall₂ (fun a b => P a.2 b.2) hist1 hist2 := by
  have : List.Forall₂ P (hist1.map (·.2)) (hist2.map (·.2)) := by
    rw [h1, h2]
    unfold cyclic
    rw [List.forall₂_map_left_iff, List.forall₂_map_right_iff]
    exact List.forall₂_same.mpr fun j _ => hP _ (Nat.mod_lt _ hn)
  rwa [List.forall₂_map_left_iff, List.forall₂_map_right_iff] at this

/-- C111, for the visualizer: two runs on recordings that are scan by scan of the same extents. At moments when the
renderers have processed a batch and as many scans have been started, the maps have the same bounds, and agree on every
world cell that the lines through the points in exactly one of two corresponding scans stay off by the tolerance. -/
theorem C111_visualizer {M : ℕ} (hD : D = 2 ∨ D = 3) (hn : 0 < n) (h0 : Placed m₀ CellBounds.empty ρ)
    (ho1 : ∀ r, IsOrder (ord1 r)) (ho2 : ∀ r, IsOrder (ord2 r)) (hM1 : 1 ≤ M) (hN : N = M + m₀.tileSize + 1)
    (hδ : rayTol N (2 * N) ≤ 1 / 2) (hcl1 : ∀ r < n, WithinCells M ρ (recs1 r).2)
    (hcl2 : ∀ r < n, WithinCells M ρ (recs2 r).2) (hs : ∀ r < n, SameExtent (recs1 r) (recs2 r))
    (hr1 : Reach (occOps nm recs1 ord1) n m₀ s1) (hr2 : Reach (occOps nm recs2 ord2) n m₀ s2)
    (hm1 : s1.main = .clearFlag ∨ s1.main = .spawn) (hm2 : s2.main = .clearFlag ∨ s2.main = .spawn)
    (hw : s2.workers.length = s1.workers.length) :
    s2.map.bounds = s1.map.bounds ∧ s2.map.resolution = s1.map.resolution ∧
    ∃ cb, Placed s1.map cb ρ ∧ Placed s2.map cb ρ ∧ ∀ w : Verif.Cell D,
      (∀ r < n, StraysPass N ρ (rayTol N (2 * N)) (recs1 r).1 (recs1 r).2 (recs2 r).2 w) →
      ∃ v, Before s1.map cb w v ∧ Before s2.map cb w v := by
  obtain ⟨hist1, p1, p2, -, -, p3⟩ := C69_playback hn ho1 hr1
  obtain ⟨hist2, q1, q2, -, -, q3⟩ := C69_playback hn ho2 hr2
  rw [p3 hm1] at p2
  rw [q3 hm2, hw] at q2
  have hin : ∀ {recs : ℕ → Point D F32 × PointCloud D F32}
      {hist : List (GridMap D F32 F32 × Point D F32 × PointCloud D F32)} {k : ℕ}, hist.map (·.2) = cyclic recs n k →
      (∀ r < n, WithinCells M ρ (recs r).2) → ∀ e ∈ hist, WithinCells M ρ e.2.2 := by
    intro recs hist k h hcl e he
    have : e.2 ∈ cyclic recs n k := h ▸ List.mem_map_of_mem he
    unfold cyclic at this
    obtain ⟨j, -, hj⟩ := List.mem_map.mp this
    rw [← hj]
    exact hcl _ (Nat.mod_lt _ hn)
  obtain ⟨c1, c2, cb, d1, d2, d3⟩ := C111_playback hD h0 hM1 hN hδ (hin p2 hcl1) (hin q2 hcl2) p1 q1
    (cyclic_both hn p2 q2 hs)
  exact ⟨c1, c2, cb, d1, d2, fun w hx => d3 w
    (cyclic_both (P := fun a b => StraysPass N ρ (rayTol N (2 * N)) a.1 a.2 b.2 w) hn p2 q2 hx)⟩

/-- C111, on the screen: if moreover no recording reaches below the tiles that the first one reaches, then at such moments
the same of these cells are drawn, at the same points. -/
theorem C111_screen {M : ℕ} (hD : D = 2 ∨ D = 3) (hn : 0 < n) (h0 : Placed m₀ CellBounds.empty ρ)
    (ht0 : m₀.changedCells = []) (hth : FLe (Fp.lit 0) nm.threshold)
    (ho1 : ∀ r, IsOrder (ord1 r)) (ho2 : ∀ r, IsOrder (ord2 r)) (hM1 : 1 ≤ M) (hN : N = M + m₀.tileSize + 1)
    (hδ : rayTol N (2 * N) ≤ 1 / 2) (hcl1 : ∀ r, WithinCells M ρ (recs1 r).2)
    (hcl2 : ∀ r, WithinCells M ρ (recs2 r).2) (hs : ∀ r < n, SameExtent (recs1 r) (recs2 r))
    {k1 k2 : Fin D → ℤ} (hk1 : LowestFirst m₀.tileSize ρ recs1 k1) (hk2 : LowestFirst m₀.tileSize ρ recs2 k2)
    (hr1 : Reach (occOps nm recs1 ord1) n m₀ s1) (hr2 : Reach (occOps nm recs2 ord2) n m₀ s2)
    (hm1 : s1.main = .clearFlag ∨ s1.main = .spawn) (hm2 : s2.main = .clearFlag ∨ s2.main = .spawn)
    (hw : s2.workers.length = s1.workers.length) {w : Verif.Cell D} (hmc : MachineCell (localCell s1.map w))
    (hx : ∀ r < n, StraysPass N ρ (rayTol N (2 * N)) (recs1 r).1 (recs1 r).2 (recs2 r).2 w) :
    localCell s2.map w = localCell s1.map w ∧ s2.tracked (localCell s1.map w) = s1.tracked (localCell s1.map w) := by
  have hres := h0.res.pos
  have hMq : (M : ℚ) ≤ 262144 := by
    unfold rayTol at hδ
    rw [div_le_iff₀ (by norm_num)] at hδ
    have hMN : (M : ℚ) ≤ N := by exact_mod_cast (by omega : M ≤ N)
    have : (0 : ℚ) ≤ ((2 * N : ℕ) : ℚ) ^ 2 := by positivity
    push_cast at hδ this
    linarith
  have hcr : ∀ {recs : ℕ → Point D F32 × PointCloud D F32}, (∀ r, WithinCells M ρ (recs r).2) →
      ∀ r, CloudInRange (recs r).2 ρ := by
    intro recs hcl r p hp i
    obtain ⟨y, h1, h2⟩ := hcl r p hp i
    exact ⟨y, h1, h2.trans (by norm_num; gcongr)⟩
  obtain ⟨c1, c2, cb, d1, d2, d3⟩ := C111_visualizer hD hn h0 ho1 ho2 hM1 hN hδ (fun r _ => hcl1 r) (fun r _ => hcl2 r)
    hs hr1 hr2 hm1 hm2 hw
  have e : localCell s2.map w = localCell s1.map w := by unfold localCell; rw [c1, c2]
  refine ⟨e, ?_⟩
  rw [C55_lowest_first (by omega) hn h0 ht0 hth ho1 (by omega) (hcr hcl1) hk1 hr1 hm1 _ hmc,
    C55_lowest_first (by omega) hn h0 ht0 hth ho2 (by omega) (hcr hcl2) hk2 hr2 hm2 _ hmc]
  have hp : s2.map.pointFromCell (localCell s1.map w) = s1.map.pointFromCell (localCell s1.map w) := by
    unfold GridMap.pointFromCell; rw [c1, c2]
  have hocc : nm.occupied s2.map (localCell s1.map w) = nm.occupied s1.map (localCell s1.map w) := by
    obtain ⟨v, b1, b2⟩ := d3 w hx
    have hloc := local_eq d1 w
    unfold LidarNoiseModel.occupied
    congr 1
    by_cases hin : InCells w cb
    · have h1 := b1.1 hin
      have h2 := b2.1 hin
      unfold valueAt at h1 h2
      rw [hloc, h1, h2]
    · rw [(C31_get s1.map hmc).2 (by rw [hloc]; exact fun h => hin ((inCells_iff d1 w).mpr h)),
        (C31_get s2.map hmc).2 (by rw [hloc]; exact fun h => hin ((inCells_iff d2 w).mpr h))]
  rw [hp, hocc]
end

/-! ## Examples -/

/-- The scan `longScan` of C106 with a stray point at (10, 3/4). -/
def strayScan : Point 2 F32 × PointCloud 2 F32 :=
  (longScan.1, PointCloud.fromPoints
    [![Fp.lit (9 / 4), Fp.lit 1], ![Fp.lit 10, Fp.lit (3 / 4)], ![Fp.lit (81 / 4), Fp.lit (1 / 4)]])

lemma stray_extent : SameExtent longScan strayScan := by
  have key : ∀ a b : Bounds 2 F32, a.min = b.min → a.max = b.max → a = b := by
    rintro ⟨⟩ ⟨⟩ ⟨⟩ ⟨⟩
    rfl
  exact ⟨rfl, key _ _ (by decide +kernel) (by decide +kernel)⟩

lemma stray_only {p : Point 2 F32} (h : Stray longScan.2 strayScan.2 p) : p = ![Fp.lit 10, Fp.lit (3 / 4)] := by
  unfold Stray at h
  rw [longScan, strayScan, C13_points_fromPoints, C13_points_fromPoints] at h
  simp only [List.mem_cons, List.not_mem_nil, or_false] at h
  tauto

lemma stray_within : WithinCells 21 1 strayScan.2 := by
  intro p hp
  rw [strayScan, C13_points_fromPoints] at hp
  simp only [List.mem_cons, List.not_mem_nil, or_false] at hp
  rcases hp with rfl | rfl | rfl <;> intro i
  · refine ⟨![9 / 4, 1] i, ?_, ?_⟩ <;> revert i <;> decide +kernel
  · refine ⟨![10, 3 / 4] i, ?_, ?_⟩ <;> revert i <;> decide +kernel
  · refine ⟨![81 / 4, 1 / 4] i, ?_, ?_⟩ <;> revert i <;> decide +kernel

/-- The line to the stray point passes the cell (2, 1), where another point lies. -/
lemma stray_passes : StraysPass 24 1 (rayTol 24 (2 * 24)) longScan.1 longScan.2 strayScan.2 ![2, 1] := by
  intro p hp
  obtain rfl := stray_only hp
  refine ⟨20, ![1 / 4, 1 / 4], ![10, 3 / 4], ⟨by norm_num, by norm_num, by norm_num, by norm_num, by decide +kernel, ?_,
    by decide +kernel, ?_, ?_, ?_⟩, fun t ht => ?_⟩
  iterate 4 decide +kernel
  have hδ : rayTol 24 (2 * 24) ≤ 1 / 100 := by norm_num [rayTol]
  by_cases h : t ≤ 1 / 4
  · refine ⟨1, ?_⟩
    simp only [lineAt, Matrix.cons_val_one, Matrix.cons_val_zero]
    rw [abs_sub_comm]
    refine lt_of_lt_of_le ?_ (le_abs_self _)
    norm_num
    linarith
  · refine ⟨0, ?_⟩
    simp only [lineAt, Matrix.cons_val_zero]
    refine lt_of_lt_of_le ?_ (le_abs_self _)
    norm_num
    linarith

/-- More points tell no less: about the cell (10, 1) the scan with the stray point tells more. -/
example : NoLess (seen longScan.1 longScan.2 ⟨![Fp.lit 0, Fp.lit 0], ![Fp.lit 30, Fp.lit 30]⟩ (Fp.lit 1) (Fp.lit 60) ![10, 1])
    (seen longScan.1 strayScan.2 ⟨![Fp.lit 0, Fp.lit 0], ![Fp.lit 30, Fp.lit 30]⟩ (Fp.lit 1) (Fp.lit 60) ![10, 1]) :=
  C111_no_less (fun p hp => by
    rw [longScan, C13_points_fromPoints] at hp
    rw [strayScan, C13_points_fromPoints]
    simp only [List.mem_cons, List.not_mem_nil, or_false] at hp ⊢
    tauto) _

/-- The value of a cell after a scan. -/
def afterScan (scan : Point 2 F32 × PointCloud 2 F32) (c : Cell 2) : Option F32 :=
  (smallNM.integratePointCloud id 40 smallMap scan.1 scan.2).toOption.bind fun m => (m.get c).toOption

lemma stray_values : afterScan longScan ![10, 1] = some (Fp.lit 0) ∧ afterScan strayScan ![10, 1] = some (Fp.lit 1) ∧
    afterScan strayScan ![2, 1] = some (Fp.lit 1) := by decide +kernel

/-- Without and with the stray point: the cell (2, 1) has the same value, and the cell (10, 1) has not. -/
example : (∃ m1 m2 : GridMap 2 F32 F32, Playback smallNM smallMap [(m1, longScan)] m1 ∧
      Playback smallNM smallMap [(m2, strayScan)] m2 ∧ m2.bounds = m1.bounds ∧
      ∃ cb, Placed m1 cb 1 ∧ Placed m2 cb 1 ∧ ∃ v, Before m1 cb ![2, 1] v ∧ Before m2 cb ![2, 1] v) ∧
    afterScan longScan ![10, 1] ≠ afterScan strayScan ![10, 1] := by
  obtain ⟨h1, h2, h3⟩ := stray_values
  refine ⟨?_, by rw [h1, h2]; decide +kernel⟩
  have hid : IsOrder (id : List (Verif.Cell 2) → List (Verif.Cell 2)) := fun l => List.Perm.refl l
  unfold afterScan at h1 h2
  cases e1 : smallNM.integratePointCloud id 40 smallMap longScan.1 longScan.2 with
  | error e => rw [e1] at h1; cases h1
  | ok m1 =>
    cases e2 : smallNM.integratePointCloud id 40 smallMap strayScan.1 strayScan.2 with
    | error e => rw [e2] at h2; cases h2
    | ok m2 =>
      have p1 : Playback smallNM smallMap [(m1, longScan)] m1 := .scan .start hid ⟨40, e1⟩
      have p2 : Playback smallNM smallMap [(m2, strayScan)] m2 := .scan .start hid ⟨40, e2⟩
      obtain ⟨q1, -, cb, q2, q3, q4⟩ := C111_playback (M := 21) (N := 24) (.inl rfl) smallMap_placed (by norm_num) rfl
        (by norm_num [rayTol]) (by simpa using long_within) (by simpa using stray_within) p1 p2
        (.cons stray_extent .nil)
      exact ⟨m1, m2, p1, p2, q1, cb, q2, q3, q4 _ (.cons stray_passes .nil)⟩

/-- The hypotheses of C111 for the visualizer and for the screen, with the stray point in every second scan. -/
example : 24 = 21 + smallMap.tileSize + 1 ∧ rayTol 24 (2 * 24) ≤ 1 / 2 ∧
    (∀ r, SameExtent longScan (if r % 2 = 0 then longScan else strayScan)) ∧
    LowestFirst smallMap.tileSize 1 (fun r => if r % 2 = 0 then longScan else strayScan) (fun _ => 0) ∧
    ∀ r, StraysPass 24 1 (rayTol 24 (2 * 24)) longScan.1 longScan.2 (if r % 2 = 0 then longScan else strayScan).2 ![2, 1] := by
  refine ⟨rfl, by norm_num [rayTol], fun r => ?_, ⟨by simp, fun r p hp i => ?_, fun _ => .inl rfl⟩, fun r => ?_⟩
  · split_ifs
    · exact ⟨rfl, rfl⟩
    · exact stray_extent
  · split_ifs at hp
    · rw [longScan, C13_points_fromPoints] at hp
      simp only [List.mem_cons, List.not_mem_nil, or_false] at hp
      rcases hp with rfl | rfl
      · refine ⟨![9 / 4, 1] i, ?_, ?_⟩ <;> revert i <;> decide +kernel
      · refine ⟨![81 / 4, 1 / 4] i, ?_, ?_⟩ <;> revert i <;> decide +kernel
    · rw [strayScan, C13_points_fromPoints] at hp
      simp only [List.mem_cons, List.not_mem_nil, or_false] at hp
      rcases hp with rfl | rfl | rfl
      · refine ⟨![9 / 4, 1] i, ?_, ?_⟩ <;> revert i <;> decide +kernel
      · refine ⟨![10, 3 / 4] i, ?_, ?_⟩ <;> revert i <;> decide +kernel
      · refine ⟨![81 / 4, 1 / 4] i, ?_, ?_⟩ <;> revert i <;> decide +kernel
  · split_ifs
    · intro p hp
      unfold Stray at hp
      tauto
    · exact stray_passes

end Verif.Props
