import Verif.Spec.Picture
import Verif.Props.Geometric
import Verif.Props.Alive

/-!
# C89: from the files to the picture
-/

namespace Verif.Props
open Spec Scalar

section
variable {D : ℕ} {N K : ℕ} {ρ ε : ℝ} {X Y : Fin D → ℝ} {pts : List (Fin D → ℝ)}

/-- The start of a clear segment is near one cell only. -/
lemma clearReal_start {tol : ℝ} (hc : ClearSegmentReal X Y ρ tol) (hρ : 0 < ρ) {a b : Cell D}
    (ha : ∀ i, |X i - a i * ρ| ≤ ρ / 2 + tol) (hb : ∀ i, |X i - b i * ρ| ≤ ρ / 2 + tol) : a = b := by
  have key : ∀ {a b : Cell D}, (∀ i, |X i - a i * ρ| ≤ ρ / 2 + tol) →
      (∀ i, |X i - b i * ρ| ≤ ρ / 2 + tol) → ∀ i, b i ≤ a i := by
    intro a b ha hb i
    by_contra hlt
    push Not at hlt
    have h1 : (a i : ℝ) + 1 ≤ b i := by exact_mod_cast hlt
    obtain ⟨s, s0, s1, hs⟩ := hc a ⟨0, le_rfl, zero_le_one, fun i => by simpa using ha i⟩
    obtain ⟨t, t0, t1, ht⟩ := hc b ⟨0, le_rfl, zero_le_one, fun i => by simpa using hb i⟩
    have a1 := abs_le.mp (ha i)
    have b1 := abs_le.mp (hb i)
    have a2 := abs_lt.mp (hs i)
    have b2 := abs_lt.mp (ht i)
    have h2 : ((a i : ℝ) + 1) * ρ ≤ b i * ρ := mul_le_mul_of_nonneg_right h1 hρ.le
    have h3 : s * (Y i - X i) < 0 := by linarith [a2.2, b1.1]
    have h4 : 0 < t * (Y i - X i) := by linarith [a1.2, b2.1]
    have h5 : Y i - X i < 0 := by
      by_contra h; push Not at h
      exact absurd (mul_nonneg s0 h) (not_le.mpr h3)
    exact absurd (mul_nonpos_of_nonneg_of_nonpos t0 h5.le) (not_le.mpr h4)
  funext i
  exact le_antisymm (key hb ha i) (key ha hb i)

lemma clearReal_swap {tol : ℝ} (hc : ClearSegmentReal X Y ρ tol) : ClearSegmentReal Y X ρ tol := by
  have hl : ∀ t i, Y i + t * (X i - Y i) = X i + (1 - t) * (Y i - X i) := by intro t i; ring
  rintro w ⟨t, t0, t1, ht⟩
  obtain ⟨s, s0, s1, hs⟩ := hc w ⟨1 - t, by linarith, by linarith, fun i => by rw [← hl]; exact ht i⟩
  refine ⟨1 - s, by linarith, by linarith, fun i => ?_⟩
  rw [hl, sub_sub_cancel]
  exact hs i

/-- The end of a clear segment is well inside its cell. -/
lemma clearReal_inside {tol : ℝ} (hc : ClearSegmentReal X Y ρ tol) (hρ : 0 < ρ) {a : Cell D}
    (ha : ∀ i, |Y i - a i * ρ| ≤ ρ / 2 + tol) (i : Fin D) : |Y i - a i * ρ| < ρ / 2 - tol := by
  by_contra hlt
  push Not at hlt
  have hne : ∀ k : ℤ, k ≠ a i → ¬ |Y i - k * ρ| ≤ ρ / 2 + tol := by
    intro k hk h1
    have h2 := clearReal_start (clearReal_swap hc) hρ ha (b := Function.update a i k) (by
      intro j
      by_cases hj : j = i
      · subst hj; rw [Function.update_self]; exact h1
      · rw [Function.update_of_ne hj]; exact ha j)
    apply hk
    rw [h2, Function.update_self]
  have h1 := abs_le.mp (ha i)
  rcases abs_cases (Y i - a i * ρ) with ⟨h2, -⟩ | ⟨h2, -⟩
  · refine hne (a i + 1) (by omega) ?_
    push_cast
    rw [h2] at hlt
    rw [abs_le]; constructor <;> linarith
  · refine hne (a i - 1) (by omega) ?_
    push_cast
    rw [h2] at hlt
    rw [abs_le]; constructor <;> linarith

/-- Where the ends of two segments are near each other, so are all points in between. -/
lemma between_near {x y : Fin D → ℝ} (hx : ∀ i, |x i - X i| ≤ ε) (hy : ∀ i, |y i - Y i| ≤ ε) {t : ℝ} (t0 : 0 ≤ t)
    (t1 : t ≤ 1) (c : ℝ) (i : Fin D) : |x i + t * (y i - x i) - c| ≤ |X i + t * (Y i - X i) - c| + ε ∧
      |X i + t * (Y i - X i) - c| ≤ |x i + t * (y i - x i) - c| + ε := by
  have h1 : |(x i + t * (y i - x i) - c) - (X i + t * (Y i - X i) - c)| ≤ ε := by
    rw [show (x i + t * (y i - x i) - c) - (X i + t * (Y i - X i) - c) = (1 - t) * (x i - X i) + t * (y i - Y i) by ring]
    refine (abs_add_le _ _).trans ?_
    have t1' : 0 ≤ 1 - t := by linarith
    rw [abs_mul, abs_mul, abs_of_nonneg t0, abs_of_nonneg t1']
    have := mul_le_mul_of_nonneg_left (hx i) t1'
    have := mul_le_mul_of_nonneg_left (hy i) t0
    linarith
  have h2 := abs_sub_abs_le_abs_sub (x i + t * (y i - x i) - c) (X i + t * (Y i - X i) - c)
  have h3 := abs_sub_abs_le_abs_sub (X i + t * (Y i - X i) - c) (x i + t * (y i - x i) - c)
  rw [abs_sub_comm (X i + t * (Y i - X i) - c) (x i + t * (y i - x i) - c)] at h3
  exact ⟨by linarith, by linarith⟩

end

section
variable {D : ℕ} {N K : ℕ} {ρ : ℚ} {ε : ℝ} {X Y : Fin D → ℝ} {x y : Fin D → ℚ} {pts : List (Fin D → ℝ)}
  {origin : Point D F32} {cloud : PointCloud D F32}

/-- One segment: the numbers near a clear segment are a clear segment, which ends in the same cell and meets the same
cells. -/
lemma clear_of_near (hρ : 0 < ρ) (hε : 0 ≤ ε) (hx : ∀ i, |(x i : ℝ) - X i| ≤ ε) (hy : ∀ i, |(y i : ℝ) - Y i| ≤ ε)
    (hc : ClearSegmentReal X Y ρ (rayTol N K * ρ + ε)) :
    ClearSegment (fun _ => 0) x y ρ (rayTol N K * ρ) ∧ ∀ w : Cell D,
      ((∀ i, |y i - w i * ρ| ≤ ρ / 2) ↔ ∀ i, |Y i - w i * (ρ : ℝ)| ≤ (ρ : ℝ) / 2) ∧
      ((∃ t : ℚ, 0 ≤ t ∧ t ≤ 1 ∧ ∀ i, |x i + t * (y i - x i) - w i * ρ| ≤ ρ / 2) ↔
        ∃ t : ℝ, 0 ≤ t ∧ t ≤ 1 ∧ ∀ i, |X i + t * (Y i - X i) - w i * (ρ : ℝ)| ≤ (ρ : ℝ) / 2) := by
  have hρ' : (0 : ℝ) < ρ := by exact_mod_cast hρ
  have hτ : (0 : ℝ) ≤ (rayTol N K : ℝ) * ρ := by
    have : 0 ≤ rayTol N K * ρ := mul_nonneg rayTol_nonneg hρ.le
    exact_mod_cast this
  -- from the numbers to the real ones
  have down : ∀ {w : Cell D} {t b : ℚ}, 0 ≤ t → t ≤ 1 → (∀ i, |x i + t * (y i - x i) - w i * ρ| ≤ b) →
      ∀ i, |X i + t * (Y i - X i) - w i * (ρ : ℝ)| ≤ b + ε := by
    intro w t b t0 t1 h i
    have h1 := (between_near hx hy (t := t) (by exact_mod_cast t0) (by exact_mod_cast t1) (w i * ρ) i).2
    have h2 : |(x i : ℝ) + t * (y i - x i) - w i * ρ| ≤ b := by exact_mod_cast h i
    linarith
  -- and back
  have up : ∀ {w : Cell D}, (∃ t : ℝ, 0 ≤ t ∧ t ≤ 1 ∧
      ∀ i, |X i + t * (Y i - X i) - w i * (ρ : ℝ)| < ρ / 2 - (rayTol N K * ρ + ε)) →
      ∃ t : ℚ, 0 ≤ t ∧ t ≤ 1 ∧ ∀ i, |x i + t * (y i - x i) - w i * ρ| < ρ / 2 - rayTol N K * ρ := by
    rintro w ⟨t, t0, t1, h⟩
    obtain ⟨u, u0, u1, hu⟩ := rat_time (c := fun i => w i * (ρ : ℝ)) t0 t1 h
    refine ⟨u, u0, u1, fun i => ?_⟩
    have h1 := (between_near hx hy (t := u) (by exact_mod_cast u0) (by exact_mod_cast u1) (w i * ρ) i).1
    have h2 : |(x i : ℝ) + u * (y i - x i) - w i * ρ| < ρ / 2 - rayTol N K * ρ := by linarith [hu i]
    rw [← Rat.cast_lt (K := ℝ)]
    push_cast
    exact h2
  refine ⟨?_, fun w => ⟨⟨fun h i => ?_, fun h i => ?_⟩, ?_, ?_⟩⟩
  · rintro w ⟨t, t0, t1, ht⟩
    obtain ⟨u, u0, u1, hu⟩ := up (hc w ⟨t, by exact_mod_cast t0, by exact_mod_cast t1, fun i => by
      have := down (w := w) (b := ρ / 2 + rayTol N K * ρ) t0 t1 (fun i => by simpa [lineAt] using ht i) i
      push_cast at this
      linarith⟩)
    exact ⟨u, u0, u1, fun i => by simpa [lineAt] using hu i⟩
  · have h1 : ∀ i, |Y i - w i * (ρ : ℝ)| ≤ ρ / 2 + (rayTol N K * ρ + ε) := fun i => by
      have h2 : |(y i : ℝ) - w i * ρ| ≤ ρ / 2 := by exact_mod_cast h i
      have h3 := abs_sub_le (Y i) (y i : ℝ) (w i * ρ)
      rw [abs_sub_comm (Y i) (y i : ℝ)] at h3
      linarith [hy i]
    linarith [clearReal_inside hc hρ' h1 i]
  · have h1 := clearReal_inside hc hρ' (a := w) (fun i => by linarith [h i]) i
    have h3 := abs_sub_le (y i : ℝ) (Y i) (w i * ρ)
    have h2 : |(y i : ℝ) - w i * ρ| ≤ ρ / 2 := by linarith [hy i]
    exact_mod_cast h2
  · rintro ⟨t, t0, t1, ht⟩
    obtain ⟨u, u0, u1, hu⟩ := hc w ⟨t, by exact_mod_cast t0, by exact_mod_cast t1, fun i => by
      have := down t0 t1 ht i
      push_cast at this
      linarith⟩
    exact ⟨u, u0, u1, fun i => by linarith [hu i]⟩
  · rintro ⟨t, t0, t1, ht⟩
    obtain ⟨u, u0, u1, hu⟩ := up (hc w ⟨t, t0, t1, fun i => by linarith [ht i]⟩)
    refine ⟨u, u0, u1, fun i => ?_⟩
    have : 0 ≤ rayTol N K * ρ := mul_nonneg rayTol_nonneg hρ.le
    linarith [hu i]

lemma forall₂_choose {α β γ : Type} {R : α → β → Prop} {S : α → γ → β → Prop} {l : List α} {l' : List β}
    (h : List.Forall₂ R l l') (hs : ∀ a b, a ∈ l → b ∈ l' → R a b → ∃ c, S a c b) :
    ∃ m : List γ, List.Forall₂ (fun a c => ∃ b ∈ l', S a c b) l m ∧ List.Forall₂ (fun c b => ∃ a ∈ l, S a c b) m l' := by
  induction h with
  | nil => exact ⟨[], .nil, .nil⟩
  | cons h1 _ ih =>
    obtain ⟨c, hc⟩ := hs _ _ List.mem_cons_self List.mem_cons_self h1
    obtain ⟨m, h2, h3⟩ := ih fun a b ha hb => hs a b (List.mem_cons_of_mem _ ha) (List.mem_cons_of_mem _ hb)
    exact ⟨c :: m, .cons ⟨_, List.mem_cons_self, hc⟩ (h2.imp fun _ _ ⟨b, hb, h⟩ => ⟨b, List.mem_cons_of_mem _ hb, h⟩),
      .cons ⟨_, List.mem_cons_self, hc⟩ (h3.imp fun _ _ ⟨a, ha, h⟩ => ⟨a, List.mem_cons_of_mem _ ha, h⟩)⟩

/-- C89, for one scan: a scan whose numbers are within `ε` of real ones, the real segments clear of the corners of the
cells with this much room to spare, is a clear scan, and tells about every world cell what geometry tells from the real
numbers. -/
theorem C89_scan (hD : D ≤ 3) (hlo : 1 / 2 ^ 20 ≤ ρ) (hhi : ρ ≤ 2 ^ 20) (hN1 : 1 ≤ N) (hN18 : N ≤ 2 ^ 18)
    {ml : F32} {lam : ℚ} (hml : ml.Is lam) (hl60 : lam ≤ 2 ^ 60) (hε : 0 ≤ ε) (hs : NearScan ε origin cloud X pts)
    (h : ClearRaysReal N K ρ lam ε X pts) :
    ∃ x ys, ClearRays N K ρ ml origin cloud x ys ∧ ∀ w, geoSeen ρ x ys w = geoSeenReal ρ X pts w := by
  choose x hx using hs.1
  have hρ : 0 < ρ := lt_of_lt_of_le (by norm_num) hlo
  obtain ⟨ys, h1, h2⟩ := forall₂_choose hs.2
    (γ := Fin D → ℚ) (S := fun p y Y => (∀ i, (p i).Is (y i) ∧ |(y i : ℝ) - Y i| ≤ ε)) fun p Y _ _ hp => by
      choose y hy using hp
      exact ⟨y, hy⟩
  have near : ∀ y ∈ ys, ∃ Y ∈ pts, ∀ i, |(y i : ℝ) - Y i| ≤ ε := by
    intro y hy
    obtain ⟨p, -, Y, hY, h3⟩ := forall₂_left h1.flip hy
    exact ⟨Y, hY, fun i => (h3 i).2⟩
  have near' : ∀ Y ∈ pts, ∃ y ∈ ys, ∀ i, |(y i : ℝ) - Y i| ≤ ε := by
    intro Y hY
    obtain ⟨y, hy, p, -, h3⟩ := forall₂_left h2.flip hY
    exact ⟨y, hy, fun i => (h3 i).2⟩
  have seg := fun y Y (hY : Y ∈ pts) hn => clear_of_near (N := N) (K := K) (y := y) hρ hε (fun i => (hx i).2) hn
    (h.clear Y hY)
  refine ⟨x, ys, ⟨?_, fun y hy => ?_, fun y hy => .inr ?_⟩, fun w => ?_⟩
  · refine h1.imp fun p y hpy => ?_
    obtain ⟨Y, hY, h3⟩ := hpy
    exact aims_of_real hlo hhi hN1 hN18 hx h3 (h.aims Y hY)
  · obtain ⟨Y, hY, hn⟩ := near y hy
    exact (seg y Y hY hn).1
  · obtain ⟨Y, hY, hn⟩ := near y hy
    have hd := h.range Y hY
    have hρ' : (0 : ℝ) < ρ := by exact_mod_cast hρ
    have hroot := Real.sqrt_nonneg (sqLen X Y)
    have hl0 : (0 : ℝ) ≤ lam * (1 - 1 / 2 ^ 20) - 3 * ρ := by linarith
    refine ⟨lam, lam * (1 - 1 / 2 ^ 20) - 3 * ρ, hml, hl60,
      ⟨by rw [← Rat.cast_le (K := ℝ)]; push_cast; exact hl0, ?_⟩, by linarith⟩
    have := sqrt_close (d := fun i => Y i - X i) (e := fun i => ((y i : ℝ) - Y i) - (x i - X i))
      (b := lam * (1 - 1 / 2 ^ 20) - 3 * ρ) hD hε (fun i => by
        have := abs_sub ((y i : ℝ) - Y i) (x i - X i)
        linarith [(hx i).2, hn i]) (by unfold sqLen at hd; linarith)
    have h2 : ∑ i, ((y i : ℝ) - x i) ^ 2 ≤ (lam * (1 - 1 / 2 ^ 20) - 3 * ρ) ^ 2 := by
      refine le_trans (le_of_eq ?_) this
      exact Finset.sum_congr rfl fun i _ => by ring
    unfold distSq
    rw [← Rat.cast_le (K := ℝ)]
    push_cast
    exact h2
  · unfold geoSeen geoSeenReal
    refine told_congr ⟨?_, ?_⟩ fun _ => ⟨?_, ?_⟩
    · rintro ⟨y, hy, hw⟩
      obtain ⟨Y, hY, hn⟩ := near y hy
      exact ⟨Y, hY, ((seg y Y hY hn).2 w).1.mp hw⟩
    · rintro ⟨Y, hY, hw⟩
      obtain ⟨y, hy, hn⟩ := near' Y hY
      exact ⟨y, hy, ((seg y Y hY hn).2 w).1.mpr hw⟩
    · rintro ⟨y, hy, hw⟩
      obtain ⟨Y, hY, hn⟩ := near y hy
      exact ⟨Y, hY, ((seg y Y hY hn).2 w).2.mp hw⟩
    · rintro ⟨Y, hY, hw⟩
      obtain ⟨y, hy, hn⟩ := near' Y hY
      exact ⟨y, hy, ((seg y Y hY hn).2 w).2.mpr hw⟩

end

section
variable [T : Trig F32] [Libm F32]
open Kitti Viz

omit T in
/-- From recordings that are near given scans to the values in the map and the picture, if of each such scan it is known
what it tells about every world cell. -/
lemma scans_tell (hl : TestedLn) {idx : List ℕ} {i0 : ℕ} (hi0 : idx[0]? = some i0) {rs : Recordings} {ε : ℝ} (hε0 : 0 ≤ ε)
    {X : ℕ → Fin 3 → ℝ} {pts : ℕ → List (Fin 3 → ℝ)} (hlen : rs.clouds.length = idx.length)
    (hnone : ∀ r, idx.length ≤ r → (rs.get r).2.points = [])
    (hnear : ∀ (k i : ℕ), idx[k]? = some i → NearScan ε (rs.get k).1 (rs.get k).2 (X i) (pts i))
    {M N : ℕ} (hM1 : 1 ≤ M) (hN : N = M + 101) (hN18 : N ≤ 2 ^ 18)
    {ρ : ℚ} (hρ : ρ = (Fp.lit 0.1 : F32).val) (hB : ∀ i ∈ idx, ∀ Y ∈ pts i, ∀ n, |Y n| + ε ≤ M * ρ)
    {G : ℕ → Verif.Cell 3 → Seen}
    (hG : 0 ≤ ε → ∀ i ∈ idx, ∀ origin cloud, NearScan ε origin cloud (X i) (pts i) → ∀ (m : GridMap 3 F32 F32) (cb : CellBounds 3),
      Placed m cb ρ → (∀ n, |cb.min n| ≤ N) →
      ∀ w, seen origin cloud m.bounds m.resolution defaultNM.maxRange (localCell m w) = G i w)
    {o : OccupancyGridMap 3 F32} (hdef : OccupancyGridMap.default_ = .ok o)
    {value : ℕ → Verif.Cell 3 → F32} (hvalue : ∀ k w, value k w = ((List.range k).map fun j => G (idx.getD (j % idx.length) 0)).foldl
      (fun v g => Seen.apply o.noiseModel v (g w)) (Fp.lit 0))
    (ord : ℕ → List (Verif.Cell 3) → List (Verif.Cell 3)) (s) (hord : ∀ r, IsOrder (ord r))
    (hr : Reach (occOps o.noiseModel rs.get ord) rs.clouds.length o.gridMap s) :
    (∃ k cb, k ≤ s.workers.length ∧ s.workers.length ≤ k + 1 ∧
      (s.main = .clearFlag ∨ s.main = .spawn → k = s.workers.length) ∧ Placed s.map cb ρ ∧
      ∀ w, Before s.map cb w (value k w)) ∧
    ∀ low : Fin 3 → ℤ, LowestFirstReal 100 ρ ε (· ∈ idx) pts (pts i0) low → s.main = .clearFlag ∨ s.main = .spawn →
      ∀ w : Verif.Cell 3, (∀ i, |w i| ≤ 2 ^ 62) →
      (¬ o.noiseModel.threshold.lt (value s.workers.length w) = true →
        s.tracked (localCell s.map w) = none) ∧
      (o.noiseModel.threshold.lt (value s.workers.length w) = true →
        ∃ p, s.tracked (localCell s.map w) = some p ∧ ∀ i, ∃ z, (p i).Is z ∧ |z - w i * ρ| < ρ / 2) := by
  have hidx : 0 < idx.length := (List.getElem?_eq_some_iff.mp hi0).1
  have hrlo : (1 : ℚ) / 2 ^ 20 ≤ ρ := by rw [hρ]; decide +kernel
  have hrhi : ρ ≤ (2 : ℚ) ^ 20 := by rw [hρ]; decide +kernel
  have hcl : ∀ r, WithinCells M ρ (rs.get r).2 := by
    intro r p hp n
    by_cases hr : r < idx.length
    · have hk : idx[r]? = some idx[r] := List.getElem?_eq_getElem hr
      obtain ⟨Y, hY, hn⟩ := forall₂_left (hnear r _ hk).2 hp
      obtain ⟨q, hq, hd⟩ := hn n
      have h1 := hB _ (List.mem_of_getElem? hk) Y hY n
      have h2 := abs_sub_abs_le_abs_sub (q : ℝ) (Y n)
      have h3 : |(q : ℝ)| ≤ M * ρ := by linarith
      exact ⟨q, hq, by exact_mod_cast h3⟩
    · rw [hnone r (by omega)] at hp
      cases hp
  obtain ⟨m0, rfl, e2, e3, e4⟩ := default_start hl hρ hdef
  rw [hlen] at hr
  have hget : ∀ r < idx.length, idx[r]? = some (idx.getD r 0) := by
    intro r hr
    rw [List.getD_eq_getElem?_getD, List.getElem?_eq_getElem hr, Option.getD_some]
  have hscans : ∀ r < idx.length, ∀ (m : GridMap 3 F32 F32) (cb : CellBounds 3), Placed m cb ρ → (∀ n, |cb.min n| ≤ N) →
      ∀ w, seen (rs.get r).1 (rs.get r).2 m.bounds m.resolution defaultNM.maxRange (localCell m w) = G (idx.getD r 0) w :=
    fun r hr => hG hε0 _ (List.mem_of_getElem? (hget r hr)) _ _ (hnear r _ (hget r hr))
  have hfold : ∀ k w, (cyclic (fun r => G (idx.getD r 0)) idx.length k).foldl (fun v g => Seen.apply defaultNM v (g w))
      (Fp.lit 0) = value k w := fun k w => (hvalue k w).symm
  obtain ⟨k, cb, a1, a2, a3, a4, a5⟩ := tells_visualizer (.inr rfl) hidx e2 hord hM1
    (N := N) (by rw [e3]; omega) hN18 (fun r _ => hcl r) hscans hr
  refine ⟨⟨k, cb, a1, a2, a3, a4, fun w => by rw [← hfold]; exact a5 w⟩, fun low hlow hm w hw => ?_⟩
  have hlow' : LowestFirst m0.tileSize ρ rs.get low := by
    rw [e3]
    refine ⟨hlow.origin, fun r p hp i => ?_, fun i => ?_⟩
    · by_cases hr : r < idx.length
      · obtain ⟨Y, hY, hn⟩ := forall₂_left (hnear r _ (hget r hr)).2 hp
        obtain ⟨q, hq, hd⟩ := hn i
        have h1 := hlow.above _ (List.mem_of_getElem? (hget r hr)) Y hY i
        have h2 := abs_le.mp hd
        have h3 : (low i * 100 * ρ : ℝ) ≤ q := by push_cast at h1; linarith
        exact ⟨q, hq, by exact_mod_cast h3⟩
      · rw [hnone r (by omega)] at hp
        cases hp
    · rcases hlow.reached i with h | ⟨Y, hY, h⟩
      · exact .inl h
      · obtain ⟨p, hp, hn⟩ := forall₂_left (hnear 0 _ hi0).2.flip hY
        obtain ⟨q, hq, hd⟩ := hn i
        have h2 := abs_le.mp hd
        refine .inr ⟨p, hp, q, hq, ?_⟩
        have h3 : (q : ℝ) < ((low i + 1) * 100 - 1 / 8) * ρ := by push_cast at h; linarith
        rw [← Rat.cast_lt (K := ℝ)]
        push_cast
        exact h3
  have hmc : MachineCell (localCell s.map w) := by
    intro i
    rw [local_eq a4]
    have r1 : |cb.min i| ≤ 2 ^ 19 := (a4.min_range i).elim (fun h => h.trans (by norm_num)) fun h => h.2
    have r2 := abs_le.mp r1
    have r3 := abs_le.mp (hw i)
    constructor <;> dsimp only [isizeMin, isizeMax] <;> norm_num <;> omega
  exact tells_screen (.inr rfl) hidx e2 e4 (by decide +kernel) hord hM1 (N := N) (by rw [e3]; omega) hN18
    hcl hscans hlow' hr hm w hmc (hfold _ w).symm

/-- From the bytes of a recording folder to the values in the map and the picture, if of each scan it is known what it
tells about every world cell. -/
lemma folder_tells (hl : TestedLn) (hT : AccurateTrig T) {cos : F64 → F64} {radPerDeg : F64} {cast : F64 → F32}
    (he : AccurateEnv (parsingEnv cos radPerDeg cast (Quat.fromEuler (F := F32))))
    {w₁ w₂ : ℕ} {ext ext' : List (Fin 256)} {idx : List ℕ} {po pv : List (List (Fin 256))}
    (ho : IndexFolder w₁ ext idx po) (hv : IndexFolder w₂ ext' idx pv)
    {oxtBytes cloudBytes : List (Fin 256) → List (BitVec 8)} {place : ℕ → Place} {roll pitch yaw : ℕ → ℚ} {L S ε : ℝ}
    (htext : ∀ i ∈ idx, ∃ text, oxtBytes (indexName w₁ ext i) = utf8 text ∧ (place i).Ok ∧
      Says text (place i) (roll i) (pitch i) (yaw i))
    (hang : ∀ i ∈ idx, |roll i| ≤ 4 ∧ |pitch i| ≤ 4 ∧ |yaw i| ≤ 4)
    (hcloud : ∀ i ∈ idx, 16 ∣ (cloudBytes (indexName w₂ ext' i)).length ∧
      ∀ j < (cloudBytes (indexName w₂ ext' i)).length / 16, ∀ n : Fin 3,
        (f32OfBits (wordAt (cloudBytes (indexName w₂ ext' i)) (16 * j + 4 * n.val))).isFin = true ∧
        |((f32OfBits (wordAt (cloudBytes (indexName w₂ ext' i)) (16 * j + 4 * n.val))).val : ℝ)| ≤ L)
    {i0 : ℕ} (hi0 : idx[0]? = some i0) (hS : ∀ i ∈ idx, ∀ n, |(place i).offset (place i0) n| ≤ S)
    (hL1 : 1 ≤ L) (hL2 : L ≤ 2 ^ 100) (hε : ε = (1130 * L + 2 * S) / 2 ^ 24 + 1 / 2 ^ 18)
    {X : ℕ → Fin 3 → ℝ} (hX : ∀ i, X i = (place i).offset (place i0)) {pts : ℕ → List (Fin 3 → ℝ)}
    (hpts : ∀ i, pts i = movedPoints (roll i) (pitch i) (yaw i) (X i) (cloudBytes (indexName w₂ ext' i)))
    {M N : ℕ} (hM1 : 1 ≤ M) (hN : N = M + 101) (hN18 : N ≤ 2 ^ 18)
    {ρ : ℚ} (hρ : ρ = (Fp.lit 0.1 : F32).val) (hB : ∀ i ∈ idx, ∀ Y ∈ pts i, ∀ n, |Y n| + ε ≤ M * ρ)
    {G : ℕ → Verif.Cell 3 → Seen}
    (hG : 0 ≤ ε → ∀ i ∈ idx, ∀ origin cloud, NearScan ε origin cloud (X i) (pts i) → ∀ (m : GridMap 3 F32 F32) (cb : CellBounds 3),
      Placed m cb ρ → (∀ n, |cb.min n| ≤ N) →
      ∀ w, seen origin cloud m.bounds m.resolution defaultNM.maxRange (localCell m w) = G i w)
    {o : OccupancyGridMap 3 F32} (hdef : OccupancyGridMap.default_ = .ok o)
    {value : ℕ → Verif.Cell 3 → F32} (hvalue : ∀ k w, value k w = ((List.range k).map fun j => G (idx.getD (j % idx.length) 0)).foldl
      (fun v g => Seen.apply o.noiseModel v (g w)) (Fp.lit 0)) :
    ∃ rs, main (parsingEnv cos radPerDeg cast Quat.fromEuler) (some (some (byteFolder po pv oxtBytes cloudBytes))) =
        .ok (.window rs) ∧ rs.clouds.length = idx.length ∧
      ∀ (ord : ℕ → List (Verif.Cell 3) → List (Verif.Cell 3)) (s), (∀ r, IsOrder (ord r)) →
        Reach (occOps o.noiseModel rs.get ord) rs.clouds.length o.gridMap s →
        (∃ k cb, k ≤ s.workers.length ∧ s.workers.length ≤ k + 1 ∧
          (s.main = .clearFlag ∨ s.main = .spawn → k = s.workers.length) ∧ Placed s.map cb ρ ∧
          ∀ w, Before s.map cb w (value k w)) ∧
        ∀ low : Fin 3 → ℤ, LowestFirstReal 100 ρ ε (· ∈ idx) pts (pts i0) low → s.main = .clearFlag ∨ s.main = .spawn →
          ∀ w : Verif.Cell 3, (∀ i, |w i| ≤ 2 ^ 62) →
          (¬ o.noiseModel.threshold.lt (value s.workers.length w) = true →
            s.tracked (localCell s.map w) = none) ∧
          (o.noiseModel.threshold.lt (value s.workers.length w) = true →
            ∃ p, s.tracked (localCell s.map w) = some p ∧ ∀ i, ∃ z, (p i).Is z ∧ |z - w i * ρ| < ρ / 2) := by
  obtain ⟨rs, hmain, hlen, hε0, hnone, hnear⟩ := folder_scans hT he ho hv htext hang hcloud hi0 hS hL1 hL2 hε hX hpts
  exact ⟨rs, hmain, hlen, scans_tell hl hi0 hε0 hlen hnone hnear hM1 hN hN18 hρ hB hG hdef hvalue⟩

/-- C89: from the bytes of a recording folder to the values in the map and the picture. The folder is as in C80, its
points at most `M` cells from the start, its numbers uncertain by `ε`, and going by the numbers in the files the
segments from the sensor to the points keep clear of the corners of the cells and below the range limit. At every moment
of every run of the visualizer, `k` scans have been played, and the value of every world cell is what these make of it
by geometry from the real numbers in the files. If also no recording reaches below the tiles that the first one reaches,
then whenever the renderer has processed a batch exactly those cells are drawn whose value by geometry is above the
threshold, each at a point inside it. -/
theorem C89_folder (hl : TestedLn) (hT : AccurateTrig T) {cos : F64 → F64} {radPerDeg : F64} {cast : F64 → F32}
    (he : AccurateEnv (parsingEnv cos radPerDeg cast (Quat.fromEuler (F := F32))))
    {w₁ w₂ : ℕ} {ext ext' : List (Fin 256)} {idx : List ℕ} {po pv : List (List (Fin 256))}
    (ho : IndexFolder w₁ ext idx po) (hv : IndexFolder w₂ ext' idx pv)
    {oxtBytes cloudBytes : List (Fin 256) → List (BitVec 8)} {place : ℕ → Place} {roll pitch yaw : ℕ → ℚ} {L S ε : ℝ}
    (htext : ∀ i ∈ idx, ∃ text, oxtBytes (indexName w₁ ext i) = utf8 text ∧ (place i).Ok ∧
      Says text (place i) (roll i) (pitch i) (yaw i))
    (hang : ∀ i ∈ idx, |roll i| ≤ 4 ∧ |pitch i| ≤ 4 ∧ |yaw i| ≤ 4)
    (hcloud : ∀ i ∈ idx, 16 ∣ (cloudBytes (indexName w₂ ext' i)).length ∧
      ∀ j < (cloudBytes (indexName w₂ ext' i)).length / 16, ∀ n : Fin 3,
        (f32OfBits (wordAt (cloudBytes (indexName w₂ ext' i)) (16 * j + 4 * n.val))).isFin = true ∧
        |((f32OfBits (wordAt (cloudBytes (indexName w₂ ext' i)) (16 * j + 4 * n.val))).val : ℝ)| ≤ L)
    {i0 : ℕ} (hi0 : idx[0]? = some i0) (hS : ∀ i ∈ idx, ∀ n, |(place i).offset (place i0) n| ≤ S)
    (hL1 : 1 ≤ L) (hL2 : L ≤ 2 ^ 100) (hε : ε = (1130 * L + 2 * S) / 2 ^ 24 + 1 / 2 ^ 18)
    {X : ℕ → Fin 3 → ℝ} (hX : ∀ i, X i = (place i).offset (place i0)) {pts : ℕ → List (Fin 3 → ℝ)}
    (hpts : ∀ i, pts i = movedPoints (roll i) (pitch i) (yaw i) (X i) (cloudBytes (indexName w₂ ext' i)))
    {M N K : ℕ} (hM1 : 1 ≤ M) (hN : N = M + 101) (hN18 : N ≤ 2 ^ 18)
    {ρ : ℚ} (hρ : ρ = (Fp.lit 0.1 : F32).val) (hB : ∀ i ∈ idx, ∀ Y ∈ pts i, ∀ n, |Y n| + ε ≤ M * ρ)
    (hclear : ∀ i ∈ idx, ClearRaysReal N K ρ 60 ε (X i) (pts i))
    {o : OccupancyGridMap 3 F32} (hdef : OccupancyGridMap.default_ = .ok o)
    {played : ℕ → List ((Fin 3 → ℝ) × List (Fin 3 → ℝ))}
    (hplayed : ∀ k, played k = (List.range k).map fun j => (X (idx.getD (j % idx.length) 0), pts (idx.getD (j % idx.length) 0))) :
    ∃ rs, main (parsingEnv cos radPerDeg cast Quat.fromEuler) (some (some (byteFolder po pv oxtBytes cloudBytes))) =
        .ok (.window rs) ∧ rs.clouds.length = idx.length ∧
      ∀ (ord : ℕ → List (Verif.Cell 3) → List (Verif.Cell 3)) (s), (∀ r, IsOrder (ord r)) →
        Reach (occOps o.noiseModel rs.get ord) rs.clouds.length o.gridMap s →
        (∃ k cb, k ≤ s.workers.length ∧ s.workers.length ≤ k + 1 ∧
          (s.main = .clearFlag ∨ s.main = .spawn → k = s.workers.length) ∧ Placed s.map cb ρ ∧
          ∀ w, Before s.map cb w (geoFoldReal o.noiseModel ρ (played k) w (Fp.lit 0))) ∧
        ∀ low : Fin 3 → ℤ, LowestFirstReal 100 ρ ε (· ∈ idx) pts (pts i0) low → s.main = .clearFlag ∨ s.main = .spawn →
          ∀ w : Verif.Cell 3, (∀ i, |w i| ≤ 2 ^ 62) →
          (¬ o.noiseModel.threshold.lt (geoFoldReal o.noiseModel ρ (played s.workers.length) w (Fp.lit 0)) = true →
            s.tracked (localCell s.map w) = none) ∧
          (o.noiseModel.threshold.lt (geoFoldReal o.noiseModel ρ (played s.workers.length) w (Fp.lit 0)) = true →
            ∃ p, s.tracked (localCell s.map w) = some p ∧ ∀ i, ∃ z, (p i).Is z ∧ |z - w i * ρ| < ρ / 2) := by
  have hrlo : (1 : ℚ) / 2 ^ 20 ≤ ρ := by rw [hρ]; decide +kernel
  have hrhi : ρ ≤ (2 : ℚ) ^ 20 := by rw [hρ]; decide +kernel
  refine folder_tells hl hT he ho hv htext hang hcloud hi0 hS hL1 hL2 hε hX hpts hM1 hN hN18 hρ hB
    (G := fun i => geoSeenReal ρ (X i) (pts i)) (fun hε0 i hi origin cloud hn m cb hP hc w => ?_) hdef fun k w => ?_
  · obtain ⟨x, ys, h1, h2⟩ := C89_scan (N := N) (K := K) (by norm_num) hrlo hrhi (by omega) hN18
      (by decide +kernel : defaultNM.maxRange.Is 60) (by norm_num) hε0 hn (by exact_mod_cast hclear i hi)
    rw [C88_scan (.inr rfl) hP hc h1, h2]
  · rw [hplayed, geoFoldReal, List.foldl_map, List.foldl_map]

end

/-! ## An example with files -/

section
open Kitti Viz

/-- One cloud file: the points (7/16, 7/32, 1/8) and (-7/16, -7/32, -1/8). -/
def nearPoints : List (BitVec 8) :=
  [0x00, 0x00, 0xE0, 0x3E, 0x00, 0x00, 0x60, 0x3E, 0x00, 0x00, 0x00, 0x3E, 0x00, 0x00, 0x00, 0x00,
   0x00, 0x00, 0xE0, 0xBE, 0x00, 0x00, 0x60, 0xBE, 0x00, 0x00, 0x00, 0xBE, 0x00, 0x00, 0x00, 0x00]

/-- The two points as real numbers. -/
noncomputable def nearRealPts : List (Fin 3 → ℝ) := [![7 / 16, 7 / 32, 1 / 8], ![-7 / 16, -7 / 32, -1 / 8]]

lemma nearPoints_moved : movedPoints (0 : ℚ) (0 : ℚ) (0 : ℚ) ![0, 0, 0] nearPoints = nearRealPts := by
  have e : List.range (nearPoints.length / 16) = [0, 1] := by decide
  have h0 : ∀ m : Fin 3, (f32OfBits (wordAt nearPoints (16 * 0 + 4 * m.val))).val = ![7 / 16, 7 / 32, 1 / 8] m := by
    decide +kernel
  have h1 : ∀ m : Fin 3, (f32OfBits (wordAt nearPoints (16 * 1 + 4 * m.val))).val = ![-7 / 16, -7 / 32, -1 / 8] m := by
    decide +kernel
  unfold movedPoints nearRealPts
  rw [e]
  simp only [List.map_cons, List.map_nil, h0, h1]
  congr 1
  · funext i; fin_cases i <;> simp [rigid, rotX, rotY, rotZ]
  · congr 1; funext i; fin_cases i <;> simp [rigid, rotX, rotY, rotZ]

/-- A time at which the segment to the first point is inside its cell number `n`. -/
noncomputable def nearTime (n : ℤ) : ℝ :=
  if n = 0 then 0 else if n = 1 then 17 / 100 else if n = 2 then 285 / 1000 else if n = 3 then 3714 / 10000
  else if n = 4 then 486 / 1000 else if n = 5 then 63 / 100 else if n = 6 then 743 / 1000 else 1

/-- The segment from 0 to the first point passes eight cells, away from the corners. -/
lemma near_clear {tol : ℝ} (h1 : tol ≤ 1 / 1000) :
    ClearSegmentReal ![0, 0, 0] ![7 / 16, 7 / 32, 1 / 8] (13421773 / 2 ^ 27) tol := by
  rintro w ⟨t, t0, t1, h⟩
  have x := abs_le.mp (h 0)
  have y := abs_le.mp (h 1)
  have z := abs_le.mp (h 2)
  suffices hs : ∃ s : ℝ, 0 ≤ s ∧ s ≤ 1 ∧ |s * (7 / 16) - w 0 * (13421773 / 2 ^ 27)| < 13421773 / 2 ^ 27 / 2 - 1 / 1000 ∧
      |s * (7 / 32) - w 1 * (13421773 / 2 ^ 27)| < 13421773 / 2 ^ 27 / 2 - 1 / 1000 ∧
      |s * (1 / 8) - w 2 * (13421773 / 2 ^ 27)| < 13421773 / 2 ^ 27 / 2 - 1 / 1000 by
    obtain ⟨s, s0, s1, a, b, c⟩ := hs
    refine ⟨s, s0, s1, fun i => ?_⟩
    fin_cases i
    · simpa using lt_of_lt_of_le a (by linarith)
    · simpa using lt_of_lt_of_le b (by linarith)
    · simpa using lt_of_lt_of_le c (by linarith)
  simp only [Matrix.cons_val_zero, Matrix.cons_val_one, Matrix.cons_val, zero_add, sub_zero] at x y z
  generalize w 0 = a at *
  generalize w 1 = b at *
  generalize w 2 = c at *
  clear h w
  have a0 : 0 ≤ a := by
    by_contra hc
    have : (a : ℝ) ≤ -1 := by exact_mod_cast (by omega : a ≤ -1)
    linarith [x.2]
  have a4 : a ≤ 4 := by
    by_contra hc
    have : (5 : ℝ) ≤ a := by exact_mod_cast (by omega : 5 ≤ a)
    linarith [x.1]
  have b0 : 0 ≤ b := by
    by_contra hc
    have : (b : ℝ) ≤ -1 := by exact_mod_cast (by omega : b ≤ -1)
    linarith [y.2]
  have b2 : b ≤ 2 := by
    by_contra hc
    have : (3 : ℝ) ≤ b := by exact_mod_cast (by omega : 3 ≤ b)
    linarith [y.1]
  have c0 : 0 ≤ c := by
    by_contra hc
    have : (c : ℝ) ≤ -1 := by exact_mod_cast (by omega : c ≤ -1)
    linarith [z.2]
  have c1 : c ≤ 1 := by
    by_contra hc
    have : (2 : ℝ) ≤ c := by exact_mod_cast (by omega : 2 ≤ c)
    linarith [z.1]
  obtain ⟨x1, x2⟩ := x
  obtain ⟨y1, y2⟩ := y
  obtain ⟨z1, z2⟩ := z
  refine ⟨nearTime (a + b + c), ?_⟩
  interval_cases a <;> interval_cases b <;> interval_cases c <;> push_cast at x1 x2 y1 y2 z1 z2 <;>
    first
    | (exfalso; linarith)
    | (norm_num [nearTime, abs_lt])

lemma near_clear_neg {Y : Fin 3 → ℝ} {ρ tol : ℝ} (h : ClearSegmentReal ![0, 0, 0] Y ρ tol) :
    ClearSegmentReal ![0, 0, 0] (fun i => -Y i) ρ tol := by
  have e : ∀ (t : ℝ) (w : Cell 3) i, ![0, 0, 0] i + t * (-Y i - ![0, 0, 0] i) - w i * ρ =
      -(![0, 0, 0] i + t * (Y i - ![0, 0, 0] i) - ((-w i : ℤ) : ℝ) * ρ) := by
    intro t w i; fin_cases i <;> simp <;> ring
  rintro w ⟨t, t0, t1, ht⟩
  obtain ⟨s, s0, s1, hs⟩ := h (fun i => -w i) ⟨t, t0, t1, fun i => by
    have := ht i
    rw [e, abs_neg] at this
    exact this⟩
  refine ⟨s, s0, s1, fun i => ?_⟩
  rw [e, abs_neg]
  exact hs i

lemma nearReal_rays : ClearRaysReal 131 30 (13421773 / 2 ^ 27) 60 (1130 / 2 ^ 24 + 1 / 2 ^ 18) ![0, 0, 0]
    nearRealPts := by
  have hc := near_clear (tol := rayTol 131 30 * (13421773 / 2 ^ 27) + (1130 / 2 ^ 24 + 1 / 2 ^ 18))
    (by unfold rayTol; norm_num)
  have hn : (fun i => -(![7 / 16, 7 / 32, 1 / 8] i) : Fin 3 → ℝ) = ![-7 / 16, -7 / 32, -1 / 8] := by
    funext i; fin_cases i <;> norm_num
  have hroot : ∀ Y ∈ nearRealPts, √(sqLen ![0, 0, 0] Y) ≤ 3 := by
    intro Y hY
    refine Real.sqrt_le_iff.mpr ⟨by norm_num, ?_⟩
    rw [sqLen, Fin.sum_univ_three, show ((2 : Fin 3)) = Fin.last 2 from rfl]
    rcases List.mem_pair.mp hY with rfl | rfl <;> norm_num [Fin.last]
  refine ⟨fun Y hY => ?_, fun Y hY => ?_, fun Y hY => ?_⟩
  · rcases List.mem_pair.mp hY with rfl | rfl
    · refine ⟨?_, ?_, ?_, ?_⟩ <;> intro i <;> fin_cases i <;> norm_num
    · refine ⟨?_, ?_, ?_, ?_⟩ <;> intro i <;> fin_cases i <;> norm_num
  · rcases List.mem_pair.mp hY with rfl | rfl
    · exact hc
    · rw [← hn]; exact near_clear_neg hc
  · linarith [hroot Y hY]

lemma nearReal_lowest : LowestFirstReal 100 (13421773 / 2 ^ 27) (1130 / 2 ^ 24 + 1 / 2 ^ 18) (· ∈ [0])
    (fun _ => nearRealPts) nearRealPts fun _ => -1 := by
  refine ⟨by simp, fun r _ Y hY i => ?_, fun i => .inr ⟨![-7 / 16, -7 / 32, -1 / 8], by simp [nearRealPts], ?_⟩⟩
  · rcases List.mem_pair.mp hY with rfl | rfl <;> fin_cases i <;> norm_num
  · fin_cases i <;> norm_num

lemma nearReal_alive : ClearReal 30 131 30 100 (13421773 / 2 ^ 27) (1130 / 2 ^ 24 + 1 / 2 ^ 18) ![0, 0, 0]
    nearRealPts := by
  have up : ∀ i, ∃ Y ∈ nearRealPts, (1 : ℝ) / 8 ≤ Y i := fun i =>
    ⟨_, List.mem_cons_self, by fin_cases i <;> norm_num⟩
  have hoff : ∀ (y : ℝ) (a : ℤ), |y - a * (13421773 / 2 ^ 27)| ≤ 4 / 100 → ∀ n : ℤ,
      1 / 1000 ≤ |y - (n + 1 / 2) * (13421773 / 2 ^ 27)| := by
    intro y a h n
    have h' := abs_le.mp h
    rcases lt_or_ge n a with hn | hn
    · have : (n : ℝ) + 1 ≤ a := by exact_mod_cast hn
      exact le_trans (by linarith [h'.1]) (le_abs_self _)
    · have : (a : ℝ) ≤ n := by exact_mod_cast hn
      exact le_trans (by linarith [h'.2]) (neg_le_abs _)
  refine ⟨?_, ?_, ?_, ?_⟩
  · intro i; fin_cases i <;> norm_num
  · intro i
    exact ⟨⟨![-7 / 16, -7 / 32, -1 / 8], by simp [nearRealPts], by fin_cases i <;> norm_num⟩,
      ⟨![7 / 16, 7 / 32, 1 / 8], by simp [nearRealPts], by fin_cases i <;> norm_num⟩⟩
  · intro i
    obtain ⟨Y, h1, h2⟩ := up i
    exact .inr ⟨Y, h1, by fin_cases i <;> norm_num at h2 ⊢ <;> linarith⟩
  · intro Y hY i
    rcases List.mem_pair.mp hY with rfl | rfl
    · refine ⟨by fin_cases i <;> norm_num [abs_le], .inl fun k => ?_, by fin_cases i <;> norm_num,
        by fin_cases i <;> norm_num, fun n => le_trans ?_ (hoff _ (![4, 2, 1] i) ?_ n)⟩
      · rcases lt_or_ge 0 k with hk | hk
        · left
          have : (1 : ℝ) ≤ k := by exact_mod_cast hk
          push_cast
          fin_cases i <;> norm_num <;> linarith
        · right
          have : (k : ℝ) ≤ 0 := by exact_mod_cast hk
          push_cast
          fin_cases i <;> norm_num <;> linarith
      · norm_num
      · fin_cases i <;> norm_num [abs_le]
    · obtain ⟨Y, h1, h2⟩ := up i
      refine ⟨by fin_cases i <;> norm_num, .inr ⟨Y, h1, ?_⟩, by fin_cases i <;> norm_num,
        by fin_cases i <;> norm_num, fun n => le_trans ?_ (hoff _ (![-4, -2, -1] i) ?_ n)⟩
      · fin_cases i <;> norm_num at h2 ⊢ <;> linarith
      · norm_num
      · fin_cases i <;> norm_num [abs_le]

/-- The first point is in the cell (4, 2, 1). -/
lemma near_hit : geoSeenReal ((13421773 / 2 ^ 27 : ℚ) : ℝ) ![0, 0, 0] nearRealPts ![4, 2, 1] = .hit := by
  unfold geoSeenReal
  rw [if_pos]
  exact ⟨_, List.mem_cons_self, fun i => by fin_cases i <;> norm_num [abs_le]⟩

/-- The segment to it passes the cell (2, 1, 0). -/
lemma near_miss : geoSeenReal ((13421773 / 2 ^ 27 : ℚ) : ℝ) ![0, 0, 0] nearRealPts ![2, 1, 0] = .miss := by
  unfold geoSeenReal
  rw [if_neg, if_pos]
  · exact ⟨_, List.mem_cons_self, 3714 / 10000, by norm_num, by norm_num, fun i => by
      fin_cases i <;> norm_num [abs_le]⟩
  · rintro ⟨Y, hY, h⟩
    have h2 := abs_le.mp (h 0)
    rcases List.mem_pair.mp hY with rfl | rfl <;> norm_num at h2

/-- A folder with one recording: the window opens, and there is a run in which after nine scans nothing has panicked,
the cell of the point (7/16, 7/32, 1/8) is drawn, and the cell (2, 1, 0), which the segment to the point passes, is
not. -/
example : ∃ (rs : _) (s : _) (o : OccupancyGridMap 3 F32),
    main (parsingEnv someEnv.cos someEnv.radPerDeg someEnv.cast (@Quat.fromEuler F32 _ someTrig))
      (some (some (byteFolder [indexName 10 (ascii ".txt") 0] [indexName 10 (ascii ".bin") 0]
        (fun _ => utf8 "49 8.4 116.4 0 0 0".toList) fun _ => nearPoints))) = .ok (.window rs) ∧
    @OccupancyGridMap.default_ F32 _ 3 testedLibm = .ok o ∧
    Reach (occOps o.noiseModel rs.get fun _ l => l) rs.clouds.length o.gridMap s ∧ Alive s ∧ s.workers.length = 9 ∧
    (∃ p, s.tracked (localCell s.map ![4, 2, 1]) = some p) ∧ s.tracked (localCell s.map ![2, 1, 0]) = none := by
  let _ := someTrig
  let _ := testedLibm
  have hl : TestedLn := by constructor <;> decide +kernel
  have hok : (⟨49, 42 / 5, 582 / 5⟩ : Place).Ok := ⟨by norm_num, by norm_num [abs_le], by norm_num [abs_le]⟩
  have hoff : (⟨49, 42 / 5, 582 / 5⟩ : Place).offset ⟨49, 42 / 5, 582 / 5⟩ = ![0, 0, 0] := by
    funext n; fin_cases n <;> simp [Place.offset]
  have hdef : ∃ o : OccupancyGridMap 3 F32, OccupancyGridMap.default_ = .ok o := by
    obtain ⟨m0, e1, -⟩ := new_empty_placed (D := 3) (ρ := 13421773 / 2 ^ 27) (r := (Fp.lit 0.1 : F32)) (by norm_num)
      (by refine ⟨by decide +kernel, ?_, ?_⟩ <;> norm_num) (t := 100) (by norm_num) (by norm_num) (Fp.lit 0 : F32)
    refine ⟨⟨m0, defaultNM⟩, ((C42_default_model hl).2.1 _).mpr ?_⟩
    unfold OccupancyGridMap.new
    rw [Verif.M.bind_eq_ok]
    exact ⟨m0, e1, rfl⟩
  obtain ⟨o, ho⟩ := hdef
  have htext : ∀ i ∈ [0], ∃ text, utf8 "49 8.4 116.4 0 0 0".toList = utf8 text ∧ (⟨49, 42 / 5, 582 / 5⟩ : Place).Ok ∧
      Says text ⟨49, 42 / 5, 582 / 5⟩ 0 0 0 := fun i _ =>
    ⟨_, rfl, hok, "49".toList, "8.4".toList, "116.4".toList, "0".toList, "0".toList, "0".toList, [],
      fields_iff.mpr (by decide +kernel), by decide +kernel, by decide +kernel, by decide +kernel, by decide +kernel,
      by decide +kernel, by decide +kernel⟩
  have hcloud : ∀ i ∈ [0], 16 ∣ nearPoints.length ∧ ∀ j < nearPoints.length / 16, ∀ n : Fin 3,
      (f32OfBits (wordAt nearPoints (16 * j + 4 * n.val))).isFin = true ∧
      |((f32OfBits (wordAt nearPoints (16 * j + 4 * n.val))).val : ℝ)| ≤ 1 := by
    have key : ∀ j < nearPoints.length / 16, ∀ n : Fin 3, (f32OfBits (wordAt nearPoints (16 * j + 4 * n.val))).isFin =
        true ∧ |(f32OfBits (wordAt nearPoints (16 * j + 4 * n.val))).val| ≤ 1 := by decide +kernel
    exact fun i _ => ⟨by decide, fun j hj n => ⟨(key j hj n).1, by exact_mod_cast (key j hj n).2⟩⟩
  have hε : (1130 / 2 ^ 24 + 1 / 2 ^ 18 : ℝ) = (1130 * 1 + 2 * 0) / 2 ^ 24 + 1 / 2 ^ 18 := by norm_num
  have hT := someTrig_accurate
  have he := C76_accurate (euler := Quat.fromEuler (F := F32)) someEnv_accurate.cos someEnv_accurate.radPerDeg
    someEnv_accurate.cast
  obtain ⟨rs, h1, hlen, h2⟩ := C82_folder (w₁ := 10) (w₂ := 10) (ext := ascii ".txt") (ext' := ascii ".bin") hl hT he
    (idx := [0]) (po := [indexName 10 (ascii ".txt") 0]) (pv := [indexName 10 (ascii ".bin") 0])
    (oxtBytes := fun _ => utf8 "49 8.4 116.4 0 0 0".toList) (cloudBytes := fun _ => nearPoints)
    (place := fun _ => ⟨49, 42 / 5, 582 / 5⟩) (roll := fun _ => 0) (pitch := fun _ => 0) (yaw := fun _ => 0)
    (X := fun _ => ![0, 0, 0]) (pts := fun _ => nearRealPts)
    ⟨by simp, by decide, by simp⟩ ⟨by simp, by decide, by simp⟩ htext (by simp) hcloud (i0 := 0) rfl
    (fun i _ n => by simp only [hoff]; fin_cases n <;> simp) (by norm_num) (by norm_num) hε (fun _ => hoff.symm)
    (fun _ => nearPoints_moved.symm) (M := 30) (by norm_num) rfl (by norm_num) side_val.symm
    (fun _ _ => by push_cast; exact nearReal_alive) ho
  obtain ⟨rs', h1', hlen', h2'⟩ := C89_folder (w₁ := 10) (w₂ := 10) (ext := ascii ".txt") (ext' := ascii ".bin") hl hT he
    (idx := [0]) (po := [indexName 10 (ascii ".txt") 0]) (pv := [indexName 10 (ascii ".bin") 0])
    (oxtBytes := fun _ => utf8 "49 8.4 116.4 0 0 0".toList) (cloudBytes := fun _ => nearPoints)
    (place := fun _ => ⟨49, 42 / 5, 582 / 5⟩) (roll := fun _ => 0) (pitch := fun _ => 0) (yaw := fun _ => 0)
    (X := fun _ => ![0, 0, 0]) (pts := fun _ => nearRealPts)
    ⟨by simp, by decide, by simp⟩ ⟨by simp, by decide, by simp⟩ htext (by simp) hcloud (i0 := 0) rfl
    (fun i _ n => by simp only [hoff]; fin_cases n <;> simp) (by norm_num) (by norm_num) hε (fun _ => hoff.symm)
    (fun _ => nearPoints_moved.symm) (M := 30) (by norm_num) rfl (by norm_num) (K := 30)
    side_val.symm (fun _ _ Y hY n => by push_cast; exact (nearReal_alive.points Y hY n).1)
    (fun _ _ => by push_cast; exact nearReal_rays) ho (fun _ => rfl)
  obtain rfl : rs = rs' := by simpa using h1.symm.trans h1'
  have hord : ∀ r : ℕ, IsOrder ((fun _ l => l : ℕ → List (Verif.Cell 3) → List (Verif.Cell 3)) r) :=
    fun _ l => List.Perm.refl l
  obtain ⟨h3, h4, -⟩ := h2 _ hord
  obtain ⟨s, h5, h6, h7⟩ := h4 9
  have hlen9 : s.workers.length = 9 := by rw [h7]; simp
  obtain ⟨-, g⟩ := h2' _ s hord h5
  have g' := g (fun _ => -1) (by push_cast; exact nearReal_lowest) (.inl h6)
  obtain ⟨m0, rfl, -⟩ := default_start hl side_val.symm ho
  rw [hlen9] at g'
  refine ⟨rs, s, _, h1, ho, h5, (h3 s h5).1, hlen9, ?_, ?_⟩
  · obtain ⟨p, hp, -⟩ := (g' ![4, 2, 1] (by decide)).2 (by
      simp only [geoFoldReal, List.foldl_map, near_hit]
      decide +kernel)
    exact ⟨p, hp⟩
  · exact (g' ![2, 1, 0] (by decide)).1 (by
      simp only [geoFoldReal, List.foldl_map, near_miss]
      decide +kernel)

end
end Verif.Props
