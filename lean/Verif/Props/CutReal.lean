import Verif.Props.Cut
import Verif.Props.Picture
import Verif.Spec.CutReal

/-!
# C105: from the files to the picture, with points beyond the range limit
-/

namespace Verif.Props
open Spec Scalar

section
variable {D : ℕ} {k : Type} [Field k] [LinearOrder k] [IsStrictOrderedRing k] {ρ : k} {x y : Fin D → k}

/-- On the way from the cell `o`, in which it starts, what a segment passes before it is inside a cell lies between. -/
private lemma before_between (hρ : 0 < ρ) {o u w : Cell D} (ho : ∀ i, |x i - o i * ρ| ≤ ρ / 2) {s t : k} (s0 : 0 ≤ s)
    (hst : s ≤ t) (hs : ∀ i, |x i + s * (y i - x i) - u i * ρ| < ρ / 2)
    (ht : ∀ i, |x i + t * (y i - x i) - w i * ρ| < ρ / 2) : Between o w u := by
  intro i
  have h1 := abs_le.mp (ho i)
  have h2 := abs_lt.mp (hs i)
  have h3 := abs_lt.mp (ht i)
  have lt_of : ∀ a b : ℤ, (a : k) * ρ < b * ρ + ρ → a ≤ b := by
    intro a b h
    have : (a : k) < b + 1 := lt_of_mul_lt_mul_right (by linarith) hρ.le
    have : a < b + 1 := by exact_mod_cast this
    omega
  rcases le_or_gt 0 (y i - x i) with h6 | h6
  · have a := mul_nonneg s0 h6
    have b := mul_le_mul_of_nonneg_right hst h6
    have c1 := lt_of (o i) (u i) (by linarith)
    have c2 := lt_of (u i) (w i) (by linarith)
    omega
  · have a := mul_nonpos_of_nonneg_of_nonpos s0 h6.le
    have b := mul_le_mul_of_nonpos_right hst h6.le
    have c1 := lt_of (u i) (o i) (by linarith)
    have c2 := lt_of (w i) (u i) (by linarith)
    omega

/-- What lies between, the segment passes before. -/
private lemma between_before (hρ : 0 < ρ) {o u w : Cell D} (ho : ∀ i, |x i - o i * ρ| ≤ ρ / 2) (hb : Between o w u)
    (hne : u ≠ w) {s t : k} (t0 : 0 ≤ t) (hs : ∀ i, |x i + s * (y i - x i) - u i * ρ| < ρ / 2)
    (ht : ∀ i, |x i + t * (y i - x i) - w i * ρ| < ρ / 2) : s ≤ t := by
  by_contra hst
  push Not at hst
  have h := before_between hρ ho t0 hst.le ht hs
  refine hne (funext fun i => ?_)
  have h1 := hb i
  have h2 := h i
  omega

/-- A condition on the cells passed up to a cell, by shares and by cells. -/
private lemma blocked_iff (hρ : 0 < ρ) {o w : Cell D} (ho : ∀ i, |x i - o i * ρ| ≤ ρ / 2) {t : k} (t0 : 0 ≤ t) (t1 : t ≤ 1)
    (ht : ∀ i, |x i + t * (y i - x i) - w i * ρ| < ρ / 2) (P : Cell D → Prop) :
    (∃ u s, s ≤ t ∧ (0 ≤ s ∧ s ≤ 1 ∧ ∀ i, |x i + s * (y i - x i) - u i * ρ| < ρ / 2) ∧ P u) ↔
      ∃ u, (∃ s, 0 ≤ s ∧ s ≤ 1 ∧ ∀ i, |x i + s * (y i - x i) - u i * ρ| < ρ / 2) ∧ P u ∧ Between o w u := by
  constructor
  · rintro ⟨u, s, h1, ⟨s0, s1, h2⟩, h3⟩
    exact ⟨u, ⟨s, s0, s1, h2⟩, h3, before_between hρ ho s0 h1 h2 ht⟩
  · rintro ⟨u, ⟨s, s0, s1, h2⟩, h3, h4⟩
    by_cases hne : u = w
    · subst hne
      exact ⟨u, t, le_rfl, ⟨t0, t1, ht⟩, h3⟩
    · exact ⟨u, s, between_before hρ ho h4 hne t0 h2 ht, ⟨s0, s1, h2⟩, h3⟩

end

section
variable {D : ℕ} {N K : ℕ} {ρ lam : ℚ} {ε : ℝ} {X Y : Fin D → ℝ} {x y : Fin D → ℚ} {pts : List (Fin D → ℝ)}
  {origin : Point D F32} {cloud : PointCloud D F32}

/-- Distances to a centre, from the numbers and from the real numbers near them. -/
private lemma dist_near (hD : D ≤ 3) (hε : 0 ≤ ε) (hx : ∀ i, |(x i : ℝ) - X i| ≤ ε) (c : Fin D → ℚ) :
    √((distSq x c : ℚ) : ℝ) ≤ √(sqLen X fun i => (c i : ℝ)) + 2 * ε ∧
      √(sqLen X fun i => (c i : ℝ)) ≤ √((distSq x c : ℚ) : ℝ) + 2 * ε := by
  have e : ((distSq x c : ℚ) : ℝ) = ∑ i, ((c i : ℝ) - x i) ^ 2 := by unfold distSq; push_cast; rfl
  have h2 : 2 * (ε / 2) = ε := by ring
  constructor
  · refine Real.sqrt_le_iff.mpr ⟨by positivity, ?_⟩
    have := sqrt_close (d := fun i => (c i : ℝ) - X i) (e := fun i => X i - x i) hD (ε := ε / 2) (by positivity)
      (fun i => by rw [h2, abs_sub_comm]; exact hx i) (b := √(sqLen X fun i => (c i : ℝ)) + 2 * ε) (by
        unfold sqLen; linarith)
    rw [e]
    refine le_trans (le_of_eq ?_) this
    exact Finset.sum_congr rfl fun i _ => by ring
  · refine Real.sqrt_le_iff.mpr ⟨by positivity, ?_⟩
    have := sqrt_close (d := fun i => (c i : ℝ) - x i) (e := fun i => x i - X i) hD (ε := ε / 2) (by positivity)
      (fun i => by rw [h2]; exact hx i) (b := √((distSq x c : ℚ) : ℝ) + 2 * ε) (by rw [e]; linarith)
    refine le_trans (le_of_eq ?_) this
    exact Finset.sum_congr rfl fun i _ => by ring

/-- One segment: the numbers near a clear segment are a clear segment off the limit, and the ways along the two are
blocked in the same cells. -/
lemma cut_of_near (hD : D ≤ 3) (hρ : 0 < ρ) (hlam : 0 < lam) (hε : 0 ≤ ε) (hx : ∀ i, |(x i : ℝ) - X i| ≤ ε)
    (hy : ∀ i, |(y i : ℝ) - Y i| ≤ ε) (hc : ClearSegmentReal X Y ρ (rayTol N K * ρ + ε))
    (hoff : ∀ u t, InsideAtReal ρ X Y t u → ¬ HoldsReal ρ u X → ¬ HoldsReal ρ u Y →
      √(sqLen X fun i => u i * ρ) + (26 * N + 32) / 2 ^ 24 * ρ + 2 * ε ≤ lam * (1 - 1 / 2 ^ 20) ∨
        lam * (1 + 1 / 2 ^ 20) + (26 * N + 32) / 2 ^ 24 * ρ + 2 * ε < √(sqLen X fun i => u i * ρ)) :
    OffLimit N lam ρ x y ∧ ∀ w : Cell D,
      (Holds ρ w y ∧ ¬ Blocked lam ρ x y 1 ↔ HoldsReal ρ w Y ∧ ¬ BlockedReal lam ρ X Y 1) ∧
      ((∃ t, InsideAt ρ x y t w ∧ ¬ Blocked lam ρ x y t) ↔ ∃ t, InsideAtReal ρ X Y t w ∧ ¬ BlockedReal lam ρ X Y t) := by
  have hρ' : (0 : ℝ) < ρ := by exact_mod_cast hρ
  have hlam' : (0 : ℝ) < lam := by exact_mod_cast hlam
  have hτ : 0 ≤ rayTol N K * ρ := mul_nonneg rayTol_nonneg hρ.le
  have hτ' : (0 : ℝ) ≤ (rayTol N K : ℝ) * ρ := by exact_mod_cast hτ
  obtain ⟨hcl, hcells⟩ := clear_of_near hρ hε hx hy hc
  have hY : ∀ w, Holds ρ w y ↔ HoldsReal ρ w Y := fun w => (hcells w).1
  have hX : ∀ w, Holds ρ w x ↔ HoldsReal ρ w X := fun w =>
    ((clear_of_near hρ hε hy hx (clearReal_swap hc)).2 w).1
  -- the cells that are entered
  have hins : ∀ w, (∃ t, InsideAt ρ x y t w) ↔ ∃ t, InsideAtReal ρ X Y t w := by
    intro w
    constructor
    · rintro ⟨t, t0, t1, ht⟩
      obtain ⟨s, s0, s1, hs⟩ := (hcells w).2.mp ⟨t, t0, t1, fun i => (ht i).le⟩
      obtain ⟨r, r0, r1, hr⟩ := hc w ⟨s, s0, s1, fun i => by linarith [hs i]⟩
      exact ⟨r, r0, r1, fun i => by linarith [hr i]⟩
    · rintro ⟨t, t0, t1, ht⟩
      obtain ⟨s, s0, s1, hs⟩ := (hcells w).2.mpr ⟨t, t0, t1, fun i => (ht i).le⟩
      obtain ⟨r, r0, r1, hr⟩ := hcl w ⟨s, s0, s1, fun i => by
        have := hs i
        unfold lineAt
        rw [zero_add]
        linarith⟩
      refine ⟨r, r0, r1, fun i => ?_⟩
      have := hr i
      unfold lineAt at this
      rw [zero_add] at this
      linarith
  -- the limit
  have hdist := fun u : Cell D => dist_near hD hε hx fun i => (u i : ℚ) * ρ
  simp only [Rat.cast_mul, Rat.cast_intCast] at hdist
  have htol : ((limitTol N ρ : ℚ) : ℝ) = (26 * N + 32) / 2 ^ 24 * ρ := by unfold limitTol; push_cast; rfl
  have htol0 : (0 : ℝ) ≤ (26 * N + 32) / 2 ^ 24 * ρ := by positivity
  have hle : ∀ (u : Cell D) (b : ℚ), DistLe x (fun i => u i * ρ) b ↔ √((distSq x fun i => (u i : ℚ) * ρ : ℚ) : ℝ) ≤ b := by
    intro u b
    rw [Real.sqrt_le_iff]
    unfold DistLe
    norm_cast
  have hfar : ∀ u : Cell D, lam ^ 2 < distSq x (fun i => u i * ρ) ↔ (lam : ℝ) < √((distSq x fun i => (u i : ℚ) * ρ : ℚ) : ℝ) := by
    intro u
    rw [Real.lt_sqrt hlam'.le]
    norm_cast
  have hP : ∀ u, ((∃ t, InsideAt ρ x y t u) ∧ ¬ Holds ρ u x ∧ ¬ Holds ρ u y ∧ lam ^ 2 < distSq x fun i => u i * ρ) ↔
      (∃ t, InsideAtReal ρ X Y t u) ∧ ¬ HoldsReal ρ u X ∧ ¬ HoldsReal ρ u Y ∧ (lam : ℝ) < √(sqLen X fun i => u i * ρ) := by
    intro u
    rw [hins, hX, hY, hfar]
    constructor
    · rintro ⟨⟨t, h1⟩, h2, h3, h4⟩
      refine ⟨⟨t, h1⟩, h2, h3, ?_⟩
      rcases hoff u t h1 h2 h3 with h | h
      · linarith [(hdist u).1]
      · linarith
    · rintro ⟨⟨t, h1⟩, h2, h3, h4⟩
      refine ⟨⟨t, h1⟩, h2, h3, ?_⟩
      rcases hoff u t h1 h2 h3 with h | h
      · linarith
      · linarith [(hdist u).2]
  obtain ⟨o, ho⟩ := exists_cell hρ x
  have hoX := (hX o).mp ho
  have hb : ∀ {w t}, InsideAt ρ x y t w → (Blocked lam ρ x y t ↔ ∃ u, (∃ s, InsideAt ρ x y s u) ∧
      (¬ Holds ρ u x ∧ ¬ Holds ρ u y ∧ lam ^ 2 < distSq x fun i => u i * ρ) ∧ Between o w u) := fun {w t} h =>
    blocked_iff hρ ho h.1 h.2.1 h.2.2 fun u => ¬ Holds ρ u x ∧ ¬ Holds ρ u y ∧ lam ^ 2 < distSq x fun i => u i * ρ
  have hbX : ∀ {w t}, InsideAtReal ρ X Y t w → (BlockedReal lam ρ X Y t ↔ ∃ u, (∃ s, InsideAtReal ρ X Y s u) ∧
      (¬ HoldsReal ρ u X ∧ ¬ HoldsReal ρ u Y ∧ (lam : ℝ) < √(sqLen X fun i => u i * ρ)) ∧ Between o w u) := fun {w t} h =>
    blocked_iff hρ' hoX h.1 h.2.1 h.2.2 fun u =>
      ¬ HoldsReal ρ u X ∧ ¬ HoldsReal ρ u Y ∧ (lam : ℝ) < √(sqLen X fun i => u i * ρ)
  have hsame : ∀ w, (∃ u, (∃ s, InsideAt ρ x y s u) ∧
      (¬ Holds ρ u x ∧ ¬ Holds ρ u y ∧ lam ^ 2 < distSq x fun i => u i * ρ) ∧ Between o w u) ↔
      ∃ u, (∃ s, InsideAtReal ρ X Y s u) ∧
      (¬ HoldsReal ρ u X ∧ ¬ HoldsReal ρ u Y ∧ (lam : ℝ) < √(sqLen X fun i => u i * ρ)) ∧ Between o w u := by
    intro w
    refine exists_congr fun u => ⟨?_, ?_⟩
    · rintro ⟨g1, g2, g3⟩
      have g := (hP u).mp ⟨g1, g2⟩
      exact ⟨g.1, g.2, g3⟩
    · rintro ⟨g1, g2, g3⟩
      have g := (hP u).mpr ⟨g1, g2⟩
      exact ⟨g.1, g.2, g3⟩
  refine ⟨fun u t h1 h2 h3 => ?_, fun w => ⟨and_congr (hY w) (not_congr ?_), ?_⟩⟩
  · rw [hX] at h2
    rw [hY] at h3
    obtain ⟨s, h1⟩ := (hins u).mp ⟨t, h1⟩
    rw [hle, hle]
    push_cast
    rw [htol]
    rcases hoff u s h1 h2 h3 with h | h
    · left; linarith [(hdist u).1]
    · right; push Not; linarith [(hdist u).2]
  · constructor
    · rintro ⟨u, s, -, h1, h2⟩
      obtain ⟨⟨t, g1⟩, g2⟩ := (hP u).mp ⟨⟨s, h1⟩, h2⟩
      exact ⟨u, t, g1.2.1, g1, g2⟩
    · rintro ⟨u, s, -, h1, h2⟩
      obtain ⟨⟨t, g1⟩, g2⟩ := (hP u).mpr ⟨⟨s, h1⟩, h2⟩
      exact ⟨u, t, g1.2.1, g1, g2⟩
  · constructor
    · rintro ⟨t, h1, h2⟩
      obtain ⟨s, g1⟩ := (hins w).mp ⟨t, h1⟩
      rw [hb h1, hsame, ← hbX g1] at h2
      exact ⟨s, g1, h2⟩
    · rintro ⟨t, h1, h2⟩
      obtain ⟨s, g1⟩ := (hins w).mpr ⟨t, h1⟩
      rw [hbX h1, ← hsame, ← hb g1] at h2
      exact ⟨s, g1, h2⟩

/-- C105, for one scan: a scan whose numbers are within `ε` of real ones, the real segments clear of the corners of the
cells and the cells passed off the range limit with this much room to spare, is such a scan as in C104, and tells about
every world cell what geometry and the limit tell from the real numbers. -/
theorem C105_scan (hD : D ≤ 3) (hlo : 1 / 2 ^ 20 ≤ ρ) (hhi : ρ ≤ 2 ^ 20) (hN1 : 1 ≤ N) (hN18 : N ≤ 2 ^ 18)
    {ml : F32} (hml : ml.Is lam) (hl0 : 1 / 2 ^ 60 ≤ lam) (hl60 : lam ≤ 2 ^ 60) (hε : 0 ≤ ε)
    (hs : NearScan ε origin cloud X pts) (h : CutRaysReal N K ρ lam ε X pts) :
    ∃ x ys, CutRays N K ρ ml lam origin cloud x ys ∧ ∀ w, geoUpTo lam ρ x ys w = geoUpToReal lam ρ X pts w := by
  choose x hx using hs.1
  have hρ : 0 < ρ := lt_of_lt_of_le (by norm_num) hlo
  have hlam : 0 < lam := lt_of_lt_of_le (by norm_num) hl0
  obtain ⟨ys, h1, h2⟩ := forall₂_choose hs.2
    (γ := Fin D → ℚ) (S := fun p y Y => (∀ i, (p i).Is (y i) ∧ |(y i : ℝ) - Y i| ≤ ε)) fun p Y _ _ hp => by
      choose y hy using hp
      exact ⟨y, hy⟩
  have near : ∀ y ∈ ys, ∃ Y ∈ pts, ∀ i, |(y i : ℝ) - Y i| ≤ ε := by
    intro y hy
    obtain ⟨p, -, Y, hY, h3⟩ := forall₂_left h1.flip hy
    exact ⟨Y, hY, fun i => (h3 i).2⟩
  have near' : ∀ Y ∈ pts, ∃ y ∈ ys, ∀ i, |(y i : ℝ) - Y i| ≤ ε := by
    intro Y hY
    obtain ⟨y, hy, p, -, h3⟩ := forall₂_left h2.flip hY
    exact ⟨y, hy, fun i => (h3 i).2⟩
  have seg := fun y Y (hY : Y ∈ pts) hn => cut_of_near (N := N) (K := K) (y := y) hD hρ hlam hε (fun i => (hx i).2) hn
    (h.clear Y hY) (h.off_limit Y hY)
  refine ⟨x, ys, ⟨?_, fun y hy => ?_, hml, hl0, hl60, fun y hy => ?_⟩, fun w => ?_⟩
  · refine h1.imp fun p y hpy => ?_
    obtain ⟨Y, hY, h3⟩ := hpy
    exact aims_of_real hlo hhi hN1 hN18 hx h3 (h.aims Y hY)
  · obtain ⟨Y, hY, hn⟩ := near y hy
    exact (clear_of_near hρ hε (fun i => (hx i).2) hn (h.clear Y hY)).1
  · obtain ⟨Y, hY, hn⟩ := near y hy
    exact (seg y Y hY hn).1
  · unfold geoUpTo geoUpToReal
    refine told_congr ⟨?_, ?_⟩ fun _ => ⟨?_, ?_⟩
    · rintro ⟨y, hy, hw⟩
      obtain ⟨Y, hY, hn⟩ := near y hy
      exact ⟨Y, hY, ((seg y Y hY hn).2 w).1.mp hw⟩
    · rintro ⟨Y, hY, hw⟩
      obtain ⟨y, hy, hn⟩ := near' Y hY
      exact ⟨y, hy, ((seg y Y hY hn).2 w).1.mpr hw⟩
    · rintro ⟨y, hy, hw⟩
      obtain ⟨Y, hY, hn⟩ := near y hy
      exact ⟨Y, hY, ((seg y Y hY hn).2 w).2.mp hw⟩
    · rintro ⟨Y, hY, hw⟩
      obtain ⟨y, hy, hn⟩ := near' Y hY
      exact ⟨y, hy, ((seg y Y hY hn).2 w).2.mpr hw⟩

end

section
variable [T : Trig F32] [Libm F32]
open Kitti Viz

/-- C105: as C89, from the bytes of a recording folder to the values in the map and the picture, but the points may be
on both sides of the range limit of 60 m. Going by the numbers in the files the segments from the sensor to the points
keep clear of the corners of the cells, and the cells passed are not at the very limit. At every moment of every run of
the visualizer, `k` scans have been played, and the value of every world cell is what these make of it by geometry and
the limit from the real numbers in the files. If also no recording reaches below the tiles that the first one reaches,
then whenever the renderer has processed a batch exactly those cells are drawn whose value so obtained is above the
threshold, each at a point inside it. -/
theorem C105_folder (hl : TestedLn) (hT : AccurateTrig T) {cos : F64 → F64} {radPerDeg : F64} {cast : F64 → F32}
    (he : AccurateEnv (parsingEnv cos radPerDeg cast (Quat.fromEuler (F := F32))))
    {w₁ w₂ : ℕ} {ext ext' : List (Fin 256)} {idx : List ℕ} {po pv : List (List (Fin 256))}
    (ho : IndexFolder w₁ ext idx po) (hv : IndexFolder w₂ ext' idx pv)
    {oxtBytes cloudBytes : List (Fin 256) → List (BitVec 8)} {place : ℕ → Place} {roll pitch yaw : ℕ → ℚ} {L S ε : ℝ}
    (htext : ∀ i ∈ idx, ∃ text, oxtBytes (indexName w₁ ext i) = utf8 text ∧ (place i).Ok ∧
      Says text (place i) (roll i) (pitch i) (yaw i))
    (hang : ∀ i ∈ idx, |roll i| ≤ 4 ∧ |pitch i| ≤ 4 ∧ |yaw i| ≤ 4)
    (hcloud : ∀ i ∈ idx, 16 ∣ (cloudBytes (indexName w₂ ext' i)).length ∧
      ∀ j < (cloudBytes (indexName w₂ ext' i)).length / 16, ∀ n : Fin 3,
        (f32OfBits (wordAt (cloudBytes (indexName w₂ ext' i)) (16 * j + 4 * n.val))).isFin = true ∧
        |((f32OfBits (wordAt (cloudBytes (indexName w₂ ext' i)) (16 * j + 4 * n.val))).val : ℝ)| ≤ L)
    {i0 : ℕ} (hi0 : idx[0]? = some i0) (hS : ∀ i ∈ idx, ∀ n, |(place i).offset (place i0) n| ≤ S)
    (hL1 : 1 ≤ L) (hL2 : L ≤ 2 ^ 100) (hε : ε = (1130 * L + 2 * S) / 2 ^ 24 + 1 / 2 ^ 18)
    {X : ℕ → Fin 3 → ℝ} (hX : ∀ i, X i = (place i).offset (place i0)) {pts : ℕ → List (Fin 3 → ℝ)}
    (hpts : ∀ i, pts i = movedPoints (roll i) (pitch i) (yaw i) (X i) (cloudBytes (indexName w₂ ext' i)))
    {M N K : ℕ} (hM1 : 1 ≤ M) (hN : N = M + 101) (hN18 : N ≤ 2 ^ 18)
    {ρ : ℚ} (hρ : ρ = (Fp.lit 0.1 : F32).val) (hB : ∀ i ∈ idx, ∀ Y ∈ pts i, ∀ n, |Y n| + ε ≤ M * ρ)
    (hclear : ∀ i ∈ idx, CutRaysReal N K ρ 60 ε (X i) (pts i))
    {o : OccupancyGridMap 3 F32} (hdef : OccupancyGridMap.default_ = .ok o)
    {played : ℕ → List ((Fin 3 → ℝ) × List (Fin 3 → ℝ))}
    (hplayed : ∀ k, played k = (List.range k).map fun j => (X (idx.getD (j % idx.length) 0), pts (idx.getD (j % idx.length) 0))) :
    ∃ rs, main (parsingEnv cos radPerDeg cast Quat.fromEuler) (some (some (byteFolder po pv oxtBytes cloudBytes))) =
        .ok (.window rs) ∧ rs.clouds.length = idx.length ∧
      ∀ (ord : ℕ → List (Verif.Cell 3) → List (Verif.Cell 3)) (s), (∀ r, IsOrder (ord r)) →
        Reach (occOps o.noiseModel rs.get ord) rs.clouds.length o.gridMap s →
        (∃ k cb, k ≤ s.workers.length ∧ s.workers.length ≤ k + 1 ∧
          (s.main = .clearFlag ∨ s.main = .spawn → k = s.workers.length) ∧ Placed s.map cb ρ ∧
          ∀ w, Before s.map cb w (cutFoldReal o.noiseModel 60 ρ (played k) w (Fp.lit 0))) ∧
        ∀ low : Fin 3 → ℤ, LowestFirstReal 100 ρ ε (· ∈ idx) pts (pts i0) low → s.main = .clearFlag ∨ s.main = .spawn →
          ∀ w : Verif.Cell 3, (∀ i, |w i| ≤ 2 ^ 62) →
          (¬ o.noiseModel.threshold.lt (cutFoldReal o.noiseModel 60 ρ (played s.workers.length) w (Fp.lit 0)) = true →
            s.tracked (localCell s.map w) = none) ∧
          (o.noiseModel.threshold.lt (cutFoldReal o.noiseModel 60 ρ (played s.workers.length) w (Fp.lit 0)) = true →
            ∃ p, s.tracked (localCell s.map w) = some p ∧ ∀ i, ∃ z, (p i).Is z ∧ |z - w i * ρ| < ρ / 2) := by
  have hrlo : (1 : ℚ) / 2 ^ 20 ≤ ρ := by rw [hρ]; decide +kernel
  have hrhi : ρ ≤ (2 : ℚ) ^ 20 := by rw [hρ]; decide +kernel
  refine folder_tells hl hT he ho hv htext hang hcloud hi0 hS hL1 hL2 hε hX hpts hM1 hN hN18 hρ hB
    (G := fun i => geoUpToReal 60 ρ (X i) (pts i)) (fun hε0 i hi origin cloud hn m cb hP hc w => ?_) hdef fun k w => ?_
  · obtain ⟨x, ys, h1, h2⟩ := C105_scan (N := N) (K := K) (lam := 60) (by norm_num) hrlo hrhi (by omega) hN18
      (by decide +kernel : defaultNM.maxRange.Is 60) (by norm_num) (by norm_num) hε0 hn (by exact_mod_cast hclear i hi)
    rw [C104_scan (.inr rfl) hP hc h1, h2]
    norm_num
  · rw [hplayed, cutFoldReal, List.foldl_map, List.foldl_map]

end

/-! ## An example with files -/

section
open Kitti Viz

/-- One cloud file: the points (64, 32, 5/256) and (5/256, 5/256, 2) and their opposites. -/
def farPoints : List (BitVec 8) :=
  [0x00, 0x00, 0x80, 0x42, 0x00, 0x00, 0x00, 0x42, 0x00, 0x00, 0xA0, 0x3C, 0x00, 0x00, 0x00, 0x00,
   0x00, 0x00, 0x80, 0xC2, 0x00, 0x00, 0x00, 0xC2, 0x00, 0x00, 0xA0, 0xBC, 0x00, 0x00, 0x00, 0x00,
   0x00, 0x00, 0xA0, 0x3C, 0x00, 0x00, 0xA0, 0x3C, 0x00, 0x00, 0x00, 0x40, 0x00, 0x00, 0x00, 0x00,
   0x00, 0x00, 0xA0, 0xBC, 0x00, 0x00, 0xA0, 0xBC, 0x00, 0x00, 0x00, 0xC0, 0x00, 0x00, 0x00, 0x00]

/-- The four points as real numbers. -/
noncomputable def farRealPts : List (Fin 3 → ℝ) :=
  [![64, 32, 5 / 256], ![-64, -32, -5 / 256], ![5 / 256, 5 / 256, 2], ![-5 / 256, -5 / 256, -2]]

lemma farPoints_moved : movedPoints (0 : ℚ) (0 : ℚ) (0 : ℚ) ![0, 0, 0] farPoints = farRealPts := by
  have e : List.range (farPoints.length / 16) = [0, 1, 2, 3] := by decide
  have h0 : ∀ m : Fin 3, (f32OfBits (wordAt farPoints (16 * 0 + 4 * m.val))).val = ![64, 32, 5 / 256] m := by
    decide +kernel
  have h1 : ∀ m : Fin 3, (f32OfBits (wordAt farPoints (16 * 1 + 4 * m.val))).val = ![-64, -32, -5 / 256] m := by
    decide +kernel
  have h2 : ∀ m : Fin 3, (f32OfBits (wordAt farPoints (16 * 2 + 4 * m.val))).val = ![5 / 256, 5 / 256, 2] m := by
    decide +kernel
  have h3 : ∀ m : Fin 3, (f32OfBits (wordAt farPoints (16 * 3 + 4 * m.val))).val = ![-5 / 256, -5 / 256, -2] m := by
    decide +kernel
  unfold movedPoints farRealPts
  rw [e]
  simp only [List.map_cons, List.map_nil, h0, h1, h2, h3]
  congr 1
  · funext i; fin_cases i <;> simp [rigid, rotX, rotY, rotZ]
  · congr 1
    · funext i; fin_cases i <;> simp [rigid, rotX, rotY, rotZ]
    · congr 1
      · funext i; fin_cases i <;> simp [rigid, rotX, rotY, rotZ]
      · congr 1; funext i; fin_cases i <;> simp [rigid, rotX, rotY, rotZ]

/-- The cells near the segment from 0 to (64, 32, 5/256). -/
lemma slope_cells {tol t : ℝ} (htol : tol ≤ 7 / 1000) (t0 : 0 ≤ t) (t1 : t ≤ 1) {a b c : ℤ}
    (hx : |t * 64 - a * (13421773 / 2 ^ 27)| ≤ 13421773 / 2 ^ 27 / 2 + tol)
    (hy : |t * 32 - b * (13421773 / 2 ^ 27)| ≤ 13421773 / 2 ^ 27 / 2 + tol)
    (hz : |t * (5 / 256) - c * (13421773 / 2 ^ 27)| ≤ 13421773 / 2 ^ 27 / 2 + tol) :
    c = 0 ∧ 0 ≤ a ∧ a ≤ 640 ∧ 0 ≤ b ∧ b ≤ 320 ∧ -1 ≤ a - 2 * b ∧ a - 2 * b ≤ 1 := by
  obtain ⟨x1, x2⟩ := abs_le.mp hx
  obtain ⟨y1, y2⟩ := abs_le.mp hy
  obtain ⟨z1, z2⟩ := abs_le.mp hz
  have lo : ∀ n m : ℤ, (m : ℝ) < n + 1 → m ≤ n := by
    intro n m h
    have : m < n + 1 := by exact_mod_cast h
    omega
  refine ⟨le_antisymm (lo 0 c ?_) (lo c 0 ?_), lo a 0 ?_, lo 640 a ?_, lo b 0 ?_, lo 320 b ?_, lo (a - 2 * b) (-1) ?_,
    lo 1 (a - 2 * b) ?_⟩ <;> push_cast <;> norm_num at x1 x2 y1 y2 z1 z2 ⊢ <;> linarith

/-- The segment from 0 to (64, 32, 5/256) keeps clear of the corners. -/
lemma slope_clear {tol : ℝ} (htol : tol ≤ 7 / 1000) :
    ClearSegmentReal ![0, 0, 0] ![64, 32, 5 / 256] (13421773 / 2 ^ 27) tol := by
  rintro w ⟨t, t0, t1, h⟩
  have x := h 0
  have y := h 1
  have z := h 2
  suffices hs : ∃ s : ℝ, 0 ≤ s ∧ s ≤ 1 ∧ |s * 64 - w 0 * (13421773 / 2 ^ 27)| < 13421773 / 2 ^ 27 / 2 - 7 / 1000 ∧
      |s * 32 - w 1 * (13421773 / 2 ^ 27)| < 13421773 / 2 ^ 27 / 2 - 7 / 1000 ∧
      |s * (5 / 256) - w 2 * (13421773 / 2 ^ 27)| < 13421773 / 2 ^ 27 / 2 - 7 / 1000 by
    obtain ⟨s, s0, s1, a, b, c⟩ := hs
    refine ⟨s, s0, s1, fun i => ?_⟩
    fin_cases i
    · simpa using lt_of_lt_of_le a (by linarith)
    · simpa using lt_of_lt_of_le b (by linarith)
    · simpa using lt_of_lt_of_le c (by linarith)
  simp only [Matrix.cons_val_zero, Matrix.cons_val_one, Matrix.cons_val, zero_add, sub_zero] at x y z
  obtain ⟨c0, a0, a1, b0, b1, d0, d1⟩ := slope_cells htol t0 t1 x y z
  rw [c0]
  generalize w 0 = a at *
  generalize w 1 = b at *
  clear h x y z c0
  have key : ∀ r : ℝ, 0 ≤ r → r ≤ 1 → |r * (5 / 256) - ((0 : ℤ) : ℝ) * (13421773 / 2 ^ 27)| <
      13421773 / 2 ^ 27 / 2 - 7 / 1000 := by
    intro r r0 r1
    rw [abs_lt]
    push_cast
    constructor <;> norm_num <;> linarith
  have B0 : (0 : ℝ) ≤ b := by exact_mod_cast b0
  have hd : a = 2 * b - 1 ∨ a = 2 * b ∨ a = 2 * b + 1 := by omega
  rcases hd with rfl | rfl | rfl
  · have B1 : (1 : ℝ) ≤ b := by exact_mod_cast (by omega : 1 ≤ b)
    have B2 : (b : ℝ) ≤ 320 := by exact_mod_cast b1
    have r0 : 0 ≤ ((b : ℝ) - 3 / 8) * (13421773 / 2 ^ 27) / 32 := by norm_num; linarith
    have r1 : ((b : ℝ) - 3 / 8) * (13421773 / 2 ^ 27) / 32 ≤ 1 := by norm_num; linarith
    refine ⟨_, r0, r1, ?_, ?_, key _ r0 r1⟩ <;> rw [abs_lt] <;> push_cast <;> constructor <;> norm_num <;> linarith
  · rcases eq_or_lt_of_le b1 with rfl | b2
    · refine ⟨1, by norm_num, le_rfl, ?_, ?_, key 1 (by norm_num) le_rfl⟩ <;> rw [abs_lt] <;> norm_num
    · have B2 : (b : ℝ) ≤ 319 := by exact_mod_cast (by omega : b ≤ 319)
      have r0 : 0 ≤ (b : ℝ) * (13421773 / 2 ^ 27) / 32 := by positivity
      have r1 : (b : ℝ) * (13421773 / 2 ^ 27) / 32 ≤ 1 := by norm_num; linarith
      refine ⟨_, r0, r1, ?_, ?_, key _ r0 r1⟩ <;> rw [abs_lt] <;> push_cast <;> constructor <;> norm_num <;> linarith
  · have B2 : (b : ℝ) ≤ 319 := by exact_mod_cast (by omega : b ≤ 319)
    have r0 : 0 ≤ ((b : ℝ) + 3 / 8) * (13421773 / 2 ^ 27) / 32 := by positivity
    have r1 : ((b : ℝ) + 3 / 8) * (13421773 / 2 ^ 27) / 32 ≤ 1 := by norm_num; linarith
    refine ⟨_, r0, r1, ?_, ?_, key _ r0 r1⟩ <;> rw [abs_lt] <;> push_cast <;> constructor <;> norm_num <;> linarith

/-- The cells near the segment from 0 to (5/256, 5/256, 2). -/
lemma column_cells {tol t : ℝ} (htol : tol ≤ 7 / 1000) (t0 : 0 ≤ t) (t1 : t ≤ 1) {a b c : ℤ}
    (hx : |t * (5 / 256) - a * (13421773 / 2 ^ 27)| ≤ 13421773 / 2 ^ 27 / 2 + tol)
    (hy : |t * (5 / 256) - b * (13421773 / 2 ^ 27)| ≤ 13421773 / 2 ^ 27 / 2 + tol)
    (hz : |t * 2 - c * (13421773 / 2 ^ 27)| ≤ 13421773 / 2 ^ 27 / 2 + tol) :
    a = 0 ∧ b = 0 ∧ 0 ≤ c ∧ c ≤ 20 := by
  obtain ⟨x1, x2⟩ := abs_le.mp hx
  obtain ⟨y1, y2⟩ := abs_le.mp hy
  obtain ⟨z1, z2⟩ := abs_le.mp hz
  have lo : ∀ n m : ℤ, (m : ℝ) < n + 1 → m ≤ n := by
    intro n m h
    have : m < n + 1 := by exact_mod_cast h
    omega
  refine ⟨le_antisymm (lo 0 a ?_) (lo a 0 ?_), le_antisymm (lo 0 b ?_) (lo b 0 ?_), lo c 0 ?_, lo 20 c ?_⟩ <;>
    push_cast <;> norm_num at x1 x2 y1 y2 z1 z2 ⊢ <;> linarith

lemma column_clear {tol : ℝ} (htol : tol ≤ 7 / 1000) :
    ClearSegmentReal ![0, 0, 0] ![5 / 256, 5 / 256, 2] (13421773 / 2 ^ 27) tol := by
  rintro w ⟨t, t0, t1, h⟩
  have x := h 0
  have y := h 1
  have z := h 2
  suffices hs : ∃ s : ℝ, 0 ≤ s ∧ s ≤ 1 ∧ |s * (5 / 256) - w 0 * (13421773 / 2 ^ 27)| < 13421773 / 2 ^ 27 / 2 - 7 / 1000 ∧
      |s * (5 / 256) - w 1 * (13421773 / 2 ^ 27)| < 13421773 / 2 ^ 27 / 2 - 7 / 1000 ∧
      |s * 2 - w 2 * (13421773 / 2 ^ 27)| < 13421773 / 2 ^ 27 / 2 - 7 / 1000 by
    obtain ⟨s, s0, s1, a, b, c⟩ := hs
    refine ⟨s, s0, s1, fun i => ?_⟩
    fin_cases i
    · simpa using lt_of_lt_of_le a (by linarith)
    · simpa using lt_of_lt_of_le b (by linarith)
    · simpa using lt_of_lt_of_le c (by linarith)
  simp only [Matrix.cons_val_zero, Matrix.cons_val_one, Matrix.cons_val, zero_add, sub_zero] at x y z
  obtain ⟨a0, b0, c0, c1⟩ := column_cells htol t0 t1 x y z
  rw [a0, b0]
  generalize w 2 = c at *
  clear h x y z a0 b0
  have key : ∀ r : ℝ, 0 ≤ r → r ≤ 1 → |r * (5 / 256) - ((0 : ℤ) : ℝ) * (13421773 / 2 ^ 27)| <
      13421773 / 2 ^ 27 / 2 - 7 / 1000 := by
    intro r r0 r1
    rw [abs_lt]
    push_cast
    constructor <;> norm_num <;> linarith
  have C0 : (0 : ℝ) ≤ c := by exact_mod_cast c0
  rcases eq_or_lt_of_le c1 with rfl | c2
  · refine ⟨1, by norm_num, le_rfl, key 1 (by norm_num) le_rfl, key 1 (by norm_num) le_rfl, ?_⟩
    rw [abs_lt]; norm_num
  · have C2 : (c : ℝ) ≤ 19 := by exact_mod_cast (by omega : c ≤ 19)
    have r0 : 0 ≤ (c : ℝ) * (13421773 / 2 ^ 27) / 2 := by positivity
    have r1 : (c : ℝ) * (13421773 / 2 ^ 27) / 2 ≤ 1 := by norm_num; linarith
    refine ⟨_, r0, r1, key _ r0 r1, key _ r0 r1, ?_⟩
    rw [abs_lt]; constructor <;> norm_num

/-- Opposite ways. -/
lemma inside_neg {Y : Fin 3 → ℝ} {ρ t : ℝ} {u : Verif.Cell 3} (h : InsideAtReal ρ ![0, 0, 0] (fun i => -Y i) t u) :
    InsideAtReal ρ ![0, 0, 0] Y t fun i => -u i := by
  refine ⟨h.1, h.2.1, fun i => ?_⟩
  have e : ![0, 0, 0] i + t * (Y i - ![0, 0, 0] i) - ((-u i : ℤ) : ℝ) * ρ =
      -(![0, 0, 0] i + t * (-Y i - ![0, 0, 0] i) - u i * ρ) := by fin_cases i <;> simp <;> ring
  rw [e, abs_neg]
  exact h.2.2 i

lemma slope_inside {t : ℝ} {u : Verif.Cell 3} (h : InsideAtReal (13421773 / 2 ^ 27) ![0, 0, 0] ![64, 32, 5 / 256] t u) :
    u 2 = 0 ∧ 0 ≤ u 0 ∧ u 0 ≤ 640 ∧ 0 ≤ u 1 ∧ u 1 ≤ 320 ∧ -1 ≤ u 0 - 2 * u 1 ∧ u 0 - 2 * u 1 ≤ 1 := by
  obtain ⟨t0, t1, h⟩ := h
  have x := (h 0).le
  have y := (h 1).le
  have z := (h 2).le
  simp only [Matrix.cons_val_zero, Matrix.cons_val_one, Matrix.cons_val, zero_add, sub_zero] at x y z
  exact slope_cells (tol := 0) (by norm_num) t0 t1 (by simpa using x) (by simpa using y) (by simpa using z)

lemma column_inside {t : ℝ} {u : Verif.Cell 3} (h : InsideAtReal (13421773 / 2 ^ 27) ![0, 0, 0] ![5 / 256, 5 / 256, 2] t u) :
    u 0 = 0 ∧ u 1 = 0 ∧ 0 ≤ u 2 ∧ u 2 ≤ 20 := by
  obtain ⟨t0, t1, h⟩ := h
  have x := (h 0).le
  have y := (h 1).le
  have z := (h 2).le
  simp only [Matrix.cons_val_zero, Matrix.cons_val_one, Matrix.cons_val, zero_add, sub_zero] at x y z
  exact column_cells (tol := 0) (by norm_num) t0 t1 (by simpa using x) (by simpa using y) (by simpa using z)

lemma sqLen_zero (c : Verif.Cell 3) : sqLen ![0, 0, 0] (fun i => (c i : ℝ) * (13421773 / 2 ^ 27)) =
    ((c 0 ^ 2 + c 1 ^ 2 + c 2 ^ 2 : ℤ) : ℝ) * (13421773 / 2 ^ 27) ^ 2 := by
  rw [sqLen, Fin.sum_univ_three]
  simp
  ring

/-- No centre on the way to (64, 32, 5/256) is at the very limit of 60. -/
lemma slope_off {u : Verif.Cell 3} (h : u 2 = 0 ∧ 0 ≤ u 0 ∧ u 0 ≤ 640 ∧ 0 ≤ u 1 ∧ u 1 ≤ 320 ∧ -1 ≤ u 0 - 2 * u 1 ∧
    u 0 - 2 * u 1 ≤ 1) : u 0 ^ 2 + u 1 ^ 2 + u 2 ^ 2 ≤ 359120 ∨ 360193 ≤ u 0 ^ 2 + u 1 ^ 2 + u 2 ^ 2 := by
  obtain ⟨h0, h1, -, h2, -, h3, h4⟩ := h
  rw [h0]
  generalize u 0 = a at *
  generalize u 1 = b at *
  have hd : a = 2 * b - 1 ∨ a = 2 * b ∨ a = 2 * b + 1 := by omega
  rcases lt_trichotomy b 268 with hb | hb | hb
  · left
    rcases hd with rfl | rfl | rfl <;> nlinarith
  · subst hb
    rcases hd with rfl | rfl | rfl <;> norm_num
  · right
    rcases hd with rfl | rfl | rfl <;> nlinarith

lemma farReal_rays_of {ε : ℝ} (hε : ε ≤ 442 / 100000) :
    CutRaysReal 742 641 (13421773 / 2 ^ 27) 60 ε ![0, 0, 0] farRealPts := by
  have htol : (rayTol 742 641 : ℝ) * (13421773 / 2 ^ 27) + ε ≤ 7 / 1000 := by
    unfold rayTol; norm_num; linarith
  have hn1 : (fun i => -(![64, 32, 5 / 256] i) : Fin 3 → ℝ) = ![-64, -32, -5 / 256] := by
    funext i; fin_cases i <;> norm_num
  have hn2 : (fun i => -(![5 / 256, 5 / 256, 2] i) : Fin 3 → ℝ) = ![-5 / 256, -5 / 256, -2] := by
    funext i; fin_cases i <;> norm_num
  have off : ∀ u : Verif.Cell 3, (u 0 ^ 2 + u 1 ^ 2 + u 2 ^ 2 ≤ 359120 ∨ 360193 ≤ u 0 ^ 2 + u 1 ^ 2 + u 2 ^ 2) →
      √(sqLen ![0, 0, 0] fun i => (u i : ℝ) * (13421773 / 2 ^ 27)) + (26 * (742 : ℕ) + 32) / 2 ^ 24 * (13421773 / 2 ^ 27) +
          2 * ε ≤ 60 * (1 - 1 / 2 ^ 20) ∨
        60 * (1 + 1 / 2 ^ 20) + (26 * (742 : ℕ) + 32) / 2 ^ 24 * (13421773 / 2 ^ 27) +
          2 * ε < √(sqLen ![0, 0, 0] fun i => (u i : ℝ) * (13421773 / 2 ^ 27)) := by
    intro u hu
    rw [sqLen_zero]
    rcases hu with hu | hu
    · left
      have h1 : ((u 0 ^ 2 + u 1 ^ 2 + u 2 ^ 2 : ℤ) : ℝ) ≤ 359120 := by exact_mod_cast hu
      have h2 : √(((u 0 ^ 2 + u 1 ^ 2 + u 2 ^ 2 : ℤ) : ℝ) * (13421773 / 2 ^ 27) ^ 2) ≤ 5995 / 100 := by
        refine Real.sqrt_le_iff.mpr ⟨by norm_num, ?_⟩
        calc _ ≤ (359120 : ℝ) * (13421773 / 2 ^ 27) ^ 2 := mul_le_mul_of_nonneg_right h1 (by positivity)
          _ ≤ _ := by norm_num
      norm_num at h2 ⊢
      linarith
    · right
      have h1 : (360193 : ℝ) ≤ ((u 0 ^ 2 + u 1 ^ 2 + u 2 ^ 2 : ℤ) : ℝ) := by exact_mod_cast hu
      have h2 : 60015 / 1000 < √(((u 0 ^ 2 + u 1 ^ 2 + u 2 ^ 2 : ℤ) : ℝ) * (13421773 / 2 ^ 27) ^ 2) := by
        refine (Real.lt_sqrt (by norm_num)).mpr ?_
        calc (60015 / 1000 : ℝ) ^ 2 < (360193 : ℝ) * (13421773 / 2 ^ 27) ^ 2 := by norm_num
          _ ≤ _ := mul_le_mul_of_nonneg_right h1 (by positivity)
      norm_num at h2 ⊢
      linarith
  have colOff : ∀ u : Verif.Cell 3, u 0 = 0 ∧ u 1 = 0 ∧ 0 ≤ u 2 ∧ u 2 ≤ 20 →
      u 0 ^ 2 + u 1 ^ 2 + u 2 ^ 2 ≤ 359120 ∨ 360193 ≤ u 0 ^ 2 + u 1 ^ 2 + u 2 ^ 2 := by
    rintro u ⟨h0, h1, h2, h3⟩
    left
    rw [h0, h1]
    nlinarith
  refine ⟨fun Y hY => ?_, fun Y hY => ?_, fun Y hY u t hu _ _ => off u ?_⟩
  · simp only [farRealPts, List.mem_cons, List.not_mem_nil, or_false] at hY
    rcases hY with rfl | rfl | rfl | rfl <;> refine ⟨?_, ?_, ?_, ?_⟩ <;> intro i <;> fin_cases i <;> norm_num <;> linarith
  · simp only [farRealPts, List.mem_cons, List.not_mem_nil, or_false] at hY
    rcases hY with rfl | rfl | rfl | rfl
    · exact slope_clear htol
    · rw [← hn1]; exact near_clear_neg (slope_clear htol)
    · exact column_clear htol
    · rw [← hn2]; exact near_clear_neg (column_clear htol)
  · simp only [farRealPts, List.mem_cons, List.not_mem_nil, or_false] at hY
    rcases hY with rfl | rfl | rfl | rfl
    · exact slope_off (slope_inside hu)
    · rw [← hn1] at hu
      have := slope_off (slope_inside (inside_neg hu))
      simpa using this
    · exact colOff _ (column_inside hu)
    · rw [← hn2] at hu
      have := colOff _ (column_inside (inside_neg hu))
      simpa using this

lemma farReal_rays : CutRaysReal 742 641 (13421773 / 2 ^ 27) 60 (1130 * 64 / 2 ^ 24 + 1 / 2 ^ 18) ![0, 0, 0] farRealPts :=
  farReal_rays_of (by norm_num)

lemma farReal_lowest_of {ε : ℝ} (hε : ε ≤ 442 / 100000) : LowestFirstReal 100 (13421773 / 2 ^ 27) ε (· ∈ [0])
    (fun _ => farRealPts) farRealPts ![-7, -4, -1] := by
  refine ⟨by decide, fun r _ Y hY i => ?_, fun i => .inr ?_⟩
  · simp only [farRealPts, List.mem_cons, List.not_mem_nil, or_false] at hY
    rcases hY with rfl | rfl | rfl | rfl <;> fin_cases i <;> norm_num <;> linarith
  · fin_cases i
    · exact ⟨![-64, -32, -5 / 256], by simp [farRealPts], by norm_num; linarith⟩
    · exact ⟨![-64, -32, -5 / 256], by simp [farRealPts], by norm_num; linarith⟩
    · exact ⟨![-5 / 256, -5 / 256, -2], by simp [farRealPts], by norm_num; linarith⟩

lemma farReal_lowest : LowestFirstReal 100 (13421773 / 2 ^ 27) (1130 * 64 / 2 ^ 24 + 1 / 2 ^ 18) (· ∈ [0])
    (fun _ => farRealPts) farRealPts ![-7, -4, -1] := farReal_lowest_of (by norm_num)

lemma farReal_alive : ClearReal 641 742 641 100 (13421773 / 2 ^ 27) (1130 * 64 / 2 ^ 24 + 1 / 2 ^ 18) ![0, 0, 0]
    farRealPts := by
  have up : ∀ i, ∃ Y ∈ farRealPts, (2 : ℝ) ≤ Y i := by
    intro i
    fin_cases i
    · exact ⟨![64, 32, 5 / 256], by simp [farRealPts], by norm_num⟩
    · exact ⟨![64, 32, 5 / 256], by simp [farRealPts], by norm_num⟩
    · exact ⟨![5 / 256, 5 / 256, 2], by simp [farRealPts], by norm_num⟩
  have down : ∀ i, ∃ Y ∈ farRealPts, Y i ≤ (-2 : ℝ) := by
    intro i
    fin_cases i
    · exact ⟨![-64, -32, -5 / 256], by simp [farRealPts], by norm_num⟩
    · exact ⟨![-64, -32, -5 / 256], by simp [farRealPts], by norm_num⟩
    · exact ⟨![-5 / 256, -5 / 256, -2], by simp [farRealPts], by norm_num⟩
  have hzero : ∀ i, (![0, 0, 0] : Fin 3 → ℝ) i = 0 := fun i => by fin_cases i <;> rfl
  have low : ∀ (i : Fin 3) (y : ℝ), y ≤ 1 →
      ClearAboveReal 100 (13421773 / 2 ^ 27) (1130 * 64 / 2 ^ 24 + 1 / 2 ^ 18) farRealPts i y := by
    intro i y hy
    obtain ⟨Z, h1, h2⟩ := up i
    exact .inr ⟨Z, h1, by norm_num; linarith⟩
  have high : ∀ (i : Fin 3) (y : ℝ) (n : ℤ), n * 10 + 1 ≤ y → y ≤ n * 10 + 9 → 0 ≤ n → n ≤ 9 →
      ClearAboveReal 100 (13421773 / 2 ^ 27) (1130 * 64 / 2 ^ 24 + 1 / 2 ^ 18) farRealPts i y := by
    intro i y n hy1 hy2 n0 n9
    left
    intro k
    have N0 : (0 : ℝ) ≤ n := by exact_mod_cast n0
    have N9 : (n : ℝ) ≤ 9 := by exact_mod_cast n9
    rcases lt_or_ge n k with hk | hk
    · left
      have : (n : ℝ) + 1 ≤ k := by exact_mod_cast hk
      push_cast
      norm_num
      linarith
    · right
      have : (k : ℝ) ≤ n := by exact_mod_cast hk
      push_cast
      norm_num
      linarith
  have hoff : ∀ (y : ℝ) (a : ℤ), |y - a * (13421773 / 2 ^ 27)| ≤ 4 / 100 → ∀ n : ℤ,
      1 / 100 ≤ |y - (n + 1 / 2) * (13421773 / 2 ^ 27)| := by
    intro y a h n
    have h' := abs_le.mp h
    rcases lt_or_ge n a with hn | hn
    · have : (n : ℝ) + 1 ≤ a := by exact_mod_cast hn
      exact le_trans (by linarith [h'.1]) (le_abs_self _)
    · have : (a : ℝ) ≤ n := by exact_mod_cast hn
      exact le_trans (by linarith [h'.2]) (neg_le_abs _)
  refine ⟨fun i => ?_, fun i => ?_, fun i => ?_, fun Y hY i => ?_⟩
  · rw [hzero]; norm_num
  · rw [hzero]
    obtain ⟨Y, h1, h2⟩ := down i
    obtain ⟨Z, h3, h4⟩ := up i
    exact ⟨⟨Y, h1, by norm_num; linarith⟩, Z, h3, by norm_num; linarith⟩
  · rw [hzero]; exact low i 0 (by norm_num)
  · rw [hzero]
    suffices h : |Y i| ≤ 64 ∧ ClearAboveReal 100 (13421773 / 2 ^ 27) (1130 * 64 / 2 ^ 24 + 1 / 2 ^ 18) farRealPts i (Y i) ∧
        5 / 256 ≤ |Y i| ∧ ∃ a : ℤ, |Y i - a * (13421773 / 2 ^ 27)| ≤ 4 / 100 by
      obtain ⟨h1, h2, h3, a, h4⟩ := h
      rw [sub_zero]
      refine ⟨by norm_num; linarith, h2, by norm_num; linarith, by norm_num; linarith, fun n => ?_⟩
      exact le_trans (by norm_num) (hoff _ a h4 n)
    simp only [farRealPts, List.mem_cons, List.not_mem_nil, or_false] at hY
    rcases hY with rfl | rfl | rfl | rfl <;> fin_cases i
    · exact ⟨by norm_num, high _ _ 6 (by norm_num) (by norm_num) (by norm_num) (by norm_num), by norm_num, 640, by norm_num [abs_le]⟩
    · exact ⟨by norm_num, high _ _ 3 (by norm_num) (by norm_num) (by norm_num) (by norm_num), by norm_num, 320, by norm_num [abs_le]⟩
    · exact ⟨by norm_num, low _ _ (by norm_num), by norm_num, 0, by norm_num [abs_le]⟩
    · exact ⟨by norm_num, low _ _ (by norm_num), by norm_num, -640, by norm_num [abs_le]⟩
    · exact ⟨by norm_num, low _ _ (by norm_num), by norm_num, -320, by norm_num [abs_le]⟩
    · exact ⟨by norm_num, low _ _ (by norm_num), by norm_num, 0, by norm_num [abs_le]⟩
    · exact ⟨by norm_num, low _ _ (by norm_num), by norm_num, 0, by norm_num [abs_le]⟩
    · exact ⟨by norm_num, low _ _ (by norm_num), by norm_num, 0, by norm_num [abs_le]⟩
    · exact ⟨by norm_num, high _ _ 0 (by norm_num) (by norm_num) (by norm_num) (by norm_num), by norm_num, 20, by norm_num [abs_le]⟩
    · exact ⟨by norm_num, low _ _ (by norm_num), by norm_num, 0, by norm_num [abs_le]⟩
    · exact ⟨by norm_num, low _ _ (by norm_num), by norm_num, 0, by norm_num [abs_le]⟩
    · exact ⟨by norm_num, low _ _ (by norm_num), by norm_num, -20, by norm_num [abs_le]⟩

/-- The point (5/256, 5/256, 2) is in the cell (0, 0, 20), and the way there is not blocked. -/
lemma far_hit : geoUpToReal 60 ((13421773 / 2 ^ 27 : ℚ) : ℝ) ![0, 0, 0] farRealPts ![0, 0, 20] = .hit := by
  push_cast
  unfold geoUpToReal
  rw [if_pos]
  refine ⟨![5 / 256, 5 / 256, 2], by simp [farRealPts], fun i => by fin_cases i <;> norm_num [abs_le], ?_⟩
  rintro ⟨u, s, -, hu, -, -, h⟩
  obtain ⟨h0, h1, h2, h3⟩ := column_inside hu
  rw [sqLen_zero, Real.lt_sqrt (by norm_num)] at h
  have h4 : u 0 ^ 2 + u 1 ^ 2 + u 2 ^ 2 ≤ 400 := by rw [h0, h1]; nlinarith
  have h5 : ((u 0 ^ 2 + u 1 ^ 2 + u 2 ^ 2 : ℤ) : ℝ) ≤ 400 := by exact_mod_cast h4
  have h6 := mul_le_mul_of_nonneg_right h5 (by positivity : (0 : ℝ) ≤ (13421773 / 2 ^ 27) ^ 2)
  norm_num at h h6
  linarith

/-- The point (64, 32, 5/256) is in the cell (640, 320, 0), but nothing is learned about it: the way there is blocked
in the cell (600, 300, 0). -/
lemma far_nothing : geoUpToReal 60 ((13421773 / 2 ^ 27 : ℚ) : ℝ) ![0, 0, 0] farRealPts ![640, 320, 0] = .nothing := by
  have block : ∀ t : ℝ, 15 / 16 ≤ t → BlockedReal 60 (13421773 / 2 ^ 27) ![0, 0, 0] ![64, 32, 5 / 256] t := by
    intro t ht
    refine ⟨![600, 300, 0], 15 / 16, ht, ⟨by norm_num, by norm_num, fun i => ?_⟩, fun h => ?_, fun h => ?_, ?_⟩
    · fin_cases i <;> norm_num [abs_lt]
    · have := abs_le.mp (h 0)
      norm_num at this
    · have := abs_le.mp (h 0)
      norm_num at this
    · rw [sqLen_zero, Real.lt_sqrt (by norm_num), show (![600, 300, 0] : Verif.Cell 3) 2 = 0 from rfl]
      norm_num
  push_cast
  unfold geoUpToReal
  rw [if_neg, if_neg]
  · rintro ⟨Y, hY, t, ⟨t0, t1, h⟩, hb⟩
    have hx := abs_lt.mp (h 0)
    simp only [farRealPts, List.mem_cons, List.not_mem_nil, or_false] at hY
    rcases hY with rfl | rfl | rfl | rfl
    · refine hb (block t ?_)
      norm_num at hx
      linarith
    all_goals
      norm_num at hx
      linarith
  · rintro ⟨Y, hY, h, hb⟩
    have hx := abs_le.mp (h 0)
    simp only [farRealPts, List.mem_cons, List.not_mem_nil, or_false] at hY
    rcases hY with rfl | rfl | rfl | rfl
    · exact hb (block 1 (by norm_num))
    all_goals norm_num at hx

/-- A folder with one recording, with points on both sides of the limit: the window opens, and there is a run in which
after nine scans nothing has panicked, the cell of the point (5/256, 5/256, 2) is drawn, and that of the point
(64, 32, 5/256) is not. -/
example : ∃ (rs : _) (s : _) (o : OccupancyGridMap 3 F32),
    main (parsingEnv someEnv.cos someEnv.radPerDeg someEnv.cast (@Quat.fromEuler F32 _ someTrig))
      (some (some (byteFolder [indexName 10 (ascii ".txt") 0] [indexName 10 (ascii ".bin") 0]
        (fun _ => utf8 "49 8.4 116.4 0 0 0".toList) fun _ => farPoints))) = .ok (.window rs) ∧
    @OccupancyGridMap.default_ F32 _ 3 testedLibm = .ok o ∧
    Reach (occOps o.noiseModel rs.get fun _ l => l) rs.clouds.length o.gridMap s ∧ Alive s ∧ s.workers.length = 9 ∧
    (∃ p, s.tracked (localCell s.map ![0, 0, 20]) = some p) ∧ s.tracked (localCell s.map ![640, 320, 0]) = none := by
  let _ := someTrig
  let _ := testedLibm
  have hl : TestedLn := by constructor <;> decide +kernel
  have hok : (⟨49, 42 / 5, 582 / 5⟩ : Place).Ok := ⟨by norm_num, by norm_num [abs_le], by norm_num [abs_le]⟩
  have hoff : (⟨49, 42 / 5, 582 / 5⟩ : Place).offset ⟨49, 42 / 5, 582 / 5⟩ = ![0, 0, 0] := by
    funext n; fin_cases n <;> simp [Place.offset]
  have hdef : ∃ o : OccupancyGridMap 3 F32, OccupancyGridMap.default_ = .ok o := by
    obtain ⟨m0, e1, -⟩ := new_empty_placed (D := 3) (ρ := 13421773 / 2 ^ 27) (r := (Fp.lit 0.1 : F32)) (by norm_num)
      (by refine ⟨by decide +kernel, ?_, ?_⟩ <;> norm_num) (t := 100) (by norm_num) (by norm_num) (Fp.lit 0 : F32)
    refine ⟨⟨m0, defaultNM⟩, ((C42_default_model hl).2.1 _).mpr ?_⟩
    unfold OccupancyGridMap.new
    rw [Verif.M.bind_eq_ok]
    exact ⟨m0, e1, rfl⟩
  obtain ⟨o, ho⟩ := hdef
  have htext : ∀ i ∈ [0], ∃ text, utf8 "49 8.4 116.4 0 0 0".toList = utf8 text ∧ (⟨49, 42 / 5, 582 / 5⟩ : Place).Ok ∧
      Says text ⟨49, 42 / 5, 582 / 5⟩ 0 0 0 := fun i _ =>
    ⟨_, rfl, hok, "49".toList, "8.4".toList, "116.4".toList, "0".toList, "0".toList, "0".toList, [],
      fields_iff.mpr (by decide +kernel), by decide +kernel, by decide +kernel, by decide +kernel, by decide +kernel,
      by decide +kernel, by decide +kernel⟩
  have hcloud : ∀ i ∈ [0], 16 ∣ farPoints.length ∧ ∀ j < farPoints.length / 16, ∀ n : Fin 3,
      (f32OfBits (wordAt farPoints (16 * j + 4 * n.val))).isFin = true ∧
      |((f32OfBits (wordAt farPoints (16 * j + 4 * n.val))).val : ℝ)| ≤ 64 := by
    have key : ∀ j < farPoints.length / 16, ∀ n : Fin 3, (f32OfBits (wordAt farPoints (16 * j + 4 * n.val))).isFin =
        true ∧ |(f32OfBits (wordAt farPoints (16 * j + 4 * n.val))).val| ≤ 64 := by decide +kernel
    exact fun i _ => ⟨by decide, fun j hj n => ⟨(key j hj n).1, by exact_mod_cast (key j hj n).2⟩⟩
  have hε : (1130 * 64 / 2 ^ 24 + 1 / 2 ^ 18 : ℝ) = (1130 * 64 + 2 * 0) / 2 ^ 24 + 1 / 2 ^ 18 := by norm_num
  have hT := someTrig_accurate
  have he := C76_accurate (euler := Quat.fromEuler (F := F32)) someEnv_accurate.cos someEnv_accurate.radPerDeg
    someEnv_accurate.cast
  obtain ⟨rs, h1, hlen, h2⟩ := C82_folder (w₁ := 10) (w₂ := 10) (ext := ascii ".txt") (ext' := ascii ".bin") hl hT he
    (idx := [0]) (po := [indexName 10 (ascii ".txt") 0]) (pv := [indexName 10 (ascii ".bin") 0])
    (oxtBytes := fun _ => utf8 "49 8.4 116.4 0 0 0".toList) (cloudBytes := fun _ => farPoints)
    (place := fun _ => ⟨49, 42 / 5, 582 / 5⟩) (roll := fun _ => 0) (pitch := fun _ => 0) (yaw := fun _ => 0)
    (X := fun _ => ![0, 0, 0]) (pts := fun _ => farRealPts)
    ⟨by simp, by decide, by simp⟩ ⟨by simp, by decide, by simp⟩ htext (by simp) hcloud (i0 := 0) rfl
    (fun i _ n => by simp only [hoff]; fin_cases n <;> simp) (by norm_num) (by norm_num) hε (fun _ => hoff.symm)
    (fun _ => farPoints_moved.symm) (M := 641) (by norm_num) rfl (by norm_num) side_val.symm
    (fun _ _ => by push_cast; exact farReal_alive) ho
  obtain ⟨rs', h1', hlen', h2'⟩ := C105_folder (w₁ := 10) (w₂ := 10) (ext := ascii ".txt") (ext' := ascii ".bin") hl hT he
    (idx := [0]) (po := [indexName 10 (ascii ".txt") 0]) (pv := [indexName 10 (ascii ".bin") 0])
    (oxtBytes := fun _ => utf8 "49 8.4 116.4 0 0 0".toList) (cloudBytes := fun _ => farPoints)
    (place := fun _ => ⟨49, 42 / 5, 582 / 5⟩) (roll := fun _ => 0) (pitch := fun _ => 0) (yaw := fun _ => 0)
    (X := fun _ => ![0, 0, 0]) (pts := fun _ => farRealPts)
    ⟨by simp, by decide, by simp⟩ ⟨by simp, by decide, by simp⟩ htext (by simp) hcloud (i0 := 0) rfl
    (fun i _ n => by simp only [hoff]; fin_cases n <;> simp) (by norm_num) (by norm_num) hε (fun _ => hoff.symm)
    (fun _ => farPoints_moved.symm) (M := 641) (by norm_num) rfl (by norm_num) (K := 641)
    side_val.symm (fun _ _ Y hY n => by push_cast; exact (farReal_alive.points Y hY n).1)
    (fun _ _ => by push_cast; exact farReal_rays) ho (fun _ => rfl)
  obtain rfl : rs = rs' := by simpa using h1.symm.trans h1'
  have hord : ∀ r : ℕ, IsOrder ((fun _ l => l : ℕ → List (Verif.Cell 3) → List (Verif.Cell 3)) r) :=
    fun _ l => List.Perm.refl l
  obtain ⟨h3, h4, -⟩ := h2 _ hord
  obtain ⟨s, h5, h6, h7⟩ := h4 9
  have hlen9 : s.workers.length = 9 := by rw [h7]; simp
  obtain ⟨-, g⟩ := h2' _ s hord h5
  have g' := g ![-7, -4, -1] (by push_cast; exact farReal_lowest) (.inl h6)
  obtain ⟨m0, rfl, -⟩ := default_start hl side_val.symm ho
  rw [hlen9] at g'
  refine ⟨rs, s, _, h1, ho, h5, (h3 s h5).1, hlen9, ?_, ?_⟩
  · obtain ⟨p, hp, -⟩ := (g' ![0, 0, 20] (by decide)).2 (by
      simp only [cutFoldReal, List.foldl_map, far_hit]
      decide +kernel)
    exact ⟨p, hp⟩
  · exact (g' ![640, 320, 0] (by decide)).1 (by
      simp only [cutFoldReal, List.foldl_map, far_nothing]
      decide +kernel)

end
end Verif.Props
