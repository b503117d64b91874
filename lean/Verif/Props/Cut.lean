import Verif.Props.Geometric
import Verif.Spec.Cut

/-!
# C104: the geometric map, with points beyond the range limit
-/

namespace Verif.Props
open Spec Scalar

variable {D : ℕ} {N K : ℕ} {ρ lam : ℚ} {x y : Fin D → ℚ} {origin p : Point D F32} {cloud : PointCloud D F32}
  {pts : List (Fin D → ℚ)} {m : GridMap D F32 F32} {cb : CellBounds D} {ml : F32}

/-- On the way from the cell `o`, in which it starts, a segment is inside a nearer cell before it is inside a farther
one. -/
private lemma inside_order (hρ : 0 < ρ) {o u w : Cell D} (ho : Holds ρ o x) (hb : Between o u w) (hne : u ≠ w) {s t : ℚ}
    (hs : InsideAt ρ x y s u) (ht : InsideAt ρ x y t w) : t < s := by
  by_contra hst
  push Not at hst
  obtain ⟨i, hi⟩ := Function.ne_iff.mp hne
  have h1 := abs_le.mp (ho i)
  have h2 := abs_lt.mp (hs.2.2 i)
  have h3 := abs_lt.mp (ht.2.2 i)
  have h4 := hb i
  have hsub : 0 ≤ t - s := by linarith
  have hs0 := hs.1
  rcases lt_or_gt_of_ne hi with h5 | h5
  · have a1 : w i ≤ o i := by omega
    have a2 : (u i : ℚ) + 1 ≤ w i := by exact_mod_cast h5
    have a3 : (w i : ℚ) ≤ o i := by exact_mod_cast a1
    have b2 := mul_le_mul_of_nonneg_right a2 hρ.le
    have b3 := mul_le_mul_of_nonneg_right a3 hρ.le
    have c1 : s * (y i - x i) < 0 := by linarith [h2.2, h1.1]
    have c2 : 0 < (t - s) * (y i - x i) := by linarith [h2.2, h3.1]
    rcases le_or_gt 0 (y i - x i) with h6 | h6
    · exact absurd (mul_nonneg hs0 h6) (not_le.mpr c1)
    · exact absurd (mul_nonpos_of_nonneg_of_nonpos hsub h6.le) (not_le.mpr c2)
  · have a1 : o i ≤ w i := by omega
    have a2 : (w i : ℚ) + 1 ≤ u i := by exact_mod_cast h5
    have a3 : (o i : ℚ) ≤ w i := by exact_mod_cast a1
    have b2 := mul_le_mul_of_nonneg_right a2 hρ.le
    have b3 := mul_le_mul_of_nonneg_right a3 hρ.le
    have c1 : 0 < s * (y i - x i) := by linarith [h2.1, h1.2]
    have c2 : (t - s) * (y i - x i) < 0 := by linarith [h2.1, h3.2]
    rcases le_or_gt 0 (y i - x i) with h6 | h6
    · exact absurd (mul_nonneg hsub h6) (not_le.mpr c2)
    · exact absurd (mul_nonpos_of_nonneg_of_nonpos hs0 h6.le) (not_le.mpr c1)

/-- One ray of a scan with a range limit, in f32: it reports the cell of the point if the way there is not blocked, and
passes the cells up to which the way is not blocked. -/
lemma cut_ray (hD : D = 2 ∨ D = 3) (hP : Placed m cb ρ) (hc : ∀ i, |cb.min i| ≤ N) (h : Aims N K ρ origin p x y)
    (hcl : ClearSegment (fun _ => 0) x y ρ (rayTol N K * ρ)) (hml : ml.Is lam) (hlo : 1 / 2 ^ 60 ≤ lam)
    (hhi : lam ≤ 2 ^ 60) (hoff : OffLimit N lam ρ x y) :
    ∃ ray res, Casts origin p m.bounds m.resolution ml ray res ∧
      (∀ w, res = some (localCell m w) ↔ Holds ρ w y ∧ ¬ Blocked lam ρ x y 1) ∧
      (∀ w, localCell m w ∈ ray → ∃ t, InsideAt ρ x y t w ∧ ¬ Blocked lam ρ x y t) ∧
      ∀ w t, InsideAt ρ x y t w → ¬ Blocked lam ρ x y t →
        localCell m w ∈ ray ∨ Holds ρ w y ∧ ¬ Blocked lam ρ x y 1 := by
  have hpos := hP.res.pos
  have htol0 : 0 ≤ rayTol N K * ρ := mul_nonneg rayTol_nonneg hpos.le
  have hδ := clear_tol (by omega) hpos hcl
  obtain ⟨we, hwe⟩ := exists_cell hpos y
  obtain ⟨wo, hwo⟩ := exists_cell hpos x
  have hin := clear_end_inside hpos rayTol_nonneg hcl hwe
  have hin' := clear_end_inside hpos rayTol_nonneg (clear_swap hcl) hwo
  obtain ⟨q, h1, hrr, hK⟩ := aims_range hP hc h
  have e : cellFromPoint p m.bounds.min m.resolution = localCell m we := by
    rw [local_eq hP]
    funext i
    exact cell_of_inside hP h.N_lo h.N_hi hc (h.point i) (h.point_near i) (rayTol_lt h.N_lo) (hin i)
  have eo : cellFromPoint origin m.bounds.min m.resolution = localCell m wo := by
    rw [local_eq hP]
    funext i
    exact cell_of_inside hP h.N_lo h.N_hi hc (h.sensor i) (h.sensor_near i) (rayTol_lt h.N_lo) (hin' i)
  have hτ : (5 * (2 * (N : ℚ) + 1) + (K + 2 : ℕ) ^ 2 + 10 * (K + 2 : ℕ) + 23) / 2 ^ 24
      + (3 * N + 2) / 2 ^ 24 ≤ rayTol N K := by
    rw [rayTol, ← add_div]
    refine div_le_div_of_nonneg_right ?_ (by norm_num)
    push_cast
    nlinarith
  have hcl' := clear_mono (mul_le_mul_of_nonneg_right hτ hpos.le) hcl
  have hclm := clear_shift h1 hpos hcl'
  have htouch := fun w : Cell D => touches_shift h1 hpos (by positivity) (by positivity) hcl' (w := w)
  have hinj : ∀ {a b : Cell D}, localCell m a = localCell m b → a = b := by
    intro a b hab
    rw [local_eq hP, local_eq hP] at hab
    funext i
    have h2 : a i - cb.min i = b i - cb.min i := congrFun hab i
    omega
  have hsurj : ∀ z : Cell D, ∃ w, z = localCell m w := fun z =>
    ⟨fun i => z i + cb.min i, by rw [local_eq hP]; funext i; ring⟩
  have hbet : ∀ {a b : Cell D}, Between (cellFromPoint origin m.bounds.min m.resolution) (localCell m a) (localCell m b) →
      Between wo a b := by
    intro a b hab i
    have := hab i
    rw [eo] at this
    simp only [local_eq hP] at this
    omega
  have hendu : ∀ {w}, Holds ρ w y → w = we := fun {w} hw => clear_end hcl hpos
    (fun i => by rw [zero_add]; linarith [hw i]) fun i => by rw [zero_add]; linarith [hwe i]
  have hstartu : ∀ {w}, Holds ρ w x → w = wo := fun {w} hw => clear_start hcl hpos
    (fun i => by rw [zero_add]; linarith [hw i]) fun i => by rw [zero_add]; linarith [hwo i]
  -- the ray without a limit
  obtain ⟨cells, r1, -, -, r2⟩ := C84_same_as_exact hD hrr hK hclm (ml := lit 0) (by
    intro h0; rw [show Scalar.lt (lit 0) (lit 0 : F32) = false by decide +kernel] at h0; cases h0)
    (bX := ⟨exact fun i => (q i : ℝ), exact fun i => (q i : ℝ)⟩) rfl (mlX := lit 0) (by simp [Scalar.lt, lit])
  rw [e] at r1 r2
  have hlam : 0 < lam := lt_of_lt_of_le (by norm_num) hlo
  have hlt : Scalar.lt (lit 0) ml = true := by
    have : Fp.lt (Fp.lit 0) ml = decide (0 < lam) := Fp.Is.lt F32.zero_is hml
    rw [show Scalar.lt (lit 0) ml = decide (0 < lam) from this, decide_eq_true_iff]
    exact hlam
  obtain ⟨p1, p2, -⟩ := ray_path r1
  have hmem : ∀ w, localCell m w ∈ cells ++ [localCell m we] ↔ ∃ t, InsideAt ρ x y t w := by
    intro w
    rw [r2, local_eq hP, htouch]
    constructor
    · rintro ⟨t, t0, t1, ht⟩
      obtain ⟨s, s0, s1, hs⟩ := hcl w ⟨t, t0, t1, fun i => by linarith [ht i]⟩
      refine ⟨s, s0, s1, fun i => ?_⟩
      have := hs i
      unfold lineAt at this
      rw [zero_add] at this
      linarith
    · rintro ⟨t, t0, t1, ht⟩
      exact ⟨t, t0, t1, fun i => by
        have := ht i
        unfold lineAt
        rw [zero_add]
        linarith⟩
  have hcell : ∀ w, localCell m w ∈ cells ↔ w ≠ we ∧ ∃ t, InsideAt ρ x y t w := by
    intro w
    rw [← hmem]
    constructor
    · intro hw
      refine ⟨?_, List.mem_append_left _ hw⟩
      rintro rfl
      exact (List.nodup_append.mp p2).2.2 _ hw _ (List.mem_singleton_self _) rfl
    · rintro ⟨hne, hw⟩
      rcases List.mem_append.mp hw with hw | hw
      · exact hw
      · exact absurd (hinj (List.mem_singleton.mp hw)) hne
  -- the limit
  have hN0 : (0 : ℚ) ≤ N := by positivity
  have hshift : ∀ u : Cell D, DistLe (fun i => (u i : ℚ) * ρ) (centre q ρ (localCell m u))
      (2 * ((3 * N + 2) / 2 ^ 24 * ρ)) := fun u => distLe_of_coords (by omega) (by positivity) fun i => by
    rw [local_eq hP]
    unfold centre
    rw [show q i + ((u i - cb.min i : ℤ) : ℚ) * ρ - u i * ρ = q i - cb.min i * ρ by push_cast; ring]
    exact h1 i
  have htolEq : rangeTol (2 * (N : ℚ) + 1 + 1) ρ + 2 * ((3 * N + 2) / 2 ^ 24 * ρ) = limitTol N ρ := by
    unfold rangeTol limitTol; ring
  have hM21 : (2 * (N : ℚ) + 1 + 1) ≤ 2 ^ 21 := by
    have : (N : ℚ) ≤ 262144 := by exact_mod_cast h.N_hi
    norm_num; linarith
  have hbey : ∀ u, localCell m u ∈ cells → u ≠ wo →
      (Beyond origin m.bounds m.resolution ml (localCell m u) ↔ lam ^ 2 < distSq x fun i => u i * ρ) := by
    intro u hu huo
    obtain ⟨hue, t, ht⟩ := (hcell u).mp hu
    have hbtw := C19_in_box r1 _ hu
    have hz := fun i => between_small hrr (z := localCell m u) (by rw [e]; exact hbtw) i
    rcases hoff u t ht (fun hh => huo (hstartu hh)) (fun hh => hue (hendu hh)) with hn | hf
    · constructor
      · intro hb
        refine absurd hb (C68_near hD hrr (N := 2 * N + 1 + 1) (by linarith) hM21 hz hml hlo hhi
          (hn.trans (hshift u)) ?_)
        linarith
      · intro hb
        exfalso
        have h0 : lam * (1 - 1 / 2 ^ 20) - limitTol N ρ ≤ lam := by
          have : 0 ≤ limitTol N ρ := by unfold limitTol; positivity
          linarith
        have := hn.2.trans (pow_le_pow_left₀ hn.1 h0 2)
        linarith
    · constructor
      · intro _
        by_contra hb
        push Not at hb
        apply hf
        have h0 : lam ≤ lam * (1 + 1 / 2 ^ 20) + limitTol N ρ := by
          have : 0 ≤ limitTol N ρ := by unfold limitTol; positivity
          linarith
        exact ⟨hlam.le.trans h0, hb.trans (pow_le_pow_left₀ hlam.le h0 2)⟩
      · intro _
        by_contra hb
        apply hf
        have := (C68_far hD hrr (N := 2 * N + 1 + 1) (by linarith) hM21 hz hml hlo hhi hb).trans (hshift u).symm
        rw [add_assoc, htolEq] at this
        exact this
  -- blocked, in terms of the ray
  have hblock : ∀ t, Blocked lam ρ x y t ↔ ∃ u s, s ≤ t ∧ InsideAt ρ x y s u ∧ localCell m u ∈ cells ∧ u ≠ wo ∧
      Beyond origin m.bounds m.resolution ml (localCell m u) := by
    intro t
    constructor
    · rintro ⟨u, s, k1, k2, k3, k4, k5⟩
      have hu : localCell m u ∈ cells := (hcell u).mpr ⟨fun hh => k4 (hh ▸ hwe), s, k2⟩
      have huo : u ≠ wo := fun hh => k3 (hh ▸ hwo)
      exact ⟨u, s, k1, k2, hu, huo, (hbey u hu huo).mpr k5⟩
    · rintro ⟨u, s, k1, k2, hu, huo, hb⟩
      exact ⟨u, s, k1, k2, fun hh => huo (hstartu hh), fun hh => ((hcell u).mp hu).1 (hendu hh), (hbey u hu huo).mp hb⟩
  obtain ⟨ray, res, c1, c2, c3, c4, c5⟩ := C56_limit_cuts (by decide +kernel) hlt r1
  -- the start comes first
  have htail : ∀ u, u ≠ wo → localCell m u ∈ ray → localCell m u ∈ ray.tail := by
    intro u hu hm'
    have hne : ray ≠ [] := List.ne_nil_of_mem hm'
    have hh := (C17_connected c1 hne).1
    rw [← List.cons_head_tail hne] at hm'
    rcases List.mem_cons.mp hm' with h2 | h2
    · rw [hh, eo] at h2
      exact absurd (hinj h2) hu
    · exact h2
  have hray : ∀ u, u ≠ wo → localCell m u ∈ ray → ¬ Beyond origin m.bounds m.resolution ml (localCell m u) :=
    fun u hu hm' => c3 _ (htail u hu hm')
  have hcut : ∀ {z rest}, cells = ray ++ z :: rest → Beyond origin m.bounds m.resolution ml z →
      ∃ u, z = localCell m u ∧ u ≠ wo ∧ localCell m u ∈ cells := by
    intro z rest hz hb
    obtain ⟨u, rfl⟩ := hsurj z
    have hmz : localCell m u ∈ cells := by rw [hz]; simp
    refine ⟨u, rfl, ?_, hmz⟩
    rintro rfl
    have hne := c5 (List.ne_nil_of_mem hmz)
    have hh := (C17_connected c1 hne).1
    rw [eo] at hh
    have hm1 : localCell m u ∈ ray := hh ▸ List.head_mem hne
    have hnd : cells.Nodup := (List.nodup_append.mp p2).1
    rw [hz] at hnd
    exact (List.nodup_append.mp hnd).2.2 _ hm1 _ List.mem_cons_self rfl
  have hpw : cells.Pairwise fun a b => Between (cellFromPoint origin m.bounds.min m.resolution) b a :=
    (List.pairwise_append.mp p1).1
  have hnd : cells.Nodup := (List.nodup_append.mp p2).1
  have hres : ∀ w, res = some (localCell m w) ↔ Holds ρ w y ∧ ¬ Blocked lam ρ x y 1 := by
    intro w
    rcases c4 with ⟨rfl, rfl⟩ | ⟨rfl, z, rest, k1, k2⟩
    · rw [Option.some_inj]
      constructor
      · intro hw
        obtain rfl := hinj hw
        refine ⟨hwe, fun hb => ?_⟩
        obtain ⟨u, s, -, -, hu, huo, hbu⟩ := (hblock 1).mp hb
        exact hray u huo hu hbu
      · intro hw
        rw [hendu hw.1]
    · obtain ⟨u, rfl, huo, hu⟩ := hcut k1 k2
      obtain ⟨-, s, hs⟩ := (hcell u).mp hu
      exact ⟨fun hh => by simp at hh, fun hh => absurd ((hblock 1).mpr ⟨u, s, hs.2.1, hs, hu, huo, k2⟩) hh.2⟩
  have hsub : ∀ z ∈ ray, z ∈ cells := fun z hz => c2.subset hz
  refine ⟨ray, res, c1, hres, fun w hw => ?_, fun w t ht hb => ?_⟩
  · obtain ⟨-, t, ht⟩ := (hcell w).mp (hsub _ hw)
    refine ⟨t, ht, fun hb => ?_⟩
    obtain ⟨u, s, k1, k2, hu, huo, hbu⟩ := (hblock t).mp hb
    refine hray u huo ?_ hbu
    by_contra hnr
    obtain ⟨rest, rfl⟩ := c2
    have hur : localCell m u ∈ rest := (List.mem_append.mp hu).resolve_left hnr
    have hb2 := hbet ((List.pairwise_append.mp hpw).2.2 _ hw _ hur)
    have hne : u ≠ w := by rintro rfl; exact hnr hw
    exact absurd (inside_order hpos hwo hb2 hne k2 ht) (not_lt.mpr k1)
  · by_cases hwe' : w = we
    · refine .inr ⟨hwe' ▸ hwe, fun hb1 => hb ?_⟩
      obtain ⟨u, s, k1, k2, hu, huo, hbu⟩ := (hblock 1).mp hb1
      have hne : w ≠ u := by rintro rfl; exact ((hcell w).mp hu).1 hwe'
      have hb2 : Between wo w u := by rw [hwe']; exact hbet (C19_in_box r1 _ hu)
      exact (hblock t).mpr ⟨u, s, (inside_order hpos hwo hb2 hne ht k2).le, k2, hu, huo, hbu⟩
    · left
      have hwc : localCell m w ∈ cells := (hcell w).mpr ⟨hwe', t, ht⟩
      by_contra hnr
      rcases c4 with ⟨-, rfl⟩ | ⟨-, z, rest, k1, k2⟩
      · exact hnr hwc
      obtain ⟨u, rfl, huo, hu⟩ := hcut k1 k2
      apply hb
      rw [k1] at hwc hpw
      rcases List.mem_cons.mp ((List.mem_append.mp hwc).resolve_left hnr) with hh | hh
      · obtain rfl := hinj hh
        exact (hblock t).mpr ⟨w, t, le_rfl, ht, hu, huo, k2⟩
      · have hb2 := hbet ((List.pairwise_cons.mp (List.pairwise_append.mp hpw).2.1).1 _ hh)
        obtain ⟨-, s, hs⟩ := (hcell u).mp hu
        have hne : w ≠ u := by
          rintro rfl
          rw [k1] at hnd
          exact (List.nodup_cons.mp (List.nodup_append.mp hnd).2.1).1 hh
        exact (hblock t).mpr ⟨u, s, (inside_order hpos hwo hb2 hne ht hs).le, hs, hu, huo, k2⟩

/-- C104, for one scan: what the scan, computed in f32 with a range limit, tells about a world cell is what geometry
tells about it. -/
theorem C104_scan (hD : D = 2 ∨ D = 3) (hP : Placed m cb ρ) (hc : ∀ i, |cb.min i| ≤ N)
    (h : CutRays N K ρ ml lam origin cloud x pts) (w : Cell D) :
    seen origin cloud m.bounds m.resolution ml (localCell m w) = geoUpTo lam ρ x pts w := by
  have key : ∀ p y, y ∈ pts → Aims N K ρ origin p x y → _ := fun p y hy ha =>
    cut_ray hD hP hc ha (h.clear y hy) h.limit h.limit_lo h.limit_hi (h.off_limit y hy)
  have hit : (∃ p ∈ cloud.points, ∃ ray, Casts origin p m.bounds m.resolution ml ray (some (localCell m w))) ↔
      ∃ y ∈ pts, Holds ρ w y ∧ ¬ Blocked lam ρ x y 1 := by
    constructor
    · rintro ⟨p, hp, ray, hr⟩
      obtain ⟨y, hy, ha⟩ := forall₂_left h.numbers hp
      obtain ⟨ray', res, k1, k2, -, -⟩ := key p y hy ha
      exact ⟨y, hy, (k2 w).mp (casts_unique hr k1).2.symm⟩
    · rintro ⟨y, hy, hw⟩
      obtain ⟨p, hp, ha⟩ := forall₂_left h.numbers.flip hy
      obtain ⟨ray', res, k1, k2, -, -⟩ := key p y hy ha
      exact ⟨p, hp, ray', by rw [(k2 w).mpr hw] at k1; exact k1⟩
  unfold seen geoUpTo
  refine told_congr hit fun hh => ⟨?_, ?_⟩
  · rintro ⟨p, hp, ray, e, hr, hmem⟩
    obtain ⟨y, hy, ha⟩ := forall₂_left h.numbers hp
    obtain ⟨ray', res, k1, -, k3, -⟩ := key p y hy ha
    refine ⟨y, hy, k3 w ?_⟩
    rw [← (casts_unique hr k1).1]
    exact hmem
  · rintro ⟨y, hy, t, ht, hb⟩
    obtain ⟨p, hp, ha⟩ := forall₂_left h.numbers.flip hy
    obtain ⟨ray', res, k1, -, -, k4⟩ := key p y hy ha
    rcases k4 w t ht hb with h1 | h1
    · exact ⟨p, hp, ray', _, k1, h1⟩
    · exact absurd ⟨y, hy, h1⟩ hh

/-- C104: if segments keep clear of the corners and no way is blocked, then what geometry tells is what it tells
without a limit (C88). -/
theorem C104_unblocked {tol : ℚ} (htol : 0 ≤ tol) (hcl : ∀ y ∈ pts, ClearSegment (fun _ => 0) x y ρ tol)
    (hb : ∀ y ∈ pts, ¬ Blocked lam ρ x y 1) (w : Cell D) : geoUpTo lam ρ x pts w = geoSeen ρ x pts w := by
  unfold geoUpTo geoSeen
  refine told_congr ⟨?_, ?_⟩ fun _ => ⟨?_, ?_⟩
  · rintro ⟨y, hy, h1, -⟩
    exact ⟨y, hy, h1⟩
  · rintro ⟨y, hy, h1⟩
    exact ⟨y, hy, h1, hb y hy⟩
  · rintro ⟨y, hy, t, ⟨t0, t1, ht⟩, -⟩
    exact ⟨y, hy, t, t0, t1, fun i => (ht i).le⟩
  · rintro ⟨y, hy, t, t0, t1, ht⟩
    obtain ⟨s, s0, s1, hs⟩ := hcl y hy w ⟨t, t0, t1, fun i => by
      have := ht i
      unfold lineAt
      rw [zero_add]
      linarith⟩
    refine ⟨y, hy, s, ⟨s0, s1, fun i => ?_⟩, ?_⟩
    · have := hs i
      unfold lineAt at this
      rw [zero_add] at this
      linarith
    · rintro ⟨u, r, k1, k2⟩
      exact hb y hy ⟨u, r, k1.trans s1, k2⟩

/-! ## Maps and the visualizer -/

variable {nm : LidarNoiseModel F32} {m₀ : GridMap D F32 F32}

/-- C104, for recordings played into a map: every world cell has the value that the scans, by geometry and the range
limit alone, make of zero. A cell that is not stored counts as zero. -/
theorem C104_playback {M : ℕ} (hD : D = 2 ∨ D = 3) (h0 : Placed m₀ CellBounds.empty ρ) (hM1 : 1 ≤ M)
    (hN : N = M + m₀.tileSize + 1) (hN18 : N ≤ 2 ^ 18) {hist} {scans : List ((Fin D → ℚ) × List (Fin D → ℚ))}
    (hcl : ∀ e ∈ hist, WithinCells M ρ e.2.2)
    (hs : List.Forall₂ (fun e s => CutRays N K ρ nm.maxRange lam e.2.1 e.2.2 s.1 s.2) hist scans)
    (h : Playback nm m₀ hist m) :
    ∃ cb, Placed m cb ρ ∧ ∀ w, Before m cb w (cutFold nm lam ρ scans w (Fp.lit 0)) := by
  obtain ⟨cb, p1, p2⟩ := tells_playback hD h0 hM1 hN hN18 (tells := scans.map fun s => geoUpTo lam ρ s.1 s.2) hcl
    (List.forall₂_map_right_iff.mpr (hs.imp fun _ _ h1 _ _ hP hc => C104_scan hD hP hc h1)) h
  refine ⟨cb, p1, fun w => ?_⟩
  have := p2 w
  rw [List.foldl_map] at this
  exact this

section
open Viz
variable {n : ℕ} {recs : ℕ → Point D F32 × PointCloud D F32} {ord : ℕ → List (Verif.Cell D) → List (Verif.Cell D)}
  {scans : ℕ → (Fin D → ℚ) × List (Fin D → ℚ)}

/-- C104, for the visualizer: at every moment of every run from a map without cells, `k` scans have been played, and
every world cell has the value that they, by geometry and the range limit alone, make of zero. -/
theorem C104_visualizer {M : ℕ} (hD : D = 2 ∨ D = 3) (hn : 0 < n) (h0 : Placed m₀ CellBounds.empty ρ)
    (ho : ∀ r, IsOrder (ord r)) (hM1 : 1 ≤ M) (hN : N = M + m₀.tileSize + 1) (hN18 : N ≤ 2 ^ 18)
    (hcl : ∀ r < n, WithinCells M ρ (recs r).2)
    (hs : ∀ r < n, CutRays N K ρ nm.maxRange lam (recs r).1 (recs r).2 (scans r).1 (scans r).2)
    {s : State (GridMap D F32 F32) (Verif.Cell D) (Point D F32)} (hr : Reach (occOps nm recs ord) n m₀ s) :
    ∃ k cb, k ≤ s.workers.length ∧ s.workers.length ≤ k + 1 ∧
      (s.main = .clearFlag ∨ s.main = .spawn → k = s.workers.length) ∧ Placed s.map cb ρ ∧
      ∀ w, Before s.map cb w (cutFold nm lam ρ (cyclic scans n k) w (Fp.lit 0)) := by
  obtain ⟨k, cb, p1, p2, p3, p4, p5⟩ := tells_visualizer hD hn h0 ho hM1 hN hN18 hcl
    (tells := fun r => geoUpTo lam ρ (scans r).1 (scans r).2) (fun r hr _ _ hP hc => C104_scan hD hP hc (hs r hr)) hr
  refine ⟨k, cb, p1, p2, p3, p4, fun w => ?_⟩
  have := p5 w
  rw [cyclic_map (fun s : (Fin D → ℚ) × List (Fin D → ℚ) => geoUpTo lam ρ s.1 s.2), List.foldl_map] at this
  exact this

/-- C104, on the screen: if no recording reaches below the tiles that the first one reaches, then whenever the renderer
has processed a batch, exactly those cells are drawn whose value all the scans started so far, by geometry and the range
limit alone, have taken from zero to above the threshold, each at a point inside it. -/
theorem C104_screen {M : ℕ} (hD : D = 2 ∨ D = 3) (hn : 0 < n) (h0 : Placed m₀ CellBounds.empty ρ)
    (ht0 : m₀.changedCells = []) (hth : FLe (Fp.lit 0) nm.threshold)
    (ho : ∀ r, IsOrder (ord r)) (hM1 : 1 ≤ M) (hN : N = M + m₀.tileSize + 1) (hN18 : N ≤ 2 ^ 18)
    (hcl : ∀ r, WithinCells M ρ (recs r).2)
    (hs : ∀ r < n, CutRays N K ρ nm.maxRange lam (recs r).1 (recs r).2 (scans r).1 (scans r).2) {k : Fin D → ℤ}
    (hk : LowestFirst m₀.tileSize ρ recs k)
    {s : State (GridMap D F32 F32) (Verif.Cell D) (Point D F32)} (hr : Reach (occOps nm recs ord) n m₀ s)
    (hm : s.main = .clearFlag ∨ s.main = .spawn) (w : Verif.Cell D) (hw : MachineCell (localCell s.map w)) :
    (¬ nm.threshold.lt (cutFold nm lam ρ (cyclic scans n s.workers.length) w (Fp.lit 0)) = true →
      s.tracked (localCell s.map w) = none) ∧
    (nm.threshold.lt (cutFold nm lam ρ (cyclic scans n s.workers.length) w (Fp.lit 0)) = true →
      ∃ p, s.tracked (localCell s.map w) = some p ∧ ∀ i, ∃ z, (p i).Is z ∧ |z - w i * ρ| < ρ / 2) := by
  refine tells_screen hD hn h0 ht0 hth ho hM1 hN hN18 hcl (tells := fun r => geoUpTo lam ρ (scans r).1 (scans r).2)
    (fun r hr _ _ hP hc => C104_scan hD hP hc (hs r hr)) hk hr hm w hw ?_
  rw [cyclic_map (fun s : (Fin D → ℚ) × List (Fin D → ℚ) => geoUpTo lam ρ s.1 s.2), List.foldl_map]
  rfl

end

/-! ## Examples -/

/-- The sensor at (1/4, 1/4) sees a point at (9/4, 1) and one at (13/4, 1/4). -/
def farScan : Point 2 F32 × PointCloud 2 F32 :=
  (![Fp.lit (1 / 4), Fp.lit (1 / 4)],
    PointCloud.fromPoints [![Fp.lit (9 / 4), Fp.lit 1], ![Fp.lit (13 / 4), Fp.lit (1 / 4)]])

/-- `smallNM` with the range limit 3/2. -/
def nearNM : LidarNoiseModel F32 := { smallNM with maxRange := Fp.lit (3 / 2) }

/-- The way to (9/4, 1) leads through four cells. -/
lemma inside_first {t : ℚ} {u : Cell 2} (h : InsideAt 1 (![1 / 4, 1 / 4] : Fin 2 → ℚ) ![9 / 4, 1] t u) :
    u = ![0, 0] ∨ u = ![1, 0] ∨ u = ![1, 1] ∨ u = ![2, 1] := by
  obtain ⟨t0, t1, ht⟩ := h
  have hx := abs_lt.mp (ht 0)
  have hy := abs_lt.mp (ht 1)
  simp only [Matrix.cons_val_zero, Matrix.cons_val_one] at hx hy
  have a1 : -1 < u 0 := by
    have : (-1 : ℚ) < u 0 := by linarith
    exact_mod_cast this
  have a2 : u 0 < 3 := by
    have : (u 0 : ℚ) < 3 := by linarith
    exact_mod_cast this
  have a3 : -1 < u 1 := by
    have : (-1 : ℚ) < u 1 := by linarith
    exact_mod_cast this
  have a4 : u 1 < 2 := by
    have : (u 1 : ℚ) < 2 := by linarith
    exact_mod_cast this
  have eq2 : ∀ a b : ℤ, u 0 = a → u 1 = b → u = ![a, b] := by
    intro a b ha hb
    funext i
    fin_cases i
    · exact ha
    · exact hb
  have b1 : u 0 = 0 ∨ u 0 = 1 ∨ u 0 = 2 := by omega
  have b2 : u 1 = 0 ∨ u 1 = 1 := by omega
  rcases b1 with b1 | b1 | b1 <;> rcases b2 with b2 | b2 <;> rw [eq2 _ _ b1 b2] <;> rw [b1] at hx <;> rw [b2] at hy <;>
    push_cast at hx hy <;> first | (exfalso; linarith) | simp

/-- The way to (13/4, 1/4) leads through four cells in a row. -/
lemma inside_second {t : ℚ} {u : Cell 2} (h : InsideAt 1 (![1 / 4, 1 / 4] : Fin 2 → ℚ) ![13 / 4, 1 / 4] t u) :
    u = ![0, 0] ∨ u = ![1, 0] ∨ u = ![2, 0] ∨ u = ![3, 0] := by
  obtain ⟨t0, t1, ht⟩ := h
  have hx := abs_lt.mp (ht 0)
  have hy := abs_lt.mp (ht 1)
  simp only [Matrix.cons_val_zero, Matrix.cons_val_one] at hx hy
  have a1 : -1 < u 0 := by
    have : (-1 : ℚ) < u 0 := by linarith
    exact_mod_cast this
  have a2 : u 0 < 4 := by
    have : (u 0 : ℚ) < 4 := by linarith
    exact_mod_cast this
  have a3 : -1 < u 1 := by
    have : (-1 : ℚ) < u 1 := by linarith
    exact_mod_cast this
  have a4 : u 1 < 1 := by
    have : (u 1 : ℚ) < 1 := by linarith
    exact_mod_cast this
  have eq2 : ∀ a b : ℤ, u 0 = a → u 1 = b → u = ![a, b] := by
    intro a b ha hb
    funext i
    fin_cases i
    · exact ha
    · exact hb
  have b1 : u 0 = 0 ∨ u 0 = 1 ∨ u 0 = 2 ∨ u 0 = 3 := by omega
  have b2 : u 1 = 0 := by omega
  rcases b1 with b1 | b1 | b1 | b1 <;> rw [eq2 _ _ b1 b2] <;> simp

lemma row_clear {tol : ℚ} (htol : tol ≤ 1 / 100) :
    ClearSegment (fun _ => 0) (![1 / 4, 1 / 4] : Fin 2 → ℚ) ![13 / 4, 1 / 4] 1 tol := by
  rintro w ⟨t, t0, t1, ht⟩
  have hx := abs_le.mp (ht 0)
  have hy := abs_le.mp (ht 1)
  simp only [lineAt, Matrix.cons_val_zero, Matrix.cons_val_one] at hx hy
  have a1 : -1 < w 0 := by
    have : (-1 : ℚ) < w 0 := by linarith
    exact_mod_cast this
  have a2 : w 0 < 4 := by
    have : (w 0 : ℚ) < 4 := by linarith
    exact_mod_cast this
  have a3 : -1 < w 1 := by
    have : (-1 : ℚ) < w 1 := by linarith
    exact_mod_cast this
  have a4 : w 1 < 1 := by
    have : (w 1 : ℚ) < 1 := by linarith
    exact_mod_cast this
  have b2 : w 1 = 0 := by omega
  have key : ∀ s : ℚ, 0 ≤ s → s ≤ 1 → |1 / 4 + s * 3 - w 0| < 1 / 2 - tol →
      Enters (fun _ => 0) (![1 / 4, 1 / 4] : Fin 2 → ℚ) ![13 / 4, 1 / 4] 1 tol w := by
    intro s s0 s1 hs1
    refine ⟨s, s0, s1, fun i => ?_⟩
    fin_cases i
    · simp only [lineAt, Fin.zero_eta, Matrix.cons_val_zero]
      convert hs1 using 2; ring
    · simp only [lineAt, Fin.mk_one, Matrix.cons_val_one, Matrix.cons_val_fin_one, b2]
      rw [abs_lt]
      push_cast
      constructor <;> linarith
  have b1 : w 0 = 0 ∨ w 0 = 1 ∨ w 0 = 2 ∨ w 0 = 3 := by omega
  rcases b1 with b1 | b1 | b1 | b1 <;> rw [b1] at key <;> push_cast at key
  · exact key 0 le_rfl zero_le_one (by rw [abs_lt]; constructor <;> linarith)
  · exact key (1 / 4) (by norm_num) (by norm_num) (by rw [abs_lt]; constructor <;> linarith)
  · exact key (7 / 12) (by norm_num) (by norm_num) (by rw [abs_lt]; constructor <;> linarith)
  · exact key 1 (by norm_num) (by norm_num) (by rw [abs_lt]; constructor <;> linarith)

lemma far_cut : CutRays 7 3 1 nearNM.maxRange (3 / 2) farScan.1 farScan.2 ![1 / 4, 1 / 4]
    [![9 / 4, 1], ![13 / 4, 1 / 4]] := by
  refine ⟨?_, ?_, by decide +kernel, by norm_num, by norm_num, ?_⟩
  · rw [farScan, C13_points_fromPoints]
    refine .cons ⟨by norm_num, by norm_num, by norm_num, by norm_num, by decide +kernel, ?_, by decide +kernel, ?_, ?_, ?_⟩
      (.cons ⟨by norm_num, by norm_num, by norm_num, by norm_num, by decide +kernel, ?_, by decide +kernel, ?_, ?_, ?_⟩ .nil)
    all_goals (intro i; fin_cases i <;> norm_num [abs_of_pos])
  · intro y hy
    rcases List.mem_cons.mp hy with rfl | hy
    · exact clear_example (by norm_num [rayTol]) (by norm_num [rayTol])
    · rw [List.mem_singleton] at hy
      subst hy
      exact row_clear (by norm_num [rayTol])
  · intro y hy
    rcases List.mem_cons.mp hy with rfl | hy
    · intro u t hu h1 h2
      rcases inside_first hu with rfl | rfl | rfl | rfl
      · exact absurd (by unfold Holds; decide +kernel) h1
      · exact .inl (by unfold DistLe limitTol; decide +kernel)
      · exact .inl (by unfold DistLe limitTol; decide +kernel)
      · exact absurd (by unfold Holds; decide +kernel) h2
    · rw [List.mem_singleton] at hy
      subst hy
      intro u t hu h1 h2
      rcases inside_second hu with rfl | rfl | rfl | rfl
      · exact absurd (by unfold Holds; decide +kernel) h1
      · exact .inl (by unfold DistLe limitTol; decide +kernel)
      · exact .inr (by unfold DistLe limitTol; decide +kernel)
      · exact absurd (by unfold Holds; decide +kernel) h2

lemma far_within : WithinCells 4 1 farScan.2 := by
  intro p hp
  rw [farScan, C13_points_fromPoints] at hp
  rcases List.mem_cons.mp hp with rfl | hp
  · intro i
    refine ⟨![9 / 4, 1] i, ?_, ?_⟩ <;> revert i <;> decide +kernel
  · rw [List.mem_singleton] at hp
    subst hp
    intro i
    refine ⟨![13 / 4, 1 / 4] i, ?_, ?_⟩ <;> revert i <;> decide +kernel

lemma first_not_blocked (t : ℚ) : ¬ Blocked (3 / 2) 1 (![1 / 4, 1 / 4] : Fin 2 → ℚ) ![9 / 4, 1] t := by
  rintro ⟨u, s, -, hu, h1, h2, h3⟩
  rcases inside_first hu with rfl | rfl | rfl | rfl
  · exact h1 (by unfold Holds; decide +kernel)
  · exact absurd h3 (by decide +kernel)
  · exact absurd h3 (by decide +kernel)
  · exact h2 (by unfold Holds; decide +kernel)

lemma second_blocked : Blocked (3 / 2) 1 (![1 / 4, 1 / 4] : Fin 2 → ℚ) ![13 / 4, 1 / 4] 1 :=
  ⟨![2, 0], 7 / 12, by norm_num, ⟨by norm_num, by norm_num, by decide +kernel⟩, by unfold Holds; decide +kernel,
    by unfold Holds; decide +kernel, by decide +kernel⟩

/-- The first point is reported: its cell is hit, though its centre is beyond the limit. The way to the second is
followed up to the limit: the cell (1, 0) is passed, the cell (2, 0) is not, and the cell of the point is not hit. -/
lemma far_told : geoUpTo (3 / 2) 1 ![1 / 4, 1 / 4] [![9 / 4, 1], ![13 / 4, 1 / 4]] ![2, 1] = .hit ∧
    geoUpTo (3 / 2) 1 ![1 / 4, 1 / 4] [![9 / 4, 1], ![13 / 4, 1 / 4]] ![1, 0] = .miss ∧
    geoUpTo (3 / 2) 1 ![1 / 4, 1 / 4] [![9 / 4, 1], ![13 / 4, 1 / 4]] ![2, 0] = .nothing ∧
    geoUpTo (3 / 2) 1 ![1 / 4, 1 / 4] [![9 / 4, 1], ![13 / 4, 1 / 4]] ![3, 0] = .nothing := by
  have nohit : ∀ w : Cell 2, ¬ Holds 1 w (![9 / 4, 1] : Fin 2 → ℚ) →
      ¬ ∃ y ∈ [(![9 / 4, 1] : Fin 2 → ℚ), ![13 / 4, 1 / 4]], Holds 1 w y ∧ ¬ Blocked (3 / 2) 1 ![1 / 4, 1 / 4] y 1 := by
    rintro w hw ⟨y, hy, h1, h2⟩
    rcases List.mem_cons.mp hy with rfl | hy
    · exact hw h1
    · rw [List.mem_singleton] at hy
      subst hy
      exact h2 second_blocked
  refine ⟨?_, ?_, ?_, ?_⟩ <;> unfold geoUpTo
  · exact if_pos ⟨_, List.mem_cons_self, by unfold Holds; decide +kernel, first_not_blocked 1⟩
  · rw [if_neg (nohit _ (by unfold Holds; decide +kernel))]
    exact if_pos ⟨_, List.mem_cons_self, 1 / 4, ⟨by norm_num, by norm_num, by decide +kernel⟩, first_not_blocked _⟩
  · rw [if_neg (nohit _ (by unfold Holds; decide +kernel)), if_neg]
    rintro ⟨y, hy, t, h1, h2⟩
    rcases List.mem_cons.mp hy with rfl | hy
    · exact absurd (inside_first h1) (by decide)
    · rw [List.mem_singleton] at hy
      subst hy
      exact h2 ⟨_, t, le_rfl, h1, by unfold Holds; decide +kernel, by unfold Holds; decide +kernel, by decide +kernel⟩
  · rw [if_neg (nohit _ (by unfold Holds; decide +kernel)), if_neg]
    rintro ⟨y, hy, t, h1, h2⟩
    rcases List.mem_cons.mp hy with rfl | hy
    · exact absurd (inside_first h1) (by decide)
    · rw [List.mem_singleton] at hy
      subst hy
      refine h2 ⟨![2, 0], 7 / 12, ?_, ⟨by norm_num, by norm_num, by decide +kernel⟩, by unfold Holds; decide +kernel,
        by unfold Holds; decide +kernel, by decide +kernel⟩
      have := abs_lt.mp (h1.2.2 0)
      simp only [Matrix.cons_val_zero] at this
      push_cast at this
      linarith

lemma far_plays : ∃ m, Playback nearNM smallMap [(m, farScan)] m := by
  have h1 : (nearNM.integratePointCloud id 20 smallMap farScan.1 farScan.2).toOption.isSome = true := by decide +kernel
  cases e1 : nearNM.integratePointCloud id 20 smallMap farScan.1 farScan.2 with
  | error e => rw [e1] at h1; cases h1
  | ok m => exact ⟨m, .scan .start (fun l => List.Perm.refl l) ⟨20, e1⟩⟩

/-- Played into an empty map: the cell of the first point holds the value of a hit, that of the second zero. -/
example : ∃ (m : GridMap 2 F32 F32) (cb : CellBounds 2), Playback nearNM smallMap [(m, farScan)] m ∧ Placed m cb 1 ∧
    Before m cb ![2, 1] (Seen.apply nearNM (Fp.lit 0) .hit) ∧
    Before m cb ![1, 0] (Seen.apply nearNM (Fp.lit 0) .miss) ∧ Before m cb ![3, 0] (Fp.lit 0) := by
  obtain ⟨m, h⟩ := far_plays
  obtain ⟨cb, p1, p2⟩ := C104_playback (M := 4) (N := 7) (K := 3)
    (scans := [(![1 / 4, 1 / 4], [![9 / 4, 1], ![13 / 4, 1 / 4]])]) (.inl rfl) smallMap_placed (by norm_num) rfl
    (by norm_num) (by simpa using far_within) (.cons far_cut .nil) h
  obtain ⟨t1, t2, -, t3⟩ := far_told
  refine ⟨m, cb, h, p1, ?_, ?_, ?_⟩
  · have := p2 ![2, 1]
    rwa [cutFold, List.foldl_cons, List.foldl_nil, t1] at this
  · have := p2 ![1, 0]
    rwa [cutFold, List.foldl_cons, List.foldl_nil, t2] at this
  · have := p2 ![3, 0]
    rwa [cutFold, List.foldl_cons, List.foldl_nil, t3] at this

/-- The hypotheses of C104 for one scan, for the visualizer and for the screen; and for the first point alone, whose way
is not blocked. -/
example : Placed smallMap CellBounds.empty 1 ∧ (∀ i, |(CellBounds.empty : CellBounds 2).min i| ≤ (7 : ℕ)) ∧
    CutRays 7 3 1 nearNM.maxRange (3 / 2) farScan.1 farScan.2 ![1 / 4, 1 / 4] [![9 / 4, 1], ![13 / 4, 1 / 4]] ∧
    WithinCells 4 1 farScan.2 ∧ 7 = 4 + smallMap.tileSize + 1 ∧
    LowestFirst smallMap.tileSize 1 (fun _ => farScan) (fun _ => 0) ∧
    smallMap.changedCells = [] ∧ FLe (Fp.lit 0) nearNM.threshold ∧
    ClearSegment (fun _ => 0) (![1 / 4, 1 / 4] : Fin 2 → ℚ) ![9 / 4, 1] 1 (1 / 100) ∧
    ¬ Blocked (3 / 2) 1 (![1 / 4, 1 / 4] : Fin 2 → ℚ) ![9 / 4, 1] 1 := by
  refine ⟨smallMap_placed, by decide, far_cut, far_within, rfl, ⟨by simp, fun r p hp i => ?_, fun _ => .inl rfl⟩, rfl,
    by decide +kernel, clear_example (by norm_num) le_rfl, first_not_blocked 1⟩
  rw [farScan, C13_points_fromPoints] at hp
  rcases List.mem_cons.mp hp with rfl | hp
  · refine ⟨![9 / 4, 1] i, ?_, ?_⟩ <;> revert i <;> decide +kernel
  · rw [List.mem_singleton] at hp
    subst hp
    refine ⟨![13 / 4, 1 / 4] i, ?_, ?_⟩ <;> revert i <;> decide +kernel

end Verif.Props
