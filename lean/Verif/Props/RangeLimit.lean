import Verif.Lemmas.Distance
import Verif.Props.RayF32
import Verif.Props.Ray
import Verif.Props.CastRays

/-!
# C68: the range limit as a distance in the world
-/

namespace Verif.Props
open Spec Scalar

variable {D : ℕ} {M N ρ lam l : ℚ} {o e : Point D F32} {bounds : Bounds D F32} {r ml : F32} {x y q : Fin D → ℚ}
  {z : Cell D} {ray : List (Cell D)} {res : Option (Cell D)}

/-- The computed vector from the sensor to the centre of a cell. -/
lemma diff_is (h : RayRange M o e bounds.min r x y q ρ) (hMN : M ≤ N) (hN : N ≤ 2 ^ 21)
    (hz : ∀ i, |(z i : ℚ)| ≤ N) (j : Fin D) :
    ∃ d, (pointFromCell z bounds.min r j -. o j).Is d ∧
      |d - (centre q ρ z j - x j)| ≤ (5 * N + 4) / 2 ^ 24 * ρ ∧ |d| ≤ (2 * N + 2) * ρ := by
  have hp := h.pos
  have hM1 := h.M_lo
  obtain ⟨h1, h2⟩ := pointCoord_is (c := z j) (N := N) h.toRes (h.offset j) (hz j)
    ((h.offset_near j).trans (by gcongr)) (hN.trans (by norm_num)) (hM1.trans hMN)
  have h4 : |centre q ρ z j - x j| ≤ (N + M) * ρ := by
    have e1 : centre q ρ z j - x j = z j * ρ - (x j - q j) := by unfold centre; ring
    rw [e1]
    refine (abs_sub _ _).trans ?_
    rw [abs_mul, abs_of_pos hp]
    have e2 : |(z j : ℚ)| * ρ ≤ N * ρ := mul_le_mul_of_nonneg_right (hz j) hp.le
    linarith [h.origin_near j]
  have e0 : (z j : ℚ) * ρ + q j = centre q ρ z j := by unfold centre; ring
  rw [e0] at h2
  have e5 : (3 * N + 2) / 2 ^ 24 * ρ ≤ 1 * ρ := by
    refine mul_le_mul_of_nonneg_right ?_ hp.le
    norm_num at hN ⊢
    linarith
  have e6 : M * ρ ≤ N * ρ := mul_le_mul_of_nonneg_right hMN hp.le
  have h3 : |cellPoint (z j) (q j) ρ - x j| ≤ (2 * N + 1) * ρ := by
    have := abs_sub_le (cellPoint (z j) (q j) ρ) (centre q ρ z j) (x j)
    linarith
  have h5 := F32.err_res h.toRes.2.1 h3
  refine ⟨_, h1.sub (h.origin j) (F32.noOvf_res hp h.toRes.2.2 (by norm_num at hN ⊢; linarith)
      (by linarith) h3), ?_, ?_⟩
  · have e1 := abs_sub_le (b32.rnd (cellPoint (z j) (q j) ρ - x j)) (cellPoint (z j) (q j) ρ - x j)
      (centre q ρ z j - x j)
    rw [show cellPoint (z j) (q j) ρ - x j - (centre q ρ z j - x j) = cellPoint (z j) (q j) ρ - centre q ρ z j by
      ring] at e1
    have e7 : ((2 * N + 1) / 2 ^ 24 + 1 / 2 ^ 50) * ρ + (3 * N + 2) / 2 ^ 24 * ρ ≤ (5 * N + 4) / 2 ^ 24 * ρ := by
      rw [← add_mul]
      refine mul_le_mul_of_nonneg_right ?_ hp.le
      norm_num
      linarith
    linarith
  · have e1 := abs_sub_abs_le_abs_sub (b32.rnd (cellPoint (z j) (q j) ρ - x j)) (cellPoint (z j) (q j) ρ - x j)
    have e7 : ((2 * N + 1) / 2 ^ 24 + 1 / 2 ^ 50) * ρ ≤ 1 * ρ := by
      refine mul_le_mul_of_nonneg_right ?_ hp.le
      norm_num at hN ⊢
      linarith
    linarith

/-- The test of the range limit, in numbers. -/
lemma beyond_is (hD : D = 2 ∨ D = 3) (h : RayRange M o e bounds.min r x y q ρ) (hMN : M ≤ N) (hN : N ≤ 2 ^ 21)
    (hz : ∀ i, |(z i : ℚ)| ≤ N) (hml : ml.Is lam) (h60 : |lam| ≤ 2 ^ 60) :
    ∃ (p : Fin D → ℚ) (Q : ℚ), DistLe p (centre q ρ z) (rangeTol N ρ) ∧
      |Q - distSq x p| ≤ distSq x p / 2 ^ 21 + 1 / 2 ^ 146 ∧
      (Beyond o bounds r ml z ↔ b32.rnd (lam ^ 2) < Q) := by
  have hp := h.pos
  have hM1 := h.M_lo
  choose d h1 h2 h3 using diff_is h hMN hN hz
  have hB : (2 * N + 2) * ρ ≤ 2 ^ 43 := by
    have h0 : 2 * N + 2 ≤ 2 ^ 23 := by norm_num at hN ⊢; linarith
    calc (2 * N + 2) * ρ ≤ 2 ^ 23 * 2 ^ 20 := mul_le_mul h0 h.hi hp.le (by norm_num)
      _ = _ := by norm_num
  have hS : ∑ i, d i ^ 2 ≤ 2 ^ 120 := by
    have h4 : ∀ i, d i ^ 2 ≤ (2 ^ 43) ^ 2 := fun i => by
      rw [← sq_abs]; exact pow_le_pow_left₀ (abs_nonneg _) ((h3 i).trans hB) 2
    have h5 : ∑ i, d i ^ 2 ≤ ∑ _i : Fin D, ((2 : ℚ) ^ 43) ^ 2 := Finset.sum_le_sum fun i _ => h4 i
    rw [Finset.sum_const, Finset.card_univ, Fintype.card_fin, nsmul_eq_mul] at h5
    have h6 : (D : ℚ) ≤ 3 := by rcases hD with rfl | rfl <;> norm_num
    refine h5.trans ?_
    calc (D : ℚ) * (2 ^ 43) ^ 2 ≤ 3 * (2 ^ 43) ^ 2 := by gcongr
      _ ≤ _ := by norm_num
  obtain ⟨Q, g1, g2⟩ := normSquared_err hD h1 hS
  have hsd : distSq x (fun i => x i + d i) = ∑ i, d i ^ 2 := Finset.sum_congr rfl fun i _ => by ring
  have hmm : (Fp.mul ml ml).Is (b32.rnd (lam ^ 2)) := by
    have := hml.mul hml (F32.noOvf (by
      rw [← sq, abs_pow]
      calc |lam| ^ 2 ≤ (2 ^ 60) ^ 2 := by gcongr
        _ ≤ _ := by norm_num))
    rwa [← sq] at this
  refine ⟨fun i => x i + d i, Q, ?_, by rw [hsd]; exact g2, ?_⟩
  · refine distLe_of_coords (by omega) (mul_nonneg (by norm_num; linarith) hp.le) fun i => ?_
    rw [show centre q ρ z i - (x i + d i) = -(d i - (centre q ρ z i - x i)) by ring, abs_neg]
    exact h2 i
  · unfold Beyond
    rw [show Scalar.lt (ml *. ml) (normSquared fun j => pointFromCell z bounds.min r j -. o j) =
      decide (b32.rnd (lam ^ 2) < Q) from Fp.Is.lt hmm g1, decide_eq_true_iff]

/-- C68: a cell whose centre is within the limit, less the rounding errors, is not beyond it. -/
theorem C68_near (hD : D = 2 ∨ D = 3) (h : RayRange M o e bounds.min r x y q ρ) (hMN : M ≤ N) (hN : N ≤ 2 ^ 21)
    (hz : ∀ i, |(z i : ℚ)| ≤ N) (hml : ml.Is lam) (h0 : 1 / 2 ^ 60 ≤ lam) (h60 : lam ≤ 2 ^ 60)
    (hd : DistLe x (centre q ρ z) l) (hl : l + rangeTol N ρ ≤ lam * (1 - 1 / 2 ^ 20)) :
    ¬ Beyond o bounds r ml z := by
  have hl0 : 0 ≤ lam := le_trans (by norm_num) h0
  obtain ⟨p, Q, h1, h2, h3⟩ := beyond_is hD h hMN hN hz hml (by rw [abs_of_nonneg hl0]; exact h60)
  rw [h3, not_lt]
  obtain ⟨a1, a2⟩ := hd.trans h1.symm
  have a3 : distSq x p ≤ (lam * (1 - 1 / 2 ^ 20)) ^ 2 := a2.trans (pow_le_pow_left₀ a1 hl 2)
  have hE := abs_le.mp (F32.err (lam ^ 2))
  have hsq := sq_nonneg lam
  rw [abs_of_nonneg hsq] at hE
  have hlow : (1 / 2 ^ 60 : ℚ) ^ 2 ≤ lam ^ 2 := pow_le_pow_left₀ (by norm_num) h0 2
  rw [abs_le] at h2
  rw [mul_pow] at a3
  norm_num at hlow h2 hE a3
  linarith [h2.2, hE.1]

/-- C68: a cell that is not beyond the limit is within it, up to the rounding errors. -/
theorem C68_far (hD : D = 2 ∨ D = 3) (h : RayRange M o e bounds.min r x y q ρ) (hMN : M ≤ N) (hN : N ≤ 2 ^ 21)
    (hz : ∀ i, |(z i : ℚ)| ≤ N) (hml : ml.Is lam) (h0 : 1 / 2 ^ 60 ≤ lam) (h60 : lam ≤ 2 ^ 60)
    (hb : ¬ Beyond o bounds r ml z) : DistLe x (centre q ρ z) (lam * (1 + 1 / 2 ^ 20) + rangeTol N ρ) := by
  have hl0 : 0 ≤ lam := le_trans (by norm_num) h0
  obtain ⟨p, Q, h1, h2, h3⟩ := beyond_is hD h hMN hN hz hml (by rw [abs_of_nonneg hl0]; exact h60)
  rw [h3, not_lt] at hb
  refine Spec.DistLe.trans (y := p) ⟨by positivity, ?_⟩ h1
  have hE := abs_le.mp (F32.err (lam ^ 2))
  have hsq := sq_nonneg lam
  rw [abs_of_nonneg hsq] at hE
  have hlow : (1 / 2 ^ 60 : ℚ) ^ 2 ≤ lam ^ 2 := pow_le_pow_left₀ (by norm_num) h0 2
  rw [abs_le] at h2
  rw [mul_pow]
  norm_num at hlow h2 hE ⊢
  linarith [h2.1, hE.2]

lemma rayRange_swap (h : RayRange M o e bounds.min r x y q ρ) : RayRange M e o bounds.min r y x q ρ :=
  ⟨h.res, h.lo, h.hi, h.M_lo, h.M_hi, h.end_, h.origin, h.offset, h.end_near, h.origin_near, h.offset_near,
    fun i => (h.apart i).imp Eq.symm fun h1 => by rwa [abs_sub_comm]⟩

/-- A point in its cell: at most 3/4 of a cell from the centre on each axis. -/
lemma in_cell (h : RayRange M o e bounds.min r x y q ρ) (i : Fin D) :
    |x i - centre q ρ (cellFromPoint o bounds.min r) i| ≤ 3 / 4 * ρ := by
  have h1 := (origin_cell h i).2
  refine h1.trans (mul_le_mul_of_nonneg_right ?_ h.pos.le)
  have := h.M_hi
  norm_num at this ⊢
  linarith

lemma between_small (h : RayRange M o e bounds.min r x y q ρ)
    (hz : Between (cellFromPoint o bounds.min r) (cellFromPoint e bounds.min r) z) (i : Fin D) :
    |(z i : ℚ)| ≤ M + 1 := by
  have h1 := abs_le.mp (origin_cell h i).1
  have h2 := abs_le.mp (origin_cell (rayRange_swap h) i).1
  obtain ⟨h3, h4⟩ := hz i
  have h3' : min (cellFromPoint o bounds.min r i : ℚ) (cellFromPoint e bounds.min r i) ≤ z i := by exact_mod_cast h3
  have h4' : (z i : ℚ) ≤ max (cellFromPoint o bounds.min r i : ℚ) (cellFromPoint e bounds.min r i) := by
    exact_mod_cast h4
  rw [abs_le]
  rcases min_le_iff.mp h3' with h5 | h5 <;> rcases le_max_iff.mp h4' with h6 | h6 <;> constructor <;> linarith

lemma adjacent_dist (hρ : 0 ≤ ρ) {a b : Cell D} (h : Adjacent a b) : DistLe (centre q ρ a) (centre q ρ b) ρ := by
  obtain ⟨i, h1, h2⟩ := h
  refine ⟨hρ, le_of_eq ?_⟩
  unfold distSq
  rw [Finset.sum_eq_single i]
  · unfold centre
    have h3 : ((b i : ℚ) - a i) ^ 2 = 1 := by
      have : (b i - a i) ^ 2 = 1 := by rw [← sq_abs, h1]; rfl
      exact_mod_cast this
    linear_combination ρ ^ 2 * h3
  · intro j _ hj
    unfold centre
    rw [h2 j hj]
    ring
  · intro hi; exact absurd (Finset.mem_univ i) hi

/-- C68: every free cell of a ray, the cell of the sensor apart, has its centre within the range limit, up to the
rounding errors. -/
theorem C68_free_in_range (hD : D = 2 ∨ D = 3) (h : RayRange M o e bounds.min r x y q ρ) (hMN : M ≤ N)
    (hN : N ≤ 2 ^ 21) (hml : ml.Is lam) (h0 : 1 / 2 ^ 60 ≤ lam) (h60 : lam ≤ 2 ^ 60)
    (hr : Casts o e bounds r ml ray res) (hz : z ∈ ray) (hzN : ∀ i, |(z i : ℚ)| ≤ N) :
    z = cellFromPoint o bounds.min r ∨ DistLe x (centre q ρ z) (lam * (1 + 1 / 2 ^ 20) + rangeTol N ρ) := by
  have hpos : Scalar.lt (lit 0) ml = true := by
    have : Fp.lt (Fp.lit 0) ml = decide (0 < lam) := Fp.Is.lt F32.zero_is hml
    rw [show Scalar.lt (lit 0) ml = decide (0 < lam) from this, decide_eq_true_iff]
    exact lt_of_lt_of_le (by norm_num) h0
  have hne : ray ≠ [] := List.ne_nil_of_mem hz
  obtain ⟨hhead, -, -⟩ := C17_connected hr hne
  by_cases hzt : z ∈ ray.tail
  · exact .inr (C68_far hD h hMN hN hzN hml h0 h60 (C20_within_limit hr hpos z hzt))
  · left
    cases ray with
    | nil => cases hz
    | cons a t =>
      rcases List.mem_cons.mp hz with rfl | hz
      · exact hhead
      · exact absurd hz hzt

/-- C68: a ray is cut only by the limit: the cell that would have come next has its centre beyond it, up to the
rounding errors. -/
theorem C68_cut (hD : D = 2 ∨ D = 3) (h : RayRange M o e bounds.min r x y q ρ) (hMN : M ≤ N)
    (hN : N ≤ 2 ^ 21) (hml : ml.Is lam) (h60 : lam ≤ 2 ^ 60) (h0 : 1 / 2 ^ 60 ≤ lam)
    (hr : Casts o e bounds r ml ray none) :
    ∃ (hne : ray ≠ []) (b : Cell D), (Adjacent (ray.getLast hne) b ∨ ray = [b]) ∧
      ((∀ i, |(b i : ℚ)| ≤ N) → ∀ l, DistLe x (centre q ρ b) l → lam * (1 - 1 / 2 ^ 20) < l + rangeTol N ρ) := by
  obtain ⟨-, hne, b, h1, -, h3⟩ := C20_none hr
  refine ⟨hne, b, h1, fun hb l hl => ?_⟩
  by_contra hc
  exact C68_near hD h hMN hN hb hml h0 h60 hl (not_lt.mp hc) h3

/-- C68: a point at distance `l` is reached if the limit is two cells and the rounding errors more (and the point
keeps the margin of `C24_reaches_end` from the borders of its cell). -/
theorem C68_reached (hD : D = 2 ∨ D = 3) (h : RayRange M o e bounds.min r x y q ρ) {K : ℕ}
    (hK : ∀ i, |cellFromPoint e bounds.min r i - cellFromPoint o bounds.min r i| ≤ K)
    (hmargin : ∀ i, y i ≠ x i → |y i - (q i + cellFromPoint e bounds.min r i * ρ)| ≤
      (1 / 2 - (5 * M + K ^ 2 + 10 * K + 23) / 2 ^ 24) * ρ)
    (hml : ml.Is lam) (h60 : lam ≤ 2 ^ 60) (hd : DistLe x y l)
    (hl : l + 2 * ρ + rangeTol (M + 1) ρ ≤ lam * (1 - 1 / 2 ^ 20)) :
    ∃ ray, Casts o e bounds r ml ray (some (cellFromPoint e bounds.min r)) := by
  have hp := h.pos
  have hlo := h.lo
  have hM := h.M_hi
  have hM1 := h.M_lo
  have ht : 0 ≤ rangeTol (M + 1) ρ := by
    unfold rangeTol
    have : 0 ≤ (5 * (M + 1) + 4) / 2 ^ 24 * ρ := mul_nonneg (by norm_num; linarith) hp.le
    linarith
  refine C24_reaches_end hD h hK hmargin fun _ z hz => ?_
  have hl0 := hd.1
  refine C68_near (l := l + 2 * ρ) hD h (N := M + 1) (by linarith) (by norm_num at hM ⊢; linarith) (between_small h hz)
    hml (by norm_num at hlo hl ⊢; linarith) h60 ?_ hl
  have hc : ∀ i, |centre q ρ z i - x i| ≤ |y i - x i| + ρ := by
    intro i
    have h1 := abs_le.mp (in_cell h i)
    have h2 := abs_le.mp (in_cell (rayRange_swap h) i)
    obtain ⟨h3, h4⟩ := hz i
    have h3' : min (cellFromPoint o bounds.min r i : ℚ) (cellFromPoint e bounds.min r i) ≤ z i := by exact_mod_cast h3
    have h4' : (z i : ℚ) ≤ max (cellFromPoint o bounds.min r i : ℚ) (cellFromPoint e bounds.min r i) := by
      exact_mod_cast h4
    have h5 := neg_abs_le (y i - x i)
    have h6 := le_abs_self (y i - x i)
    unfold centre at *
    rw [abs_le]
    constructor
    · rcases min_le_iff.mp h3' with h7 | h7
      · have := mul_le_mul_of_nonneg_right h7 hp.le; linarith [abs_nonneg (y i - x i)]
      · have := mul_le_mul_of_nonneg_right h7 hp.le; linarith
    · rcases le_max_iff.mp h4' with h7 | h7
      · have := mul_le_mul_of_nonneg_right h7 hp.le; linarith [abs_nonneg (y i - x i)]
      · have := mul_le_mul_of_nonneg_right h7 hp.le; linarith
  exact distLe_of_axes (by omega) hp.le hd hc

/-- C68: a point that is reported as seen is at most four cells and the rounding errors beyond the limit. -/
theorem C68_hit_in_range (hD : D = 2 ∨ D = 3) (h : RayRange M o e bounds.min r x y q ρ)
    (hml : ml.Is lam) (h0 : 1 / 2 ^ 60 ≤ lam) (h60 : lam ≤ 2 ^ 60) {c : Cell D}
    (hr : Casts o e bounds r ml ray (some c)) :
    DistLe x y (lam * (1 + 1 / 2 ^ 20) + rangeTol (M + 1) ρ + 4 * ρ) := by
  have hp := h.pos
  have hM := h.M_hi
  have hM1 := h.M_lo
  have hlam : 0 ≤ lam := le_trans (by norm_num) h0
  have ht : 0 ≤ rangeTol (M + 1) ρ := by
    unfold rangeTol
    have : 0 ≤ (5 * (M + 1) + 4) / 2 ^ 24 * ρ := mul_nonneg (by norm_num; linarith) hp.le
    linarith
  have hA : 0 ≤ lam * (1 + 1 / 2 ^ 20) := by positivity
  have d1 : DistLe x (centre q ρ (cellFromPoint o bounds.min r)) (2 * (3 / 4 * ρ)) :=
    distLe_of_coords (by omega) (by positivity) fun i => by rw [abs_sub_comm]; exact in_cell h i
  have d2 : DistLe (centre q ρ (cellFromPoint e bounds.min r)) y (2 * (3 / 4 * ρ)) :=
    distLe_of_coords (by omega) (by positivity) fun i => in_cell (rayRange_swap h) i
  obtain rfl : c = cellFromPoint e bounds.min r := by
    rcases (C18_end_not_in_ray hr).2.2 with h1 | h1 <;> simpa using h1
  by_cases hne : ray = []
  · subst hne
    have hs := (C16_empty_ray hr).1
    rw [hs] at d1
    exact (d1.trans d2).mono (by linarith)
  · obtain ⟨hhead, -, hadj⟩ := C17_connected hr hne
    have d3 := adjacent_dist (q := q) hp.le (hadj _ rfl)
    have hlast := List.getLast_mem hne
    have hsmall := between_small h (C19_in_box hr _ hlast)
    rcases C68_free_in_range hD h (N := M + 1) (by linarith) (by norm_num at hM ⊢; linarith) hml h0 h60 hr hlast
      hsmall with h1 | h1
    · rw [h1] at d3
      exact ((d1.trans d3).trans d2).mono (by linarith)
    · exact ((h1.trans d3).trans d2).mono (by linarith)

/-- C68, for a whole scan: every occupied cell is the cell of a point of the cloud within the limit, up to four cells
and the rounding errors. -/
theorem C68_scan_hits {cloud : PointCloud D F32} {free occ : List (Cell D)} (hD : D = 2 ∨ D = 3)
    (hml : ml.Is lam) (h0 : 1 / 2 ^ 60 ≤ lam) (h60 : lam ≤ 2 ^ 60)
    (h : ∀ p ∈ cloud.points, ∃ y, RayRange M o p bounds.min r x y q ρ)
    (hc : CastsRays o cloud bounds r ml free occ) (c : Cell D) (hocc : c ∈ occ) :
    ∃ p ∈ cloud.points, c = cellFromPoint p bounds.min r ∧ ∃ y, (∀ i, (p i).Is (y i)) ∧
      DistLe x y (lam * (1 + 1 / 2 ^ 20) + rangeTol (M + 1) ρ + 4 * ρ) := by
  obtain ⟨p, hp, ray, hr⟩ := (C28_occupied hc c).mp hocc
  obtain ⟨y, hy⟩ := h p hp
  refine ⟨p, hp, ?_, y, hy.end_, C68_hit_in_range hD hy hml h0 h60 hr⟩
  rcases (C18_end_not_in_ray hr).2.2 with h1 | h1 <;> simpa using h1

/-- A ray of 67 and 30 cells of side 0.1 and a limit of 15 meet the hypotheses of `C68_reached`: the point is at a
distance of at most 7.32. -/
example : ∃ x y q ρ, RayRange 100 (![Fp.lit (1/3), Fp.lit (1/5)] : Point 2 F32) ![Fp.lit 7, Fp.lit (16/5)]
      ![Fp.lit (-1), Fp.lit (-1)] (Fp.lit (1/10)) x y q ρ ∧
    (∀ i, |cellFromPoint (![Fp.lit 7, Fp.lit (16/5)] : Point 2 F32) ![Fp.lit (-1), Fp.lit (-1)] (Fp.lit (1/10)) i
      - cellFromPoint (![Fp.lit (1/3), Fp.lit (1/5)] : Point 2 F32) ![Fp.lit (-1), Fp.lit (-1)]
        (Fp.lit (1/10)) i| ≤ (67 : ℕ)) ∧
    (∀ i, y i ≠ x i → |y i - (q i + cellFromPoint (![Fp.lit 7, Fp.lit (16/5)] : Point 2 F32)
      ![Fp.lit (-1), Fp.lit (-1)] (Fp.lit (1/10)) i * ρ)| ≤
      (1 / 2 - (5 * 100 + (67 : ℕ) ^ 2 + 10 * (67 : ℕ) + 23) / 2 ^ 24) * ρ) ∧
    (Fp.lit 15 : F32).Is 15 ∧ DistLe x y (732 / 100) ∧
    732 / 100 + 2 * ρ + rangeTol (100 + 1) ρ ≤ 15 * (1 - 1 / 2 ^ 20) := by
  have h1 : RayRange 100 (![Fp.lit (1/3), Fp.lit (1/5)] : Point 2 F32) ![Fp.lit 7, Fp.lit (16/5)]
      ![Fp.lit (-1), Fp.lit (-1)] (Fp.lit (1/10)) _ _ _ _ := rayRange_val (by decide +kernel)
  refine ⟨_, _, _, _, h1, by decide +kernel, by decide +kernel, by decide +kernel, ⟨by norm_num, ?_⟩, ?_⟩
  · unfold distSq
    rw [Fin.sum_univ_two]
    decide +kernel
  · unfold rangeTol
    decide +kernel

end Verif.Props
