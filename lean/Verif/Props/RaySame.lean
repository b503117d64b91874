import Verif.Props.RayNear
import Verif.Props.RayExact
import Verif.Props.RayLimit
import Verif.Spec.Clear

/-!
# C84: away from the corners rays in f32 are the ideal rays
-/

namespace Verif.Props
open Spec Scalar

variable {D : ℕ} {M ρ : ℚ} {o e : Point D F32} {bounds : Bounds D F32} {r : F32} {x y q : Fin D → ℚ} {tol : ℚ}

/-- The start of a clear segment is near one cell only. -/
lemma clear_start (hc : ClearSegment q x y ρ tol) (hρ : 0 < ρ) {a b : Cell D}
    (ha : ∀ i, |x i - (q i + a i * ρ)| ≤ ρ / 2 + tol) (hb : ∀ i, |x i - (q i + b i * ρ)| ≤ ρ / 2 + tol) : a = b := by
  have key : ∀ {a b : Cell D}, (∀ i, |x i - (q i + a i * ρ)| ≤ ρ / 2 + tol) →
      (∀ i, |x i - (q i + b i * ρ)| ≤ ρ / 2 + tol) → ∀ i, b i ≤ a i := by
    intro a b ha hb i
    by_contra hlt
    push Not at hlt
    have h1 : (a i : ℚ) + 1 ≤ b i := by exact_mod_cast hlt
    obtain ⟨s, s0, s1, hs⟩ := hc a ⟨0, le_rfl, zero_le_one, fun i => by simpa [lineAt] using ha i⟩
    obtain ⟨t, t0, t1, ht⟩ := hc b ⟨0, le_rfl, zero_le_one, fun i => by simpa [lineAt] using hb i⟩
    have a1 := abs_le.mp (ha i)
    have b1 := abs_le.mp (hb i)
    have a2 := abs_lt.mp (hs i)
    have b2 := abs_lt.mp (ht i)
    unfold lineAt at a2 b2
    have h2 : ((a i : ℚ) + 1) * ρ ≤ b i * ρ := mul_le_mul_of_nonneg_right h1 hρ.le
    have h3 : s * (y i - x i) < 0 := by linarith [a2.2, b1.1]
    have h4 : 0 < t * (y i - x i) := by linarith [a1.2, b2.1]
    have h5 : y i - x i < 0 := by
      by_contra h; push Not at h
      exact absurd (mul_nonneg s0 h) (not_le.mpr h3)
    exact absurd (mul_nonpos_of_nonneg_of_nonpos t0 h5.le) (not_le.mpr h4)
  funext i
  exact le_antisymm (key hb ha i) (key ha hb i)

lemma clear_swap (hc : ClearSegment q x y ρ tol) : ClearSegment q y x ρ tol := by
  have hl : ∀ t i, lineAt y x t i = lineAt x y (1 - t) i := by
    intro t i; unfold lineAt; ring
  rintro w ⟨t, t0, t1, ht⟩
  obtain ⟨s, s0, s1, hs⟩ := hc w ⟨1 - t, by linarith, by linarith, fun i => by rw [← hl]; exact ht i⟩
  refine ⟨1 - s, by linarith, by linarith, fun i => ?_⟩
  rw [hl, sub_sub_cancel]
  exact hs i

/-- The end of a clear segment is near one cell only. -/
lemma clear_end (hc : ClearSegment q x y ρ tol) (hρ : 0 < ρ) {a b : Cell D}
    (ha : ∀ i, |y i - (q i + a i * ρ)| ≤ ρ / 2 + tol) (hb : ∀ i, |y i - (q i + b i * ρ)| ≤ ρ / 2 + tol) : a = b :=
  clear_start (clear_swap hc) hρ ha hb

/-- So it is well inside. -/
lemma clear_inside (hc : ClearSegment q x y ρ tol) (hρ : 0 < ρ) (htol : 0 ≤ tol) {a : Cell D}
    (ha : ∀ i, |y i - (q i + a i * ρ)| ≤ ρ / 2 + tol) (i : Fin D) : |y i - (q i + a i * ρ)| < ρ / 2 - tol := by
  by_contra hlt
  push Not at hlt
  have hne : ∀ k : ℤ, k ≠ a i → ¬ |y i - (q i + k * ρ)| ≤ ρ / 2 + tol := by
    intro k hk h1
    have h2 := clear_end hc hρ ha (b := Function.update a i k) (by
      intro j
      by_cases hj : j = i
      · subst hj; rw [Function.update_self]; exact h1
      · rw [Function.update_of_ne hj]; exact ha j)
    apply hk
    rw [h2, Function.update_self]
  have h1 := abs_le.mp (ha i)
  rcases abs_cases (y i - (q i + a i * ρ)) with ⟨h2, -⟩ | ⟨h2, -⟩
  · refine hne (a i + 1) (by omega) ?_
    push_cast
    rw [h2] at hlt
    rw [abs_le]; constructor <;> linarith
  · refine hne (a i - 1) (by omega) ?_
    push_cast
    rw [h2] at hlt
    rw [abs_le]; constructor <;> linarith

/-- Two paths that do not turn back, with the same cells, are equal. -/
lemma path_eq {c : Cell D} {l l' : List (Cell D)} (h : l.Pairwise fun a b => Between c b a)
    (h' : l'.Pairwise fun a b => Between c b a) (hn : l.Nodup) (hs : l ⊆ l') (hlen : l'.length ≤ l.length) :
    l = l' := by
  have hp : l.Perm l' := (hn.subperm hs).perm_of_length_le hlen
  refine hp.eq_of_pairwise (fun a b _ _ h1 h2 => ?_) h h'
  funext i
  have := h1 i
  have := h2 i
  omega

/-- The cells of a ray with its end. -/
lemma ray_path {F : Type} [Scalar F] [ScalarLaws F] {o e : Point D F} {bounds : Bounds D F} {r ml : F} {ray ec}
    (h : Casts o e bounds r ml ray (some ec)) :
    (ray ++ [ec]).Pairwise (fun a b => Between (cellFromPoint o bounds.min r) b a) ∧ (ray ++ [ec]).Nodup ∧
      ec = cellFromPoint e bounds.min r := by
  obtain ⟨h1, h2, h3⟩ := C18_end_not_in_ray h
  have h4 : ec = cellFromPoint e bounds.min r := by
    rcases h3 with h3 | h3
    · cases h3
    · injection h3
  refine ⟨?_, ?_, h4⟩
  · rw [List.pairwise_append]
    refine ⟨C19_no_return h, List.pairwise_singleton _ _, fun a ha b hb => ?_⟩
    rw [List.mem_singleton] at hb
    subst hb
    exact C19_in_box h a ha
  · rw [List.nodup_append]
    refine ⟨h2, List.nodup_singleton _, fun a ha b hb => ?_⟩
    rw [List.mem_singleton] at hb
    rintro rfl
    subst hb
    exact h1 (h4 ▸ ha)

/-- C84: in the working range, a segment that keeps clear of the corners of the cells: `cast_ray` in f32 returns
the very list that it returns in exact arithmetic. -/
theorem C84_same_as_exact (hD : D = 2 ∨ D = 3) (h : RayRange M o e bounds.min r x y q ρ) {K : ℕ}
    (hK : ∀ i, |cellFromPoint e bounds.min r i - cellFromPoint o bounds.min r i| ≤ K)
    (hc : ClearSegment q x y ρ ((5 * M + K ^ 2 + 10 * K + 23) / 2 ^ 24 * ρ)) {ml : F32}
    (hfar : Scalar.lt (lit 0) ml = true → ∀ z, Between (cellFromPoint o bounds.min r)
      (cellFromPoint e bounds.min r) z → ¬ Beyond o bounds r ml z) {bX : Bounds D XR}
    (hbX : bX.min = exact fun i => (q i : ℝ)) {mlX : XR} (hmlX : Scalar.lt (lit 0) mlX = false) :
    ∃ ray, Casts o e bounds r ml ray (some (cellFromPoint e bounds.min r)) ∧
      Casts (exact fun i => (x i : ℝ)) (exact fun i => (y i : ℝ)) bX (.fin ρ) mlX ray
        (some (cellFromPoint e bounds.min r)) ∧
      Passes (fun i => (q i : ℝ)) ρ (onSegment (fun i => (x i : ℝ)) fun i => (y i : ℝ)) 0
        (ray ++ [cellFromPoint e bounds.min r]) ∧
      ∀ w, w ∈ ray ++ [cellFromPoint e bounds.min r] ↔ Touches q x y ρ 0 w := by
  set tol := (5 * M + K ^ 2 + 10 * K + 23) / 2 ^ 24 * ρ with htol
  have hp := h.pos
  have hM1 := h.M_lo
  have htp : 0 < tol := by positivity
  have hsw : RayRange M e o bounds.min r y x q ρ :=
    ⟨h.res, h.lo, h.hi, h.M_lo, h.M_hi, h.end_, h.origin, h.offset, h.end_near, h.origin_near, h.offset_near,
      fun i => (h.apart i).imp Eq.symm fun h1 => by rwa [abs_sub_comm]⟩
  have hb := mul_le_mul_of_nonneg_right (tol_bounds h (K := K)) hp.le
  rw [← htol] at hb
  have ho : ∀ i, |x i - (q i + cellFromPoint o bounds.min r i * ρ)| ≤ ρ / 2 + tol := fun i => by
    have := (origin_cell h i).2
    linarith
  have he : ∀ i, |y i - (q i + cellFromPoint e bounds.min r i * ρ)| ≤ ρ / 2 + tol := fun i => by
    have := (origin_cell hsw i).2
    linarith
  have hein := clear_inside hc hp htp.le he
  have hρR : (0 : ℝ) < ρ := by exact_mod_cast hp
  have i0 : Fin D := ⟨0, by omega⟩
  have hKM : 5 * M + K ^ 2 + 10 * K + 23 ≤ 2 ^ 24 := by
    have h1 := (abs_nonneg _).trans_lt (hein i0)
    have h2 : (5 * M + K ^ 2 + 10 * K + 23) / 2 ^ 24 * ρ < 1 / 2 * ρ := by rw [← htol]; linarith
    have h3 := lt_of_mul_lt_mul_right h2 hp.le
    rw [div_lt_iff₀ (by norm_num)] at h3
    norm_num at h3 ⊢
    linarith
  -- the cells of both ends in exact arithmetic
  have hcell : ∀ {z : Fin D → ℚ} i, |z i - (q i + cellFromPoint (exact fun i => (z i : ℝ))
      (exact fun i => (q i : ℝ)) (.fin ρ) i * ρ)| ≤ ρ / 2 := by
    intro z i
    have h1 := inBox_cell hρR (fun i => (z i : ℝ)) (fun i => (q i : ℝ)) i
    rw [← Rat.cast_le (K := ℝ)]
    push_cast
    exact h1
  have hoX : cellFromPoint (exact fun i => (x i : ℝ)) (exact fun i => (q i : ℝ)) (.fin ρ)
      = cellFromPoint o bounds.min r := clear_start hc hp (fun i => (hcell i).trans (by linarith)) ho
  have heX : cellFromPoint (exact fun i => (y i : ℝ)) (exact fun i => (q i : ℝ)) (.fin ρ)
      = cellFromPoint e bounds.min r := clear_end hc hp (fun i => (hcell i).trans (by linarith)) he
  have hsize : ∀ {c : ℤ}, |(c : ℚ)| ≤ M + 1 → InIsize c := by
    intro c h1
    have h2 := h.M_hi
    have h3 : |c| ≤ 2 ^ 20 + 1 := by
      have : (|c| : ℚ) ≤ 2 ^ 20 + 1 := by linarith
      exact_mod_cast this
    have := abs_le.mp h3
    unfold InIsize isizeMin isizeMax
    constructor <;> omega
  have hoff : OffBorders (fun i => (q i : ℝ)) (ρ : ℝ) fun i => (y i : ℝ) := by
    intro i k hk
    have hk' : y i = q i + (k + 1 / 2) * ρ := by
      have h1 : ((y i : ℚ) : ℝ) = ((q i + (k + 1 / 2) * ρ : ℚ) : ℝ) := by push_cast; exact hk
      exact_mod_cast h1
    have key : ∀ k' : ℤ, |y i - (q i + k' * ρ)| ≤ ρ / 2 + tol → k' = cellFromPoint e bounds.min r i := by
      intro k' hk'
      have h2 := clear_end hc hp he (b := Function.update (cellFromPoint e bounds.min r) i k') (by
        intro j
        by_cases hj : j = i
        · subst hj; rw [Function.update_self]; exact hk'
        · rw [Function.update_of_ne hj]; exact he j)
      rw [h2, Function.update_self]
    have h1 := key k (by rw [hk', abs_le]; constructor <;> linarith)
    have h2 := key (k + 1) (by rw [hk', abs_le]; push_cast; constructor <;> linarith)
    omega
  obtain ⟨cells, hne, hh, hl, hpass, hcast, -⟩ := C23_follows_segment (o := fun i => (x i : ℝ)) hD hρR hbX hoff
    (fun i => by rw [hoX]; exact hsize (origin_cell h i).1) (fun i => by rw [heX]; exact hsize (origin_cell hsw i).1)
  have hX := hcast mlX (.inl hmlX)
  rw [hl, heX] at hX
  have hcells : cells.dropLast ++ [cellFromPoint e bounds.min r] = cells := by
    rw [← heX, ← hl]; exact List.dropLast_append_getLast hne
  obtain ⟨ray, hray⟩ := C24_reaches_end hD h hK (fun i _ => by
    have := hein i
    linarith) hfar
  have henter : ∀ w, Enters q x y ρ tol w → w ∈ cells := by
    rintro w ⟨t, t0, t1, ht⟩
    obtain ⟨z, hz, hz'⟩ := hpass.covers (t := (t : ℝ)) (by exact_mod_cast t0) (by exact_mod_cast t1)
    have : w = z := by
      have key : ∀ i, |lineAt x y t i - (q i + z i * ρ)| ≤ ρ / 2 := by
        intro i
        have := hz' i
        rw [← Rat.cast_le (K := ℝ)]
        unfold lineAt
        unfold onSegment at this
        push_cast
        exact this
      funext i
      have h1 := abs_lt.mp (ht i)
      have h2 := abs_le.mp (key i)
      rcases lt_trichotomy (w i) (z i) with h3 | h3 | h3
      · have h4 : (w i : ℚ) + 1 ≤ z i := by exact_mod_cast h3
        have h5 : ((w i : ℚ) + 1) * ρ ≤ z i * ρ := mul_le_mul_of_nonneg_right h4 hp.le
        linarith
      · exact h3
      · have h4 : (z i : ℚ) + 1 ≤ w i := by exact_mod_cast h3
        have h5 : ((z i : ℚ) + 1) * ρ ≤ w i * ρ := mul_le_mul_of_nonneg_right h4 hp.le
        linarith
    rwa [this]
  have hsub : ray ++ [cellFromPoint e bounds.min r] ⊆ cells := by
    intro w hw
    obtain ⟨t, t0, t1, ht⟩ := C57_near_segment hD h hray hKM hK hw
    exact henter w (hc w ⟨t, t0, t1, ht⟩)
  obtain ⟨p1, p2, -⟩ := ray_path hray
  obtain ⟨p3, p4, -⟩ := ray_path hX
  rw [hbX, hoX, hcells] at p3
  have hlen := C19_shortest hray
  have hlenX := C19_shortest hX
  rw [hbX, hoX] at hlenX
  have heq : ray ++ [cellFromPoint e bounds.min r] = cells := by
    refine path_eq p1 p3 p2 hsub ?_
    have : cells.dropLast.length = ray.length := by
      have : (cells.dropLast.length : ℤ) = ray.length := by rw [hlen, hlenX]
      exact_mod_cast this
    rw [← hcells, List.length_append, List.length_append, this]
  have hdrop : ray = cells.dropLast := by rw [← heq]; simp
  refine ⟨ray, hray, by rw [hdrop]; exact hX, by rw [heq]; exact hpass, fun w => ⟨fun hw => ?_, fun hw => ?_⟩⟩
  · obtain ⟨t, t0, t1, ht⟩ := C57_near_segment hD h hray hKM hK hw
    obtain ⟨s, s0, s1, hs⟩ := hc w ⟨t, t0, t1, ht⟩
    exact ⟨s, s0, s1, fun i => (hs i).le.trans (by linarith)⟩
  · obtain ⟨t, t0, t1, ht⟩ := hw
    rw [heq]
    exact henter w (hc w ⟨t, t0, t1, fun i => (ht i).trans (by linarith)⟩)

/-- C84: with a range limit the ray is the ideal one up to where it is cut: before the first cell, other than the
end cell, whose centre is computed to be beyond the limit. -/
theorem C84_cut (hD : D = 2 ∨ D = 3) (h : RayRange M o e bounds.min r x y q ρ) {K : ℕ}
    (hK : ∀ i, |cellFromPoint e bounds.min r i - cellFromPoint o bounds.min r i| ≤ K)
    (hc : ClearSegment q x y ρ ((5 * M + K ^ 2 + 10 * K + 23) / 2 ^ 24 * ρ)) {ml : F32}
    (hml : Scalar.lt (lit 0) ml = true) :
    ∃ cells, Passes (fun i => (q i : ℝ)) ρ (onSegment (fun i => (x i : ℝ)) fun i => (y i : ℝ)) 0
        (cells ++ [cellFromPoint e bounds.min r]) ∧
      (∀ w, w ∈ cells ++ [cellFromPoint e bounds.min r] ↔ Touches q x y ρ 0 w) ∧
      ∃ ray res, Casts o e bounds r ml ray res ∧
        (ray = cells ∧ res = some (cellFromPoint e bounds.min r) ∨
          res = none ∧ ∃ z rest, cells = ray ++ z :: rest ∧ Beyond o bounds r ml z) ∧
        ∀ z ∈ ray.tail, ¬ Beyond o bounds r ml z := by
  obtain ⟨cells, h1, -, h2, h3⟩ := C84_same_as_exact hD h hK hc (ml := lit 0) (by
    intro h0; rw [show Scalar.lt (lit 0) (lit 0 : F32) = false by decide +kernel] at h0; cases h0)
    (bX := ⟨exact fun i => (q i : ℝ), exact fun i => (q i : ℝ)⟩) rfl (mlX := lit 0) (by simp [Scalar.lt, lit])
  obtain ⟨ray, res, h4, -, h5, h6, -⟩ := C56_limit_cuts (by decide +kernel) hml h1
  refine ⟨cells, h2, h3, ray, res, h4, ?_, h5⟩
  rcases h6 with ⟨h7, h8⟩ | h7
  · exact .inl ⟨h8, h7⟩
  · exact .inr h7

/-- The segment from (1/4, 1/4) to (9/4, 1) keeps clear of the corners: it passes the cells (0,0), (1,0), (1,1) and
(2,1), and no other cell is nearer than 1/100. -/
lemma clear_example {tol : ℚ} (h0 : 0 ≤ tol) (htol : tol ≤ 1 / 100) :
    ClearSegment (fun _ => 0) (![1 / 4, 1 / 4] : Fin 2 → ℚ) ![9 / 4, 1] 1 tol := by
  rintro w ⟨t, t0, t1, ht⟩
  have hx := abs_le.mp (ht 0)
  have hy := abs_le.mp (ht 1)
  simp only [lineAt, Matrix.cons_val_zero, Matrix.cons_val_one] at hx hy
  have a1 : -1 < w 0 := by
    have : (-1 : ℚ) < w 0 := by linarith
    exact_mod_cast this
  have a2 : w 0 < 3 := by
    have : (w 0 : ℚ) < 3 := by linarith
    exact_mod_cast this
  have a3 : -1 < w 1 := by
    have : (-1 : ℚ) < w 1 := by linarith
    exact_mod_cast this
  have a4 : w 1 < 2 := by
    have : (w 1 : ℚ) < 2 := by linarith
    exact_mod_cast this
  have key : ∀ s : ℚ, 0 ≤ s → s ≤ 1 → |1 / 4 + s * 2 - w 0| < 1 / 2 - tol → |1 / 4 + s * (3 / 4) - w 1| < 1 / 2 - tol →
      Enters (fun _ => 0) (![1 / 4, 1 / 4] : Fin 2 → ℚ) ![9 / 4, 1] 1 tol w := by
    intro s s0 s1 hs1 hs2
    refine ⟨s, s0, s1, fun i => ?_⟩
    fin_cases i
    · simp only [lineAt, Fin.zero_eta, Matrix.cons_val_zero]
      convert hs1 using 2; ring
    · simp only [lineAt, Fin.mk_one, Matrix.cons_val_one, Matrix.cons_val_fin_one]
      convert hs2 using 2; ring
  have b1 : w 0 = 0 ∨ w 0 = 1 ∨ w 0 = 2 := by omega
  have b2 : w 1 = 0 ∨ w 1 = 1 := by omega
  rcases b1 with b1 | b1 | b1 <;> rcases b2 with b2 | b2 <;> rw [b1] at hx key <;> rw [b2] at hy key <;>
    push_cast at hx hy key
  · exact key 0 le_rfl zero_le_one (by rw [abs_lt]; constructor <;> linarith) (by rw [abs_lt]; constructor <;> linarith)
  · exfalso; linarith
  · exact key (1 / 4) (by norm_num) (by norm_num) (by rw [abs_lt]; constructor <;> linarith)
      (by rw [abs_lt]; constructor <;> linarith)
  · exact key (1 / 2) (by norm_num) (by norm_num) (by rw [abs_lt]; constructor <;> linarith)
      (by rw [abs_lt]; constructor <;> linarith)
  · exfalso; linarith
  · exact key 1 (by norm_num) (by norm_num) (by rw [abs_lt]; constructor <;> linarith)
      (by rw [abs_lt]; constructor <;> linarith)

/-- The hypotheses of C84 for this segment in f32, without and with a range limit. -/
example : RayRange 4 (![Fp.lit (1 / 4), Fp.lit (1 / 4)] : Point 2 F32) ![Fp.lit (9 / 4), Fp.lit 1]
      ![Fp.lit 0, Fp.lit 0] (Fp.lit 1) ![1 / 4, 1 / 4] ![9 / 4, 1] (fun _ => 0) 1 ∧
    (∀ i, |cellFromPoint (![Fp.lit (9 / 4), Fp.lit 1] : Point 2 F32) ![Fp.lit 0, Fp.lit 0] (Fp.lit 1) i
      - cellFromPoint (![Fp.lit (1 / 4), Fp.lit (1 / 4)] : Point 2 F32) ![Fp.lit 0, Fp.lit 0] (Fp.lit 1) i| ≤ (2 : ℕ)) ∧
    ClearSegment (fun _ => 0) (![1 / 4, 1 / 4] : Fin 2 → ℚ) ![9 / 4, 1] 1
      ((5 * 4 + (2 : ℕ) ^ 2 + 10 * (2 : ℕ) + 23) / 2 ^ 24 * 1) ∧
    Scalar.lt (lit 0) (Fp.lit 0 : F32) = false ∧ Scalar.lt (lit 0) (Fp.lit 2 : F32) = true ∧
    castRay 4 (![Fp.lit (1 / 4), Fp.lit (1 / 4)] : Point 2 F32) ![Fp.lit (9 / 4), Fp.lit 1]
      ⟨![Fp.lit 0, Fp.lit 0], ![Fp.lit 9, Fp.lit 9]⟩ (Fp.lit 1) (Fp.lit 0)
      = .ok ([![0, 0], ![1, 0], ![1, 1]], some ![2, 1]) := by
  refine ⟨⟨by decide +kernel, by norm_num, by norm_num, by norm_num, by norm_num, by decide +kernel, by decide +kernel,
    by decide +kernel, ?_, ?_, ?_, ?_⟩, by decide +kernel, clear_example (by norm_num) (by norm_num),
    by decide +kernel, by decide +kernel, by decide +kernel⟩
  · intro i; fin_cases i <;> norm_num
  · intro i; fin_cases i <;> norm_num
  · intro i; fin_cases i <;> norm_num
  · intro i; right; fin_cases i <;> norm_num

end Verif.Props
