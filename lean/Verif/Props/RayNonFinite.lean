import Verif.Lemmas.NonFinite
import Verif.Props.RayF32
import Verif.Props.Ray

/-!
# C26, C22: rays whose length is NaN or infinite

`cast_ray` does not check its points. In f32 (every rounding as in the code):

* a NaN coordinate anywhere, or an infinite last coordinate of the end, sends the ray straight down the
  last axis, wherever the end is;
* an infinite coordinate on another axis, or a finite ray so long that its squared length overflows,
  leaves no axis to step along, and the loop never ends, range limit or not.

So the property as stated is false; the theorems say exactly how.
-/

namespace Verif.Props
open Spec Scalar

variable {D : ℕ} {o e : Point D F32} {bounds : Bounds D F32} {r ml : F32}

/-- Cells straight below `a` along axis `d`: `n` cells, from `a` itself. -/
def column (a : Cell D) (d : Fin D) (n : ℕ) : List (Cell D) :=
  (List.range n).map fun k : ℕ => Function.update a d (a d - k)

lemma column_succ (a : Cell D) (d : Fin D) (n : ℕ) :
    column a d (n + 1) = a :: (List.range n).map fun k : ℕ => Function.update a d (a d - (k + 1)) := by
  unfold column
  rw [List.range_succ_eq_map, List.map_cons, List.map_map]
  congr 1
  simp

lemma down_of_dir (hD : D = 2 ∨ D = 3) {d : Fin D} (hd : ∀ j, j ≤ d) (hnan : rayDir o e d = .nan)
    (hdir : ∀ j, rayDir o e j = .nan ∨ (rayDir o e j).Is 0) {ray : List (Cell D)} {x : Option (Cell D)}
    (h : Casts o e bounds r ml ray x) : ray = column (cellFromPoint o bounds.min r) d ray.length := by
  obtain ⟨fuel, h⟩ := h
  unfold castRay at h
  rw [if_pos hD] at h
  dsimp only at h
  split_ifs at h with h1
  · cases h; rfl
  · rw [M.bind_eq_ok] at h
    obtain ⟨⟨rest, y⟩, h2, h⟩ := h
    cases h
    have h3 := castLoop_down hD hd (s_nan hnan) (t := t0 o e bounds r) (fun j => (hdir j).imp t0_nan t0_zero)
      (t0_nan hnan) h2
    rw [List.length_cons, column_succ]
    conv_lhs => rw [h3]

/-- C26 is false for NaN: with a NaN coordinate in the end or in the origin, whatever `cast_ray` reports
as free lies straight below the origin's cell along the last axis. -/
theorem C26_nan_walks_down (hD : D = 2 ∨ D = 3) {d : Fin D} (hd : ∀ j, j ≤ d)
    (hnan : ∃ i, e i = .nan ∨ o i = .nan) {ray : List (Cell D)} {x : Option (Cell D)}
    (h : Casts o e bounds r ml ray x) : ray = column (cellFromPoint o bounds.min r) d ray.length := by
  obtain ⟨i, hi⟩ := hnan
  exact down_of_dir hD hd (rayDir_nan hD hi d) (fun j => .inl (rayDir_nan hD hi j)) h

lemma sub_notNaN (ho : ∀ i, (o i).isFin = true) (he : ∀ i, e i ≠ .nan) (j : Fin D) :
    (e j -. o j : F32).isNaN = false := by
  change (Fp.sub (e j) (o j)).isNaN = false
  have hoj := Fp.isFin_is (ho j)
  cases hj : e j with
  | nan => exact absurd hj (he j)
  | inf b => rw [Fp.inf_sub hoj]; rfl
  | fin q nz h1 h2 => exact Fp.Is.sub_notNaN ⟨nz, h1, h2, rfl⟩ hoj

lemma norm_of_inf (hD : D = 2 ∨ D = 3) (ho : ∀ i, (o i).isFin = true) (he : ∀ i, e i ≠ .nan) {i : Fin D}
    {b : Bool} (hi : e i = .inf b) : norm (fun i => e i -. o i) = (.inf false : F32) := by
  have h1 : normSquared (fun i => e i -. o i) = (.inf false : F32) := by
    refine normSquared_inf hD (i := i) (sub_notNaN ho he) ?_
    change Fp.mul (Fp.sub (e i) (o i)) (Fp.sub (e i) (o i)) = _
    rw [hi, Fp.inf_sub (Fp.isFin_is (ho i))]
    simp [Fp.mul]
  unfold norm
  rw [h1]; rfl

lemma dir_of_norm (ho : ∀ i, (o i).isFin = true) (he : ∀ i, e i ≠ .nan)
    (hn : norm (fun i => e i -. o i) = (.inf false : F32)) (j : Fin D) :
    rayDir o e j = .nan ∨ (rayDir o e j).Is 0 := by
  have h1 := sub_notNaN ho he j
  cases hj : (e j -. o j : F32) with
  | nan => rw [hj] at h1; cases h1
  | inf b' => exact .inl ((rayDir_inf hn j).2 b' hj)
  | fin q nz h1 h2 => exact .inr ((rayDir_inf hn j).1 (by rw [hj]; rfl))

/-- C26 is false for an infinite last coordinate, of either sign: the ray goes straight down the last axis. -/
theorem C26_inf_walks_down (hD : D = 2 ∨ D = 3) {d : Fin D} (hd : ∀ j, j ≤ d)
    (ho : ∀ i, (o i).isFin = true) (he : ∀ i, e i ≠ .nan) {b : Bool} (hinf : e d = .inf b)
    {ray : List (Cell D)} {x : Option (Cell D)}
    (h : Casts o e bounds r ml ray x) : ray = column (cellFromPoint o bounds.min r) d ray.length := by
  have hn := norm_of_inf hD ho he hinf
  refine down_of_dir hD hd ((rayDir_inf hn d).2 b ?_) (dir_of_norm ho he hn) h
  change Fp.sub (e d) (o d) = _
  rw [hinf, Fp.inf_sub (Fp.isFin_is (ho d))]

lemma forever_of_dir (hD : D = 2 ∨ D = 3) {d : Fin D} (hd : ∀ j, j ≤ d) (hzero : (rayDir o e d).Is 0)
    (hdir : ∀ j, rayDir o e j = .nan ∨ (rayDir o e j).Is 0)
    (hne : cellFromPoint o bounds.min r ≠ cellFromPoint e bounds.min r)
    (hnear : Scalar.lt (lit 0) ml = true → ¬ Beyond o bounds r ml (cellFromPoint o bounds.min r)) :
    CastsForever o e bounds r ml := by
  intro fuel
  have hf : (rayCtx o e bounds r ml).tooFar (cellFromPoint o bounds.min r) = false := by
    unfold RayCtx.tooFar
    change ((lit 0 <. ml) && ((ml *. ml) <.
      normSquared fun j => pointFromCell (cellFromPoint o bounds.min r) bounds.min r j -. o j)) = false
    cases h1 : (lit 0 <. ml) with
    | false => rfl
    | true =>
      have h2 := hnear h1
      unfold Beyond at h2
      rw [Bool.not_eq_true] at h2
      rw [Bool.true_and]; exact h2
  have h1 := castLoop_forever (rayCtx_good o e bounds r ml) (t0_good o e bounds r ml) hne hf
    (selDim_last hD (fun j => (hdir j).imp t0_nan t0_zero) hd) (s_zero hzero)
    (Fp.toInt_bounds _) fuel
  unfold castRay
  rw [if_pos hD]
  dsimp only
  rw [if_neg hne]
  change (castLoop (rayCtx o e bounds r ml) fuel (cellFromPoint o bounds.min r) (t0 o e bounds r) >>= _) = _
  rw [h1]
  rfl

/-- C26 is false for an infinite coordinate on another axis: `cast_ray` never returns, range limit or not. -/
theorem C26_inf_hangs (hD : D = 2 ∨ D = 3) {d : Fin D} (hd : ∀ j, j ≤ d)
    (ho : ∀ i, (o i).isFin = true) (he : ∀ i, e i ≠ .nan) {i : Fin D} {b : Bool} (hinf : e i = .inf b)
    (hlast : (Fp.sub (e d) (o d)).isFin = true)
    (hne : cellFromPoint o bounds.min r ≠ cellFromPoint e bounds.min r)
    (hnear : Scalar.lt (lit 0) ml = true → ¬ Beyond o bounds r ml (cellFromPoint o bounds.min r)) :
    CastsForever o e bounds r ml := by
  have hn := norm_of_inf hD ho he hinf
  exact forever_of_dir hD hd ((rayDir_inf hn d).1 hlast) (dir_of_norm ho he hn) hne hnear

/-- C22 is false for very long rays, range limit or not: when a coordinate of the end is 2^64 or more from
the origin's, the squared length overflows, the direction is zero, and the loop never ends. -/
theorem C22_overflow_hangs (hD : D = 2 ∨ D = 3) {x y : Fin D → ℚ} (ho : ∀ i, (o i).Is (x i))
    (he : ∀ i, (e i).Is (y i)) (hle : ∀ i, |y i - x i| ≤ 2 ^ 127) {i : Fin D} (hi : 2 ^ 64 ≤ |y i - x i|)
    (hne : cellFromPoint o bounds.min r ≠ cellFromPoint e bounds.min r)
    (hnear : Scalar.lt (lit 0) ml = true → ¬ Beyond o bounds r ml (cellFromPoint o bounds.min r)) :
    CastsForever o e bounds r ml := by
  have hsub : ∀ j, (e j -. o j : F32).Is (b32.rnd (y j - x j)) := fun j =>
    (he j).sub (ho j) (F32.noOvf (hle j))
  have hof : ∀ j, (o j).isFin = true := fun j => (ho j).isFin
  have hen : ∀ j, e j ≠ .nan := fun j h => by
    have := Fp.notNaN_is (he j)
    rw [h] at this; cases this
  have hbig : 2 ^ 64 ≤ |b32.rnd (y i - x i)| := by
    have hrep : b32.Rep (2 ^ 64) := ⟨1, 64, by simp [b32], by simp [b32], by simp [b32], by norm_num⟩
    rcases abs_cases (y i - x i) with ⟨h1, -⟩ | ⟨h1, -⟩
    · rw [h1] at hi
      exact (Fmt.le_rnd_of_rep hrep hi).trans (le_abs_self _)
    · rw [h1] at hi
      have := Fmt.le_rnd_of_rep hrep hi
      rw [Fmt.rnd_neg] at this
      exact this.trans (neg_le_abs _)
  have hn : norm (fun i => e i -. o i) = (.inf false : F32) := by
    have h1 : normSquared (fun i => e i -. o i) = (.inf false : F32) := by
      refine normSquared_inf hD (i := i) (sub_notNaN hof hen) ?_
      obtain ⟨nz, h1, h2, h3⟩ := hsub i
      set v := b32.rnd (y i - x i) with hv
      have h4 : (2 : ℚ) ^ 128 ≤ v * v := by
        rw [← abs_mul_abs_self v]
        calc (2 : ℚ) ^ 128 = 2 ^ 64 * 2 ^ 64 := by norm_num
          _ ≤ _ := by gcongr
      have h5 : (2 : ℚ) ^ 128 ≤ b32.rnd (v * v) := by
        have h6 := Fmt.rnd_mono (f := b32) h4
        have h7 := Fmt.rnd_of_int_mul (f := b32) (m := 1) (e := 128) (by simp [b32]) (by simp [b32])
        norm_num at h6 h7 ⊢
        rw [h7] at h6
        exact h6
      change Fp.mul (e i -. o i : F32) (e i -. o i) = _
      rw [h3]
      change Fp.ofRat _ (v * v) = _
      rw [Fp.ofRat_overflow]
      · simp [mul_self_nonneg]
      · rw [not_lt, abs_of_nonneg (Fmt.rnd_nonneg (mul_self_nonneg v))]
        simpa [b32] using h5
    unfold norm
    rw [h1]; rfl
  obtain ⟨d, hd⟩ : ∃ d : Fin D, ∀ j, j ≤ d := by
    rcases hD with rfl | rfl
    · exact ⟨1, by decide⟩
    · exact ⟨2, by decide⟩
  exact forever_of_dir hD hd ((rayDir_inf hn d).1 (hsub d).isFin) (dir_of_norm hof hen hn) hne hnear

/-! ## Concrete cases -/

/-- From (0, 0), cells of side 1, range limit 3, end (0, +∞): the ray goes the other way, down to (0, -3). -/
example : castRay 5 (![Fp.lit 0, Fp.lit 0] : Point 2 F32) ![Fp.lit 0, .inf false]
    ⟨![Fp.lit 0, Fp.lit 0], ![Fp.lit 9, Fp.lit 9]⟩ (Fp.lit 1) (Fp.lit 3) =
      .ok ([![0, 0], ![0, -1], ![0, -2], ![0, -3]], none) := by decide +kernel

/-- The same with a NaN in the first coordinate. -/
example : castRay 5 (![Fp.lit 0, Fp.lit 0] : Point 2 F32) ![.nan, Fp.lit 2]
    ⟨![Fp.lit 0, Fp.lit 0], ![Fp.lit 9, Fp.lit 9]⟩ (Fp.lit 1) (Fp.lit 3) =
      .ok ([![0, 0], ![0, -1], ![0, -2], ![0, -3]], none) := by decide +kernel

/-- End (+∞, 2), range limit 3: no return. -/
example : CastsForever (![Fp.lit 0, Fp.lit 0] : Point 2 F32) ![.inf false, Fp.lit 2]
    ⟨![Fp.lit 0, Fp.lit 0], ![Fp.lit 9, Fp.lit 9]⟩ (Fp.lit 1) (Fp.lit 3) :=
  C26_inf_hangs (d := 1) (i := 0) (b := false) (.inl rfl) (by decide) (by decide +kernel) (by decide +kernel)
    rfl (by decide +kernel) (by decide +kernel) (by unfold Beyond; decide +kernel)

/-- End (2^64, 2), range limit 3: no return. -/
example : CastsForever (![Fp.lit 0, Fp.lit 0] : Point 2 F32) ![Fp.lit (2 ^ 64), Fp.lit 2]
    ⟨![Fp.lit 0, Fp.lit 0], ![Fp.lit 9, Fp.lit 9]⟩ (Fp.lit 1) (Fp.lit 3) :=
  C22_overflow_hangs (x := ![0, 0]) (y := ![2 ^ 64, 2]) (i := 0) (.inl rfl)
    (by intro i; fin_cases i <;> exact F32.zero_is)
    (by
      intro i; fin_cases i
      · exact Fp.ofRat_is_rep ⟨1, 64, by simp [b32], by simp [b32], by simp [b32], by norm_num⟩
      · exact F32.lit_int_is (n := 2) (by norm_num))
    (by intro i; fin_cases i <;> norm_num) (by norm_num) (by decide +kernel)
    (by unfold Beyond; decide +kernel)

/-! ## What remains true -/

/-- C26, partial: with a positive range limit, and the origin in the working range, `cast_ray` does return
when a coordinate of the end is NaN or its last coordinate is infinite. (By `C20_within_limit` the cells
reported are then within the limit.) Not true, and so missing: that it returns for infinite coordinates on
the other axes (`C26_inf_hangs`), and that the cells are near the ray (`C26_nan_walks_down`). -/
theorem C26_returns_partial (hD : D = 2 ∨ D = 3) {d : Fin D} (hd : ∀ j, j ≤ d)
    {M ρ lam : ℚ} {x q : Fin D → ℚ} (h : RayRange M o o bounds.min r x x q ρ)
    (hbad : (∃ i, e i = .nan) ∨ ∃ b, e d = .inf b)
    (hml : ml.Is lam) (h0 : 0 < lam) (hle : lam ≤ M * ρ) : ∃ ray res, Casts o e bounds r ml ray res := by
  have hdir : rayDir o e d = .nan ∧ ∀ j, rayDir o e j = .nan ∨ (rayDir o e j).Is 0 := by
    by_cases hn : ∃ i, e i = .nan
    · obtain ⟨i, hi⟩ := hn
      exact ⟨rayDir_nan hD (.inl hi) d, fun j => .inl (rayDir_nan hD (.inl hi) j)⟩
    · obtain ⟨b, hb⟩ := hbad.resolve_left hn
      push Not at hn
      have ho : ∀ i, (o i).isFin = true := fun i => (h.origin i).isFin
      have hinf := norm_of_inf hD ho hn hb
      refine ⟨(rayDir_inf hinf d).2 b ?_, dir_of_norm ho hn hinf⟩
      change Fp.sub (e d) (o d) = _
      rw [hb, Fp.inf_sub (Fp.isFin_is (ho d))]
  obtain ⟨hdn, hdir⟩ := hdir
  set oc := cellFromPoint o bounds.min r with hoc
  by_cases hne : oc = cellFromPoint e bounds.min r
  · exact ⟨_, _, C16_same_cell hD hne ml⟩
  set c := rayCtx o e bounds r ml with hc
  have hoa : ∀ i, |oc i| ≤ 2 ^ 20 + 1 := fun i =>
    cell_small h.toRes (h.offset i) h.M_lo h.M_hi (h.origin i) (h.origin_near i)
  have hs : c.s d = -1 := s_nan hdn
  have htd : ∀ k, c.tAt (t0 o e bounds r) d k = .nan := by
    intro k
    induction k with
    | zero => exact t0_nan hdn
    | succ k ih =>
      change Fp.add (c.tAt (t0 o e bounds r) d k) _ = _
      rw [ih]; exact Fp.nan_add
  have hret := castLoop_returns c (a := oc) (t := t0 o e bounds r)
    (Good := fun k => (∀ i, |c.cellAt oc k i| < 2 ^ 22) ∧ ∀ i, i ≠ d → k i = 0) (K := 2 ^ 23)
    (by
      rintro k ⟨h1, h2⟩
      have h3 := abs_lt.mp (h1 d)
      have h4 := abs_le.mp (hoa d)
      unfold RayCtx.cellAt at h3
      rw [hs] at h3
      have h5 : ∑ i, k i = k d := Finset.sum_eq_single d (fun i _ hi => h2 i hi) (by simp)
      omega)
    (by
      rintro k ⟨h1, h2⟩
      have hsel : selDim (fun i => c.tAt (t0 o e bounds r) i (k i)) = some d := by
        refine selDim_last hD ?_ hd
        intro j
        by_cases hj : j = d
        · subst hj; exact .inl (htd _)
        · rw [h2 j hj]
          exact (hdir j).imp t0_nan t0_zero
      have hnext : ∀ i, |c.cellAt oc (Function.update k d (k d + 1)) i| ≤ 2 ^ 22 := by
        intro i
        have h5 := abs_lt.mp (h1 i)
        rw [← c.cellAt_step]
        by_cases hi : i = d
        · subst hi
          rw [Function.update_self, abs_le, hs]
          constructor <;> omega
        · rw [Function.update_of_ne hi]; exact (h1 i).le
      refine ⟨d, hsel, ?_, ?_⟩
      · apply inIsize_of_abs
        have h5 := abs_lt.mp (h1 d)
        rw [abs_le, hs]
        constructor <;> omega
      · intro hnf
        refine ⟨fun i => lt_of_le_of_ne (hnext i) fun h5 => ?_, ?_⟩
        · have h6 : c.tooFar (c.cellAt oc (Function.update k d (k d + 1))) = true :=
            far_cell hD h hml h0 hle hnext h5
          rw [h6] at hnf
          cases hnf
        · intro i hi
          rw [Function.update_of_ne hi]; exact h2 i hi)
  have hz : c.cellAt oc (fun _ => 0) = oc := by
    funext i; simp [RayCtx.cellAt]
  obtain ⟨⟨l, res⟩, hr⟩ := hret (2 ^ 23) (fun _ => 0) ⟨by
    intro i
    rw [hz]
    exact lt_of_le_of_lt (hoa i) (by norm_num), fun _ _ => rfl⟩ (by omega)
  rw [hz] at hr
  exact ⟨_, _, _, castRay_path hD hne hr⟩

example : ∃ x q ρ, RayRange 100 (![Fp.lit 0, Fp.lit 1] : Point 2 F32) ![Fp.lit 0, Fp.lit 1]
    ![Fp.lit 0, Fp.lit 0] (Fp.lit 1) x x q ρ ∧ (Fp.lit 3 : F32).Is 3 ∧ (3 : ℚ) ≤ 100 * ρ :=
  ⟨_, _, _, rayRange_val (by decide +kernel), F32.lit_int_is (n := 3) (by norm_num), by decide +kernel⟩

end Verif.Props
