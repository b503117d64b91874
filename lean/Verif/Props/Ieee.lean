import Verif.Spec.Ieee
import Verif.Lemmas.Sqrt
import Verif.Props.VizMain

/-!
# C94: the arithmetic is that of IEEE 754
-/

namespace Verif.Props
open Spec Kitti Viz

variable {f g : Fmt}

lemma digits_rep {q : ℚ} {m e : ℤ} (h : Digits f q m e) : f.Rep q := ⟨m, e, h.short, h.low, h.high, h.value⟩

/-- The digits of a rounded number. -/
lemma digits_rnd {q : ℚ} (h : |f.rnd q| < 2 ^ f.emax) : ∃ m e, Digits f (f.rnd q) m e ∧
    (Even (roundEven (q / 2 ^ f.ulpExp q)) → Even m) := by
  have hpp := f.prec_pos
  have hql := f.qmin_le
  rcases eq_or_ne q 0 with rfl | hq0
  · refine ⟨0, f.qmin, ⟨by simp, by simp, le_rfl, hql, .inr rfl⟩, fun _ => by simp⟩
  obtain ⟨hl, hu⟩ := Fmt.log_bounds hq0
  set e := f.ulpExp q with he
  set N := roundEven (q / 2 ^ e) with hN
  have hpos := two_zpow_pos e
  have hr : f.rnd q = N * 2 ^ e := rfl
  have hle : f.qmin ≤ e := le_max_right _ _
  have hlog : Int.log 2 |q| - (f.prec - 1) ≤ e := le_max_left _ _
  have hup : |N| ≤ 2 ^ f.prec := by
    have h1 : |q / 2 ^ e| ≤ ((2 ^ f.prec : ℤ) : ℚ) := by
      rw [abs_div, abs_of_pos hpos, div_le_iff₀ hpos]
      push_cast
      rw [← zpow_natCast, ← two_zpow_add]
      exact hu.le.trans (two_zpow_le (by omega))
    rw [abs_le] at h1 ⊢
    constructor
    · exact int_le_roundEven (by push_cast at h1 ⊢; exact h1.1)
    · exact roundEven_le_int h1.2
  have hdn : e = f.qmin ∨ 2 ^ (f.prec - 1) ≤ |N| := by
    rcases max_cases (Int.log 2 |q| - ((f.prec : ℤ) - 1)) f.qmin with ⟨h4, -⟩ | ⟨h4, -⟩
    · right
      have h5 : e = Int.log 2 |q| - ((f.prec : ℤ) - 1) := h4
      have h1 : ((2 ^ (f.prec - 1) : ℤ) : ℚ) ≤ |q / 2 ^ e| := by
        rw [abs_div, abs_of_pos hpos, le_div_iff₀ hpos]
        push_cast
        rw [← zpow_natCast, ← two_zpow_add]
        refine (two_zpow_le ?_).trans hl
        push_cast [Nat.cast_sub hpp.le]
        omega
      rcases le_or_gt 0 (q / 2 ^ e) with s | s
      · rw [abs_of_nonneg s] at h1
        exact (int_le_roundEven h1).trans (le_abs_self _)
      · rw [abs_of_neg s] at h1
        have := int_le_roundEven h1
        rw [roundEven_neg] at this
        exact this.trans (neg_le_abs _)
    · exact .inl h4
  have hsm : ∀ {k M : ℤ}, 2 ^ (f.prec - 1) ≤ |M| → |(M : ℚ) * 2 ^ k| < 2 ^ f.emax → k + f.prec ≤ f.emax := by
    intro k M h1 h2
    rw [abs_mul, abs_of_pos (two_zpow_pos k)] at h2
    have h3 : (2 : ℚ) ^ ((f.prec : ℤ) - 1) ≤ |(M : ℚ)| := by
      have : ((2 ^ (f.prec - 1) : ℤ) : ℚ) ≤ ((|M| : ℤ) : ℚ) := by exact_mod_cast h1
      push_cast at this
      rw [← zpow_natCast] at this
      push_cast [Nat.cast_sub hpp.le] at this
      exact this
    have h4 : (2 : ℚ) ^ ((f.prec : ℤ) - 1 + k) < 2 ^ f.emax := by
      rw [two_zpow_add]
      exact lt_of_le_of_lt (by have := two_zpow_pos k; gcongr) h2
    have := two_zpow_lt_iff.mp h4
    omega
  rcases hup.lt_or_eq with hlt | heq
  · refine ⟨N, e, ⟨hr, hlt, hle, ?_, hdn.symm⟩, id⟩
    rcases hdn with h1 | h1
    · omega
    · exact hsm h1 (by rwa [← hr])
  · have hp1 : f.prec - 1 + 1 = f.prec := by omega
    have heven : Even N := by
      have : Even |N| := by rw [heq]; exact (even_two).pow_of_ne_zero (by omega)
      exact even_abs.mp this
    obtain ⟨K, hK⟩ := heven
    have hK2 : |K| = 2 ^ (f.prec - 1) := by
      rw [hK, ← two_mul, abs_mul, ← hp1, pow_succ] at heq
      have : |(2 : ℤ)| = 2 := by norm_num
      rw [this] at heq
      omega
    have hval : f.rnd q = K * 2 ^ (e + 1) := by
      rw [hr, hK, two_zpow_add]; push_cast; ring
    refine ⟨K, e + 1, ⟨hval, ?_, by omega, hsm hK2.ge (by rwa [← hval]), .inl hK2.ge⟩, fun _ => ?_⟩
    · rw [hK2]; exact pow_lt_pow_right₀ (by norm_num) (by omega)
    · have : Even |K| := by rw [hK2]; exact (even_two).pow_of_ne_zero (by omega)
      exact even_abs.mp this

/-- Every value of the format has digits. -/
lemma rep_digits {q : ℚ} (h : f.Rep q) : ∃ m e, Digits f q m e := by
  have h1 := Fmt.rnd_of_rep h
  obtain ⟨m, e, h2, -⟩ := digits_rnd (f := f) (q := q) (by rw [h1]; exact Fmt.rep_abs_lt h)
  exact ⟨m, e, by rwa [h1] at h2⟩

lemma roundEven_tie {x : ℚ} {n : ℤ} (h : |(roundEven x : ℚ) - x| = |(n : ℚ) - x|) (hne : n ≠ roundEven x) :
    Even (roundEven x) := by
  have h1 := Int.floor_le x
  have h2 := Int.lt_floor_add_one x
  have h3 := roundEven_err x
  have h4 : |((n - roundEven x : ℤ) : ℚ)| ≤ 1 := by
    push_cast
    calc |(n : ℚ) - roundEven x| = |((n : ℚ) - x) - (roundEven x - x)| := by congr 1; ring
      _ ≤ |(n : ℚ) - x| + |(roundEven x : ℚ) - x| := abs_sub _ _
      _ ≤ 1 := by rw [← h]; linarith
  have h5 : |n - roundEven x| ≤ 1 := by exact_mod_cast h4
  have h6 : (roundEven x : ℚ) + n = 2 * x := by
    rcases abs_eq_abs.mp h with h | h
    · exact absurd (by exact_mod_cast (by linarith : (n : ℚ) = roundEven x)) hne
    · linarith
  have h7 : n = roundEven x + 1 ∨ n = roundEven x - 1 := by
    rw [abs_le] at h5; omega
  rw [Int.even_iff]
  revert h6 h7
  unfold roundEven
  dsimp only
  split_ifs with c1 c2 c3
  · intro h6 h7
    rcases h7 with h7 | h7 <;> rw [h7] at h6 <;> push_cast at h6 <;> exfalso <;> linarith
  · intro h6 h7
    rcases h7 with h7 | h7 <;> rw [h7] at h6 <;> push_cast at h6 <;> exfalso <;> linarith
  · exact fun _ _ => c3
  · intro _ _; omega

/-- The model's rounding is to nearest, ties to even, among the values of the format. -/
lemma nearest_rnd {q : ℚ} (h : |f.rnd q| < 2 ^ f.emax) : Nearest f (q : ℝ) (f.rnd q) := by
  obtain ⟨m, e, h1, h2⟩ := digits_rnd h
  refine ⟨⟨m, e, h1⟩, fun r m' k hr hne => ?_⟩
  have hcast : ∀ a b : ℚ, |(a : ℝ) - b| = ((|a - b| : ℚ) : ℝ) := fun a b => by push_cast; rfl
  rw [hcast, hcast]
  have hn := Fmt.rnd_nearest (f := f) (q := q) (digits_rep hr)
  rcases hn.lt_or_eq with hlt | heq
  · exact .inl (by exact_mod_cast hlt)
  refine .inr ⟨by exact_mod_cast heq, m, e, h1, h2 ?_⟩
  rcases eq_or_ne q 0 with rfl | hq0
  · simp only [Fmt.rnd_zero, sub_zero, abs_zero] at heq hne
    exact absurd (abs_eq_zero.mp heq.symm) hne
  obtain ⟨hl, hu⟩ := Fmt.log_bounds hq0
  set E := f.ulpExp q with hE
  have hpos := two_zpow_pos E
  have hrd : f.rnd q = roundEven (q / 2 ^ E) * 2 ^ E := rfl
  rcases le_or_gt E k with c | c
  · have hint : r = ((m' * 2 ^ (k - E).toNat : ℤ) : ℚ) * 2 ^ E := by
      have h2 := two_zpow_int (k := k - E) (by omega)
      push_cast at h2 ⊢
      rw [h2, mul_assoc, ← two_zpow_add, hr.value]
      congr 2; ring
    set n : ℤ := m' * 2 ^ (k - E).toNat
    refine roundEven_tie (n := n) ?_ fun h => hne (by rw [hint, hrd, h])
    rw [hint, hrd] at heq
    have e1 : ∀ z : ℚ, z * 2 ^ E - q = (z - q / 2 ^ E) * 2 ^ E := fun z => by field_simp
    rw [e1, e1, abs_mul, abs_mul] at heq
    exact mul_right_cancel₀ (abs_pos.mpr hpos.ne').ne' heq
  · exfalso
    have he2 : E = Int.log 2 |q| - (f.prec - 1) := by
      rcases max_cases (Int.log 2 |q| - ((f.prec : ℤ) - 1)) f.qmin with ⟨h4, -⟩ | ⟨h4, -⟩
      · exact h4
      · have : E = f.qmin := h4
        have := hr.low
        omega
    set L := Int.log 2 |q| with hL
    have hpp := f.prec_pos
    have hlow := hr.low
    -- the power of two below `q`, with its sign, is a value and nearer than `r`
    have hrl : |r| < 2 ^ L := by
      rw [hr.value, abs_mul, abs_of_pos (two_zpow_pos k)]
      have h1 : |(m' : ℚ)| < 2 ^ (f.prec : ℤ) := by rw [zpow_natCast]; exact_mod_cast hr.short
      calc |(m' : ℚ)| * 2 ^ k < 2 ^ (f.prec : ℤ) * 2 ^ k := by have := two_zpow_pos k; gcongr
        _ = 2 ^ ((f.prec : ℤ) + k) := by rw [two_zpow_add]
        _ ≤ _ := two_zpow_le (by omega)
    have hLm : L < f.emax := by
      have h3 : (2 : ℚ) ^ L = f.rnd (2 ^ L) := by
        have h7 := Fmt.rnd_of_int_mul (f := f) (m := 1) (e := L)
          (by rw [abs_one]; exact one_le_pow₀ (by norm_num)) (by omega)
        simpa using h7.symm
      have h4 : (2 : ℚ) ^ L ≤ |f.rnd q| := by
        rcases le_or_gt 0 q with s | s
        · rw [abs_of_nonneg s] at hl
          exact (h3.le.trans (Fmt.rnd_mono hl)).trans (le_abs_self _)
        · rw [abs_of_neg s] at hl
          have := Fmt.rnd_mono (f := f) hl
          rw [Fmt.rnd_neg] at this
          exact (h3.le.trans this).trans (neg_le_abs _)
      exact two_zpow_lt_iff.mp (h4.trans_lt h)
    have hrepL : f.Rep (2 ^ L) := by
      refine ⟨2 ^ (f.prec - 1), L - (f.prec - 1), ?_, by omega, by omega, ?_⟩
      · rw [abs_of_nonneg (by positivity)]; exact pow_lt_pow_right₀ (by norm_num) (by omega)
      · push_cast
        rw [← zpow_natCast, ← two_zpow_add]
        congr 1
        push_cast [Nat.cast_sub hpp.le]
        ring
    have h5 : |f.rnd q - q| ≤ |q| - 2 ^ L := by
      rcases le_or_gt 0 q with s | s
      · have := Fmt.rnd_nearest (f := f) (q := q) hrepL
        rw [abs_of_nonneg s] at hl ⊢
        rwa [abs_of_nonpos (a := (2 : ℚ) ^ L - q) (by linarith), neg_sub] at this
      · have := Fmt.rnd_nearest (f := f) (q := q) (Fmt.rep_neg hrepL)
        rw [abs_of_neg s] at hl ⊢
        rw [abs_of_nonneg (a := -(2 : ℚ) ^ L - q) (by linarith)] at this
        linarith
    have h6 := abs_sub_abs_le_abs_sub q r
    rw [abs_sub_comm q r] at h6
    linarith

lemma rnd_overflow_pos {q : ℚ} (h0 : 0 ≤ q) : f.rnd q < 2 ^ f.emax ↔ q < 2 ^ f.emax - 2 ^ (f.emax - f.prec - 1) := by
  have hpp := f.prec_pos
  have hql := f.qmin_le
  set u : ℚ := 2 ^ (f.emax - f.prec - 1) with hu
  have hup : 0 < u := two_zpow_pos _
  have e1 : (2 : ℚ) ^ (f.emax - f.prec) = 2 * u := by
    rw [hu, show f.emax - (f.prec : ℤ) = 1 + (f.emax - f.prec - 1) by ring, two_zpow_add]; norm_num
  have e2 : (2 : ℚ) ^ f.emax = 2 ^ f.prec * (2 * u) := by
    rw [← e1, ← zpow_natCast, ← two_zpow_add]; congr 1; ring
  have hp2 : (4 : ℚ) ≤ 2 ^ f.prec := by
    calc (4 : ℚ) = 2 ^ 2 := by norm_num
      _ ≤ 2 ^ f.prec := pow_le_pow_right₀ (by norm_num) (by omega)
  -- numbers in the last binade
  have key : ∀ {q : ℚ}, (2 ^ f.prec - 1) * (2 * u) < q → q < 2 ^ f.emax →
      f.ulpExp q = f.emax - f.prec := by
    intro q h1 h2
    have hq : 0 < q := lt_trans (by have : (0 : ℚ) < 2 ^ f.prec - 1 := by linarith
                                    positivity) h1
    have hlog : Int.log 2 |q| = f.emax - 1 := by
      apply Fmt.log_unique
      · rw [abs_of_pos hq]
        have : (2 : ℚ) ^ (f.emax - 1) = 2 ^ f.prec * u := by
          rw [hu, ← zpow_natCast, ← two_zpow_add]; congr 1; ring
        rw [this]
        nlinarith
      · rw [abs_of_pos hq, sub_add_cancel]; exact h2
    unfold Fmt.ulpExp
    rw [hlog]
    omega
  constructor
  · intro h
    by_contra hc
    push Not at hc
    have hmono := Fmt.rnd_mono (f := f) hc
    have hb : (2 ^ f.prec - 1) * (2 * u) < 2 ^ f.emax - u := by rw [e2]; linarith
    have hul := key hb (by linarith)
    have hx : (2 ^ f.emax - u) / 2 ^ (f.emax - f.prec) = ((2 ^ f.prec - 1 : ℤ) : ℚ) + 1 / 2 := by
      rw [e1, e2]; push_cast; field_simp; ring
    have hfl : ⌊((2 ^ f.prec - 1 : ℤ) : ℚ) + 1 / 2⌋ = 2 ^ f.prec - 1 := by
      rw [Int.floor_eq_iff]; constructor <;> linarith
    have hodd : ((2 : ℤ) ^ f.prec - 1) % 2 ≠ 0 := by
      have : (2 : ℤ) ∣ 2 ^ f.prec := dvd_pow_self 2 (by omega)
      omega
    have hr : roundEven ((2 ^ f.emax - u) / 2 ^ (f.emax - f.prec)) = 2 ^ f.prec := by
      rw [hx]
      unfold roundEven
      dsimp only
      rw [hfl, if_neg (by linarith), if_neg (by linarith), if_neg hodd]
      ring
    have : f.rnd (2 ^ f.emax - u) = 2 ^ f.emax := by
      unfold Fmt.rnd
      rw [hul, hr]
      push_cast
      rw [← zpow_natCast, ← two_zpow_add]; congr 1; ring
    rw [this] at hmono
    linarith
  · intro h
    rcases le_or_gt q f.maxVal with c | c
    · have := Fmt.rnd_lt_of_le (f := f) (q := q) (by rwa [abs_of_nonneg h0])
      exact (le_abs_self _).trans_lt this
    · unfold Fmt.maxVal at c
      rw [e1] at c
      have hul := key c (by linarith)
      have hx1 : ((2 ^ f.prec - 1 : ℤ) : ℚ) < q / 2 ^ (f.emax - f.prec) := by
        rw [e1, lt_div_iff₀ (by positivity)]; push_cast; exact c
      have hx2 : q / 2 ^ (f.emax - f.prec) < ((2 ^ f.prec - 1 : ℤ) : ℚ) + 1 / 2 := by
        rw [e1, div_lt_iff₀ (by positivity)]; push_cast; rw [e2] at h; linarith
      have hfl : ⌊q / 2 ^ (f.emax - f.prec)⌋ = 2 ^ f.prec - 1 := by
        rw [Int.floor_eq_iff]; constructor <;> linarith
      have hr : roundEven (q / 2 ^ (f.emax - f.prec)) = 2 ^ f.prec - 1 := by
        unfold roundEven
        dsimp only
        rw [hfl, if_pos (by linarith)]
      unfold Fmt.rnd
      rw [hul, hr, e1, e2]
      push_cast
      linarith

/-- Where rounding overflows. -/
lemma rnd_overflow {q : ℚ} : |f.rnd q| < 2 ^ f.emax ↔ |(q : ℝ)| < overflowAt f := by
  have h : |f.rnd q| = f.rnd |q| := by
    rcases le_or_gt 0 q with s | s
    · rw [abs_of_nonneg s, abs_of_nonneg (Fmt.rnd_nonneg s)]
    · rw [abs_of_neg s, Fmt.rnd_neg, abs_of_nonpos]
      have := Fmt.rnd_nonneg (f := f) (q := -q) (by linarith)
      rw [Fmt.rnd_neg] at this
      linarith
  rw [h, rnd_overflow_pos (abs_nonneg q), overflowAt, ← Rat.cast_lt (K := ℝ)]
  push_cast
  rfl

/-- The model's rounding is the correct one. -/
lemma ofRat_rounds (zs : Bool) (q : ℚ) : Rounds f (q : ℝ) (Fp.ofRat zs q) := by
  by_cases h : |f.rnd q| < 2 ^ f.emax
  · refine .near (rnd_overflow.mp h) (Fp.ofRat_is h) (nearest_rnd h) fun h0 h1 => ?_
    have h1 : q ≠ 0 := by exact_mod_cast h1
    unfold Fp.ofRat
    rw [dif_pos h]
    simp [Fp.sgn, h0, h1]
  · have h2 : Fp.ofRat zs q = (Fp.inf (decide (q < 0)) : Fp f) := by unfold Fp.ofRat; rw [dif_neg h]
    rw [h2]
    refine .over (not_lt.mp fun h3 => h (rnd_overflow.mpr h3)) ?_
    simp

lemma ofRat_sgn (zs : Bool) (q : ℚ) : (Fp.ofRat zs q : Fp f).sgn = if q = 0 then zs else decide (q < 0) := by
  unfold Fp.ofRat
  split_ifs with h h1 h1
  · subst h1; simp [Fp.sgn]
  · simp only [Fp.sgn]
    by_cases h2 : f.rnd q = 0
    · simp [h2]
    · simp only [h2, decide_false, Bool.false_and, Bool.false_or, decide_eq_decide]
      rcases lt_or_ge q 0 with s | s
      · have := Fmt.rnd_nonneg (f := f) (q := -q) (by linarith)
        rw [Fmt.rnd_neg] at this
        exact ⟨fun _ => s, fun _ => lt_of_le_of_ne (by linarith) h2⟩
      · have := Fmt.rnd_nonneg (f := f) s
        exact ⟨fun h => by linarith, fun h => by linarith⟩
  · subst h1
    exact absurd (by rw [Fmt.rnd_zero, abs_zero]; exact two_zpow_pos _) h
  · rfl

/-! ## The specification determines the result -/

/-- Digits are unique. -/
lemma digits_unique {q : ℚ} {m e m' e' : ℤ} (h : Digits f q m e) (h' : Digits f q m' e') : m = m' ∧ e = e' := by
  have hpp := f.prec_pos
  have key : ∀ {q : ℚ} {m e m' e' : ℤ}, Digits f q m e → Digits f q m' e' → ¬ e < e' := by
    intro q m e m' e' h h' hlt
    have hlow := h.low
    have hf : 2 ^ (f.prec - 1) ≤ |m'| := by
      rcases h'.full with h1 | h1
      · exact h1
      · omega
    have h1 : (m : ℚ) = m' * 2 ^ (e' - e) := by
      have := h.value.symm.trans h'.value
      rw [two_zpow_sub, ← mul_div_assoc, eq_div_iff (two_zpow_pos e).ne']
      exact this
    have h2 : m = m' * 2 ^ (e' - e).toNat := by
      have := two_zpow_int (k := e' - e) (by omega)
      rw [← this] at h1
      exact_mod_cast h1
    have h3 := h.short
    rw [h2, abs_mul, abs_of_pos (a := (2 : ℤ) ^ (e' - e).toNat) (by positivity)] at h3
    have h4 : (2 : ℤ) ≤ 2 ^ (e' - e).toNat := by
      calc (2 : ℤ) = 2 ^ 1 := by norm_num
        _ ≤ _ := pow_le_pow_right₀ (by norm_num) (by omega)
    have h5 : (2 : ℤ) ^ f.prec = 2 ^ (f.prec - 1) * 2 := by rw [← pow_succ]; congr 1; omega
    rw [h5] at h3
    have h6 : (0 : ℤ) < 2 ^ (f.prec - 1) := by positivity
    nlinarith
  have he : e = e' := le_antisymm (not_lt.mp (key h' h)) (not_lt.mp (key h h'))
  subst he
  refine ⟨?_, rfl⟩
  have := h.value.symm.trans h'.value
  have := mul_right_cancel₀ (two_zpow_pos e).ne' this
  exact_mod_cast this

lemma digits_neg {q : ℚ} {m e : ℤ} (h : Digits f q m e) : Digits f (-q) (-m) e :=
  ⟨by rw [h.value]; push_cast; ring, by rw [abs_neg]; exact h.short, h.low, h.high, by rw [abs_neg]; exact h.full⟩

/-- Between two values with even significand there is another one. -/
lemma digits_between {q r : ℚ} {m e m' e' : ℤ} (h : Digits f q m e) (h' : Digits f r m' e') (hm : Even m) (hm' : Even m')
    (h0 : 0 ≤ q) (hlt : q < r) : ∃ s k l, Digits f s k l ∧ q < s ∧ s < r := by
  have hpp := f.prec_pos
  have hpos := two_zpow_pos e
  have hm0 : 0 ≤ m := by
    have h1 := h.value
    by_contra hc
    push Not at hc
    have : (m : ℚ) < 0 := by exact_mod_cast hc
    nlinarith
  have hs : m + 1 < 2 ^ f.prec := by
    have h1 := h.short
    rw [abs_of_nonneg hm0] at h1
    have h2 : Even ((2 : ℤ) ^ f.prec) := (even_two).pow_of_ne_zero (by omega)
    obtain ⟨a, ha⟩ := hm
    obtain ⟨b, hb⟩ := h2
    omega
  have hd : Digits f (((m + 1 : ℤ) : ℚ) * 2 ^ e) (m + 1) e := by
    refine ⟨rfl, by rwa [abs_of_nonneg (by omega)], h.low, h.high, h.full.imp_left fun h1 => ?_⟩
    rw [abs_of_nonneg hm0] at h1
    rw [abs_of_nonneg (by omega)]
    omega
  refine ⟨_, _, _, hd, ?_, ?_⟩
  · rw [h.value]; push_cast; nlinarith
  · -- `r` is a multiple of `2^e` above `q`
    have hee : e ≤ e' := by
      by_contra hc
      push Not at hc
      have hlow := h'.low
      have hf : 2 ^ (f.prec - 1) ≤ |m| := by
        rcases h.full with h1 | h1
        · exact h1
        · omega
      rw [abs_of_nonneg hm0] at hf
      have h1 : r < 2 ^ ((f.prec : ℤ) + e') := by
        rw [h'.value, two_zpow_add, zpow_natCast]
        have h2 : (m' : ℚ) < 2 ^ f.prec := by exact_mod_cast (le_abs_self m').trans_lt h'.short
        have := two_zpow_pos e'
        gcongr
      have h2 : (2 : ℚ) ^ ((f.prec : ℤ) - 1 + e) ≤ q := by
        rw [h.value, two_zpow_add]
        have h3 : ((2 ^ (f.prec - 1) : ℤ) : ℚ) ≤ m := by exact_mod_cast hf
        push_cast at h3
        rw [← zpow_natCast] at h3
        push_cast [Nat.cast_sub hpp.le] at h3
        gcongr
      have := two_zpow_lt_iff.mp ((h2.trans_lt hlt).trans h1)
      omega
    have h1 : r = ((m' * 2 ^ (e' - e).toNat : ℤ) : ℚ) * 2 ^ e := by
      have h2 := two_zpow_int (k := e' - e) (by omega)
      push_cast at h2 ⊢
      rw [h2, mul_assoc, ← two_zpow_add, h'.value]
      congr 2; ring
    set n := m' * 2 ^ (e' - e).toNat with hn
    have hne : Even n := hm'.mul_right _
    have h2 : m < n := by
      rw [h.value, h1] at hlt
      have := lt_of_mul_lt_mul_right hlt hpos.le
      exact_mod_cast this
    have h3 : m + 1 < n := by
      obtain ⟨a, ha⟩ := hm
      obtain ⟨b, hb⟩ := hne
      omega
    rw [h1]
    have : ((m + 1 : ℤ) : ℚ) < n := by exact_mod_cast h3
    gcongr

/-- There is only one nearest value. -/
lemma nearest_unique {v : ℝ} {q r : ℚ} (h : Nearest f v q) (h' : Nearest f v r) : q = r := by
  -- it is enough to exclude `q < r`
  have key : ∀ {v : ℝ} {q r : ℚ}, Nearest f v q → Nearest f v r → ¬ q < r := by
    intro v q r h h' hlt
    obtain ⟨⟨m, e, hd⟩, hq⟩ := h
    obtain ⟨⟨m', e', hd'⟩, hr⟩ := h'
    have h1 := hq r m' e' hd' hlt.ne'
    have h2 := hr q m e hd hlt.ne
    have hlt' : (q : ℝ) < r := by exact_mod_cast hlt
    have hev : |(q : ℝ) - v| = |(r : ℝ) - v| ∧ Even m ∧ Even m' := by
      rcases h1 with h1 | ⟨h1, a, b, ha, ha'⟩
      · rcases h2 with h2 | ⟨h2, -⟩ <;> linarith
      · rcases h2 with h2 | ⟨h2, a', b', hb, hb'⟩
        · linarith
        · exact ⟨h1, (digits_unique hd ha).1 ▸ ha', (digits_unique hd' hb).1 ▸ hb'⟩
    obtain ⟨heq, he, he'⟩ := hev
    have hv : v = ((q : ℝ) + r) / 2 := by
      rcases abs_eq_abs.mp heq with h | h
      · linarith
      · linarith
    -- a value strictly between would be nearer
    have hno : ∀ s k l, Digits f s k l → q < s → s < r → False := by
      intro s k l hs h3 h4
      have h3' : (q : ℝ) < s := by exact_mod_cast h3
      have h4' : (s : ℝ) < r := by exact_mod_cast h4
      have h5 : |(s : ℝ) - v| < |(q : ℝ) - v| := by
        rw [abs_of_nonpos (a := (q : ℝ) - v) (by linarith), abs_lt]
        constructor <;> linarith
      rcases hq s k l hs h3.ne' with h6 | ⟨h6, -⟩ <;> linarith
    rcases le_or_gt 0 q with s | s
    · obtain ⟨t, k, l, h3, h4, h5⟩ := digits_between hd hd' he he' s hlt
      exact hno t k l h3 h4 h5
    · rcases le_or_gt r 0 with s' | s'
      · obtain ⟨t, k, l, h3, h4, h5⟩ :=
          digits_between (digits_neg hd') (digits_neg hd) he'.neg he.neg (by linarith) (neg_lt_neg hlt)
        exact hno (-t) (-k) l (digits_neg h3) (by linarith) (by linarith)
      · obtain ⟨k, l, h3⟩ := rep_digits (f := f) Fmt.rep_zero
        exact hno 0 k l h3 s s'
  rcases lt_trichotomy q r with h1 | h1 | h1
  · exact absurd h1 (key h h')
  · exact h1
  · exact absurd h1 (key h' h)

/-- C94: correct rounding leaves no choice: a real number other than zero has one correctly rounded value. (The sign of a
result that is exactly zero is said for each operation.) -/
theorem C94_unique {v : ℝ} (hv : v ≠ 0) {x y : Fp f} (hx : Rounds f v x) (hy : Rounds f v y) : x = y := by
  cases hx with
  | near a1 a2 a3 a4 =>
    cases hy with
    | near b1 b2 b3 b4 =>
      have e := nearest_unique a3 b3
      subst e
      obtain ⟨nz, h1, h2, rfl⟩ := a2
      obtain ⟨nz', h3, h4, rfl⟩ := b2
      rename_i q
      have : nz = nz' := by
        by_cases hq : q = 0
        · have a5 := a4 hq hv
          have b5 := b4 hq hv
          simp only [Fp.sgn, hq, lt_self_iff_false, decide_false, Bool.or_false] at a5 b5
          exact Bool.eq_iff_iff.mpr (a5.trans b5.symm)
        · have n1 : nz = false := by cases nz <;> simp_all
          have n2 : nz' = false := by cases nz' <;> simp_all
          rw [n1, n2]
      subst this
      rfl
    | over b1 b2 => linarith
  | over a1 a2 =>
    cases hy with
    | near b1 b2 b3 b4 => linarith
    | over b1 b2 => rw [Bool.eq_iff_iff.mpr (a2.trans b2.symm)]

/-! ## The operations -/

lemma sgn_zero_free {x : Fp f} {q : ℚ} (h : x.Is q) (hq : q ≠ 0) : x.sgn = decide (q < 0) := by
  obtain ⟨nz, h1, hz, rfl⟩ := h
  have : nz = false := by cases nz <;> simp_all
  simp [Fp.sgn, this]

/-- C94: addition: the exact sum, rounded. A sum that is exactly zero is positive unless both operands are negative. -/
theorem C94_add {x y : Fp f} {q r : ℚ} (hx : x.Is q) (hy : y.Is r) :
    Rounds f (q + r) (x.add y) ∧ (q + r = 0 → (x.add y).sgn = (x.sgn && y.sgn)) := by
  obtain ⟨a, h1, h2, rfl⟩ := hx
  obtain ⟨b, h3, h4, rfl⟩ := hy
  refine ⟨by have := ofRat_rounds (f := f) (a && b) (q + r); push_cast at this; exact this, fun h => ?_⟩
  change (Fp.ofRat (a && b) (q + r) : Fp f).sgn = _
  rw [ofRat_sgn, if_pos h]
  simp only [Fp.sgn]
  rcases lt_trichotomy q 0 with s | s | s
  · have : a = false := by cases a <;> simp_all
    have : b = false := by
      cases b with
      | false => rfl
      | true => have := h4 rfl; linarith
    have : ¬ r < 0 := by linarith
    simp_all
  · have : r = 0 := by linarith
    simp [s, this]
  · have : a = false := by
      cases a with
      | false => rfl
      | true => have := h2 rfl; linarith
    have : ¬ q < 0 := by linarith
    simp_all

lemma sgn_neg (x : Fp f) (h : x.isNaN = false) : x.neg.sgn = !x.sgn := by
  match x, h with
  | .inf a, _ => rfl
  | .fin q nz _ hz, _ =>
    simp only [Fp.neg, Fp.sgn]
    rcases lt_trichotomy q 0 with s | s | s
    · have : nz = false := by cases nz <;> simp_all
      simp [this, s, s.ne, s.le]
    · simp [s]
    · have : nz = false := by
        cases nz with
        | false => rfl
        | true => exact absurd (hz rfl) s.ne'
      simp [this, s, s.ne', s.le]

/-- C94: subtraction. -/
theorem C94_sub {x y : Fp f} {q r : ℚ} (hx : x.Is q) (hy : y.Is r) :
    Rounds f (q - r) (x.sub y) ∧ (q - r = 0 → (x.sub y).sgn = (x.sgn && !y.sgn)) := by
  obtain ⟨h1, h2⟩ := C94_add hx hy.neg
  refine ⟨by push_cast at h1; rwa [← sub_eq_add_neg] at h1, fun h => ?_⟩
  have := h2 (by rwa [← sub_eq_add_neg])
  rwa [sgn_neg y (by obtain ⟨_, _, _, rfl⟩ := hy; rfl)] at this

lemma sgn_mul {q r : ℚ} {x y : Fp f} (hx : x.Is q) (hy : y.Is r) (h : q * r ≠ 0) :
    decide (q * r < 0) = (x.sgn ^^ y.sgn) := by
  have h1 := left_ne_zero_of_mul h
  have h2 := right_ne_zero_of_mul h
  rw [sgn_zero_free hx h1, sgn_zero_free hy h2]
  rcases lt_or_gt_of_ne h1 with s | s <;> rcases lt_or_gt_of_ne h2 with t | t
  · rw [decide_eq_false (mul_pos_of_neg_of_neg s t).not_gt, decide_eq_true s, decide_eq_true t]; rfl
  · rw [decide_eq_true (mul_neg_of_neg_of_pos s t), decide_eq_true s, decide_eq_false t.not_gt]; rfl
  · rw [decide_eq_true (mul_neg_of_pos_of_neg s t), decide_eq_false s.not_gt, decide_eq_true t]; rfl
  · rw [decide_eq_false (mul_pos s t).not_gt, decide_eq_false s.not_gt, decide_eq_false t.not_gt]; rfl

/-- C94: multiplication. The sign is that of the product, also when the result is zero. -/
theorem C94_mul {x y : Fp f} {q r : ℚ} (hx : x.Is q) (hy : y.Is r) :
    Rounds f (q * r) (x.mul y) ∧ (x.mul y).sgn = (x.sgn ^^ y.sgn) := by
  have e : x.mul y = Fp.ofRat (x.sgn ^^ y.sgn) (q * r) := by
    obtain ⟨a, h1, h2, rfl⟩ := hx
    obtain ⟨b, h3, h4, rfl⟩ := hy
    rfl
  rw [e, ofRat_sgn]
  refine ⟨by simpa using ofRat_rounds (f := f) (x.sgn ^^ y.sgn) (q * r), ?_⟩
  split_ifs with h
  · rfl
  · exact sgn_mul hx hy h

/-- C94: division; by zero it gives an infinity, or NaN for zero by zero. -/
theorem C94_div {x y : Fp f} {q r : ℚ} (hx : x.Is q) (hy : y.Is r) :
    (r ≠ 0 → Rounds f (q / r) (x.div y) ∧ (x.div y).sgn = (x.sgn ^^ y.sgn)) ∧
    (r = 0 → q ≠ 0 → x.div y = .inf (x.sgn ^^ y.sgn)) ∧ (r = 0 → q = 0 → x.div y = .nan) := by
  have e : x.div y = if r = 0 then (if q = 0 then .nan else .inf (x.sgn ^^ y.sgn))
      else Fp.ofRat (x.sgn ^^ y.sgn) (q / r) := by
    obtain ⟨a, h1, h2, rfl⟩ := hx
    obtain ⟨b, h3, h4, rfl⟩ := hy
    rfl
  refine ⟨fun hr => ?_, fun hr hq => ?_, fun hr hq => ?_⟩
  · rw [e, if_neg hr, ofRat_sgn]
    refine ⟨by simpa using ofRat_rounds (f := f) (x.sgn ^^ y.sgn) (q / r), ?_⟩
    split_ifs with h
    · rfl
    · rw [← sgn_mul hx hy (mul_ne_zero (by rintro rfl; simp at h) hr), decide_eq_decide, div_neg_iff, mul_neg_iff]
  · rw [e, if_pos hr, if_neg hq]
  · rw [e, if_pos hr, if_pos hq]

/-- Comparing distances is comparing with the midpoint. -/
lemma dist_mid {a b v : ℝ} (h : a ≠ b) : (|a - v| < |b - v| ↔ (v - (a + b) / 2) * (b - a) < 0) ∧
    (|a - v| = |b - v| ↔ v = (a + b) / 2) := by
  constructor
  · rw [← sq_lt_sq]
    constructor <;> intro h1 <;> nlinarith
  · rw [← sq_eq_sq_iff_abs_eq_abs]
    constructor
    · intro h1
      have : (v - (a + b) / 2) * (b - a) = 0 := by nlinarith
      rcases mul_eq_zero.mp this with h2 | h2
      · linarith
      · exact absurd (by linarith) h
    · intro h1; subst h1; ring

/-- C94: the square root of the real number, rounded; that of a zero is that zero, and negative numbers have none. -/
theorem C94_sqrt {x : Fp f} {q : ℚ} (hx : x.Is q) :
    (0 ≤ q → Rounds f (Real.sqrt q) x.sqrt) ∧ (q = 0 → x.sqrt = x) ∧ (q < 0 → x.sqrt = .nan) := by
  refine ⟨fun h0 => ?_, fun h => ?_, fun h => ?_⟩
  · have hrep := hx.rep
    have hov := Fp.sqrtQ_noOvf hrep h0
    have h0' : (0 : ℝ) ≤ q := by exact_mod_cast h0
    have hs0 := Fp.sqrtQ_nonneg f q
    set s := Fp.sqrtQ f q with hs
    -- the root and its stand-in are on the same side of every multiple of half the smallest unit
    have side : ∀ (c : ℚ) (z : ℤ), c * 2 ^ (1 - f.qmin).toNat = z →
        Real.sqrt q < c ∧ (s : ℝ) < c ∨ Real.sqrt q = c ∧ (s : ℝ) = c ∨ (c : ℝ) < Real.sqrt q ∧ (c : ℝ) < s := by
      intro c z hz
      rcases lt_or_ge c 0 with hc | hc
      · have h1 : (c : ℝ) < 0 := by exact_mod_cast hc
        have h2 := Real.sqrt_nonneg (q : ℝ)
        have h3 : (0 : ℝ) ≤ s := by exact_mod_cast hs0
        exact .inr (.inr ⟨by linarith, by linarith⟩)
      · obtain ⟨g1, g2, g3, g4⟩ := Fp.sqrtQ_grid hrep h0 hc hz
        rw [← hs] at g1 g2 g3 g4
        have hc' : (0 : ℝ) ≤ c := by exact_mod_cast hc
        have e : Real.sqrt ((c * c : ℚ) : ℝ) = c := by push_cast; exact Real.sqrt_mul_self hc'
        rcases lt_trichotomy q (c * c) with h | h | h
        · refine .inl ⟨?_, by exact_mod_cast g4 h⟩
          rw [← e]; exact Real.sqrt_lt_sqrt h0' (by exact_mod_cast h)
        · refine .inr (.inl ⟨by rw [h, e], ?_⟩)
          exact_mod_cast le_antisymm (g2 h.le) (g1 h.ge)
        · refine .inr (.inr ⟨?_, by exact_mod_cast g3 h⟩)
          rw [← e]
          exact Real.sqrt_lt_sqrt (by push_cast; positivity) (by exact_mod_cast h)
    have hin := rnd_overflow.mp hov
    have hov' : |Real.sqrt q| < overflowAt f := by
      have hc : overflowAt f = (((2 ^ (f.prec + 1) - 1 : ℚ) * 2 ^ (f.emax - f.prec - 1) : ℚ) : ℝ) := by
        unfold overflowAt
        push_cast
        rw [sub_mul, one_mul, ← zpow_natCast, ← zpow_add₀ (by norm_num)]
        congr 2
        push_cast
        ring
      rw [abs_of_nonneg (Real.sqrt_nonneg _), hc]
      rw [hc, abs_of_nonneg (by exact_mod_cast hs0)] at hin
      have hql := f.qmin_le
      have hqn := f.qmin_neg
      have hn : 0 ≤ f.emax - f.prec - 1 + ((1 - f.qmin).toNat : ℤ) := by omega
      rcases side ((2 ^ (f.prec + 1) - 1 : ℚ) * 2 ^ (f.emax - f.prec - 1))
        ((2 ^ (f.prec + 1) - 1) * 2 ^ (f.emax - f.prec - 1 + ((1 - f.qmin).toNat : ℤ)).toNat) (by
          have := two_zpow_int hn
          push_cast at this ⊢
          rw [this, two_zpow_add, zpow_natCast]
          ring) with h | h | h
      · exact h.1
      · exact absurd h.2 hin.ne
      · exact absurd h.2 hin.not_gt
    refine .near hov' (hx.sqrt h0) ?_ fun _ h1 => ?_
    · obtain ⟨n1, n2⟩ := nearest_rnd hov
      rw [← hs]
      refine ⟨n1, fun r m e hr hne => ?_⟩
      have hne' : ((f.rnd s : ℚ) : ℝ) ≠ r := by exact_mod_cast hne.symm
      obtain ⟨z, hz⟩ := Fp.rep_grid (Fmt.rep_rnd hov)
      obtain ⟨z', hz'⟩ := Fp.rep_grid (digits_rep hr)
      have hgrid : (f.rnd s + r) / 2 * 2 ^ (1 - f.qmin).toNat = ((z + z' : ℤ) : ℚ) := by
        have h1 : (1 - f.qmin).toNat = (1 - f.qmin).toNat - 1 + 1 := by have := f.qmin_neg; omega
        rw [h1, pow_succ]
        push_cast
        rw [← hz, ← hz']
        ring
      have hsd := side _ _ hgrid
      have := n2 r m e hr hne
      rw [(dist_mid hne').1, (dist_mid hne').2] at this ⊢
      push_cast at hsd
      rcases this with h1 | ⟨h1, h2⟩
      · left
        rcases hsd with ⟨h3, h4⟩ | ⟨h3, h4⟩ | ⟨h3, h4⟩
        · have : 0 < (r : ℝ) - f.rnd s := by nlinarith
          nlinarith
        · rw [h4] at h1; simp at h1
        · have : (r : ℝ) - f.rnd s < 0 := by nlinarith
          nlinarith
      · refine .inr ⟨?_, h2⟩
        rcases hsd with ⟨h3, h4⟩ | ⟨h3, h4⟩ | ⟨h3, h4⟩
        · linarith
        · exact h3
        · linarith
    · have hq : q ≠ 0 := by rintro rfl; simp at h1
      have e : x.sqrt = Fp.ofRat false s := by
        obtain ⟨nz, h1, hz, rfl⟩ := hx
        simp [Fp.sqrt, hq, not_lt.mpr h0, hs]
      rw [e, ofRat_sgn]
      simp [not_lt.mpr hs0, Real.sqrt_nonneg]
  · subst h
    obtain ⟨nz, h1, hz, rfl⟩ := hx
    rfl
  · obtain ⟨nz, h1, hz, rfl⟩ := hx
    simp [Fp.sqrt, h, h.ne]

/-- C94: literals and integers are rounded once, and so are conversions between the formats, which keep the sign. -/
theorem C94_convert (q : ℚ) (n : ℤ) {x : Fp f} {r : ℚ} (hx : x.Is r) :
    Rounds f q (Fp.lit q) ∧ (q = 0 → (Fp.lit q : Fp f).sgn = false) ∧
    Rounds f n (Fp.ofInt n) ∧ (n = 0 → (Fp.ofInt n : Fp f).sgn = false) ∧
    Rounds g r (x.cast : Fp g) ∧ (x.cast : Fp g).sgn = x.sgn := by
  have e : (x.cast : Fp g) = Fp.ofRat x.sgn r := by obtain ⟨_, _, _, rfl⟩ := hx; rfl
  refine ⟨ofRat_rounds _ _, fun h => ?_, by
    have := ofRat_rounds (f := f) false (n : ℚ)
    push_cast at this
    exact this, fun h => ?_, ?_, ?_⟩
  · unfold Fp.lit; rw [ofRat_sgn, if_pos h]
  · unfold Fp.ofInt; rw [ofRat_sgn, if_pos (by simp [h])]
  · rw [e]; exact ofRat_rounds _ _
  · rw [e, ofRat_sgn]
    split_ifs with h
    · rfl
    · exact (sgn_zero_free hx h).symm

/-- C94: the sign operations are exact. -/
theorem C94_sign {x : Fp f} {q : ℚ} (hx : x.Is q) :
    x.neg.Is (-q) ∧ x.neg.sgn = !x.sgn ∧ x.abs.Is |q| ∧ x.abs.sgn = false := by
  refine ⟨hx.neg, sgn_neg x (by obtain ⟨_, _, _, rfl⟩ := hx; rfl), hx.abs, ?_⟩
  obtain ⟨_, _, _, rfl⟩ := hx
  simp [Fp.abs, Fp.sgn]

lemma toIntegral_sgn {x : Fp f} {q : ℚ} (hx : x.Is q) {i : ℚ → ℤ} (h1 : q < 0 → i q ≤ 0) (h2 : 0 < q → 0 ≤ i q)
    (h3 : q = 0 → i q = 0) : (x.toIntegral i).sgn = x.sgn := by
  have e : x.toIntegral i = Fp.ofRat x.sgn (i q) := by obtain ⟨_, _, _, rfl⟩ := hx; rfl
  rw [e, ofRat_sgn]
  split_ifs with h
  · rfl
  · have hi : i q ≠ 0 := by exact_mod_cast h
    have hq : q ≠ 0 := fun h => hi (h3 h)
    rw [sgn_zero_free hx hq, decide_eq_decide]
    rcases lt_or_gt_of_ne hq with s | s
    · have : i q < 0 := lt_of_le_of_ne (h1 s) hi
      exact ⟨fun _ => s, fun _ => by exact_mod_cast this⟩
    · have := h2 s
      have : (0 : ℚ) ≤ i q := by exact_mod_cast this
      exact ⟨fun h => by linarith, fun h => by linarith⟩

/-- C94: rounding to integers is exact and keeps the sign: `round` gives a nearest integer, of two the one further from
zero; `floor` and `ceil` the neighbours. -/
theorem C94_integral {x : Fp f} {q : ℚ} (hx : x.Is q) :
    (∃ n : ℤ, x.round.Is n ∧ |(n : ℚ) - q| ≤ 1 / 2 ∧ (|(n : ℚ) - q| = 1 / 2 → |q| < |(n : ℚ)|) ∧ x.round.sgn = x.sgn) ∧
    (∃ n : ℤ, x.floor.Is n ∧ (n : ℚ) ≤ q ∧ q < n + 1 ∧ x.floor.sgn = x.sgn) ∧
    (∃ n : ℤ, x.ceil.Is n ∧ (n : ℚ) - 1 < q ∧ q ≤ n ∧ x.ceil.sgn = x.sgn) := by
  have hra0 : roundAway 0 = 0 := by
    unfold roundAway
    rw [if_pos le_rfl, Int.floor_eq_iff]
    norm_num
  refine ⟨⟨roundAway q, hx.round, Fp.roundAway_err q, fun h => ?_, ?_⟩, ⟨⌊q⌋, hx.floor, Int.floor_le q, Int.lt_floor_add_one q, ?_⟩,
    ⟨⌈q⌉, hx.ceil, ?_, Int.le_ceil q, ?_⟩⟩
  · revert h
    unfold roundAway
    split_ifs with h0
    · have h1 := Int.floor_le (q + 1 / 2)
      have h2 := Int.lt_floor_add_one (q + 1 / 2)
      intro h
      rw [abs_of_nonneg h0]
      refine lt_of_lt_of_le ?_ (le_abs_self _)
      rcases abs_eq (by norm_num) |>.mp h with h | h <;> linarith
    · have h1 := Int.floor_le (-q + 1 / 2)
      have h2 := Int.lt_floor_add_one (-q + 1 / 2)
      intro h
      push_cast at h ⊢
      rw [abs_of_neg (not_le.mp h0), abs_neg]
      refine lt_of_lt_of_le ?_ (le_abs_self _)
      rcases abs_eq (by norm_num) |>.mp h with h | h <;> linarith
  · refine toIntegral_sgn hx (fun h => ?_) (fun h => ?_) fun h => ?_
    · have := Fp.roundAway_mono h.le
      rwa [hra0] at this
    · have := Fp.roundAway_mono h.le
      rwa [hra0] at this
    · subst h; exact hra0
  · refine toIntegral_sgn hx (fun h => ?_) (fun h => ?_) fun h => ?_
    · exact Int.floor_nonpos h.le
    · exact Int.floor_nonneg.mpr h.le
    · subst h; simp
  · have := Int.ceil_lt_add_one q; linarith
  · refine toIntegral_sgn hx (fun h => ?_) (fun h => ?_) fun h => ?_
    · exact Int.ceil_nonpos.mpr h.le
    · exact Int.ceil_nonneg h.le
    · subst h; simp

/-- C94: the conversion to `isize` drops the fraction and saturates; NaN gives zero. -/
theorem C94_to_int (x : Fp f) : -2 ^ 63 ≤ x.toInt ∧ x.toInt ≤ 2 ^ 63 - 1 ∧ (x = .nan → x.toInt = 0) ∧
    (x = .inf false → x.toInt = 2 ^ 63 - 1) ∧ (x = .inf true → x.toInt = -2 ^ 63) ∧ ∀ q, x.Is q →
      (0 ≤ q → q < 2 ^ 63 → 0 ≤ x.toInt ∧ (x.toInt : ℚ) ≤ q ∧ q < x.toInt + 1) ∧
      (q ≤ 0 → -2 ^ 63 ≤ q → x.toInt ≤ 0 ∧ (x.toInt : ℚ) - 1 < q ∧ q ≤ x.toInt) ∧
      (2 ^ 63 ≤ q → x.toInt = 2 ^ 63 - 1) ∧ (q ≤ -2 ^ 63 → x.toInt = -2 ^ 63) := by
  have hcl : ∀ n, isizeMin ≤ clampIsize n ∧ clampIsize n ≤ isizeMax := fun n => by
    unfold clampIsize isizeMin isizeMax; omega
  have hb : isizeMin ≤ x.toInt ∧ x.toInt ≤ isizeMax := by
    cases x with
    | nan => simp only [Fp.toInt]; unfold isizeMin isizeMax; omega
    | inf a => cases a <;> simp only [Fp.toInt] <;> unfold isizeMin isizeMax <;> norm_num
    | fin q nz h hz => exact hcl _
  unfold isizeMin isizeMax at hb
  refine ⟨hb.1, hb.2, ?_, ?_, ?_, fun q hq => ?_⟩
  · rintro rfl; rfl
  · rintro rfl; rfl
  · rintro rfl; rfl
  rw [hq.toInt]
  refine ⟨fun h0 h1 => ?_, fun h0 h1 => ?_, fun h1 => ?_, fun h1 => ?_⟩
  · have h2 : truncQ q = ⌊q⌋ := if_pos h0
    have h3 : 0 ≤ ⌊q⌋ := Int.floor_nonneg.mpr h0
    have h4 : ⌊q⌋ < 2 ^ 63 := by rw [Int.floor_lt]; exact_mod_cast h1
    rw [h2, Fp.clampIsize_of_mem (by unfold isizeMin; omega) (by unfold isizeMax; omega)]
    exact ⟨h3, Int.floor_le q, Int.lt_floor_add_one q⟩
  · have h2 : truncQ q = ⌈q⌉ := by
      unfold truncQ
      split_ifs with h
      · have : q = 0 := le_antisymm h0 h
        subst this; simp
      · rfl
    have h3 : ⌈q⌉ ≤ 0 := Int.ceil_nonpos.mpr h0
    have h4 : -2 ^ 63 ≤ ⌈q⌉ := by
      have : ((-2 ^ 63 : ℤ) : ℚ) ≤ ⌈q⌉ := by push_cast; exact h1.trans (Int.le_ceil q)
      exact_mod_cast this
    rw [h2, Fp.clampIsize_of_mem (by unfold isizeMin; omega) (by unfold isizeMax; omega)]
    exact ⟨h3, by have := Int.ceil_lt_add_one q; linarith, Int.le_ceil q⟩
  · have h2 : truncQ q = ⌊q⌋ := if_pos (le_trans (by norm_num) h1)
    have h4 : 2 ^ 63 ≤ ⌊q⌋ := by rw [Int.le_floor]; exact_mod_cast h1
    rw [h2]
    unfold clampIsize isizeMin isizeMax
    omega
  · have h0 : ¬ 0 ≤ q := by
      have : q < 0 := lt_of_le_of_lt h1 (by norm_num)
      linarith
    have h2 : truncQ q = ⌈q⌉ := if_neg h0
    have h4 : ⌈q⌉ ≤ -2 ^ 63 := by rw [Int.ceil_le]; push_cast; exact h1
    rw [h2]
    unfold clampIsize isizeMin isizeMax
    omega

/-- C94: comparisons: by value for finite numbers, so that the zeros are equal; infinities lie outside; nothing compares
with NaN. -/
theorem C94_compare {x y : Fp f} {q r : ℚ} (hx : x.Is q) (hy : y.Is r) (z : Fp f) (a : Bool) :
    ((x.lt y = true ↔ q < r) ∧ (x.le y = true ↔ q ≤ r) ∧ (x.eq y = true ↔ q = r)) ∧
    (x.lt (.inf a) = !a ∧ x.le (.inf a) = !a ∧ x.eq (.inf a) = false) ∧
    ((Fp.inf a).lt x = a ∧ (Fp.inf a).le x = a ∧ (Fp.inf a).eq x = false) ∧
    ((Fp.inf a : Fp f).lt (.inf a) = false ∧ (Fp.inf a : Fp f).le (.inf a) = true ∧ (Fp.inf a : Fp f).eq (.inf a) = true) ∧
    ((Fp.inf a : Fp f).lt (.inf !a) = a ∧ (Fp.inf a : Fp f).le (.inf !a) = a ∧ (Fp.inf a : Fp f).eq (.inf !a) = false) ∧
    (Fp.nan.lt z = false ∧ Fp.nan.le z = false ∧ Fp.nan.eq z = false) ∧
    (z.lt .nan = false ∧ z.le .nan = false ∧ z.eq .nan = false) := by
  refine ⟨⟨by rw [hx.lt hy]; simp, by rw [hx.le hy]; simp, by rw [hx.eq hy]; simp⟩, ?_, ?_, ?_, ?_, ?_, ?_⟩
  · obtain ⟨_, _, _, rfl⟩ := hx; cases a <;> exact ⟨rfl, rfl, rfl⟩
  · obtain ⟨_, _, _, rfl⟩ := hx; cases a <;> exact ⟨rfl, rfl, rfl⟩
  · cases a <;> exact ⟨rfl, rfl, rfl⟩
  · cases a <;> exact ⟨rfl, rfl, rfl⟩
  · cases z <;> exact ⟨rfl, rfl, rfl⟩
  · cases z <;> exact ⟨rfl, rfl, rfl⟩

/-- C94: `min` and `max`: a NaN is passed over, otherwise one of the operands that no other is below (above). -/
theorem C94_min_max (x y : Fp f) :
    (x = .nan → x.min y = y ∧ x.max y = y) ∧ (y = .nan → x.min y = x ∧ x.max y = x) ∧
    (x ≠ .nan → y ≠ .nan → (x.min y = x ∨ x.min y = y) ∧ (x.min y).le x = true ∧ (x.min y).le y = true ∧
      (x.max y = x ∨ x.max y = y) ∧ x.le (x.max y) = true ∧ y.le (x.max y) = true) := by
  have hself : ∀ z : Fp f, z ≠ .nan → z.le z = true := by
    intro z hz
    match z, hz with
    | .inf a, _ => cases a <;> rfl
    | .fin q nz h h', _ => simp [Fp.le, Fp.lt, Fp.eq]
  have htot : ∀ {a b : Fp f}, a ≠ .nan → b ≠ .nan → a.lt b = false → b.le a = true := by
    intro a b ha hb h
    match a, b, ha, hb with
    | .inf a, .inf b, _, _ => cases a <;> cases b <;> first | rfl | cases h
    | .inf a, .fin .., _, _ => cases a <;> first | rfl | cases h
    | .fin .., .inf b, _, _ => cases b <;> first | rfl | cases h
    | .fin q _ _ _, .fin r _ _ _, _, _ =>
      simp only [Fp.lt, decide_eq_false_iff_not, not_lt] at h
      simp only [Fp.le, Fp.lt, Fp.eq, Bool.or_eq_true, decide_eq_true_eq]
      exact h.lt_or_eq
  have hn : ∀ z : Fp f, z ≠ .nan → z.isNaN = false := by
    intro z hz
    match z, hz with
    | .inf _, _ => rfl
    | .fin .., _ => rfl
  refine ⟨?_, ?_, fun hx hy => ?_⟩
  · rintro rfl; exact ⟨rfl, rfl⟩
  · rintro rfl
    cases x <;> exact ⟨rfl, rfl⟩
  · have e1 : x.min y = if y.lt x then y else x := by simp [Fp.min, hn x hx, hn y hy]
    have e2 : x.max y = if x.lt y then y else x := by simp [Fp.max, hn x hx, hn y hy]
    rw [e1, e2]
    refine ⟨by split_ifs <;> simp, ?_, ?_, by split_ifs <;> simp, ?_, ?_⟩
    · split_ifs with h
      · simp [Fp.le, h]
      · exact hself x hx
    · split_ifs with h
      · exact hself y hy
      · exact htot hy hx (by simpa using h)
    · split_ifs with h
      · simp [Fp.le, h]
      · exact hself x hx
    · split_ifs with h
      · exact hself y hy
      · exact htot hx hy (by simpa using h)

/-- C94: NaN goes through every operation, and so do infinities where there is a limit; otherwise the result is NaN. -/
theorem C94_special {x : Fp f} {q : ℚ} (hx : x.Is q) (z : Fp f) (a b : Bool) :
    (Fp.nan.add z = .nan ∧ z.add .nan = .nan ∧ Fp.nan.sub z = .nan ∧ z.sub .nan = .nan ∧
      Fp.nan.mul z = .nan ∧ z.mul .nan = .nan ∧ Fp.nan.div z = .nan ∧ z.div .nan = .nan ∧ (Fp.nan : Fp f).sqrt = .nan) ∧
    ((Fp.inf a).add x = .inf a ∧ x.add (.inf a) = .inf a ∧ (Fp.inf a).sub x = .inf a ∧ x.sub (.inf a) = .inf !a) ∧
    ((Fp.inf a : Fp f).add (.inf a) = .inf a ∧ (Fp.inf a : Fp f).add (.inf !a) = .nan ∧
      (Fp.inf a : Fp f).sub (.inf a) = .nan ∧ (Fp.inf a : Fp f).sub (.inf !a) = .inf a) ∧
    ((Fp.inf a : Fp f).mul (.inf b) = .inf (a ^^ b) ∧ (Fp.inf a : Fp f).div (.inf b) = .nan) ∧
    (q ≠ 0 → (Fp.inf a).mul x = .inf (a ^^ x.sgn) ∧ x.mul (.inf a) = .inf (x.sgn ^^ a)) ∧
    (q = 0 → (Fp.inf a).mul x = .nan ∧ x.mul (.inf a) = .nan) ∧
    ((Fp.inf a).div x = .inf (a ^^ x.sgn) ∧ (x.div (.inf a)).Is 0 ∧ (x.div (.inf a)).sgn = (x.sgn ^^ a)) ∧
    ((Fp.inf false : Fp f).sqrt = .inf false ∧ (Fp.inf true : Fp f).sqrt = .nan) := by
  obtain ⟨nz, h1, hz, rfl⟩ := hx
  refine ⟨?_, ⟨rfl, rfl, rfl, rfl⟩, ?_, ⟨rfl, rfl⟩, fun h => ?_, fun h => ?_, ⟨rfl, ?_, ?_⟩, rfl, rfl⟩
  · cases z <;> exact ⟨rfl, rfl, rfl, rfl, rfl, rfl, rfl, rfl, rfl⟩
  · cases a <;> exact ⟨rfl, rfl, rfl, rfl⟩
  · exact ⟨by simp [Fp.mul, h], by simp [Fp.mul, h]⟩
  · exact ⟨by simp [Fp.mul, h], by simp [Fp.mul, h]⟩
  · exact Fp.ofRat_is_rep Fmt.rep_zero
  · change (Fp.ofRat _ 0 : Fp f).sgn = _
    rw [ofRat_sgn, if_pos rfl]

/-- C94: for `f32`, an even significand is a word whose last bit is zero. -/
theorem C94_even_word {b : BitVec 32} {q : ℚ} (h : (f32OfBits b).Is q) :
    ∃ m e, Digits b32 q m e ∧ (Even m ↔ b.getLsbD 0 = false) := by
  have hlsb : b.getLsbD 0 = false ↔ Even (b.toNat % 2 ^ 31 % 2 ^ 23) := by
    have h1 : b.getLsbD 0 = decide (b.toNat % 2 = 1) := by
      rw [BitVec.getLsbD, Nat.testBit_zero]
    rw [h1, Nat.even_iff, decide_eq_false_iff_not]
    omega
  rw [hlsb]
  rw [f32OfBits_eq] at h
  have hk := Nat.mod_lt b.toNat (show 0 < 2 ^ 31 by norm_num)
  generalize b.toNat % 2 ^ 31 = k at *
  by_cases h1 : k < 255 * 2 ^ 23
  · rw [if_pos h1] at h
    have hd : ∃ m e, Digits b32 (mag k) m e ∧ (Even m ↔ Even (k % 2 ^ 23)) := by
      have h0 : k % 2 ^ 23 < 2 ^ 23 := Nat.mod_lt _ (by norm_num)
      have h2 : k / 2 ^ 23 < 255 := by omega
      unfold mag magEM
      generalize k % 2 ^ 23 = m at *
      generalize k / 2 ^ 23 = e at *
      split_ifs with h3
      · refine ⟨m, -149, ⟨by push_cast; ring, ?_, by simp [b32], by simp [b32], .inr (by simp [b32])⟩, ?_⟩
        · simp only [b32, Nat.abs_cast]; norm_num; omega
        · exact Int.even_coe_nat m
      · refine ⟨2 ^ 23 + m, (e : ℤ) - 150, ⟨by push_cast; ring, ?_, ?_, ?_, .inl ?_⟩, ?_⟩
        · rw [abs_of_nonneg (by positivity)]; simp only [b32]; norm_num; omega
        · simp only [b32]; omega
        · simp only [b32]; omega
        · rw [abs_of_nonneg (by positivity)]; simp only [b32]; norm_num
        · rw [Int.even_add, Int.even_coe_nat]
          have : Even ((2 : ℤ) ^ 23) := by decide
          exact ⟨fun h => h.mp this, fun h => ⟨fun _ => h, fun _ => this⟩⟩
    obtain ⟨m, e, hd, he⟩ := hd
    have hrep := mag_rep h1
    split_ifs at h with hs
    · have := h.unique (Fp.ofRat_is_rep (rep_neg hrep))
      subst this
      exact ⟨-m, e, digits_neg hd, by rw [even_neg]; exact he⟩
    · have := h.unique (Fp.ofRat_is_rep hrep)
      subst this
      exact ⟨m, e, hd, he⟩
  · rw [if_neg h1] at h
    obtain ⟨_, _, _, h⟩ := h
    split_ifs at h

/-- C94: the formats are binary32 and binary64. -/
theorem C94_formats : (b32.prec = 24 ∧ b32.qmin = -149 ∧ b32.emax = 128) ∧
    (b64.prec = 53 ∧ b64.qmin = -1074 ∧ b64.emax = 1024) := by decide

/-! ## Instances -/

/-- A tie: `1 + 2^-24` lies between two words and goes to the even one, `1 + 3·2^-24` goes up; and the theorems say so. -/
example : (Fp.lit 1 : F32).add (Fp.lit (2 ^ (-24 : ℤ))) = Fp.lit 1 ∧
    (Fp.lit (1 + 2 ^ (-23 : ℤ)) : F32).add (Fp.lit (2 ^ (-24 : ℤ))) = Fp.lit (1 + 2 ^ (-22 : ℤ)) ∧
    Rounds b32 ((1 : ℚ) + (2 ^ (-24 : ℤ) : ℚ)) (Fp.lit 1) := by
  have h : (Fp.lit 1 : F32).add (Fp.lit (2 ^ (-24 : ℤ))) = Fp.lit 1 := by decide +kernel
  refine ⟨h, by decide +kernel, ?_⟩
  have h1 : (Fp.lit 1 : F32).Is 1 := Fp.ofRat_is_rep ⟨1, 0, by decide, by decide, by decide, by norm_num⟩
  have h2 : (Fp.lit (2 ^ (-24 : ℤ)) : F32).Is (2 ^ (-24 : ℤ)) :=
    Fp.ofRat_is_rep ⟨1, -24, by decide, by decide, by decide, by norm_num⟩
  rw [← h]
  exact (C94_add h1 h2).1

/-- Overflow and underflow: the largest finite `f32` plus half a unit is infinite, and half the smallest one is zero, with
its sign. -/
example : (Fp.lit ((2 ^ 24 - 1) * 2 ^ (104 : ℤ)) : F32).add (Fp.lit (2 ^ (103 : ℤ))) = .inf false ∧
    ((Fp.lit (-2 ^ (-149 : ℤ)) : F32).mul (Fp.lit (1 / 2))).sgn = true ∧
    ((Fp.lit (-2 ^ (-149 : ℤ)) : F32).mul (Fp.lit (1 / 2))).val = 0 := by decide +kernel

end Verif.Props
