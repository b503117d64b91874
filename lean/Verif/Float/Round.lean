import Mathlib.Data.Int.Log
import Mathlib.Data.Rat.Floor
import Mathlib.Algebra.Order.Round
import Mathlib.Algebra.Order.Field.Power
import Mathlib.Tactic.Linarith
import Mathlib.Tactic.Ring
import Mathlib.Tactic.NormNum
import Mathlib.Tactic.Positivity
import Mathlib.Tactic.FieldSimp
import Mathlib.Tactic.GCongr

/-!
# Rounding to a binary floating point format

Round-to-nearest-even of a rational number to a binary format with gradual underflow, as prescribed
by IEEE 754 for the operations of Rust's `f32` and `f64`, and its correctness: nearest, monotone,
exact on representable numbers, error bounds.
-/

namespace Verif

/-- A binary floating point format: values are `m * 2^e` with `|m| < 2^prec`, `qmin ≤ e` and absolute
value below `2^emax`. -/
structure Fmt where
  prec : ℕ
  qmin : ℤ
  emax : ℤ
  prec_pos : 1 < prec
  qmin_le : qmin + prec ≤ emax
  qmin_neg : qmin < 0
  prec_lt : (prec : ℤ) < emax

/-- IEEE 754 binary32 (Rust `f32`). -/
def b32 : Fmt := ⟨24, -149, 128, by norm_num, by norm_num, by norm_num, by norm_num⟩
/-- IEEE 754 binary64 (Rust `f64`). -/
def b64 : Fmt := ⟨53, -1074, 1024, by norm_num, by norm_num, by norm_num, by norm_num⟩

/-! ## Nearest integer, ties to even -/

/-- The integer nearest to `q`, the even one in a tie. -/
def roundEven (q : ℚ) : ℤ :=
  let f := ⌊q⌋
  let d := q - f
  if d < 1/2 then f else if 1/2 < d then f + 1 else if f % 2 = 0 then f else f + 1

lemma roundEven_err (q : ℚ) : |(roundEven q : ℚ) - q| ≤ 1/2 := by
  have h1 := Int.floor_le q
  have h2 := Int.lt_floor_add_one q
  unfold roundEven
  dsimp only
  split_ifs <;> rw [abs_le] <;> push_cast <;> constructor <;> linarith

lemma roundEven_intCast (n : ℤ) : roundEven (n : ℚ) = n := by
  simp [roundEven]

lemma roundEven_mono {a b : ℚ} (h : a ≤ b) : roundEven a ≤ roundEven b := by
  have ha1 := Int.floor_le a
  have ha2 := Int.lt_floor_add_one a
  have hb1 := Int.floor_le b
  have hb2 := Int.lt_floor_add_one b
  have hf : ⌊a⌋ ≤ ⌊b⌋ := Int.floor_le_floor h
  rcases hf.eq_or_lt with e | l
  · unfold roundEven
    dsimp only
    rw [e] at *
    split_ifs <;> first | omega | (exfalso; linarith)
  · have : ⌊a⌋ + 1 ≤ ⌊b⌋ := l
    have h1 : roundEven a ≤ ⌊a⌋ + 1 := by
      unfold roundEven; dsimp only; split_ifs <;> omega
    have h2 : ⌊b⌋ ≤ roundEven b := by
      unfold roundEven; dsimp only; split_ifs <;> omega
    omega

lemma roundEven_le_int {a : ℚ} {n : ℤ} (h : a ≤ n) : roundEven a ≤ n := by
  have := roundEven_mono h
  rwa [roundEven_intCast] at this

lemma int_le_roundEven {a : ℚ} {n : ℤ} (h : (n : ℚ) ≤ a) : n ≤ roundEven a := by
  have := roundEven_mono h
  rwa [roundEven_intCast] at this

lemma roundEven_neg (q : ℚ) : roundEven (-q) = - roundEven q := by
  have h1 := Int.floor_le q
  have h2 := Int.lt_floor_add_one q
  rcases h1.eq_or_lt with e | l
  · have : q = ((⌊q⌋ : ℤ) : ℚ) := e.symm
    rw [this, ← Int.cast_neg, roundEven_intCast, roundEven_intCast]
  · have hfl : ⌊-q⌋ = -⌊q⌋ - 1 := by
      rw [Int.floor_eq_iff]
      push_cast
      constructor <;> linarith
    unfold roundEven
    dsimp only
    rw [hfl]
    push_cast
    split_ifs <;> first | omega | (exfalso; linarith)

/-! ## Powers of two -/

lemma two_zpow_pos (e : ℤ) : (0 : ℚ) < 2 ^ e := by positivity

lemma two_zpow_le {a b : ℤ} (h : a ≤ b) : (2 : ℚ) ^ a ≤ 2 ^ b :=
  zpow_le_zpow_right₀ (by norm_num) h

lemma two_zpow_lt {a b : ℤ} (h : a < b) : (2 : ℚ) ^ a < 2 ^ b :=
  zpow_lt_zpow_right₀ (by norm_num) h

lemma two_zpow_lt_iff {a b : ℤ} : (2 : ℚ) ^ a < 2 ^ b ↔ a < b :=
  zpow_lt_zpow_iff_right₀ (by norm_num)

lemma two_zpow_le_iff {a b : ℤ} : (2 : ℚ) ^ a ≤ 2 ^ b ↔ a ≤ b :=
  zpow_le_zpow_iff_right₀ (by norm_num)

lemma two_zpow_add (a b : ℤ) : (2 : ℚ) ^ (a + b) = 2 ^ a * 2 ^ b :=
  zpow_add₀ (by norm_num) a b

lemma two_zpow_sub (a b : ℤ) : (2 : ℚ) ^ (a - b) = 2 ^ a / 2 ^ b :=
  zpow_sub₀ (by norm_num) a b

/-- A non-negative power of two is an integer. -/
lemma two_zpow_int {k : ℤ} (h : 0 ≤ k) : ((2 ^ k.toNat : ℤ) : ℚ) = 2 ^ k := by
  conv_rhs => rw [← Int.toNat_of_nonneg h]
  rw [zpow_natCast]
  push_cast
  rfl

/-! ## Rounding -/

namespace Fmt
variable (f : Fmt)

/-- The exponent of the last digit when rounding `q`. -/
def ulpExp (q : ℚ) : ℤ := max (Int.log 2 |q| - (f.prec - 1)) f.qmin

/-- Round-to-nearest-even with unbounded exponent range above (overflow is treated in `Fp`). -/
def rnd (q : ℚ) : ℚ := roundEven (q / 2 ^ f.ulpExp q) * 2 ^ f.ulpExp q

/-- `q` is a finite value of the format. -/
def Rep (q : ℚ) : Prop :=
  ∃ m e : ℤ, |m| < 2 ^ f.prec ∧ f.qmin ≤ e ∧ e + f.prec ≤ f.emax ∧ q = m * 2 ^ e

variable {f}

lemma ulpExp_neg (q : ℚ) : f.ulpExp (-q) = f.ulpExp q := by simp [ulpExp]

@[simp] lemma rnd_neg (q : ℚ) : f.rnd (-q) = - f.rnd q := by
  unfold rnd
  rw [ulpExp_neg, neg_div, roundEven_neg]
  push_cast
  ring

@[simp] lemma rnd_zero : f.rnd 0 = 0 := by
  have : roundEven 0 = 0 := by exact_mod_cast roundEven_intCast 0
  simp [rnd, this]

lemma log_bounds {q : ℚ} (h : q ≠ 0) :
    (2 : ℚ) ^ Int.log 2 |q| ≤ |q| ∧ |q| < (2 : ℚ) ^ (Int.log 2 |q| + 1) := by
  have hp : 0 < |q| := abs_pos.mpr h
  have h1 := Int.zpow_log_le_self (R := ℚ) (b := 2) (by norm_num) hp
  have h2 := Int.lt_zpow_succ_log_self (R := ℚ) (b := 2) (by norm_num) |q|
  exact ⟨by exact_mod_cast h1, by exact_mod_cast h2⟩

lemma log_unique {q : ℚ} {k : ℤ} (h1 : (2 : ℚ) ^ k ≤ |q|) (h2 : |q| < (2 : ℚ) ^ (k + 1)) :
    Int.log 2 |q| = k := by
  have hp : 0 < |q| := lt_of_lt_of_le (two_zpow_pos k) h1
  have h0 : q ≠ 0 := abs_pos.mp hp
  obtain ⟨a, b⟩ := log_bounds h0
  have h3 := two_zpow_lt_iff.mp (lt_of_le_of_lt h1 b)
  have h4 := two_zpow_lt_iff.mp (lt_of_le_of_lt a h2)
  omega

lemma log_mono {a b : ℚ} (ha : a ≠ 0) (h : |a| ≤ |b|) : Int.log 2 |a| ≤ Int.log 2 |b| := by
  have hb : b ≠ 0 := by
    intro e; subst e; simp at h; exact ha h
  have h1 := (log_bounds ha).1
  have h2 := (log_bounds hb).2
  have := two_zpow_lt_iff.mp (lt_of_le_of_lt h1 (lt_of_le_of_lt h h2))
  omega

/-- Absolute error of rounding: half a unit in the last place. -/
lemma rnd_err_ulp (q : ℚ) : |f.rnd q - q| ≤ 2 ^ f.ulpExp q / 2 := by
  have hp := two_zpow_pos (f.ulpExp q)
  have h := roundEven_err (q / 2 ^ f.ulpExp q)
  have : f.rnd q - q
      = ((roundEven (q / 2 ^ f.ulpExp q) : ℚ) - q / 2 ^ f.ulpExp q) * 2 ^ f.ulpExp q := by
    unfold rnd
    field_simp
  rw [this, abs_mul, abs_of_pos hp]
  nlinarith

/-- Relative error for normal results, absolute error below. -/
lemma rnd_err (q : ℚ) :
    |f.rnd q - q| ≤ |q| * 2 ^ (-(f.prec : ℤ)) ∨
      (|f.rnd q - q| ≤ 2 ^ (f.qmin - 1) ∧ |q| < 2 ^ (f.qmin + f.prec - 1)) := by
  rcases eq_or_ne q 0 with rfl | h
  · left; simp
  have he := rnd_err_ulp (f := f) q
  obtain ⟨hl, hu⟩ := log_bounds h
  rcases le_or_gt f.qmin (Int.log 2 |q| - (f.prec - 1)) with c | c
  · left
    have e1 : f.ulpExp q = Int.log 2 |q| - (f.prec - 1) := max_eq_left c
    refine he.trans ?_
    rw [e1]
    have : (2 : ℚ) ^ (Int.log 2 |q| - ((f.prec : ℤ) - 1)) / 2
        = 2 ^ Int.log 2 |q| * 2 ^ (-(f.prec : ℤ)) := by
      rw [← two_zpow_add, show Int.log 2 |q| - ((f.prec : ℤ) - 1)
        = (Int.log 2 |q| + -(f.prec : ℤ)) + 1 by ring, two_zpow_add _ 1]
      simp
    rw [this]
    gcongr
  · right
    have e1 : f.ulpExp q = f.qmin := max_eq_right c.le
    constructor
    · refine he.trans (le_of_eq ?_)
      rw [e1, two_zpow_sub]; simp
    · refine lt_of_lt_of_le hu (two_zpow_le ?_)
      omega

/-- Error bound in one formula. -/
lemma rnd_err_add (q : ℚ) :
    |f.rnd q - q| ≤ |q| * 2 ^ (-(f.prec : ℤ)) + 2 ^ (f.qmin - 1) := by
  have h1 : 0 ≤ |q| * (2 : ℚ) ^ (-(f.prec : ℤ)) := by positivity
  have h2 : (0 : ℚ) ≤ 2 ^ (f.qmin - 1) := by positivity
  rcases rnd_err (f := f) q with h | ⟨h, -⟩ <;> linarith

/-- Relative error of numbers in the normal range. -/
lemma rnd_err_rel {q : ℚ} (h : 2 ^ (f.qmin + f.prec - 1) ≤ |q|) :
    |f.rnd q - q| ≤ |q| * 2 ^ (-(f.prec : ℤ)) := by
  rcases rnd_err (f := f) q with h' | ⟨-, h'⟩
  · exact h'
  · exact absurd h (not_le.mpr h')

/-- Numbers with at most `prec` significant digits above the smallest exponent are fixed. -/
lemma rnd_of_int_mul {m e : ℤ} (hm : |m| ≤ 2 ^ f.prec) (he : f.qmin ≤ e) :
    f.rnd (m * 2 ^ e) = m * 2 ^ e := by
  rcases eq_or_ne m 0 with rfl | hm0
  · simp
  set q : ℚ := m * 2 ^ e with hq
  have hq0 : q ≠ 0 := by
    rw [hq]; exact mul_ne_zero (by exact_mod_cast hm0) (two_zpow_pos e).ne'
  obtain ⟨hl, hu⟩ := log_bounds hq0
  -- either the exponent of the last digit is at most `e`, or `|m| = 2^prec`
  have habs : |q| = (|m| : ℤ) * 2 ^ e := by
    rw [hq, abs_mul, abs_of_pos (two_zpow_pos e)]; push_cast; rfl
  have hm' : ((|m| : ℤ) : ℚ) ≤ 2 ^ (f.prec : ℤ) := by
    rw [zpow_natCast]; exact_mod_cast hm
  have hle : (2 : ℚ) ^ Int.log 2 |q| ≤ 2 ^ ((f.prec : ℤ) + e) := by
    rw [two_zpow_add]
    refine hl.trans ?_
    rw [habs]
    gcongr
  have hlog : Int.log 2 |q| ≤ f.prec + e := two_zpow_le_iff.mp hle
  have key : ∃ n : ℤ, q / 2 ^ f.ulpExp q = n := by
    rcases le_or_gt (f.ulpExp q) e with c | c
    · refine ⟨m * 2 ^ (e - f.ulpExp q).toNat, ?_⟩
      generalize f.ulpExp q = u at c ⊢
      have : (2 : ℚ) ^ e = 2 ^ (e - u) * 2 ^ u := by
        rw [← two_zpow_add]; congr 1; ring
      rw [hq, this]
      have h2 := two_zpow_int (k := e - u) (by omega)
      push_cast at h2 ⊢
      rw [h2]
      have := (two_zpow_pos u).ne'
      field_simp
    · -- then log = prec + e, so |q| = 2^(prec+e)
      have h3 : Int.log 2 |q| = f.prec + e := by
        unfold ulpExp at c
        rcases max_cases (Int.log 2 |q| - ((f.prec : ℤ) - 1)) f.qmin with ⟨h4, -⟩ | ⟨h4, -⟩ <;>
          rw [h4] at c <;> omega
      have h4 : f.ulpExp q = e + 1 := by
        unfold ulpExp
        rw [h3, max_eq_left] <;> omega
      have h5 : |q| = 2 ^ ((f.prec : ℤ) + e) := by
        apply le_antisymm
        · rw [habs, two_zpow_add]; gcongr
        · rw [← h3]; exact hl
      have h6 : |m| = 2 ^ f.prec := by
        rw [habs, two_zpow_add] at h5
        have := mul_right_cancel₀ (two_zpow_pos e).ne' h5
        rw [zpow_natCast] at this
        exact_mod_cast this
      have hpp := f.prec_pos
      have h7 : ∃ n, m = 2 * n := by
        have : (2 : ℤ) ∣ |m| := by
          rw [h6]; exact dvd_pow_self 2 (by omega)
        exact (dvd_abs 2 m).mp this
      obtain ⟨n, hn⟩ := h7
      refine ⟨n, ?_⟩
      rw [h4, hq, hn, two_zpow_add]
      have := (two_zpow_pos e).ne'
      push_cast
      field_simp
  obtain ⟨n, hn⟩ := key
  have h8 : f.rnd q = roundEven (q / 2 ^ f.ulpExp q) * 2 ^ f.ulpExp q := rfl
  rw [h8, hn, roundEven_intCast, ← hn]
  have := (two_zpow_pos (f.ulpExp q)).ne'
  field_simp

lemma rnd_of_rep {q : ℚ} (h : f.Rep q) : f.rnd q = q := by
  obtain ⟨m, e, hm, he, -, rfl⟩ := h
  exact rnd_of_int_mul hm.le he

lemma rnd_nonneg {q : ℚ} (h : 0 ≤ q) : 0 ≤ f.rnd q := by
  unfold rnd
  have : (0 : ℤ) ≤ roundEven (q / 2 ^ f.ulpExp q) := by
    apply int_le_roundEven
    push_cast
    positivity
  have h2 : (0 : ℚ) ≤ roundEven (q / 2 ^ f.ulpExp q) := by exact_mod_cast this
  positivity

private lemma rnd_mono_pos {a b : ℚ} (ha : 0 < a) (h : a ≤ b) : f.rnd a ≤ f.rnd b := by
  have hb : 0 < b := lt_of_lt_of_le ha h
  have hl : Int.log 2 |a| ≤ Int.log 2 |b| := by
    apply log_mono ha.ne'
    rw [abs_of_pos ha, abs_of_pos hb]; exact h
  have hua : f.ulpExp a ≤ f.ulpExp b := by
    unfold ulpExp; apply max_le_max _ le_rfl; omega
  rcases hua.eq_or_lt with e | l
  · unfold rnd
    rw [e]
    have := two_zpow_pos (f.ulpExp b)
    have h2 : roundEven (a / 2 ^ f.ulpExp b) ≤ roundEven (b / 2 ^ f.ulpExp b) := by
      apply roundEven_mono; gcongr
    have h3 : (roundEven (a / 2 ^ f.ulpExp b) : ℚ) ≤ roundEven (b / 2 ^ f.ulpExp b) := by
      exact_mod_cast h2
    gcongr
  · -- the power of two `2^(log b)` separates the two
    have hbn : f.ulpExp b = Int.log 2 |b| - (f.prec - 1) := by
      unfold ulpExp at l ⊢
      rcases max_cases (Int.log 2 |b| - ((f.prec : ℤ) - 1)) f.qmin with ⟨h4, -⟩ | ⟨h4, -⟩
      · exact h4
      · rw [h4] at l
        have := le_max_right (Int.log 2 |a| - ((f.prec : ℤ) - 1)) f.qmin
        omega
    have hlt : Int.log 2 |a| < Int.log 2 |b| := by
      by_contra c
      have : Int.log 2 |a| = Int.log 2 |b| := by omega
      unfold ulpExp at l
      rw [this] at l
      exact lt_irrefl _ l
    have hpp := f.prec_pos
    have s1 : f.rnd a ≤ 2 ^ (Int.log 2 |b|) := by
      -- 2^(log b) is a multiple of the unit of a
      have c : f.ulpExp a ≤ Int.log 2 |b| := by omega
      have h2 : a < 2 ^ (Int.log 2 |b|) := by
        have := (log_bounds ha.ne').2
        rw [abs_of_pos ha] at this
        refine lt_of_lt_of_le this (two_zpow_le ?_)
        rw [abs_of_pos ha] at hlt; omega
      have h3 : (2 : ℚ) ^ (Int.log 2 |b|) = 2 ^ (Int.log 2 |b| - f.ulpExp a) * 2 ^ f.ulpExp a := by
        rw [← two_zpow_add]; congr 1; ring
      have h4 := two_zpow_int (k := Int.log 2 |b| - f.ulpExp a) (by omega)
      have hpos := two_zpow_pos (f.ulpExp a)
      have h5 : roundEven (a / 2 ^ f.ulpExp a) ≤ 2 ^ (Int.log 2 |b| - f.ulpExp a).toNat := by
        apply roundEven_le_int
        rw [h4, div_le_iff₀ hpos, ← h3]
        exact h2.le
      have h6 : (roundEven (a / 2 ^ f.ulpExp a) : ℚ) ≤ 2 ^ (Int.log 2 |b| - f.ulpExp a) := by
        rw [← h4]; exact_mod_cast h5
      rw [h3]
      unfold rnd
      gcongr
    have s2 : (2 : ℚ) ^ (Int.log 2 |b|) ≤ f.rnd b := by
      have c : f.ulpExp b ≤ Int.log 2 |b| := by omega
      have h2 := (log_bounds hb.ne').1
      rw [abs_of_pos hb] at h2
      have h3 : (2 : ℚ) ^ (Int.log 2 |b|) = 2 ^ (Int.log 2 |b| - f.ulpExp b) * 2 ^ f.ulpExp b := by
        rw [← two_zpow_add]; congr 1; ring
      have h4 := two_zpow_int (k := Int.log 2 |b| - f.ulpExp b) (by omega)
      have hpos := two_zpow_pos (f.ulpExp b)
      have h5 : 2 ^ (Int.log 2 |b| - f.ulpExp b).toNat ≤ roundEven (b / 2 ^ f.ulpExp b) := by
        apply int_le_roundEven
        rw [h4, le_div_iff₀ hpos, ← h3, abs_of_pos hb]
        exact h2
      have h6 : (2 : ℚ) ^ (Int.log 2 |b| - f.ulpExp b) ≤ roundEven (b / 2 ^ f.ulpExp b) := by
        rw [← h4]; exact_mod_cast h5
      rw [h3]
      unfold rnd
      gcongr
    exact s1.trans s2

/-- Rounding is monotone. -/
lemma rnd_mono {a b : ℚ} (h : a ≤ b) : f.rnd a ≤ f.rnd b := by
  rcases lt_trichotomy 0 a with ha | ha | ha
  · exact rnd_mono_pos ha h
  · rw [← ha, rnd_zero]; rw [← ha] at h; exact rnd_nonneg h
  · rcases lt_or_ge b 0 with hb | hb
    · have := rnd_mono_pos (f := f) (a := -b) (b := -a) (by linarith) (by linarith)
      simp at this; exact this
    · have h1 : 0 ≤ f.rnd (-a) := rnd_nonneg (by linarith)
      have h2 : 0 ≤ f.rnd b := rnd_nonneg hb
      simp at h1
      linarith

lemma rep_neg {q : ℚ} (h : f.Rep q) : f.Rep (-q) := by
  obtain ⟨m, e, hm, he, h3, rfl⟩ := h
  exact ⟨-m, e, by rwa [abs_neg], he, h3, by push_cast; ring⟩

lemma rnd_le_of_rep {q r : ℚ} (hr : f.Rep r) (h : q ≤ r) : f.rnd q ≤ r := by
  have := rnd_mono (f := f) h; rwa [rnd_of_rep hr] at this

lemma le_rnd_of_rep {q r : ℚ} (hr : f.Rep r) (h : r ≤ q) : r ≤ f.rnd q := by
  have := rnd_mono (f := f) h; rwa [rnd_of_rep hr] at this

lemma rep_zero : f.Rep 0 :=
  ⟨0, f.qmin, by simp, le_rfl, f.qmin_le, by simp⟩

/-- The rounded value is representable, unless it overflows. -/
lemma rep_rnd {q : ℚ} (h : |f.rnd q| < 2 ^ f.emax) : f.Rep (f.rnd q) := by
  rcases eq_or_ne q 0 with rfl | hq0
  · rw [rnd_zero]; exact rep_zero
  obtain ⟨hl, hu⟩ := log_bounds hq0
  set e := f.ulpExp q with he
  set m := roundEven (q / 2 ^ e) with hm
  have hr : f.rnd q = m * 2 ^ e := rfl
  have hpos := two_zpow_pos e
  have hqe : f.qmin ≤ e := le_max_right _ _
  have hle : Int.log 2 |q| - (f.prec - 1) ≤ e := le_max_left _ _
  have hpp := f.prec_pos
  -- |m| ≤ 2^prec
  have hmb : |m| ≤ 2 ^ f.prec := by
    have h1 : |q / 2 ^ e| ≤ 2 ^ (f.prec : ℤ) := by
      rw [abs_div, abs_of_pos hpos, div_le_iff₀ hpos, ← two_zpow_add]
      refine hu.le.trans (two_zpow_le ?_)
      omega
    rw [zpow_natCast] at h1
    rw [abs_le] at h1 ⊢
    constructor
    · have : ((-(2 ^ f.prec) : ℤ) : ℚ) ≤ q / 2 ^ e := by push_cast; exact h1.1
      exact int_le_roundEven this
    · have : q / 2 ^ e ≤ ((2 ^ f.prec : ℤ) : ℚ) := by push_cast; exact h1.2
      exact roundEven_le_int this
  -- the exponent is small enough
  have habs : |f.rnd q| = (|m| : ℤ) * 2 ^ e := by
    rw [hr, abs_mul, abs_of_pos hpos]; push_cast; rfl
  rcases hmb.eq_or_lt with hme | hml
  · -- |m| = 2^prec : renormalise
    have hlt : (2 : ℚ) ^ ((f.prec : ℤ) + e) < 2 ^ f.emax := by
      rw [two_zpow_add, zpow_natCast]
      rw [habs, hme] at h
      exact_mod_cast h
    have h1 := two_zpow_lt_iff.mp hlt
    have h2 : ∃ n, m = 2 * n := by
      have : (2 : ℤ) ∣ |m| := by rw [hme]; exact dvd_pow_self 2 (by omega)
      exact (dvd_abs 2 m).mp this
    obtain ⟨n, hn⟩ := h2
    refine ⟨n, e + 1, ?_, by omega, by omega, ?_⟩
    · rw [hn, abs_mul] at hme
      have h3 : |(2 : ℤ)| = 2 := by norm_num
      rw [h3] at hme
      have h4 : (0 : ℤ) < 2 ^ f.prec := by positivity
      omega
    · rw [hr, hn, two_zpow_add]; push_cast; ring
  · refine ⟨m, e, hml, hqe, ?_, hr⟩
    rcases max_cases (Int.log 2 |q| - ((f.prec : ℤ) - 1)) f.qmin with ⟨h4, -⟩ | ⟨h4, -⟩
    · have he' : e = Int.log 2 |q| - (f.prec - 1) := h4
      -- |m| ≥ 2^(prec-1)
      have h5 : (2 : ℤ) ^ (f.prec - 1) ≤ |m| := by
        have h6 : (2 : ℚ) ^ ((f.prec : ℤ) - 1) ≤ |q / 2 ^ e| := by
          rw [abs_div, abs_of_pos hpos, le_div_iff₀ hpos, ← two_zpow_add]
          refine le_trans (two_zpow_le ?_) hl
          omega
        have h7 : (2 : ℚ) ^ ((f.prec : ℤ) - 1) = ((2 ^ (f.prec - 1) : ℤ) : ℚ) := by
          rw [show ((f.prec : ℤ) - 1) = ((f.prec - 1 : ℕ) : ℤ) by omega, zpow_natCast]
          push_cast; rfl
        rw [h7] at h6
        rw [le_abs] at h6 ⊢
        rcases h6 with h6 | h6
        · left; exact int_le_roundEven h6
        · right
          have h8 : q / 2 ^ e ≤ ((-(2 ^ (f.prec - 1)) : ℤ) : ℚ) := by push_cast at h6 ⊢; linarith
          have := roundEven_le_int h8
          omega
      have h9 : (2 : ℚ) ^ ((f.prec : ℤ) - 1 + e) < 2 ^ f.emax := by
        rw [two_zpow_add]
        refine lt_of_le_of_lt ?_ h
        rw [habs, show ((f.prec : ℤ) - 1) = ((f.prec - 1 : ℕ) : ℤ) by omega, zpow_natCast]
        have : ((2 ^ (f.prec - 1) : ℤ) : ℚ) ≤ (|m| : ℤ) := by exact_mod_cast h5
        push_cast at this ⊢
        gcongr
      have := two_zpow_lt_iff.mp h9
      omega
    · have he' : e = f.qmin := h4
      have := f.qmin_le
      omega

lemma rep_abs_lt {q : ℚ} (h : f.Rep q) : |q| < 2 ^ f.emax := by
  obtain ⟨m, e, hm, -, h3, rfl⟩ := h
  have hpos := two_zpow_pos e
  rw [abs_mul, abs_of_pos hpos]
  have h1 : |(m : ℚ)| < 2 ^ (f.prec : ℤ) := by
    rw [zpow_natCast]; exact_mod_cast hm
  calc |(m : ℚ)| * 2 ^ e < 2 ^ (f.prec : ℤ) * 2 ^ e := by gcongr
    _ = 2 ^ ((f.prec : ℤ) + e) := by rw [two_zpow_add]
    _ ≤ 2 ^ f.emax := two_zpow_le (by omega)

/-- The largest finite value. -/
def maxVal (f : Fmt) : ℚ := (2 ^ f.prec - 1) * 2 ^ (f.emax - f.prec)

lemma rep_maxVal : f.Rep f.maxVal := by
  refine ⟨2 ^ f.prec - 1, f.emax - f.prec, ?_, ?_, by omega, ?_⟩
  · have : (0 : ℤ) < 2 ^ f.prec := by positivity
    rw [abs_of_nonneg] <;> omega
  · have := f.qmin_le; omega
  · unfold maxVal; push_cast; rfl

lemma maxVal_lt : f.maxVal < 2 ^ f.emax := by
  have := rep_abs_lt (rep_maxVal (f := f))
  exact lt_of_le_of_lt (le_abs_self _) this

/-- Results not above the largest finite value do not overflow. -/
lemma rnd_lt_of_le {q : ℚ} (h : |q| ≤ f.maxVal) : |f.rnd q| < 2 ^ f.emax := by
  rw [abs_le] at h
  have h1 := rnd_le_of_rep rep_maxVal h.2
  have h2 := le_rnd_of_rep (rep_neg rep_maxVal) h.1
  refine lt_of_le_of_lt ?_ maxVal_lt
  exact abs_le.mpr ⟨h2, h1⟩

/-- Convenient bound: below half of the overflow threshold nothing overflows. -/
lemma rnd_lt_of_le_pow {q : ℚ} (h : |q| ≤ 2 ^ (f.emax - 1)) : |f.rnd q| < 2 ^ f.emax := by
  apply rnd_lt_of_le
  refine h.trans ?_
  unfold maxVal
  have hpp := f.prec_pos
  have h1 : (2 : ℚ) ^ (f.emax - 1) = 2 ^ ((f.prec : ℤ) - 1) * 2 ^ (f.emax - f.prec) := by
    rw [← two_zpow_add]; congr 1; ring
  rw [h1]
  have h2 : (2 : ℚ) ^ ((f.prec : ℤ) - 1) ≤ 2 ^ f.prec - 1 := by
    rw [two_zpow_sub, zpow_natCast]
    have : (2 : ℚ) ≤ 2 ^ f.prec := by
      calc (2 : ℚ) = 2 ^ 1 := by norm_num
        _ ≤ 2 ^ f.prec := by gcongr; norm_num
    simp; linarith
  gcongr

/-- Every representable number is on the grid of the unit used to round `q`, or `q` rounds at least
as close: the rounded value is nearest among all representable ones. -/
lemma rnd_nearest {q r : ℚ} (hr : f.Rep r) : |f.rnd q - q| ≤ |r - q| := by
  -- if q is between r and rnd q ... use monotonicity and reflection on the grid
  rcases eq_or_ne q 0 with rfl | hq0
  · simp
  set e := f.ulpExp q with he
  have hpos := two_zpow_pos e
  have herr := rnd_err_ulp (f := f) q
  rw [← he] at herr
  by_contra hc
  push Not at hc
  -- r is closer than half a unit
  have hr2 : |r - q| < 2 ^ e / 2 := lt_of_lt_of_le hc herr
  obtain ⟨hl, hu⟩ := log_bounds hq0
  obtain ⟨m, k, hm, hk, -, rfl⟩ := hr
  have hint : ∃ n : ℤ, (m : ℚ) * 2 ^ k = n * 2 ^ e := by
    rcases le_or_gt e k with c | c
    · refine ⟨m * 2 ^ (k - e).toNat, ?_⟩
      have h2 := two_zpow_int (k := k - e) (by omega)
      push_cast at h2 ⊢
      rw [h2, mul_assoc, ← two_zpow_add]
      congr 2; ring
    · -- k < e, so q is normal and |r| < 2^(prec + k) ≤ 2^log q ≤ |q|; then r is below the binade
      exfalso
      have he2 : e = Int.log 2 |q| - (f.prec - 1) := by
        rcases max_cases (Int.log 2 |q| - ((f.prec : ℤ) - 1)) f.qmin with ⟨h4, -⟩ | ⟨h4, -⟩
        · exact h4
        · have : e = f.qmin := h4
          omega
      -- 2^log q is representable between |r| and |q|, and on the grid
      have h1 : |(m : ℚ) * 2 ^ k| < 2 ^ (Int.log 2 |q|) := by
        rw [abs_mul, abs_of_pos (two_zpow_pos k)]
        have h1 : |(m : ℚ)| < 2 ^ (f.prec : ℤ) := by
          rw [zpow_natCast]; exact_mod_cast hm
        calc |(m : ℚ)| * 2 ^ k < 2 ^ (f.prec : ℤ) * 2 ^ k := by
              have := two_zpow_pos k; gcongr
          _ = 2 ^ ((f.prec : ℤ) + k) := by rw [two_zpow_add]
          _ ≤ _ := two_zpow_le (by omega)
      -- s = sign(q) 2^log q is at least as close as r and is on the grid of q, hence rnd is closer
      have hpp := f.prec_pos
      have h4 := two_zpow_int (k := Int.log 2 |q| - e) (by omega)
      have h3 : (2 : ℚ) ^ (Int.log 2 |q|) = (2 ^ (Int.log 2 |q| - e).toNat : ℤ) * 2 ^ e := by
        rw [h4, ← two_zpow_add]; congr 1; ring
      have habs : |q| - |f.rnd q| ≤ |q| - 2 ^ (Int.log 2 |q|) := by
        have : (2 : ℚ) ^ (Int.log 2 |q|) ≤ |f.rnd q| := by
          have h6 : (2 : ℚ) ^ (Int.log 2 |q|) = f.rnd (2 ^ (Int.log 2 |q|)) := by
            have h7 := rnd_of_int_mul (f := f) (m := 2 ^ (f.prec - 1)) (e := e)
              (by rw [abs_of_nonneg (by positivity)]
                  exact pow_le_pow_right₀ (by norm_num) (by omega)) (le_max_right _ _)
            have h8 : ((2 ^ (f.prec - 1) : ℤ) : ℚ) * 2 ^ e = 2 ^ (Int.log 2 |q|) := by
              push_cast
              rw [← zpow_natCast, ← two_zpow_add]
              congr 1
              push_cast [Nat.cast_sub hpp.le]
              omega
            rw [h8] at h7
            exact h7.symm
          rcases le_or_gt 0 q with s | s
          · rw [abs_of_nonneg s] at hl ⊢
            have := rnd_mono (f := f) hl
            rw [abs_of_nonneg s] at h6
            rw [← h6] at this
            exact this.trans (le_abs_self _)
          · rw [abs_of_neg s] at hl h6 ⊢
            have := rnd_mono (f := f) hl
            rw [← h6, rnd_neg] at this
            exact this.trans (neg_le_abs _)
        linarith
      have h9 : |q| - 2 ^ (Int.log 2 |q|) < |(m : ℚ) * 2 ^ k - q| := by
        have := abs_sub_abs_le_abs_sub q ((m : ℚ) * 2 ^ k)
        rw [abs_sub_comm]
        linarith
      -- error of rnd is at most distance to the grid point sign(q) 2^log q
      have h10 : |f.rnd q - q| ≤ |q| - 2 ^ (Int.log 2 |q|) ∨ |q| - 2 ^ (Int.log 2 |q|) < 0 := by
        left
        have hrd : f.rnd q = roundEven (q / 2 ^ e) * 2 ^ e := rfl
        rcases le_or_gt ((2 : ℚ) ^ e / 2) (|q| - 2 ^ (Int.log 2 |q|)) with c2 | c2
        · exact herr.trans c2
        · -- q is within half a unit of the grid point, so it rounds there or the tie rule
          set n0 : ℤ := 2 ^ (Int.log 2 |q| - e).toNat with hn0
          rcases le_or_gt 0 q with s | s
          · rw [abs_of_nonneg s] at c2 hl h3 ⊢
            have hq1 : (n0 : ℚ) ≤ q / 2 ^ e := by
              rw [le_div_iff₀ hpos]; rw [abs_of_nonneg s] at hn0; rw [← h3]; exact hl
            have hq2 : q / 2 ^ e < n0 + 1 / 2 := by
              rw [div_lt_iff₀ hpos]
              have : ((n0 : ℚ) + 1 / 2) * 2 ^ e = n0 * 2 ^ e + 2 ^ e / 2 := by ring
              rw [this, ← h3]; linarith
            have hre : roundEven (q / 2 ^ e) = n0 := by
              have hfl : ⌊q / 2 ^ e⌋ = n0 := by
                rw [Int.floor_eq_iff]; constructor <;> linarith
              unfold roundEven
              dsimp only
              rw [hfl, if_pos (by linarith)]
            rw [hrd, hre, ← h3, abs_le]
            constructor <;> linarith
          · rw [abs_of_neg s] at c2 hl h3 ⊢
            have hq1 : (n0 : ℚ) ≤ (-q) / 2 ^ e := by
              rw [le_div_iff₀ hpos, ← h3]; exact hl
            have hq2 : (-q) / 2 ^ e < n0 + 1 / 2 := by
              rw [div_lt_iff₀ hpos]
              have : ((n0 : ℚ) + 1 / 2) * 2 ^ e = n0 * 2 ^ e + 2 ^ e / 2 := by ring
              rw [this, ← h3]; linarith
            have hre : roundEven ((-q) / 2 ^ e) = n0 := by
              have hfl : ⌊(-q) / 2 ^ e⌋ = n0 := by
                rw [Int.floor_eq_iff]; constructor <;> linarith
              unfold roundEven
              dsimp only
              rw [hfl, if_pos (by linarith)]
            rw [neg_div, roundEven_neg] at hre
            have hre' : (roundEven (q / 2 ^ e) : ℚ) = -n0 := by
              have : roundEven (q / 2 ^ e) = -n0 := by omega
              rw [this]; push_cast; rfl
            rw [hrd, hre', neg_mul, ← h3, abs_le]
            constructor <;> linarith
      rcases h10 with h10 | h10
      · linarith
      · have := hl; linarith
  obtain ⟨n, hn⟩ := hint
  rw [hn] at hr2 hc
  -- grid point within half a unit is the nearest integer
  have h1 : |(n : ℚ) - q / 2 ^ e| < 1 / 2 := by
    have : (n : ℚ) * 2 ^ e - q = (n - q / 2 ^ e) * 2 ^ e := by field_simp
    rw [this, abs_mul, abs_of_pos hpos] at hr2
    by_contra c
    push Not at c
    nlinarith
  have h2 : roundEven (q / 2 ^ e) = n := by
    have h3 := roundEven_err (q / 2 ^ e)
    have h4 : |(roundEven (q / 2 ^ e) : ℚ) - n| < 1 := by
      have := abs_sub_le (roundEven (q / 2 ^ e) : ℚ) (q / 2 ^ e) n
      rw [abs_sub_comm (q / 2 ^ e) (n : ℚ)] at this
      linarith
    have h5 : |roundEven (q / 2 ^ e) - n| < 1 := by exact_mod_cast h4
    rw [abs_lt] at h5
    omega
  have h3 : f.rnd q = n * 2 ^ e := by
    have : f.rnd q = roundEven (q / 2 ^ e) * 2 ^ e := rfl
    rw [this, h2]
  rw [h3] at hc
  exact lt_irrefl _ hc

/-! ## Integers -/

/-- Integers up to `2^prec` are representable. -/
lemma rep_int {n : ℤ} (h : |n| ≤ 2 ^ f.prec) : f.Rep n := by
  have hpp := f.prec_pos
  have hle := f.prec_lt
  have hq := f.qmin_neg
  rcases h.eq_or_lt with he | hl
  · have h2 : ∃ k, n = 2 * k := by
      have : (2 : ℤ) ∣ |n| := by rw [he]; exact dvd_pow_self 2 (by omega)
      exact (dvd_abs 2 n).mp this
    obtain ⟨k, hk⟩ := h2
    · refine ⟨k, 1, ?_, by omega, by omega, by rw [hk]; push_cast; ring⟩
      rw [hk, abs_mul] at he
      have h3 : |(2 : ℤ)| = 2 := by norm_num
      rw [h3] at he
      have h4 : (0 : ℤ) < 2 ^ f.prec := by positivity
      omega
  · exact ⟨n, 0, hl, by omega, by omega, by simp⟩

end Fmt
end Verif
