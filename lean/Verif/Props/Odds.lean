import Verif.Props.Bayes
import Verif.Spec.Odds
import Mathlib.Analysis.Complex.ExponentialBounds
import Mathlib.Analysis.SpecialFunctions.Sigmoid
import Mathlib.Analysis.Calculus.MeanValue

/-!
# C72: the conversions between probability and log-odds are accurate
-/

namespace Verif.Props
open Spec

/-! ## Numbers near 1 -/

/-- An f32 value other than 1 is at least 2^-24 away from 1. -/
lemma gap_one {q : ℚ} (h : b32.Rep q) (h1 : q ≠ 1) : 1 / 2 ^ 24 ≤ |q - 1| := by
  obtain ⟨m, e, hm, -, -, rfl⟩ := h
  simp only [b32] at hm
  rcases le_or_gt 0 e with he | he
  · obtain ⟨k, rfl⟩ := Int.eq_ofNat_of_zero_le he
    have h2 : (m * 2 ^ k - 1 : ℤ) ≠ 0 := fun hc => h1 (by
      have : ((m * 2 ^ k - 1 : ℤ) : ℚ) = 0 := by rw [hc]; rfl
      push_cast at this
      rw [zpow_natCast]
      linarith)
    have h3 : (1 : ℚ) ≤ ((|m * 2 ^ k - 1| : ℤ) : ℚ) := by exact_mod_cast Int.one_le_abs h2
    rw [zpow_natCast]
    push_cast at h3
    exact le_trans (by norm_num) h3
  · obtain ⟨k, hk⟩ : ∃ k : ℕ, e = -(k : ℤ) := ⟨(-e).toNat, by omega⟩
    subst hk
    rw [zpow_neg, zpow_natCast, ← div_eq_mul_inv] at h1 ⊢
    have hp : (0 : ℚ) < 2 ^ k := by positivity
    rcases le_or_gt k 24 with hk | hk
    · have h2 : (m - 2 ^ k : ℤ) ≠ 0 := fun hc => h1 (by
        rw [div_eq_one_iff_eq hp.ne']
        have : m = 2 ^ k := by omega
        rw [this]; push_cast; rfl)
      have h3 : (1 : ℚ) ≤ ((|m - 2 ^ k| : ℤ) : ℚ) := by exact_mod_cast Int.one_le_abs h2
      push_cast at h3
      rw [div_sub_one hp.ne', abs_div, abs_of_pos hp, div_le_div_iff₀ (by positivity) hp]
      have h4 : (2 : ℚ) ^ k ≤ 2 ^ 24 := pow_le_pow_right₀ (by norm_num) hk
      nlinarith
    · have h3 : |(m : ℚ)| < 2 ^ 24 := by exact_mod_cast hm
      have h4 : (2 : ℚ) ^ 25 ≤ 2 ^ k := pow_le_pow_right₀ (by norm_num) hk
      have h5 : (m : ℚ) / 2 ^ k ≤ 1 / 2 := by
        rw [div_le_div_iff₀ hp (by norm_num)]
        have := le_abs_self (m : ℚ)
        norm_num at h4 h3 ⊢
        linarith
      rw [abs_of_nonpos (by linarith)]
      norm_num
      linarith

lemma sigmoid_logOdds {p : ℝ} (h0 : 0 < p) (h1 : p < 1) : sigmoid (logOdds p) = p := by
  have h2 : 0 < p / (1 - p) := div_pos h0 (by linarith)
  unfold sigmoid logOdds
  rw [Real.exp_neg, Real.exp_log h2]
  have : 1 - p ≠ 0 := by linarith
  field_simp
  ring

lemma sigmoid_alt (l : ℝ) : sigmoid l = 1 - 1 / (1 + Real.exp l) := by
  unfold sigmoid
  rw [Real.exp_neg]
  have := Real.exp_pos l
  field_simp
  ring

lemma exp_80 : Real.exp 80 ≤ 2 ^ 119 := by
  have h := Real.exp_one_lt_d9.le
  have : Real.exp 80 = Real.exp 1 ^ 80 := by rw [← Real.exp_nat_mul]; norm_num
  rw [this]
  refine (pow_le_pow_left₀ (Real.exp_pos 1).le h 80).trans ?_
  norm_num

lemma exp_80' : 2 ^ 100 ≤ Real.exp 80 := by
  have h := Real.exp_one_gt_d9.le
  have : Real.exp 80 = Real.exp 1 ^ 80 := by rw [← Real.exp_nat_mul]; norm_num
  rw [this]
  refine le_trans ?_ (pow_le_pow_left₀ (by norm_num) h 80)
  norm_num

/-! ## From log-odds to probability -/

/-- The last three steps: from `e` to `1 - 1 / (1 + e)`. -/
lemma prob_steps {v : F32} {e : ℚ} (he : v.Is e) (h0 : 0 ≤ e) (s2 : |b32.rnd (1 + e)| < 2 ^ b32.emax) :
    ∃ p, ((Fp.lit 1).sub ((Fp.lit 1).div ((Fp.lit 1).add v))).Is p ∧ 0 ≤ p ∧ p ≤ 1 ∧
      |p - (1 - 1 / (1 + e))| ≤ 3 / 2 ^ 24 + 1 / 2 ^ 45 := by
  have s0 : |b32.rnd (1 + e) - (1 + e)| ≤ _ := F32.err (1 + e)
  have s1 : (1 : ℚ) ≤ b32.rnd (1 + e) := Fmt.le_rnd_of_rep rep_one (by linarith)
  have hs := F32.one_is.add he s2
  set s := b32.rnd (1 + e) with hsd
  have hspos : 0 < s := by linarith
  have r0 : |b32.rnd (1 / s) - 1 / s| ≤ _ := F32.err (1 / s)
  have r1 : 0 ≤ 1 / s := by positivity
  have r2 : 1 / s ≤ 1 := by rw [div_le_one hspos]; exact s1
  obtain ⟨r3, r4, r5⟩ := rnd_unit (f := b32) r1 r2
  have hr := F32.one_is.div hs hspos.ne' r5
  set r := b32.rnd (1 / s) with hrd
  obtain ⟨p3, p4, p5⟩ := rnd_unit (f := b32) (q := 1 - r) (by linarith) (by linarith)
  have p0 : |b32.rnd (1 - r) - (1 - r)| ≤ _ := F32.err (1 - r)
  refine ⟨_, F32.one_is.sub hr p5, p3, p4, ?_⟩
  have h1e : (0 : ℚ) < 1 + e := by linarith
  have hinv : |1 / s - 1 / (1 + e)| ≤ 1 / 2 ^ 24 + 1 / 2 ^ 46 := by
    have : 1 / s - 1 / (1 + e) = ((1 + e) - s) / (s * (1 + e)) := by
      field_simp
    have hse : 0 < s * (1 + e) := mul_pos hspos h1e
    rw [this, abs_div, abs_of_pos hse, div_le_iff₀ hse, abs_sub_comm]
    rw [abs_of_nonneg h1e.le] at s0
    have : 1 + e ≤ s * (1 + e) := le_mul_of_one_le_left h1e.le s1
    norm_num at s0 ⊢
    linarith
  rw [abs_of_nonneg r1] at r0
  rw [abs_of_nonneg (show (0 : ℚ) ≤ 1 - r by linarith)] at p0
  rw [abs_le] at *
  norm_num at r0 r2 p0 hinv ⊢
  constructor <;> linarith [r0.1, r0.2, p0.1, p0.2, hinv.1, hinv.2]

lemma cast_near {p q : ℚ} {c : ℚ} (h : |p - q| ≤ c) : |(p : ℝ) - q| ≤ c := by exact_mod_cast h

variable [Libm F32]

/-- C72: for every finite f32 log-odds the computed probability is in the unit interval and within 2^-21 of the
probability with these log-odds. -/
theorem C72_probability (hl : AccurateLibm) {l : F32} {y : ℚ} (hy : l.Is y) :
    ∃ p, (probabilityFromLogodds l).Is p ∧ 0 ≤ p ∧ p ≤ 1 ∧ |(p : ℝ) - sigmoid y| ≤ 1 / 2 ^ 21 := by
  have hE := Real.exp_pos (y : ℝ)
  have h80 : ∀ z : ℝ, 80 ≤ z → Real.exp (-z) ≤ 1 / 2 ^ 100 := fun z hz => by
    rw [Real.exp_neg, ← one_div]
    exact one_div_le_one_div_of_le (by norm_num) (exp_80'.trans (Real.exp_le_exp.mpr hz))
  rcases lt_or_ge 80 y with hb | hb
  · have hyr : (80 : ℝ) ≤ y := by exact_mod_cast hb.le
    have hs1 : 1 - 1 / 2 ^ 100 ≤ sigmoid y ∧ sigmoid y ≤ 1 := by
      have hx := h80 _ hyr
      have hx0 := Real.exp_pos (-(y : ℝ))
      unfold sigmoid
      constructor
      · rw [le_div_iff₀ (by linarith)]; nlinarith
      · rw [div_le_one (by linarith)]; linarith
    have fin : ∀ p : ℚ, |p - 1| ≤ 1 / 2 ^ 22 → |(p : ℝ) - sigmoid y| ≤ 1 / 2 ^ 21 := by
      intro p h3
      have h3' := cast_near h3
      rw [abs_le] at h3' ⊢
      norm_num at h3' hs1 ⊢
      constructor <;> linarith [h3'.1, h3'.2, hs1.1, hs1.2]
    have top : ∀ v : F32, (Fp.lit 1).add v = .inf false →
        ∃ p, ((Fp.lit 1).sub ((Fp.lit 1).div ((Fp.lit 1).add v))).Is p ∧ 0 ≤ p ∧ p ≤ 1 ∧
          |p - 1| ≤ 1 / 2 ^ 22 := by
      intro v hv
      rw [hv]
      exact ⟨1, by decide +kernel, by norm_num, by norm_num, by norm_num⟩
    rcases hl.exp_large l y hy hb with hi | ⟨e, he, he1⟩
    · obtain ⟨p, p1, p2, p3, p4⟩ := top (Libm.exp l) (by rw [hi]; decide +kernel)
      exact ⟨p, p1, p2, p3, fin p p4⟩
    · have he0 : (0 : ℚ) ≤ e := le_trans (by positivity) he1
      by_cases hov : |b32.rnd (1 + e)| < 2 ^ b32.emax
      · obtain ⟨p, p1, p2, p3, p4⟩ := prob_steps he he0 hov
        refine ⟨p, p1, p2, p3, fin p ?_⟩
        have : 1 / (1 + e) ≤ 1 / 2 ^ 100 := one_div_le_one_div_of_le (by positivity) (by linarith)
        have h0 : 0 ≤ 1 / (1 + e) := by positivity
        rw [abs_le] at p4 ⊢
        norm_num at p4 this h0 ⊢
        constructor <;> linarith [p4.1, p4.2]
      · obtain ⟨p, p1, p2, p3, p4⟩ := top (Libm.exp l) (by
          obtain ⟨nz, r1, r2, e'⟩ := he
          rw [e', lit_one_eq]
          simp only [Fp.add]
          rw [Fp.ofRat_overflow hov]
          simp; linarith)
        exact ⟨p, p1, p2, p3, fin p p4⟩
  · rcases lt_or_ge y (-80) with hc | hc
    · obtain ⟨e, he, he0, he1⟩ := hl.exp_small l y hy hc
      obtain ⟨p, p1, p2, p3, p4⟩ := prob_steps he he0 (F32.noOvf (by
        rw [abs_of_nonneg (by linarith)]; norm_num at he1 ⊢; linarith))
      refine ⟨p, p1, p2, p3, ?_⟩
      have p4' : |p| ≤ 1 / 2 ^ 22 := by
        have h1 : 1 - 1 / 2 ^ 100 ≤ 1 / (1 + e) := by
          rw [le_div_iff₀ (by linarith)]; nlinarith
        have h2 : 1 / (1 + e) ≤ 1 := by rw [div_le_one (by linarith)]; linarith
        rw [abs_le] at p4 ⊢
        norm_num at p4 h1 h2 ⊢
        constructor <;> linarith [p4.1, p4.2]
      have p5 : |(p : ℝ)| ≤ 1 / 2 ^ 22 := by
        have := cast_near (p := p) (q := 0) (by simpa using p4')
        simpa using this
      have hyr : (80 : ℝ) ≤ -(y : ℝ) := by
        have : ((y : ℚ) : ℝ) < ((-80 : ℚ) : ℝ) := by exact_mod_cast hc
        push_cast at this
        linarith
      have hx := h80 _ hyr
      rw [neg_neg] at hx
      have hs1 : 0 ≤ sigmoid y ∧ sigmoid y ≤ 1 / 2 ^ 100 := by
        rw [sigmoid_alt]
        have h1 : 1 / (1 + Real.exp y) ≤ 1 := by rw [div_le_one (by linarith)]; linarith
        have h2 : 1 - 1 / 2 ^ 100 ≤ 1 / (1 + Real.exp y) := by
          rw [le_div_iff₀ (by linarith)]; nlinarith
        constructor <;> linarith
      rw [abs_le] at p5 ⊢
      norm_num at p5 hs1 ⊢
      constructor <;> linarith [p5.1, p5.2, hs1.1, hs1.2]
    · obtain ⟨e, he, hee⟩ := hl.exp l y hy (abs_le.mpr ⟨hc, hb⟩)
      have hE2 : Real.exp y ≤ 2 ^ 119 := by
        refine le_trans (Real.exp_le_exp.mpr ?_) exp_80
        exact_mod_cast hb
      have her := abs_le.mp hee
      have he0 : (0 : ℝ) < e := by norm_num at her; linarith [her.1]
      have he0' : (0 : ℚ) < e := by exact_mod_cast he0
      have he1 : (e : ℝ) ≤ 2 ^ 120 := by norm_num at her hE2 ⊢; linarith [her.2]
      have he1' : e ≤ 2 ^ 120 := by exact_mod_cast he1
      obtain ⟨p, p1, p2, p3, p4⟩ := prob_steps he he0'.le (F32.noOvf (by
        rw [abs_of_nonneg (by linarith)]; norm_num at he1' ⊢; linarith))
      refine ⟨p, p1, p2, p3, ?_⟩
      have p5 := cast_near p4
      push_cast at p5
      have hd : |1 / (1 + (e : ℝ)) - 1 / (1 + Real.exp y)| ≤ 1 / 2 ^ 22 := by
        have h1 : 0 < (1 + (e : ℝ)) * (1 + Real.exp y) := by positivity
        have h2 : 1 / (1 + (e : ℝ)) - 1 / (1 + Real.exp y) =
            (Real.exp y - e) / ((1 + (e : ℝ)) * (1 + Real.exp y)) := by
          field_simp
          ring
        rw [h2, abs_div, abs_of_pos h1, div_le_iff₀ h1, abs_sub_comm]
        refine hee.trans ?_
        have h3 : Real.exp y ≤ (1 + (e : ℝ)) * (1 + Real.exp y) := by nlinarith
        norm_num at h3 ⊢
        linarith
      rw [sigmoid_alt]
      rw [abs_le] at p5 hd ⊢
      norm_num at p5 hd ⊢
      constructor <;> linarith [p5.1, p5.2, hd.1, hd.2]

/-! ## From probability to log-odds -/

omit [Libm F32] in
/-- The quotient `p / (1 - p)` as computed, and the exact one. -/
lemma odds_near {p : F32} {x : ℚ} (hp : p.Is x) (h0 : 1 / 2 ^ 100 ≤ x) (h1 : x < 1) :
    ∃ q, (p.div ((Fp.lit 1).sub p)).Is q ∧ 0 < q ∧ (1 / 2 ≤ x → 1 ≤ q) ∧ (x ≤ 1 / 2 → q ≤ 1) ∧
      x / (1 - x) * (1 - 17 / 2 ^ 27) ≤ q ∧ q ≤ x / (1 - x) * (1 + 17 / 2 ^ 27) := by
  have hx0 : 0 < x := lt_of_lt_of_le (by positivity) h0
  have hrep : b32.Rep x := by obtain ⟨_, h, _, _⟩ := hp; exact h
  have hgap : 1 / 2 ^ 24 ≤ 1 - x := by
    have := gap_one hrep h1.ne
    rwa [abs_of_neg (by linarith), neg_sub] at this
  obtain ⟨d1, -, -⟩ := one_sub hp hx0.le h1.le
  obtain ⟨d2, d3, -⟩ := rnd_unit (f := b32) (q := 1 - x) (by linarith) (by linarith)
  have d4 := F32.err (1 - x)
  rw [abs_of_pos (show 0 < 1 - x by linarith)] at d4
  have hhalf : b32.Rep (1 / 2) := ⟨1, -1, by simp [b32], by simp [b32], by simp [b32], by norm_num⟩
  have d5 : 1 / 2 ≤ x → b32.rnd (1 - x) ≤ 1 / 2 := fun h => Fmt.rnd_le_of_rep hhalf (by linarith)
  have d6 : x ≤ 1 / 2 → 1 / 2 ≤ b32.rnd (1 - x) := fun h => Fmt.le_rnd_of_rep hhalf (by linarith)
  set d := b32.rnd (1 - x) with hd
  obtain ⟨d7, d8⟩ : (1 - x) * (1 - 65 / 2 ^ 30) ≤ d ∧ d ≤ (1 - x) * (1 + 65 / 2 ^ 30) := by
    rw [abs_le] at d4
    norm_num at d4 hgap ⊢
    constructor <;> linarith [d4.1, d4.2]
  have hdpos : 0 < d := lt_of_lt_of_le (mul_pos (by linarith) (by norm_num)) d7
  have hxd : 1 / 2 ^ 100 ≤ x / d := h0.trans (by rw [le_div_iff₀ hdpos]; nlinarith)
  have hxd2 : x / d ≤ 2 ^ 25 := by
    rw [div_le_iff₀ hdpos]
    norm_num at d7 hgap ⊢
    linarith
  have hxd0 : 0 < x / d := by positivity
  have q0 := F32.err (x / d)
  rw [abs_of_pos hxd0] at q0
  obtain ⟨q1, q2⟩ : x / d * (1 - 65 / 2 ^ 30) ≤ b32.rnd (x / d) ∧ b32.rnd (x / d) ≤ x / d * (1 + 65 / 2 ^ 30) := by
    rw [abs_le] at q0
    norm_num at q0 hxd ⊢
    constructor <;> linarith [q0.1, q0.2]
  have hq := hp.div d1 hdpos.ne' (F32.noOvf (by rw [abs_of_pos hxd0]; refine hxd2.trans (by norm_num)))
  have hx1 : 0 < 1 - x := by linarith
  refine ⟨_, hq, lt_of_lt_of_le (mul_pos hxd0 (by norm_num)) q1, fun h => ?_, fun h => ?_, ?_, ?_⟩
  · apply Fmt.le_rnd_of_rep rep_one
    rw [le_div_iff₀ hdpos]
    linarith [d5 h]
  · apply Fmt.rnd_le_of_rep rep_one
    rw [div_le_iff₀ hdpos]
    linarith [d6 h]
  · refine le_trans ?_ q1
    have : x / (1 - x) * (1 - 66 / 2 ^ 30) ≤ x / d := by
      rw [div_mul_eq_mul_div, div_le_div_iff₀ hx1 hdpos, mul_assoc]
      refine mul_le_mul_of_nonneg_left ?_ hx0.le
      norm_num at d8 ⊢
      linarith
    norm_num at this ⊢
    have h2 : 0 < x / (1 - x) := by positivity
    linarith
  · refine q2.trans ?_
    have : x / d ≤ x / (1 - x) * (1 + 66 / 2 ^ 30) := by
      rw [div_mul_eq_mul_div, div_le_div_iff₀ hdpos hx1, mul_assoc]
      refine mul_le_mul_of_nonneg_left ?_ hx0.le
      norm_num at d7 ⊢
      linarith
    norm_num at this ⊢
    have h2 : 0 < x / (1 - x) := by positivity
    linarith

/-- C72: for every f32 probability from 2^-100 up, below 1, the computed log-odds are within
`(1 + |L|) / 2^21` of the exact log-odds `L`, and on the right side of 0. -/
theorem C72_logodds (hl : AccurateLibm) {p : F32} {x : ℚ} (hp : p.Is x) (h0 : 1 / 2 ^ 100 ≤ x) (h1 : x < 1) :
    ∃ l, (logoddsFromProbability p).Is l ∧
      |(l : ℝ) - logOdds x| ≤ (1 + |logOdds x|) / 2 ^ 21 ∧
      (1 / 2 ≤ x → 0 ≤ l) ∧ (x ≤ 1 / 2 → l ≤ 0) := by
  obtain ⟨q, hq, hq0, g1, g2, g3, g4⟩ := odds_near hp h0 h1
  obtain ⟨l, hll, hle⟩ := hl.ln _ q hq hq0
  have hx0 : (0 : ℚ) < x := lt_of_lt_of_le (by positivity) h0
  have hx0r : (0 : ℝ) < x := by exact_mod_cast hx0
  have hx1r : (x : ℝ) < 1 := by exact_mod_cast h1
  have hQ : (0 : ℝ) < x / (1 - x) := div_pos hx0r (by linarith)
  have hqr : (0 : ℝ) < q := by exact_mod_cast hq0
  have g3' : (x : ℝ) / (1 - x) * (1 - 17 / 2 ^ 27) ≤ q := by
    have := (Rat.cast_le (K := ℝ)).mpr g3
    push_cast at this
    exact this
  have g4' : (q : ℝ) ≤ x / (1 - x) * (1 + 17 / 2 ^ 27) := by
    have := (Rat.cast_le (K := ℝ)).mpr g4
    push_cast at this
    exact this
  have hL : logOdds x = Real.log (x / (1 - x)) := rfl
  have hD : |Real.log q - logOdds x| ≤ 1 / 2 ^ 22 := by
    rw [hL, abs_le]
    constructor
    · have a := Real.log_le_log (mul_pos hQ (by norm_num)) g3'
      rw [Real.log_mul hQ.ne' (by norm_num)] at a
      have b := Real.one_sub_inv_le_log_of_pos (show (0 : ℝ) < 1 - 17 / 2 ^ 27 by norm_num)
      norm_num at a b ⊢
      linarith
    · have a := Real.log_le_log hqr g4'
      rw [Real.log_mul hQ.ne' (by norm_num)] at a
      have b := Real.log_le_sub_one_of_pos (show (0 : ℝ) < 1 + 17 / 2 ^ 27 by norm_num)
      norm_num at a b ⊢
      linarith
  refine ⟨l, hll, ?_, fun h => ?_, fun h => ?_⟩
  · have h3 : |Real.log q| ≤ |logOdds x| + 1 / 2 ^ 22 := by
      have := abs_sub_abs_le_abs_sub (Real.log q) (logOdds x)
      linarith
    have h4 : |(l : ℝ) - logOdds x| ≤ |(l : ℝ) - Real.log q| + |Real.log q - logOdds x| := abs_sub_le _ _ _
    have h5 := abs_nonneg (logOdds x)
    norm_num at hle hD h3 ⊢
    linarith
  · have : (1 : ℝ) ≤ q := by exact_mod_cast g1 h
    have h2 := Real.log_nonneg this
    rw [abs_of_nonneg h2, abs_le] at hle
    have : (0 : ℝ) ≤ l := by
      norm_num at hle
      linarith [hle.1]
    exact_mod_cast this
  · have : (q : ℝ) ≤ 1 := by exact_mod_cast g2 h
    have h2 := Real.log_nonpos hqr.le this
    rw [abs_of_nonpos h2, abs_le] at hle
    have : (l : ℝ) ≤ 0 := by
      norm_num at hle
      linarith [hle.2]
    exact_mod_cast this

/-! ## There and back -/

omit [Libm F32] in
lemma one_add_exp_neg_le (z : ℝ) : (1 + z) * Real.exp (-z) ≤ 1 := by
  have h := Real.add_one_le_exp z
  rw [Real.exp_neg, ← div_eq_mul_inv, div_le_one (Real.exp_pos z)]
  linarith

omit [Libm F32] in
lemma sigmoid_neg (l : ℝ) : sigmoid (-l) = 1 - sigmoid l := by
  rw [sigmoid_alt l]
  unfold sigmoid
  rw [neg_neg]
  ring

omit [Libm F32] in
lemma sigmoid_near_pos {l L c : ℝ} (hL : 0 ≤ L) (h : |l - L| ≤ (1 + L) * c)
    (hs : |l - L| ≤ 1 / 16) : |sigmoid l - sigmoid L| ≤ 5 / 4 * c := by
  have h1 : |Real.exp (l - L) - 1| ≤ 17 / 16 * |l - L| := by
    have a := Real.abs_exp_sub_one_sub_id_le (x := l - L) (by linarith)
    have b : (l - L) ^ 2 ≤ 1 / 16 * |l - L| := by
      rw [← sq_abs, sq]
      exact mul_le_mul_of_nonneg_right hs (abs_nonneg _)
    have c' : |Real.exp (l - L) - 1| ≤ |Real.exp (l - L) - 1 - (l - L)| + |l - L| := by
      have := abs_add_le (Real.exp (l - L) - 1 - (l - L)) (l - L)
      rwa [sub_add_cancel] at this
    linarith
  have hEl := Real.exp_pos l
  have hEL := Real.exp_pos L
  have e1 : sigmoid l - sigmoid L =
      (Real.exp (l - L) - 1) * (Real.exp L / (1 + Real.exp L)) * (1 / (1 + Real.exp l)) := by
    rw [sigmoid_alt, sigmoid_alt, Real.exp_sub]
    field_simp
    ring
  have h2 : Real.exp L / (1 + Real.exp L) ≤ 1 := by rw [div_le_one (by linarith)]; linarith
  have h3 : 1 / (1 + Real.exp l) ≤ 18 / 17 * (10 / 9) * Real.exp (-L) := by
    have a : Real.exp (-(l - L)) ≤ 18 / 17 * (10 / 9) := by
      have a := Real.abs_exp_sub_one_sub_id_le (x := -(l - L)) (by rw [abs_neg]; linarith)
      have a := (abs_le.mp a).2
      have b := (abs_le.mp hs).1
      have b' := (abs_le.mp hs).2
      nlinarith
    have b : 1 / (1 + Real.exp l) ≤ Real.exp (-(l - L)) * Real.exp (-L) := by
      rw [← Real.exp_add, show -(l - L) + -L = -l by ring, Real.exp_neg, ← one_div]
      exact one_div_le_one_div_of_le hEl (by linarith)
    exact b.trans (mul_le_mul_of_nonneg_right a (Real.exp_pos _).le)
  have h4 : 0 ≤ Real.exp L / (1 + Real.exp L) := by positivity
  have h5 : 0 ≤ 1 / (1 + Real.exp l) := by positivity
  have hc0 : 0 ≤ c := by
    by_contra hc
    have := abs_nonneg (l - L)
    nlinarith
  have h6 := mul_le_mul_of_nonneg_right (one_add_exp_neg_le L) hc0
  rw [e1, abs_mul, abs_mul, abs_of_nonneg h4, abs_of_nonneg h5]
  calc |Real.exp (l - L) - 1| * (Real.exp L / (1 + Real.exp L)) * (1 / (1 + Real.exp l))
      ≤ (17 / 16 * ((1 + L) * c)) * 1 * (18 / 17 * (10 / 9) * Real.exp (-L)) := by
        gcongr
        exact h1.trans (by linarith)
    _ = 5 / 4 * ((1 + L) * Real.exp (-L) * c) := by ring
    _ ≤ 5 / 4 * c := by linarith

omit [Libm F32] in
/-- The sigmoid at two nearby places, where the allowed distance grows with the distance from 0. -/
lemma sigmoid_near {l L c : ℝ} (h : |l - L| ≤ (1 + |L|) * c) (hs : |l - L| ≤ 1 / 16) :
    |sigmoid l - sigmoid L| ≤ 5 / 4 * c := by
  rcases le_total 0 L with hL | hL
  · rw [abs_of_nonneg hL] at h
    exact sigmoid_near_pos hL h hs
  · rw [abs_of_nonpos hL] at h
    have := sigmoid_near_pos (l := -l) (L := -L) (c := c) (by linarith) (by
      rwa [neg_sub_neg, abs_sub_comm]) (by rwa [neg_sub_neg, abs_sub_comm])
    rw [sigmoid_neg, sigmoid_neg, sub_sub_sub_cancel_left, abs_sub_comm] at this
    exact this

omit [Libm F32] in
lemma logOdds_range {x : ℚ} (hx : b32.Rep x) (h0 : 1 / 2 ^ 100 ≤ x) (h1 : x < 1) : |logOdds x| ≤ 70 := by
  have hgap : 1 / 2 ^ 24 ≤ 1 - x := by
    have := gap_one hx h1.ne
    rwa [abs_of_neg (by linarith), neg_sub] at this
  have h0r : (1 / 2 ^ 100 : ℝ) ≤ x := by
    have := (Rat.cast_le (K := ℝ)).mpr h0
    push_cast at this
    exact this
  have hgr : (1 / 2 ^ 24 : ℝ) ≤ 1 - x := by
    have := (Rat.cast_le (K := ℝ)).mpr hgap
    push_cast at this
    exact this
  have hx0 : (0 : ℝ) < x := lt_of_lt_of_le (by positivity) h0r
  have hy0 : (0 : ℝ) < 1 - x := lt_of_lt_of_le (by positivity) hgr
  have l2 := Real.log_two_lt_d9
  have pw : ∀ n : ℕ, Real.log (2 ^ n) = n * Real.log 2 := fun n => by rw [Real.log_pow]
  unfold logOdds
  rw [abs_le]
  constructor
  · have a : Real.log (1 / 2 ^ 100) ≤ Real.log (x / (1 - x)) := by
      apply Real.log_le_log (by positivity)
      rw [le_div_iff₀ hy0]
      nlinarith
    rw [one_div, Real.log_inv, pw] at a
    push_cast at a
    linarith
  · have a : Real.log (x / (1 - x)) ≤ Real.log (2 ^ 24) := by
      apply Real.log_le_log (by positivity)
      rw [div_le_iff₀ hy0]
      norm_num at hgr ⊢
      linarith
    rw [pw] at a
    push_cast at a
    linarith

/-- C72: turning a probability into log-odds and back changes it by at most 2^-19. -/
theorem C72_round_trip (hl : AccurateLibm) {p : F32} {x : ℚ} (hp : p.Is x) (h0 : 1 / 2 ^ 100 ≤ x) (h1 : x < 1) :
    ∃ x', (probabilityFromLogodds (logoddsFromProbability p)).Is x' ∧ 0 ≤ x' ∧ x' ≤ 1 ∧
      |x' - x| ≤ 1 / 2 ^ 19 := by
  obtain ⟨l, hl1, hl2, -⟩ := C72_logodds hl hp h0 h1
  obtain ⟨x', p1, p2, p3, p4⟩ := C72_probability hl hl1
  refine ⟨x', p1, p2, p3, ?_⟩
  have hrep : b32.Rep x := by obtain ⟨_, h, _, _⟩ := hp; exact h
  have hr := logOdds_range hrep h0 h1
  have hx0 : (0 : ℝ) < x := by exact_mod_cast lt_of_lt_of_le (by positivity) h0
  have hs := sigmoid_near (l := l) (L := logOdds x) (c := 1 / 2 ^ 21) (by
    rw [mul_one_div]; exact hl2) (by norm_num at hl2 ⊢; linarith)
  rw [sigmoid_logOdds hx0 (by exact_mod_cast h1)] at hs
  have : |(x' : ℝ) - x| ≤ 1 / 2 ^ 19 := by
    have := abs_sub_le (x' : ℝ) (sigmoid l) x
    norm_num at p4 hs ⊢
    linarith
  have h2 : ((|x' - x| : ℚ) : ℝ) ≤ ((1 / 2 ^ 19 : ℚ) : ℝ) := by push_cast; exact this
  exact Rat.cast_le.mp h2

/-! ## The noise model and the map -/

omit [Libm F32] in
lemma sigmoid_lipschitz (k l : ℝ) : |sigmoid k - sigmoid l| ≤ 1 / 4 * |k - l| := by
  have e : ∀ z, sigmoid z = Real.sigmoid z := fun z => by
    rw [Real.sigmoid_def, ← one_div]; rfl
  rw [e, e]
  have := Convex.norm_image_sub_le_of_norm_hasDerivWithin_le (f := Real.sigmoid)
    (f' := fun z => Real.sigmoid z * (1 - Real.sigmoid z)) (C := 1 / 4) (s := Set.univ)
    (fun z _ => (Real.hasDerivAt_sigmoid z).hasDerivWithinAt) (fun z _ => ?_) convex_univ
    (Set.mem_univ l) (Set.mem_univ k)
  · exact this
  · rw [Real.norm_eq_abs, abs_of_nonneg]
    · nlinarith [sq_nonneg (Real.sigmoid z - 1 / 2)]
    · exact mul_nonneg (Real.sigmoid_nonneg z) (by linarith [Real.sigmoid_le_one z])

lemma near_of_prob (hl : AccurateLibm) {p : F32} {x Λ : ℚ} (hp : Prob p x Λ) (hΛ : Λ ≤ 70) :
    NearOdds (logoddsFromProbability p) x ((1 + Λ) / 2 ^ 21) (1 + Λ) ∧
      (1 / 2 ≤ x → FLe (Fp.lit 0) (logoddsFromProbability p)) ∧
      (x ≤ 1 / 2 → FLe (logoddsFromProbability p) (Fp.lit 0)) := by
  obtain ⟨l, l1, l2, l3, l4⟩ := C72_logodds hl hp.is hp.low hp.high
  have hΛr : (Λ : ℝ) ≤ 70 := by exact_mod_cast hΛ
  have ho := hp.odds
  have l5 : |(l : ℝ) - logOdds x| ≤ (1 + Λ) / 2 ^ 21 := by
    norm_num at l2 ⊢
    linarith
  refine ⟨⟨l, l1, l5, ?_⟩, fun h => (Fp.FLe_is F32.zero_is l1).mpr (l3 h),
    fun h => (Fp.FLe_is l1 F32.zero_is).mpr (l4 h)⟩
  have : |(l : ℝ)| ≤ 1 + Λ := by
    have := abs_sub_abs_le_abs_sub (l : ℝ) (logOdds x)
    have hn := abs_nonneg (logOdds x)
    norm_num at l5
    linarith
  exact_mod_cast this

/-- C72: for all probabilities in the working range, with log-odds at most `Λ`, the noise model made from them
holds their log-odds within `(1 + Λ) / 2^21`; hit and miss push to the right side. -/
theorem C72_noise_model (hl : AccurateLibm) {ph pm pn px pt range : F32} {h m n x t Λ : ℚ} (hh : Prob ph h Λ)
    (hm : Prob pm m Λ) (hn : Prob pn n Λ) (hx : Prob px x Λ) (ht : Prob pt t Λ) (hΛ : Λ ≤ 70) :
    ∃ nm, LidarNoiseModel.new ph pm pn px pt range = .ok nm ∧ nm.maxRange = range ∧
      NearSensor nm ⟨h, m, n, x, t⟩ ((1 + Λ) / 2 ^ 21) (1 + Λ) ∧
      (1 / 2 ≤ h → FLe (Fp.lit 0) nm.hit) ∧ (m ≤ 1 / 2 → FLe nm.miss (Fp.lit 0)) ∧
      (n ≤ 1 / 2 → 1 / 2 ≤ x → InLimits nm (Fp.lit 0)) := by
  have ok : ∀ {p : F32} {x : ℚ}, Prob p x Λ → LidarNoiseModel.probOk p = true := fun {p x} hp => by
    have h0 : (0 : ℚ) ≤ x := le_trans (by positivity) hp.low
    simp only [LidarNoiseModel.probOk, Scalar.le, Scalar.lit, Bool.and_eq_true]
    rw [Fp.Is.le F32.zero_is hp.is, Fp.Is.le hp.is F32.one_is]
    simp [h0, hp.high.le]
  refine ⟨⟨logoddsFromProbability ph, logoddsFromProbability pm, logoddsFromProbability pn,
    logoddsFromProbability px, logoddsFromProbability pt, range⟩, ?_, rfl, ⟨(near_of_prob hl hh hΛ).1, (near_of_prob hl hm hΛ).1,
    (near_of_prob hl hn hΛ).1, (near_of_prob hl hx hΛ).1, (near_of_prob hl ht hΛ).1⟩,
    (near_of_prob hl hh hΛ).2.1, (near_of_prob hl hm hΛ).2.2,
    fun a b => ⟨(near_of_prob hl hn hΛ).2.2 a, (near_of_prob hl hx hΛ).2.1 b⟩⟩
  unfold LidarNoiseModel.new
  rw [if_pos]
  simp [ok hh, ok hm, ok hn, ok hx, ok ht]

/-- C72, for the map: an occupancy map with a noise model made from any probabilities in the working range, hits
at least one half, misses at most, the limits on both sides. After any calls of its `integrate_point_cloud` with
in-range clouds that all returned, the probability computed from the value of a cell differs from the Bayesian
estimate of the cell's occupancy by at most `3 (1 + Λ) / 2^24` per informative scan, and 2^-21. -/
theorem C72_map (hl : AccurateLibm) {ph pm pn px pt range : F32} {h m n x t Λ : ℚ} (hh : Prob ph h Λ)
    (hm : Prob pm m Λ) (hn : Prob pn n Λ) (hx : Prob px x Λ) (ht : Prob pt t Λ) (hΛ : Λ ≤ 70)
    (hh2 : 1 / 2 ≤ h) (hm2 : m ≤ 1 / 2) (hn2 : n ≤ 1 / 2) (hx2 : 1 / 2 ≤ x) {nm : LidarNoiseModel F32}
    (hnm : LidarNoiseModel.new ph pm pn px pt range = .ok nm)
    {D : ℕ} {ρ : ℚ} {o o' : OccupancyGridMap D F32} (hD0 : 0 < D) (hD : D ≤ 3) {r : F32} {ts : ℕ} (hr : Res r ρ)
    (hts : 1 ≤ ts) (hts' : ts ≤ 2 ^ 17) (ho : OccupancyGridMap.new nm r ts = .ok o) {hist}
    (hc : ∀ s ∈ hist, CloudInRange s.2.2 ρ) (hrun : OccRuns o hist o') :
    ∃ cb, Placed o'.gridMap cb ρ ∧ ∀ w, InCells w cb → ∀ obs, obs = observations nm hist w →
      ∃ v c, o'.get (fun i => w i - cb.min i) = .ok v ∧ (probabilityFromLogodds v).Is c ∧
        |(c : ℝ) - obs.foldl (Sensor.update ⟨h, m, n, x, t⟩) (1 / 2)| ≤
          (obs.filter Seen.tells).length * (3 * (1 + Λ) / 2 ^ 24) + 1 / 2 ^ 21 := by
  obtain ⟨nm', e1, -, e2, e3, e4, e5⟩ := C72_noise_model hl (range := range) hh hm hn hx ht hΛ
  rw [hnm] at e1
  cases e1
  have hΛ0 : 0 ≤ Λ := by
    have : (0 : ℝ) ≤ Λ := (abs_nonneg _).trans hh.odds
    exact_mod_cast this
  have pr : ∀ {p : F32} {x : ℚ}, Prob p x Λ → (0 : ℝ) < x ∧ (x : ℝ) < 1 := fun {p x} hp => by
    have h0 : (0 : ℚ) < x := lt_of_lt_of_le (by positivity) hp.low
    exact ⟨by exact_mod_cast h0, by exact_mod_cast hp.high⟩
  have hs : Sensor.Proper ⟨h, m, n, x, t⟩ := ⟨pr hh, pr hm, pr hn, pr hx, pr ht⟩
  obtain ⟨cb, hP, hv⟩ := C70_map hs e2 (by linarith) (by norm_num; linarith) (e3 hh2) (e4 hm2) (e5 hn2 hx2)
    hD0 hD hr hts hts' ho hc hrun
  refine ⟨cb, hP, fun w hw obs hobs => ?_⟩
  obtain ⟨v, q, p, ε, g1, g2, g3, g4, g5, g6, g7, -⟩ := hv w hw obs hobs
  obtain ⟨c, c1, -, -, c2⟩ := C72_probability hl g2
  refine ⟨v, c, g1, c1, ?_⟩
  rw [← g3]
  have l1 := sigmoid_lipschitz q (logOdds p)
  rw [sigmoid_logOdds g5 g6] at l1
  have l2 := abs_sub_le (c : ℝ) (sigmoid q) p
  have l3 : (obs.filter Seen.tells).length * (3 * (1 + (Λ : ℝ)) / 2 ^ 24) = 1 / 4 * ε := by
    rw [g4]
    push_cast
    ring
  rw [l3]
  linarith

/-! ## Examples -/

section Witness

omit [Libm F32] in
lemma exists_near_rel (v : ℝ) (h0 : 1 / 2 ^ 120 ≤ |v|) (h1 : |v| ≤ 2 ^ 120) :
    ∃ x : F32, NearReal x v (|v| / 2 ^ 22) := by
  obtain ⟨q, h2, h3⟩ := exists_rat_btwn (show v - |v| / 2 ^ 30 < v by
    have : 0 < |v| := lt_of_lt_of_le (by positivity) h0
    linarith [show 0 < |v| / 2 ^ 30 by positivity])
  have hq : |(q : ℝ)| ≤ |v| * (1 + 1 / 2 ^ 30) := by
    have a := le_abs_self v
    have b := neg_abs_le v
    rw [abs_le]
    constructor <;> linarith
  have hq2 : |q| ≤ 2 ^ 127 := by
    have : |(q : ℝ)| ≤ 2 ^ 127 := by norm_num at hq h1 ⊢; linarith
    exact_mod_cast this
  refine ⟨Fp.ofRat false q, _, Fp.ofRat_is (F32.noOvf hq2), ?_⟩
  have e := F32.err q
  have e' : |((b32.rnd q : ℚ) : ℝ) - q| ≤ |(q : ℝ)| * (1 / 2 ^ 24) + 1 / 2 ^ 150 := by
    have := (Rat.cast_le (K := ℝ)).mpr e
    push_cast at this
    exact this
  have l := abs_sub_le ((b32.rnd q : ℚ) : ℝ) q v
  have l2 : |(q : ℝ) - v| ≤ |v| / 2 ^ 30 := by rw [abs_le]; constructor <;> linarith [abs_nonneg v, show 0 ≤ |v| / 2 ^ 30 by positivity]
  norm_num at e' hq h0 l2 ⊢
  linarith

omit [Libm F32] in
lemma log_range {q : ℚ} (hq : b32.Rep q) (h0 : 0 < q) (h1 : q ≠ 1) :
    1 / 2 ^ 120 ≤ |Real.log q| ∧ |Real.log q| ≤ 2 ^ 120 := by
  have hg := gap_one hq h1
  have h0r : (0 : ℝ) < q := by exact_mod_cast h0
  have l2 := Real.log_two_lt_d9
  have l2' : 0 < Real.log 2 := Real.log_pos (by norm_num)
  have pw : ∀ n : ℕ, Real.log (2 ^ n) = n * Real.log 2 := fun n => by rw [Real.log_pow]
  have up : Real.log q ≤ 128 := by
    have h2 := (F32.rep_lt hq).le
    rw [abs_of_pos h0] at h2
    have h3 : (q : ℝ) ≤ 2 ^ 128 := by exact_mod_cast h2
    have := Real.log_le_log h0r h3
    rw [pw] at this
    push_cast at this
    linarith
  have low : -149 ≤ Real.log q := by
    have h2 : 1 / 2 ^ 149 ≤ q := by
      obtain ⟨m, e, -, he, -, rfl⟩ := hq
      have hm : 0 < (m : ℚ) := by
        by_contra hc
        have : (m : ℚ) * 2 ^ e ≤ 0 := mul_nonpos_of_nonpos_of_nonneg (not_lt.mp hc) (by positivity)
        linarith
      have hm1 : (1 : ℚ) ≤ m := by exact_mod_cast hm
      have h3 : (2 : ℚ) ^ (-149 : ℤ) ≤ 2 ^ e := zpow_le_zpow_right₀ (by norm_num) (by simpa [b32] using he)
      have h4 : (2 : ℚ) ^ (-149 : ℤ) = 1 / 2 ^ 149 := by norm_num
      rw [h4] at h3
      have h5 : (0 : ℚ) < 2 ^ e := by positivity
      nlinarith
    have h3 : (1 / 2 ^ 149 : ℝ) ≤ q := by
      have := (Rat.cast_le (K := ℝ)).mpr h2
      push_cast at this
      exact this
    have := Real.log_le_log (by positivity) h3
    rw [one_div, Real.log_inv, pw] at this
    push_cast at this
    linarith
  refine ⟨?_, by rw [abs_le]; norm_num; constructor <;> linarith⟩
  rcases lt_or_gt_of_ne h1 with h | h
  · rw [abs_of_neg (by linarith)] at hg
    have h3 : (1 / 2 ^ 24 : ℝ) ≤ 1 - q := by
      have := (Rat.cast_le (K := ℝ)).mpr hg
      push_cast at this
      linarith
    have := Real.log_le_sub_one_of_pos h0r
    refine le_trans ?_ (neg_le_abs _)
    norm_num at h3 ⊢
    linarith
  · rw [abs_of_pos (by linarith)] at hg
    have h3 : (1 / 2 ^ 24 : ℝ) ≤ q - 1 := by
      have := (Rat.cast_le (K := ℝ)).mpr hg
      push_cast at this
      exact this
    have a := Real.one_sub_inv_le_log_of_pos (show (0 : ℝ) < 1 + 1 / 2 ^ 24 by norm_num)
    have b := Real.log_le_log (show (0 : ℝ) < 1 + 1 / 2 ^ 24 by norm_num) (show 1 + 1 / 2 ^ 24 ≤ (q : ℝ) by linarith)
    refine le_trans ?_ (le_abs_self _)
    norm_num at a b ⊢
    linarith

omit [Libm F32] in
lemma exp_range {q : ℚ} (h : |q| ≤ 80) : 1 / 2 ^ 120 ≤ |Real.exp q| ∧ |Real.exp q| ≤ 2 ^ 120 := by
  have hr : |(q : ℝ)| ≤ 80 := by exact_mod_cast h
  rw [abs_le] at hr
  rw [abs_of_pos (Real.exp_pos _)]
  constructor
  · have a : Real.exp (-80) ≤ Real.exp q := Real.exp_le_exp.mpr hr.1
    refine le_trans ?_ a
    rw [Real.exp_neg, ← one_div]
    exact one_div_le_one_div_of_le (Real.exp_pos _) (exp_80.trans (by norm_num))
  · exact (Real.exp_le_exp.mpr hr.2).trans (exp_80.trans (by norm_num))

omit [Libm F32] in
lemma val_range {x : F32} (h : ∃ q : ℚ, x.Is q ∧ 0 < q ∧ q ≠ 1) :
    1 / 2 ^ 120 ≤ |Real.log x.val| ∧ |Real.log x.val| ≤ 2 ^ 120 := by
  obtain ⟨q, hq, h0, h1⟩ := h
  rw [hq.val]
  obtain ⟨_, hr, _, _⟩ := hq
  exact log_range hr h0 h1

open Classical in
/-- A logarithm and an exponential as accurate as asked. -/
@[instance_reducible] noncomputable def someLibm : Libm F32 where
  ln x := if h : ∃ q : ℚ, x.Is q ∧ 0 < q ∧ q ≠ 1 then
      (exists_near_rel (Real.log x.val) (val_range h).1 (val_range h).2).choose
    else Fp.lit 0
  exp x := if h : |x.val| ≤ 80 then (exists_near_rel (Real.exp x.val) (exp_range h).1 (exp_range h).2).choose
    else if 80 < x.val then .inf false else Fp.lit 0

open Classical in
omit [Libm F32] in
lemma someLibm_accurate : @AccurateLibm someLibm := by
  let _ := someLibm
  refine ⟨fun x q hq h0 => ?_, fun x q hq h => ?_, fun x q hq h => ?_, fun x q hq h => ?_⟩
  · by_cases h1 : q = 1
    · have : Libm.ln x = Fp.lit 0 := by
        change (if h : _ then _ else _) = _
        rw [dif_neg]
        rintro ⟨q', hq', -, h'⟩
        exact h' (hq'.unique hq ▸ h1)
      rw [this, h1]
      exact ⟨0, F32.zero_is, by simp⟩
    · have h : ∃ q : ℚ, x.Is q ∧ 0 < q ∧ q ≠ 1 := ⟨q, hq, h0, h1⟩
      have : Libm.ln x = (exists_near_rel (Real.log x.val) (val_range h).1 (val_range h).2).choose := by
        change (if h : _ then _ else _) = _
        rw [dif_pos h]
      rw [this, ← hq.val]
      exact (exists_near_rel (Real.log x.val) (val_range h).1 (val_range h).2).choose_spec
  · have h' : |x.val| ≤ 80 := by rwa [hq.val]
    have : Libm.exp x = (exists_near_rel (Real.exp x.val) (exp_range h').1 (exp_range h').2).choose := by
      change (if h : _ then _ else _) = _
      rw [dif_pos h']
    rw [this, ← hq.val]
    have s := (exists_near_rel (Real.exp x.val) (exp_range h').1 (exp_range h').2).choose_spec
    have e : |Real.exp x.val| / 2 ^ 22 = Real.exp x.val / 2 ^ 22 := by rw [abs_of_pos (Real.exp_pos _)]
    exact e ▸ s
  · left
    change (if h : _ then _ else _) = _
    rw [dif_neg (by rw [hq.val]; intro hc; linarith [(abs_le.mp hc).2]), if_pos (by rw [hq.val]; exact h)]
  · have : Libm.exp x = Fp.lit 0 := by
      change (if h : _ then _ else _) = _
      rw [dif_neg (by rw [hq.val]; intro hc; linarith [(abs_le.mp hc).1]),
        if_neg (by rw [hq.val]; linarith)]
    rw [this]
    exact ⟨0, F32.zero_is, le_rfl, by norm_num⟩

omit [Libm F32] in
lemma prob_of {x : ℚ} (h0 : 1 / 8 ≤ x) (h1 : x ≤ 7 / 8) : |logOdds x| ≤ ((2 : ℚ) : ℝ) := by
  have h0r : (1 / 8 : ℝ) ≤ x := by
    have := (Rat.cast_le (K := ℝ)).mpr h0
    push_cast at this
    exact this
  have h1r : (x : ℝ) ≤ 7 / 8 := by
    have := (Rat.cast_le (K := ℝ)).mpr h1
    push_cast at this
    exact this
  have e : (7 : ℝ) ≤ Real.exp 2 := by
    have h := Real.exp_one_gt_d9.le
    have : Real.exp 2 = Real.exp 1 ^ 2 := by rw [← Real.exp_nat_mul]; norm_num
    rw [this]
    refine le_trans ?_ (pow_le_pow_left₀ (by norm_num) h 2)
    norm_num
  have hy : (0 : ℝ) < 1 - x := by linarith
  unfold logOdds
  push_cast
  rw [abs_le]
  constructor
  · rw [Real.le_log_iff_exp_le (by positivity), Real.exp_neg, ← one_div, div_le_div_iff₀ (Real.exp_pos _) hy]
    nlinarith
  · rw [Real.log_le_iff_le_exp (by positivity), div_le_iff₀ hy]
    nlinarith

omit [Libm F32] in
/-- The hypotheses are met: some `ln` and `exp` are accurate, and 3/4, 3/8, 1/8, 7/8, 1/2 are probabilities with
log-odds up to 2. -/
example : (∃ L : Libm F32, @AccurateLibm L) ∧ Prob (Fp.lit (3/4)) (3/4) 2 ∧ Prob (Fp.lit (3/8)) (3/8) 2 ∧
    Prob (Fp.lit (1/8)) (1/8) 2 ∧ Prob (Fp.lit (7/8)) (7/8) 2 ∧ Prob (Fp.lit (1/2)) (1/2) 2 := by
  refine ⟨⟨someLibm, someLibm_accurate⟩, ?_, ?_, ?_, ?_, ?_⟩ <;>
    exact ⟨by decide +kernel, by norm_num, by norm_num, prob_of (by norm_num) (by norm_num)⟩

end Witness

end Verif.Props
