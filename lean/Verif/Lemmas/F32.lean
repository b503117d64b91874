import Verif.Lemmas.Order
import Mathlib.Tactic.Linarith
import Mathlib.Tactic.Positivity

/-!
# Rounding errors of `f32`, and `relative_eq!`
-/

namespace Verif
open Spec

namespace F32

/-- One rounding: relative error 2^-24, absolute error 2^-150 near zero. -/
lemma err (q : ℚ) : |b32.rnd q - q| ≤ |q| * (1 / 2 ^ 24) + 1 / 2 ^ 150 := by
  have := Fmt.rnd_err_add (f := b32) q
  simp only [b32] at this ⊢
  norm_num at this ⊢
  exact this

lemma noOvf {q : ℚ} (h : |q| ≤ 2 ^ 127) : |b32.rnd q| < 2 ^ b32.emax := by
  apply Fmt.rnd_lt_of_le_pow
  simp only [b32]
  norm_num at h ⊢
  exact h

lemma rep_lt {q : ℚ} (h : b32.Rep q) : |q| < 2 ^ 128 := by
  have := Fmt.rep_abs_lt h
  simp only [b32] at this
  exact_mod_cast this

/-- A rounding is finite or overflows. -/
lemma ofRat_cases (zs : Bool) (q : ℚ) :
    (Fp.ofRat zs q : F32).Is (b32.rnd q) ∨
      ((Fp.ofRat zs q : F32) = .inf (decide (q < 0)) ∧ 2 ^ 127 < |q|) := by
  by_cases h : |b32.rnd q| < 2 ^ b32.emax
  · exact .inl (Fp.ofRat_is h)
  · refine .inr ⟨Fp.ofRat_overflow h, ?_⟩
    by_contra hc
    exact h (noOvf (not_lt.mp hc))

lemma eps_is : (Fp.lit (1 / 2 ^ 23) : F32).Is (1 / 2 ^ 23) := by
  apply Fp.ofRat_is_rep
  refine ⟨1, -23, by simp [b32], by simp [b32], by simp [b32], by norm_num⟩

lemma lit_int_is {n : ℤ} (h : |n| ≤ 2 ^ 24) : (Fp.lit n : F32).Is n :=
  Fp.ofRat_is_rep (Fmt.rep_int (f := b32) h)

lemma zero_is : (Fp.lit 0 : F32).Is 0 := by
  simpa using lit_int_is (n := 0) (by norm_num)

lemma one_is : (Fp.lit 1 : F32).Is 1 := by
  simpa using lit_int_is (n := 1) (by norm_num)

end F32

section RelEq
variable {a b : F32} {x y : ℚ}

/-- Values that are clearly apart are not relatively equal. -/
lemma relativeEq_false_of_gap (ha : a.Is x) (hb : b.Is y)
    (h : (1 / 2 ^ 22 : ℚ) * max 1 (max |x| |y|) < |x - y|) : relativeEq a b = false := by
  have hne : x ≠ y := by
    rintro rfl
    have : (0 : ℚ) < 1 / 2 ^ 22 * max 1 (max |x| |x|) := by positivity
    simp at h
    linarith [le_max_left (1 : ℚ) |x|]
  have hM1 : (1 : ℚ) ≤ max 1 (max |x| |y|) := le_max_left _ _
  have hMx : |x| ≤ max 1 (max |x| |y|) := (le_max_left _ _).trans (le_max_right _ _)
  have hMy : |y| ≤ max 1 (max |x| |y|) := (le_max_right _ _).trans (le_max_right _ _)
  generalize max 1 (max |x| |y|) = m at *
  unfold relativeEq
  have e1 : Scalar.eq a b = false := by
    change a.eq b = false
    rw [ha.eq hb]; simpa using hne
  have e2 : Scalar.isInf a = false := Fp.notInf_is ha
  have e3 : Scalar.isInf b = false := Fp.notInf_is hb
  simp only [e1, e2, e3, Bool.false_eq_true, if_false, Bool.or_self]
  -- the difference
  have hdiff : (Scalar.abs (Scalar.sub a b) : F32) = .inf false ∨
      ∃ d, (Scalar.abs (Scalar.sub a b) : F32).Is d ∧ |x - y| * (1 - 1 / 2 ^ 24) - 1 / 2 ^ 150 ≤ d := by
    have hsub : ∃ zs, (Scalar.sub a b : F32) = Fp.ofRat zs (x - y) := by
      obtain ⟨_, _, _, rfl⟩ := ha
      obtain ⟨_, _, _, rfl⟩ := hb
      exact ⟨_, by rw [sub_eq_add_neg]; rfl⟩
    obtain ⟨zs, hz⟩ := hsub
    rw [hz]
    rcases F32.ofRat_cases zs (x - y) with h1 | ⟨h1, -⟩
    · refine .inr ⟨_, h1.abs, ?_⟩
      have h2 := F32.err (x - y)
      have h3 := abs_sub_abs_le_abs_sub (x - y) (b32.rnd (x - y))
      rw [abs_sub_comm (x - y)] at h3
      linarith
    · left; rw [h1]; rfl
  have hnum : (1 / 2 ^ 23 : ℚ) * m * (1 + 1 / 2 ^ 24) + 1 / 2 ^ 150
      < |x - y| * (1 - 1 / 2 ^ 24) - 1 / 2 ^ 150 := by
    norm_num at h ⊢
    linarith
  -- the threshold `largest * eps`
  have hlarge : ∃ t, ((Scalar.mul
      (if Scalar.lt (Scalar.abs a) (Scalar.abs b) = true then Scalar.abs b else Scalar.abs a)
      (Scalar.lit (1 / 2 ^ 23)) : F32)).Is t ∧ t ≤ 1 / 2 ^ 23 * m * (1 + 1 / 2 ^ 24) + 1 / 2 ^ 150 := by
    have hl : ∃ l, ((if Scalar.lt (Scalar.abs a) (Scalar.abs b) = true then Scalar.abs b
        else Scalar.abs a) : F32).Is l ∧ 0 ≤ l ∧ l ≤ m ∧ l < 2 ^ 128 := by
      split_ifs
      · exact ⟨_, hb.abs, abs_nonneg _, hMy, F32.rep_lt hb.rep⟩
      · exact ⟨_, ha.abs, abs_nonneg _, hMx, F32.rep_lt ha.rep⟩
    obtain ⟨l, hl, h0, hm, hlt⟩ := hl
    have hab : |l * (1 / 2 ^ 23)| = l * (1 / 2 ^ 23) := abs_of_nonneg (by positivity)
    refine ⟨_, hl.mul F32.eps_is (F32.noOvf ?_), ?_⟩
    · rw [hab]; norm_num at hlt ⊢; linarith
    · have h1 := F32.err (l * (1 / 2 ^ 23))
      rw [hab] at h1
      have h2 := le_abs_self (b32.rnd (l * (1 / 2 ^ 23)) - l * (1 / 2 ^ 23))
      have h3 : l * (1 / 2 ^ 23) ≤ m * (1 / 2 ^ 23) := by gcongr
      norm_num at h1 h2 h3 ⊢
      linarith
  obtain ⟨t, ht, hle⟩ := hlarge
  rcases hdiff with hd | ⟨d, hd, hdle⟩
  · rw [hd]
    have e4 : Scalar.le (Fp.inf false : F32) (Scalar.lit (1 / 2 ^ 23)) = false := by decide +kernel
    rw [e4]
    simp only [Bool.false_eq_true, if_false]
    generalize (Scalar.mul _ _ : F32) = w at ht ⊢
    obtain ⟨_, _, _, rfl⟩ := ht
    rfl
  · have e4 : Scalar.le (Scalar.abs (Scalar.sub a b) : F32) (Scalar.lit (1 / 2 ^ 23)) = false := by
      have := hd.le F32.eps_is
      refine this.trans ?_
      rw [decide_eq_false_iff_not, not_le]
      have : (1 / 2 ^ 23 : ℚ) ≤ 1 / 2 ^ 23 * m * (1 + 1 / 2 ^ 24) + 1 / 2 ^ 150 := by
        norm_num at hM1 ⊢; linarith
      linarith
    rw [e4]
    simp only [Bool.false_eq_true, if_false]
    refine (hd.le ht).trans ?_
    rw [decide_eq_false_iff_not, not_le]
    linarith

/-- Relatively equal finite values are close. -/
lemma close_of_relativeEq (ha : a.Is x) (hb : b.Is y) (h : relativeEq a b = true) :
    |x - y| ≤ (1 / 2 ^ 22 : ℚ) * max 1 (max |x| |y|) := by
  by_contra hc
  rw [relativeEq_false_of_gap ha hb (not_le.mp hc)] at h
  cases h

/-- Equal values are relatively equal. -/
lemma relativeEq_of_eq (h : a.eq b = true) : relativeEq a b = true := by
  unfold relativeEq
  have : Scalar.eq a b = true := h
  simp [this]

end RelEq
end Verif
