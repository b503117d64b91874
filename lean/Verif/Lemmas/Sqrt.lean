import Verif.Lemmas.F32
import Mathlib.Data.Real.Sqrt
import Mathlib.Tactic.FieldSimp

/-!
# The square root of the float model is the correctly rounded square root
-/

namespace Verif

namespace Fp

lemma sqrtDigits_spec (k : ℕ) : ∀ n, n < 4 ^ k →
    sqrtDigits k n * sqrtDigits k n ≤ n ∧ n < (sqrtDigits k n + 1) * (sqrtDigits k n + 1) := by
  induction k with
  | zero => intro n h; simp [sqrtDigits] at h ⊢; omega
  | succ k ih =>
    intro n h
    obtain ⟨h1, h2⟩ := ih (n / 4) (by rw [pow_succ] at h; omega)
    simp only [sqrtDigits]
    generalize sqrtDigits k (n / 4) = s at h1 h2
    split_ifs with hc
    · refine ⟨hc, ?_⟩
      have : n < 4 * ((s + 1) * (s + 1)) := by omega
      nlinarith
    · refine ⟨?_, by omega⟩
      have : 4 * (s * s) ≤ n := by omega
      nlinarith

lemma isqrt_spec (n : ℕ) : isqrt n * isqrt n ≤ n ∧ n < (isqrt n + 1) * (isqrt n + 1) := by
  refine sqrtDigits_spec _ n (lt_of_lt_of_le Nat.lt_log2_self ?_)
  exact Nat.pow_le_pow_left (by norm_num) _

variable {f : Fmt}

/-- The grid on which `sqrtQ` works is fine enough: values of the format, scaled, are integers. -/
lemma rep_scaled {q : ℚ} (h : f.Rep q) : ∃ z : ℤ, q * 4 ^ (1 - f.qmin).toNat = z := by
  obtain ⟨m, e, -, h2, -, rfl⟩ := h
  set j := (1 - f.qmin).toNat with hj
  have h3 : 1 - f.qmin ≤ j := Int.self_le_toNat _
  have h4 : (0 : ℤ) ≤ j := by positivity
  have h5 : 0 ≤ e + 2 * j := by omega
  refine ⟨m * 2 ^ (e + 2 * j).toNat, ?_⟩
  have h6 : (4 : ℚ) ^ j = 2 ^ (2 * (j : ℤ)) := by
    rw [zpow_mul]; norm_num
  have h7 := two_zpow_int h5
  push_cast at h7 ⊢
  rw [h7, h6, two_zpow_add]
  ring

/-- `sqrtQ` lies on the same side of every grid point as the square root. -/
lemma sqrtQ_sides {q : ℚ} (h : f.Rep q) (h0 : 0 ≤ q) (m : ℕ) :
    let y := sqrtQ f q * 2 ^ (1 - f.qmin).toNat
    let z := q * 4 ^ (1 - f.qmin).toNat
    ((m * m : ℚ) ≤ z → (m : ℚ) ≤ y) ∧ (z ≤ m * m → y ≤ m) ∧ ((m * m : ℚ) < z → (m : ℚ) < y) ∧
      (z < m * m → y < m) := by
  intro y z
  obtain ⟨z', hz⟩ := rep_scaled h
  set j := (1 - f.qmin).toNat with hj
  have hz0 : 0 ≤ z' := by
    have : (0 : ℚ) ≤ z' := by rw [← hz]; positivity
    exact_mod_cast this
  obtain ⟨n, rfl⟩ := Int.eq_ofNat_of_zero_le hz0
  have hfl : ⌊q * 4 ^ j⌋.toNat = n := by rw [hz]; simp
  have hzn : z = n := by change q * 4 ^ j = n; rw [hz]; simp
  have hp : (2 : ℚ) ^ j ≠ 0 := by positivity
  have hy : y = if isqrt n * isqrt n = n then (isqrt n : ℚ) else isqrt n + 1 / 2 := by
    change sqrtQ f q * 2 ^ j = _
    unfold sqrtQ
    dsimp only
    rw [← hj, hfl]
    split_ifs
    · field_simp
    · rw [pow_succ]; field_simp
  obtain ⟨h1, h2⟩ := isqrt_spec n
  rw [hzn, hy]
  generalize isqrt n = s at h1 h2 ⊢
  have c1 : ((m * m : ℚ) ≤ n ↔ m * m ≤ n) := by exact_mod_cast Iff.rfl
  have c2 : ((n : ℚ) ≤ m * m ↔ n ≤ m * m) := by exact_mod_cast Iff.rfl
  have c3 : ((m * m : ℚ) < n ↔ m * m < n) := by exact_mod_cast Iff.rfl
  have c4 : ((n : ℚ) < m * m ↔ n < m * m) := by exact_mod_cast Iff.rfl
  rw [c1, c2, c3, c4]
  split_ifs with hs
  · subst hs
    refine ⟨fun h => ?_, fun h => ?_, fun h => ?_, fun h => ?_⟩
    · exact_mod_cast Nat.mul_self_le_mul_self_iff.mp h
    · exact_mod_cast Nat.mul_self_le_mul_self_iff.mp h
    · exact_mod_cast Nat.mul_self_lt_mul_self_iff.mp h
    · exact_mod_cast Nat.mul_self_lt_mul_self_iff.mp h
  · have a1 : m * m ≤ n → (m : ℚ) < s + 1 / 2 := by
      intro h
      have : m < s + 1 := Nat.mul_self_lt_mul_self_iff.mp (lt_of_le_of_lt h h2)
      have : (m : ℚ) ≤ s := by exact_mod_cast Nat.lt_succ_iff.mp this
      linarith
    have a2 : n ≤ m * m → (s : ℚ) + 1 / 2 < m := by
      intro h
      have : s < m := Nat.mul_self_lt_mul_self_iff.mp (lt_of_lt_of_le (lt_of_le_of_ne h1 hs) h)
      have : (s : ℚ) + 1 ≤ m := by exact_mod_cast this
      linarith
    exact ⟨fun h => (a1 h).le, fun h => (a2 h).le, fun h => a1 h.le, fun h => a2 h.le⟩

lemma sqrtQ_nonneg (f : Fmt) (q : ℚ) : 0 ≤ sqrtQ f q := by
  unfold sqrtQ; dsimp only; split_ifs <;> positivity

/-- A grid point below or above the root. -/
lemma sqrtQ_grid {q : ℚ} (h : f.Rep q) (h0 : 0 ≤ q) {c : ℚ} (hc0 : 0 ≤ c) {z : ℤ}
    (hc : c * 2 ^ (1 - f.qmin).toNat = z) :
    (c * c ≤ q → c ≤ sqrtQ f q) ∧ (q ≤ c * c → sqrtQ f q ≤ c) ∧ (c * c < q → c < sqrtQ f q) ∧
      (q < c * c → sqrtQ f q < c) := by
  set j := (1 - f.qmin).toNat with hj
  have hp : (0 : ℚ) < 2 ^ j := by positivity
  have hz0 : 0 ≤ z := by
    have : (0 : ℚ) ≤ z := by rw [← hc]; positivity
    exact_mod_cast this
  obtain ⟨m, rfl⟩ := Int.eq_ofNat_of_zero_le hz0
  have hm : (m : ℚ) = c * 2 ^ j := by rw [hc]; simp
  obtain ⟨h1, h2, h3, h4⟩ := sqrtQ_sides h h0 m
  rw [← hj] at h1 h2 h3 h4
  have e : (m * m : ℚ) = c * c * 4 ^ j := by
    rw [hm, show (4 : ℚ) ^ j = 2 ^ j * 2 ^ j by rw [← mul_pow]; norm_num]; ring
  have hp4 : (0 : ℚ) < 4 ^ j := by positivity
  rw [e, hm, mul_le_mul_iff_left₀ hp4, mul_le_mul_iff_left₀ hp] at h1
  rw [e, hm, mul_le_mul_iff_left₀ hp4, mul_le_mul_iff_left₀ hp] at h2
  rw [e, hm, mul_lt_mul_iff_left₀ hp4, mul_lt_mul_iff_left₀ hp] at h3
  rw [e, hm, mul_lt_mul_iff_left₀ hp4, mul_lt_mul_iff_left₀ hp] at h4
  exact ⟨h1, h2, h3, h4⟩

lemma rep_grid {c : ℚ} (h : f.Rep c) : ∃ z : ℤ, c * 2 ^ ((1 - f.qmin).toNat - 1 : ℕ) = z := by
  obtain ⟨m, e, -, h2, -, rfl⟩ := h
  set j := (1 - f.qmin).toNat - 1 with hj
  have h3 : -f.qmin ≤ j := by omega
  have h5 : 0 ≤ e + j := by omega
  refine ⟨m * 2 ^ (e + j).toNat, ?_⟩
  have h7 := two_zpow_int h5
  push_cast at h7 ⊢
  rw [h7, two_zpow_add, zpow_natCast]
  ring

lemma rep_grid' {c : ℚ} (h : f.Rep c) : ∃ z : ℤ, c * 2 ^ (1 - f.qmin).toNat = z := by
  obtain ⟨z, hz⟩ := rep_grid h
  refine ⟨2 * z, ?_⟩
  have h1 : (1 - f.qmin).toNat = (1 - f.qmin).toNat - 1 + 1 := by have := f.qmin_neg; omega
  rw [h1, pow_succ, ← mul_assoc, hz]
  push_cast
  ring

lemma two_le_emax (f : Fmt) : 2 ≤ f.emax := by have := f.prec_pos; have := f.prec_lt; omega

lemma sqrtQ_noOvf {q : ℚ} (h : f.Rep q) (h0 : 0 ≤ q) : |f.rnd (sqrtQ f q)| < 2 ^ f.emax := by
  apply Fmt.rnd_lt_of_le_pow
  rw [abs_of_nonneg (sqrtQ_nonneg f q)]
  have he := two_le_emax f
  have h1 : 0 ≤ f.emax - 1 := by omega
  refine (sqrtQ_grid h h0 (c := 2 ^ (f.emax - 1)) (by positivity)
    (z := 2 ^ (f.emax - 1).toNat * 2 ^ (1 - f.qmin).toNat) ?_).2.1 ?_
  · rw [← two_zpow_int h1]; push_cast; ring
  · rw [← two_zpow_add]
    have := Fmt.rep_abs_lt h
    rw [abs_of_nonneg h0] at this
    refine this.le.trans (two_zpow_le ?_)
    omega

lemma sqrtQ_zero (f : Fmt) : sqrtQ f 0 = 0 := by
  unfold sqrtQ
  simp [isqrt, sqrtDigits]

/-- The square root of a finite non-negative number. -/
lemma Is.sqrt {x : Fp f} {q : ℚ} (h : x.Is q) (h0 : 0 ≤ q) : x.sqrt.Is (f.rnd (sqrtQ f q)) := by
  have hrep := h.rep
  obtain ⟨nz, h1, hz, rfl⟩ := h
  unfold Fp.sqrt
  dsimp only
  by_cases hq : q = 0
  · subst hq
    rw [if_pos rfl, sqrtQ_zero, Fmt.rnd_of_rep Fmt.rep_zero]
    exact ⟨_, _, _, rfl⟩
  · rw [if_neg hq, if_neg (not_lt.mpr h0)]
    exact ofRat_is (sqrtQ_noOvf hrep h0)

/-- Bounds of the computed root by values of the format. -/
lemma le_sqrt {q c : ℚ} (h : f.Rep q) (hc : f.Rep c) (hc0 : 0 ≤ c) (hle : c * c ≤ q) :
    c ≤ f.rnd (sqrtQ f q) := by
  obtain ⟨z, hz⟩ := rep_grid' hc
  exact Fmt.le_rnd_of_rep hc ((sqrtQ_grid h ((mul_self_nonneg c).trans hle) hc0 hz).1 hle)

lemma sqrt_le {q c : ℚ} (h : f.Rep q) (h0 : 0 ≤ q) (hc : f.Rep c) (hc0 : 0 ≤ c) (hle : q ≤ c * c) :
    f.rnd (sqrtQ f q) ≤ c := by
  obtain ⟨z, hz⟩ := rep_grid' hc
  exact Fmt.rnd_le_of_rep hc ((sqrtQ_grid h h0 hc0 hz).2.1 hle)

/-- The computed square root is the number of the format nearest to the real square root. -/
theorem sqrt_nearest {x : Fp f} {q : ℚ} (h : x.Is q) (h0 : 0 ≤ q) :
    ∃ c : ℚ, x.sqrt.Is c ∧ ∀ r : ℚ, f.Rep r → |(c : ℝ) - Real.sqrt q| ≤ |(r : ℝ) - Real.sqrt q| := by
  refine ⟨_, h.sqrt h0, ?_⟩
  set y := sqrtQ f q with hy
  set c := f.rnd y with hc
  have hcrep : f.Rep c := (h.sqrt h0).rep
  have hc0 : 0 ≤ c := Fmt.rnd_nonneg (sqrtQ_nonneg f q)
  have hs0 : 0 ≤ Real.sqrt q := Real.sqrt_nonneg _
  have hq0 : (0 : ℝ) ≤ q := by exact_mod_cast h0
  have hss : Real.sqrt q * Real.sqrt q = q := Real.mul_self_sqrt hq0
  -- the same for non-negative `r`
  have key : ∀ r : ℚ, f.Rep r → 0 ≤ r → |(c : ℝ) - Real.sqrt q| ≤ |(r : ℝ) - Real.sqrt q| := by
    intro r hr hr0
    have hn : |c - y| ≤ |r - y| := Fmt.rnd_nearest hr
    by_contra hlt
    rw [not_le] at hlt
    -- the middle of `r` and `c`
    have hm0 : 0 ≤ (r + c) / 2 := by linarith
    have hgrid : ∃ z : ℤ, (r + c) / 2 * 2 ^ (1 - f.qmin).toNat = z := by
      obtain ⟨z1, h1⟩ := rep_grid hr
      obtain ⟨z2, h2⟩ := rep_grid hcrep
      refine ⟨z1 + z2, ?_⟩
      have h3 : (1 - f.qmin).toNat = (1 - f.qmin).toNat - 1 + 1 := by have := f.qmin_neg; omega
      push_cast
      rw [← h1, ← h2, h3, pow_succ]
      simp only [Nat.add_sub_cancel]
      ring
    obtain ⟨z, hz⟩ := hgrid
    obtain ⟨-, -, g3, g4⟩ := sqrtQ_grid h.rep h0 hm0 hz
    have hcast : (((r + c) / 2 * ((r + c) / 2) : ℚ) : ℝ) = ((r : ℝ) + c) / 2 * (((r : ℝ) + c) / 2) := by
      push_cast; ring
    have hm0' : (0 : ℝ) ≤ ((r : ℝ) + c) / 2 := by exact_mod_cast hm0
    rcases lt_trichotomy r c with hrc | hrc | hrc
    · have hrc' : (r : ℝ) < c := by exact_mod_cast hrc
      have h1 : Real.sqrt q < ((r : ℝ) + c) / 2 := by
        by_contra hcon
        rw [not_lt] at hcon
        rw [abs_of_nonpos (by linarith)] at hlt
        rcases abs_cases ((c : ℝ) - Real.sqrt q) with ⟨h5, h6⟩ | ⟨h5, h6⟩ <;> linarith
      have h2 : q < (r + c) / 2 * ((r + c) / 2) := by
        have : (q : ℝ) < (((r + c) / 2 * ((r + c) / 2) : ℚ) : ℝ) := by rw [hcast]; nlinarith
        exact_mod_cast this
      have h3 := g4 h2
      rw [← hy] at h3
      rw [abs_of_pos (by linarith : 0 < c - y)] at hn
      rcases abs_cases (r - y) with ⟨h5, h6⟩ | ⟨h5, h6⟩ <;> linarith
    · subst hrc; exact lt_irrefl _ hlt
    · have hrc' : (c : ℝ) < r := by exact_mod_cast hrc
      have h1 : ((r : ℝ) + c) / 2 < Real.sqrt q := by
        by_contra hcon
        rw [not_lt] at hcon
        rw [abs_of_nonneg (by linarith : 0 ≤ (r : ℝ) - Real.sqrt q)] at hlt
        rcases abs_cases ((c : ℝ) - Real.sqrt q) with ⟨h5, h6⟩ | ⟨h5, h6⟩ <;> linarith
      have h2 : (r + c) / 2 * ((r + c) / 2) < q := by
        have : (((r + c) / 2 * ((r + c) / 2) : ℚ) : ℝ) < q := by rw [hcast]; nlinarith
        exact_mod_cast this
      have h3 := g3 h2
      rw [← hy] at h3
      rw [abs_of_neg (by linarith : c - y < 0)] at hn
      rcases abs_cases (r - y) with ⟨h5, h6⟩ | ⟨h5, h6⟩ <;> linarith
  intro r hr
  rcases le_or_gt 0 r with h1 | h1
  · exact key r hr h1
  · refine (key 0 Fmt.rep_zero le_rfl).trans ?_
    have : (r : ℝ) < 0 := by exact_mod_cast h1
    rw [abs_of_neg (by linarith : (r : ℝ) - Real.sqrt q < 0), Rat.cast_zero, zero_sub, abs_neg,
      abs_of_nonneg hs0]
    linarith

end Fp

end Verif
