import Verif.Lemmas.RayF32

/-!
# The values of `t_max` in f32 after any number of steps
-/

namespace Verif
open Spec Scalar

section
variable {F : Type} [Scalar F] {D : ℕ}

/-- `t_max` along axis `i` after `k` steps along it. -/
def RayCtx.tAt (c : RayCtx D F) (t : Point D F) (i : Fin D) : ℕ → F
  | 0 => t i
  | k + 1 => c.tAt t i k +. c.tDelta i

/-- The loop returns if it makes proper steps while `Good` holds, and `Good` cannot hold for long. -/
lemma castLoop_returns (c : RayCtx D F) {a : Cell D} {t : Point D F} {Good : (Fin D → ℕ) → Prop} {K : ℕ}
    (hK : ∀ k, Good k → ∑ i, k i < K)
    (hstep : ∀ k, Good k → ∃ d, selDim (fun i => c.tAt t i (k i)) = some d ∧
      InIsize (c.cellAt a k d + c.s d) ∧
      (c.tooFar (c.cellAt a (Function.update k d (k d + 1))) = false → Good (Function.update k d (k d + 1)))) :
    ∀ n k, Good k → K ≤ ∑ i, k i + n →
      ∃ r, castLoop c n (c.cellAt a k) (fun i => c.tAt t i (k i)) = .ok r := by
  intro n
  induction n with
  | zero =>
    intro k hk hle
    have := hK k hk
    omega
  | succ n ih =>
    intro k hk hle
    obtain ⟨d, h1, h2, h3⟩ := hstep k hk
    simp only [castLoop, h1]
    rw [show toInt (c.step d) = c.s d from rfl, isz_ok.mpr ⟨rfl, h2⟩, M.bind_ok, c.cellAt_step]
    have hT : Function.update (fun i => c.tAt t i (k i)) d (c.tAt t d (k d) +. c.tDelta d)
        = fun i => c.tAt t i (Function.update k d (k d + 1) i) := by
      funext i
      by_cases hi : i = d
      · subst hi; simp only [Function.update_self]; rfl
      · simp only [Function.update_of_ne hi]
    rw [hT]
    split_ifs with h4 h5
    · exact ⟨_, rfl⟩
    · exact ⟨_, rfl⟩
    · rw [Bool.not_eq_true] at h5
      obtain ⟨⟨l, e⟩, hr⟩ := ih _ (h3 h5) (by
        have : ∑ i, Function.update k d (k d + 1) i = ∑ i, k i + 1 := by
          have h6 : ∀ i, Function.update k d (k d + 1) i = k i + if i = d then 1 else 0 := by
            intro i
            by_cases hi : i = d
            · subst hi; simp
            · simp [Function.update_of_ne hi, hi]
          rw [Finset.sum_congr rfl fun i _ => h6 i, Finset.sum_add_distrib, Finset.sum_ite_eq']
          simp
        omega)
      rw [hr]
      exact ⟨_, rfl⟩

end

section
variable {D : ℕ} {c : RayCtx D F32} {t : Point D F32} {i : Fin D} {M ρ w A L : ℚ}

lemma tAt_still (h1 : t i = Scalar.inf) (h2 : c.tDelta i = Scalar.inf) (k : ℕ) : c.tAt t i k = Scalar.inf := by
  induction k with
  | zero => exact h1
  | succ k ih =>
    change c.tAt t i k +. c.tDelta i = _
    rw [ih, h2]
    rfl

/-- `t_max` stays finite. -/
lemma tAt_finite (h : AxisInfo c t i M ρ w A L) (k : ℕ) (hk : k + 1 < 2 ^ 24) :
    ∃ T, (c.tAt t i k).Is T ∧ |T| ≤ (k + 1) * 2 ^ 86 := by
  induction k with
  | zero =>
    obtain ⟨T, h1, -, h2⟩ := h.first
    exact ⟨T, h1, by simpa using h2⟩
  | succ k ih =>
    obtain ⟨T, h1, h2⟩ := ih (by omega)
    obtain ⟨δ, h3, -, h4, h5⟩ := h.delta
    have hb : |T + δ| ≤ ((k + 1 + 1 : ℕ) : ℚ) * 2 ^ (86 : ℤ) := by
      have := abs_add_le T δ
      rw [abs_of_nonneg h4] at this
      push_cast
      norm_num at h2 h5 ⊢
      linarith
    have hrep : b32.Rep (((k + 1 + 1 : ℕ) : ℚ) * 2 ^ (86 : ℤ)) := F32.rep_mul_pow hk (by norm_num) (by norm_num)
    have hle : |b32.rnd (T + δ)| ≤ ((k + 1 + 1 : ℕ) : ℚ) * 2 ^ (86 : ℤ) := by
      rw [abs_le] at hb ⊢
      exact ⟨Fmt.le_rnd_of_rep (Fmt.rep_neg hrep) hb.1, Fmt.rnd_le_of_rep hrep hb.2⟩
    refine ⟨b32.rnd (T + δ), h1.add h3 (F32.noOvf (hb.trans ?_)), ?_⟩
    · have : ((k + 1 + 1 : ℕ) : ℚ) ≤ 2 ^ 24 := by exact_mod_cast hk.le
      calc ((k + 1 + 1 : ℕ) : ℚ) * 2 ^ (86 : ℤ) ≤ 2 ^ 24 * 2 ^ (86 : ℤ) := by gcongr
        _ ≤ _ := by norm_num
    · push_cast at hle ⊢
      exact hle

/-- The accumulated error of `t_max`, in units of length. -/
lemma tAt_err (h : AxisInfo c t i M ρ w A L) (hA : |A| ≤ ρ) (hG0 : 0 ≤ |w| / L) (hG4 : |w| / L ≤ 4)
    (hρ : 1 / 2 ^ 20 ≤ ρ) (hM : 0 ≤ M) (k : ℕ) (hk : 5 * M + 22 + (k * k + 10 * k : ℕ) ≤ 2 ^ 24) :
    ∃ T, (c.tAt t i k).Is T ∧
      |T * (|w| / L) - (A + (k + 1 / 2) * ρ)| ≤ ((5 * M + 22 + (k * k + 10 * k : ℕ)) / 2 ^ 24) * ρ := by
  have hp : 0 < ρ := lt_of_lt_of_le (by norm_num) hρ
  induction k with
  | zero =>
    obtain ⟨T, h1, h2, -⟩ := h.first
    refine ⟨T, h1, ?_⟩
    have e : A + ((0 : ℕ) + 1 / 2 : ℚ) * ρ = A + ρ / 2 := by push_cast; ring
    rw [e]
    refine h2.trans (le_of_eq ?_)
    norm_num
  | succ k ih =>
    have hk' : 5 * M + 22 + (k * k + 10 * k : ℕ) ≤ 2 ^ 24 := by
      push_cast at hk ⊢
      have : (0 : ℚ) ≤ k := by positivity
      nlinarith
    obtain ⟨T, h1, h2⟩ := ih hk'
    obtain ⟨δ, h3, h6, h4, h5⟩ := h.delta
    have hk24 : k + 1 + 1 < 2 ^ 24 := by
      have h7 : (((k + 1) * (k + 1) + 10 * (k + 1) : ℕ) : ℚ) ≤ (2 ^ 24 : ℕ) := by push_cast at hk ⊢; linarith
      have h8 : (k + 1) * (k + 1) + 10 * (k + 1) ≤ 2 ^ 24 := by exact_mod_cast h7
      have h9 : 0 ≤ (k + 1) * (k + 1) := Nat.zero_le _
      generalize (k + 1) * (k + 1) = m at h8 h9
      omega
    obtain ⟨T', h7, h8⟩ := tAt_finite h (k + 1) hk24
    have hT' : T' = b32.rnd (T + δ) := by
      obtain ⟨T2, h9, h10⟩ := tAt_finite h k (by omega)
      obtain rfl := h1.unique h9
      refine h7.unique (h1.add h3 (F32.noOvf ?_))
      have h11 := abs_add_le T δ
      rw [abs_of_nonneg h4] at h11
      have h12 : (k : ℚ) + 1 ≤ 2 ^ 24 := by
        have : k + 1 ≤ 2 ^ 24 := by omega
        exact_mod_cast this
      have h13 : ((k : ℚ) + 1) * 2 ^ 86 ≤ 2 ^ 24 * 2 ^ 86 := by gcongr
      norm_num at h5 h10 h11 h13 ⊢
      linarith
    refine ⟨T', h7, ?_⟩
    set G := |w| / L with hG
    have herr := F32.err (T + δ)
    rw [hT']
    set E := ((5 * M + 22 + (k * k + 10 * k : ℕ)) / 2 ^ 24) with hE
    have hE1 : E ≤ 1 := by rw [hE, div_le_one (by norm_num)]; exact hk'
    have e1 : |(T + δ) * G - (A + (k + 1 + 1 / 2) * ρ)| ≤ (E + 5 / 2 ^ 24) * ρ := by
      have e2 : (T + δ) * G - (A + (k + 1 + 1 / 2) * ρ) = (T * G - (A + (k + 1 / 2) * ρ)) + (δ * G - ρ) := by ring
      rw [e2]
      refine (abs_add_le _ _).trans ?_
      linarith
    have e3 : |T + δ| * G ≤ (k + 4) * ρ := by
      have e4 : |T + δ| * G = |(T + δ) * G| := by rw [abs_mul, abs_of_nonneg hG0]
      have e5 := abs_sub_abs_le_abs_sub ((T + δ) * G) (A + (k + 1 + 1 / 2) * ρ)
      have e6 : |A + (k + 1 + 1 / 2) * ρ| ≤ ρ + (k + 1 + 1 / 2) * ρ := by
        refine (abs_add_le _ _).trans ?_
        rw [abs_of_nonneg (by positivity : 0 ≤ ((k : ℚ) + 1 + 1 / 2) * ρ)]
        linarith
      have e7 : (E + 5 / 2 ^ 24) * ρ ≤ (1 + 1 / 4) * ρ := by
        refine mul_le_mul_of_nonneg_right ?_ hp.le
        norm_num
        linarith
      rw [e4]
      linarith
    have e8 : |b32.rnd (T + δ) - (T + δ)| * G ≤ (k + 5) / 2 ^ 24 * ρ := by
      have e9 : |b32.rnd (T + δ) - (T + δ)| * G ≤ (|T + δ| * (1 / 2 ^ 24) + 1 / 2 ^ 150) * G := by gcongr
      have e10 : (1 / 2 ^ 150 : ℚ) * G ≤ 1 / 2 ^ 150 * 4 := by gcongr
      norm_num at e9 e10 hρ ⊢
      linarith
    have e11 : b32.rnd (T + δ) * G - (A + ((k + 1 : ℕ) + 1 / 2) * ρ)
        = (b32.rnd (T + δ) - (T + δ)) * G + ((T + δ) * G - (A + (k + 1 + 1 / 2) * ρ)) := by
      push_cast; ring
    rw [e11]
    refine (abs_add_le _ _).trans ?_
    rw [abs_mul, abs_of_nonneg hG0]
    have e12 : (k + 5) / 2 ^ 24 * ρ + (E + 5 / 2 ^ 24) * ρ
        ≤ ((5 * M + 22 + ((k + 1) * (k + 1) + 10 * (k + 1) : ℕ)) / 2 ^ 24) * ρ := by
      rw [← add_mul]
      refine mul_le_mul_of_nonneg_right ?_ hp.le
      rw [hE]
      push_cast
      have : (0 : ℚ) ≤ k := by positivity
      norm_num
      linarith
    linarith

end

section
variable {D : ℕ} {t : Point D F32} {d : Fin D}

/-- Without NaN the selected axis has the least value. -/
lemma selDim_le (h : selDim t = some d) (hn : ∀ i, (t i).isNaN = false) (i : Fin D) : FLe (t d) (t i) := by
  refine Fp.FLe_of_not_lt (hn d) (hn i) ?_
  rw [Bool.not_eq_true]
  refine selDim_min h ?_ ?_ i
  · intro i j hij
    exact Fp.not_lt_of_FLe (Fp.FLe_of_lt hij)
  · intro i j k hij hjk
    refine Fp.not_lt_of_FLe (Fp.FLe_trans (y := t j) ?_ ?_)
    · exact Fp.FLe_of_not_lt (hn k) (hn j) (by rw [Bool.not_eq_true]; exact hjk)
    · exact Fp.FLe_of_not_lt (hn j) (hn i) (by rw [Bool.not_eq_true]; exact hij)

end
end Verif
