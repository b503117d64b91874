import Verif.Spec.Rigid
import Verif.Lemmas.F32

/-!
# Error bounds of `f32` operations against real numbers
-/

namespace Verif.Spec


lemma NearReal.mono {x : F32} {v e f : ℝ} (h : NearReal x v e) (hf : e ≤ f) : NearReal x v f := by
  obtain ⟨q, h1, h2⟩ := h
  exact ⟨q, h1, h2.trans hf⟩

/-- One rounding seen from the reals. -/
lemma rnd_near {q : ℚ} {v e A : ℝ} (hv : |v| ≤ A) (h : |(q : ℝ) - v| ≤ e) :
    |((b32.rnd q : ℚ) : ℝ) - v| ≤ e + (A + e) * (1 / 2 ^ 24) + 1 / 2 ^ 150 := by
  have h1 : |((b32.rnd q : ℚ) : ℝ) - (q : ℝ)| ≤ |(q : ℝ)| * (1 / 2 ^ 24) + 1 / 2 ^ 150 := by
    have := (Rat.cast_le (K := ℝ)).mpr (F32.err q)
    push_cast at this
    exact this
  have h2 : |(q : ℝ)| ≤ A + e := by
    have := abs_sub_abs_le_abs_sub (q : ℝ) v
    linarith
  have h3 := abs_sub_le ((b32.rnd q : ℚ) : ℝ) (q : ℝ) v
  have h4 : |(q : ℝ)| * (1 / 2 ^ 24) ≤ (A + e) * (1 / 2 ^ 24) :=
    mul_le_mul_of_nonneg_right h2 (by positivity)
  linarith

lemma near_ovf {q : ℚ} {v e A : ℝ} (hv : |v| ≤ A) (h : |(q : ℝ) - v| ≤ e) (hA : A + e ≤ 2 ^ 127) :
    |b32.rnd q| < 2 ^ b32.emax := by
  apply F32.noOvf
  have h2 : |(q : ℝ)| ≤ 2 ^ 127 := by
    have := abs_sub_abs_le_abs_sub (q : ℝ) v
    linarith
  have := (Rat.cast_le (K := ℝ) (p := |q|) (q := 2 ^ 127)).mp (by push_cast; exact h2)
  exact this

lemma NearReal.add {x y : F32} {v w e f A : ℝ} (hx : NearReal x v e) (hy : NearReal y w f)
    (hA : |v + w| ≤ A) (hb : A + (e + f) ≤ 2 ^ 127) :
    NearReal (x.add y) (v + w) (e + f + (A + (e + f)) * (1 / 2 ^ 24) + 1 / 2 ^ 150) := by
  obtain ⟨q, h1, h2⟩ := hx
  obtain ⟨r, h3, h4⟩ := hy
  have h5 : |((q + r : ℚ) : ℝ) - (v + w)| ≤ e + f := by
    push_cast
    have := abs_add_le ((q : ℝ) - v) ((r : ℝ) - w)
    have e1 : (q : ℝ) - v + ((r : ℝ) - w) = q + r - (v + w) := by ring
    rw [e1] at this
    linarith
  exact ⟨_, h1.add h3 (near_ovf hA h5 hb), rnd_near hA h5⟩

lemma NearReal.sub {x y : F32} {v w e f A : ℝ} (hx : NearReal x v e) (hy : NearReal y w f)
    (hA : |v - w| ≤ A) (hb : A + (e + f) ≤ 2 ^ 127) :
    NearReal (x.sub y) (v - w) (e + f + (A + (e + f)) * (1 / 2 ^ 24) + 1 / 2 ^ 150) := by
  obtain ⟨q, h1, h2⟩ := hx
  obtain ⟨r, h3, h4⟩ := hy
  have h5 : |((q - r : ℚ) : ℝ) - (v - w)| ≤ e + f := by
    push_cast
    have := abs_sub ((q : ℝ) - v) ((r : ℝ) - w)
    have e1 : (q : ℝ) - v - ((r : ℝ) - w) = q - r - (v - w) := by ring
    rw [e1] at this
    linarith
  exact ⟨_, h1.sub h3 (near_ovf hA h5 hb), rnd_near hA h5⟩

lemma NearReal.mul {x y : F32} {v w e f A B : ℝ} (hx : NearReal x v e) (hy : NearReal y w f)
    (hA : |v| ≤ A) (hB : |w| ≤ B) (hb : A * B + (A * f + B * e + e * f) ≤ 2 ^ 127) :
    NearReal (x.mul y) (v * w) (A * f + B * e + e * f
      + (A * B + (A * f + B * e + e * f)) * (1 / 2 ^ 24) + 1 / 2 ^ 150) := by
  obtain ⟨q, h1, h2⟩ := hx
  obtain ⟨r, h3, h4⟩ := hy
  have hA0 : 0 ≤ A := (abs_nonneg _).trans hA
  have hB0 : 0 ≤ B := (abs_nonneg _).trans hB
  have he : 0 ≤ e := (abs_nonneg _).trans h2
  have h5 : |((q * r : ℚ) : ℝ) - v * w| ≤ A * f + B * e + e * f := by
    push_cast
    have e1 : (q : ℝ) * r - v * w = v * (r - w) + w * (q - v) + (q - v) * (r - w) := by ring
    rw [e1]
    have t1 := abs_add_le (v * (r - w) + w * (q - v)) ((q - v) * (r - w))
    have t2 := abs_add_le (v * (r - w)) (w * (q - v))
    have t3 : |v * (r - w)| ≤ A * f := by
      rw [abs_mul]; exact mul_le_mul hA h4 (abs_nonneg _) hA0
    have t4 : |w * (q - v)| ≤ B * e := by
      rw [abs_mul]; exact mul_le_mul hB h2 (abs_nonneg _) hB0
    have t5 : |((q : ℝ) - v) * (r - w)| ≤ e * f := by
      rw [abs_mul]; exact mul_le_mul h2 h4 (abs_nonneg _) he
    linarith
  have h6 : |v * w| ≤ A * B := by
    rw [abs_mul]; exact mul_le_mul hA hB (abs_nonneg _) hA0
  exact ⟨_, h1.mul h3 (near_ovf h6 h5 hb), rnd_near h6 h5⟩

variable {x y : F32} {v w a b : ℝ}

/-- Numbers of size at most 1 with errors of at most 512 units of 2^-24. -/
lemma NearReal.mul1 (hx : NearReal x v (a / 2 ^ 24)) (hy : NearReal y w (b / 2 ^ 24)) (hv : |v| ≤ 1)
    (hw : |w| ≤ 1) (ha : 0 ≤ a ∧ a ≤ 512) (hb : 0 ≤ b ∧ b ≤ 512) :
    NearReal (x.mul y) (v * w) ((a + b + 5/4) / 2 ^ 24) := by
  have hab : a * b ≤ 512 * 512 := mul_le_mul ha.2 hb.2 hb.1 (by norm_num)
  have e1 : a / 2 ^ 24 * (b / 2 ^ 24) = a * b / 2 ^ 48 := by ring
  refine (NearReal.mul hx hy hv hw ?_).mono ?_
  · rw [e1]; obtain ⟨_, _⟩ := ha; obtain ⟨_, _⟩ := hb; norm_num at *; linarith
  · rw [e1]; obtain ⟨_, _⟩ := ha; obtain ⟨_, _⟩ := hb; norm_num at *; linarith

lemma NearReal.add1 (hx : NearReal x v (a / 2 ^ 24)) (hy : NearReal y w (b / 2 ^ 24))
    (hv : |v + w| ≤ 1) (ha : 0 ≤ a ∧ a ≤ 512) (hb : 0 ≤ b ∧ b ≤ 512) :
    NearReal (x.add y) (v + w) ((a + b + 5/4) / 2 ^ 24) := by
  refine (NearReal.add hx hy hv ?_).mono ?_
  · obtain ⟨_, _⟩ := ha; obtain ⟨_, _⟩ := hb; norm_num at *; linarith
  · obtain ⟨_, _⟩ := ha; obtain ⟨_, _⟩ := hb; norm_num at *; linarith

lemma NearReal.sub1 (hx : NearReal x v (a / 2 ^ 24)) (hy : NearReal y w (b / 2 ^ 24))
    (hv : |v - w| ≤ 1) (ha : 0 ≤ a ∧ a ≤ 512) (hb : 0 ≤ b ∧ b ≤ 512) :
    NearReal (x.sub y) (v - w) ((a + b + 5/4) / 2 ^ 24) := by
  refine (NearReal.sub hx hy hv ?_).mono ?_
  · obtain ⟨_, _⟩ := ha; obtain ⟨_, _⟩ := hb; norm_num at *; linarith
  · obtain ⟨_, _⟩ := ha; obtain ⟨_, _⟩ := hb; norm_num at *; linarith

lemma NearReal.dbl1 (hx : NearReal x v (a / 2 ^ 24)) (hv : |v| ≤ 1) (ha : 0 ≤ a ∧ a ≤ 250) :
    NearReal (x.mul (Fp.lit 2)) (v * 2) ((2 * a + 9/4) / 2 ^ 24) := by
  have h2 : NearReal (Fp.lit 2 : F32) 2 0 :=
    ⟨2, by simpa using F32.lit_int_is (n := 2) (by norm_num), by norm_num⟩
  refine (NearReal.mul hx h2 hv (B := 2) (by norm_num) ?_).mono ?_
  · obtain ⟨_, _⟩ := ha; norm_num at *; linarith
  · obtain ⟨_, _⟩ := ha; norm_num at *; linarith

end Verif.Spec
