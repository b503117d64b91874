import Verif.Lemmas.Sqrt
import Verif.Lemmas.Convert
import Verif.Lemmas.Path
import Verif.Spec.RayRange
import Mathlib.Tactic.LinearCombination

/-!
# Error analysis of `cast_ray` in f32
-/

namespace Verif
open Spec Scalar

namespace F32

/-- Relative error in the normal range. -/
lemma err_rel {q : ℚ} (h : 1 / 2 ^ 126 ≤ |q|) : |b32.rnd q - q| ≤ |q| * (1 / 2 ^ 24) := by
  have := Fmt.rnd_err_rel (f := b32) (q := q) (by simp only [b32]; norm_num at h ⊢; exact h)
  simp only [b32] at this ⊢
  norm_num at this ⊢
  exact this

lemma rnd_zero : b32.rnd 0 = 0 := Fmt.rnd_of_rep Fmt.rep_zero

/-- Half of a number that is not tiny is representable. -/
lemma rep_half {q : ℚ} (h : b32.Rep q) (hq : 1 / 2 ^ 20 ≤ |q|) : b32.Rep (q * (1 / 2)) := by
  obtain ⟨m, e, h1, h2, h3, rfl⟩ := h
  have he : b32.qmin + 1 ≤ e := by
    by_contra hc
    have h4 : e ≤ -149 := by simp only [b32] at hc; omega
    have h5 : |(m : ℚ)| ≤ 2 ^ 24 := by
      have h6 : |m| ≤ 2 ^ 24 := by simp only [b32] at h1; omega
      exact_mod_cast h6
    have h7 : (2 : ℚ) ^ e ≤ 2 ^ (-149 : ℤ) := two_zpow_le h4
    rw [abs_mul, abs_of_pos (two_zpow_pos e)] at hq
    have h8 : |(m : ℚ)| * 2 ^ e ≤ 2 ^ 24 * 2 ^ (-149 : ℤ) := by gcongr
    norm_num at hq h8
    linarith
  refine ⟨m, e - 1, h1, by omega, by omega, ?_⟩
  rw [two_zpow_sub]
  ring

/-- Small multiples of a power of two are representable. -/
lemma rep_mul_pow {n : ℕ} {k : ℤ} (hn : n < 2 ^ 24) (hk : -149 ≤ k) (hk' : k ≤ 104) :
    b32.Rep (n * 2 ^ k) :=
  ⟨n, k, by simp only [b32]; rw [abs_of_nonneg (by positivity)]; exact_mod_cast hn, hk,
    by simp only [b32]; omega, by push_cast; rfl⟩

end F32

section NormSq
variable {D : ℕ} {v : Point D F32} {a : Fin D → ℚ}

/-- `norm_squared` of a vector: at least each rounded square, and at most slightly above the sum. -/
lemma normSquared_is (hD : D = 2 ∨ D = 3) (hv : ∀ i, (v i).Is (a i)) {B : ℚ} (hB : ∀ i, |a i| ≤ B)
    (hB1 : 1 / 2 ^ 60 ≤ B) (hB2 : B ≤ 2 ^ 60) :
    ∃ Q, (normSquared v).Is Q ∧ 0 ≤ Q ∧ (∀ i, b32.rnd (a i * a i) ≤ Q) ∧ Q ≤ 4 * (B * B) := by
  have hsq : ∀ i, 0 ≤ a i * a i ∧ a i * a i ≤ B * B := fun i => by
    have h1 := abs_mul_abs_self (a i)
    have h2 := abs_nonneg (a i)
    have h3 := hB i
    constructor
    · exact mul_self_nonneg _
    · rw [← h1]; gcongr
  have hBB : B * B ≤ 2 ^ 120 := by
    calc B * B ≤ 2 ^ 60 * 2 ^ 60 := by gcongr
      _ = _ := by norm_num
  have hBB1 : (1 / 2 ^ 120 : ℚ) ≤ B * B := by
    calc (1 / 2 ^ 120 : ℚ) = 1 / 2 ^ 60 * (1 / 2 ^ 60) := by norm_num
      _ ≤ B * B := by gcongr
  -- each square
  have hm : ∀ i, (v i *. v i).Is (b32.rnd (a i * a i)) ∧ 0 ≤ b32.rnd (a i * a i) ∧
      b32.rnd (a i * a i) ≤ B * B * (1 + 1 / 2 ^ 20) := by
    intro i
    obtain ⟨h1, h2⟩ := hsq i
    have h3 := F32.err (a i * a i)
    rw [abs_of_nonneg h1] at h3
    have h4 := abs_le.mp h3
    refine ⟨(hv i).mul (hv i) (F32.noOvf ?_), Fmt.rnd_nonneg h1, ?_⟩
    · rw [abs_of_nonneg h1]; norm_num at hBB ⊢; linarith
    · norm_num at h4 hBB1 ⊢
      linarith [h4.2]
  have hadd : ∀ {p s : F32} {c d C E : ℚ}, p.Is c → s.Is d → 0 ≤ c → 0 ≤ d → c ≤ C → d ≤ E →
      C + E ≤ 2 ^ 126 → B * B ≤ C + E →
      (p +. s).Is (b32.rnd (c + d)) ∧ 0 ≤ b32.rnd (c + d) ∧ c ≤ b32.rnd (c + d) ∧ d ≤ b32.rnd (c + d) ∧
        b32.rnd (c + d) ≤ (C + E) * (1 + 1 / 2 ^ 20) := by
    intro p s c d C E hp hs hc hd hC hE hCE hlow
    have h0 : 0 ≤ c + d := by linarith
    refine ⟨hp.add hs (F32.noOvf ?_), Fmt.rnd_nonneg h0, Fmt.le_rnd_of_rep hp.rep (by linarith),
      Fmt.le_rnd_of_rep hs.rep (by linarith), ?_⟩
    · rw [abs_of_nonneg h0]; norm_num at hCE ⊢; linarith
    · have h3 := F32.err (c + d)
      rw [abs_of_nonneg h0] at h3
      have h4 := abs_le.mp h3
      norm_num at h4 hBB1 ⊢
      linarith [h4.2]
  have hz : (Scalar.lit 0 : F32).Is 0 := F32.zero_is
  rcases hD with rfl | rfl
  · obtain ⟨i0, n0, u0⟩ := hm 0
    obtain ⟨i1, n1, u1⟩ := hm 1
    obtain ⟨j1, k1, k2, k3, k4⟩ := hadd i0 i1 n0 n1 u0 u1 (by norm_num at hBB ⊢; linarith)
      (by norm_num; nlinarith)
    obtain ⟨l1, l2, l3, l4, l5⟩ := hadd hz j1 le_rfl k1 le_rfl k4 (by norm_num at hBB ⊢; linarith)
      (by norm_num; nlinarith)
    refine ⟨_, l1, l2, ?_, ?_⟩
    · intro i
      match i with
      | 0 => exact k2.trans l4
      | 1 => exact k3.trans l4
    · refine l5.trans ?_
      norm_num
      nlinarith
  · obtain ⟨i0, n0, u0⟩ := hm 0
    obtain ⟨i1, n1, u1⟩ := hm 1
    obtain ⟨i2, n2, u2⟩ := hm 2
    obtain ⟨j1, k1, k2, k3, k4⟩ := hadd i0 i1 n0 n1 u0 u1 (by norm_num at hBB ⊢; linarith)
      (by norm_num; nlinarith)
    obtain ⟨m1, m2, m3, m4, m5⟩ := hadd j1 i2 k1 n2 k4 u2 (by norm_num at hBB ⊢; linarith)
      (by norm_num; nlinarith)
    obtain ⟨l1, l2, l3, l4, l5⟩ := hadd hz m1 le_rfl m2 le_rfl m5 (by norm_num at hBB ⊢; linarith)
      (by norm_num; nlinarith)
    refine ⟨_, l1, l2, ?_, ?_⟩
    · intro i
      match i with
      | 0 => exact (k2.trans m3).trans l4
      | 1 => exact (k3.trans m3).trans l4
      | 2 => exact m4.trans l4
    · refine l5.trans ?_
      norm_num
      nlinarith

/-- `norm` of a vector: within a factor of the true length. -/
lemma norm_is (hD : D = 2 ∨ D = 3) (hv : ∀ i, (v i).Is (a i)) {B : ℚ} (hB : ∀ i, |a i| ≤ B)
    (hB1 : 1 / 2 ^ 60 ≤ B) (hB2 : B ≤ 2 ^ 60) (ha : ∀ i, a i = 0 ∨ 1 / 2 ^ 61 ≤ |a i|) :
    ∃ L, (norm v).Is L ∧ (∀ i, |a i| / 3 ≤ L) ∧ L ≤ 4 * B := by
  obtain ⟨Q, h1, h2, h3, h4⟩ := normSquared_is hD hv hB hB1 hB2
  refine ⟨_, h1.sqrt h2, ?_, ?_⟩
  · intro i
    rcases ha i with h | h
    · rw [h, abs_zero, zero_div]
      exact Fmt.rnd_nonneg (Fp.sqrtQ_nonneg _ _)
    · -- a value of the format close to half of the coordinate
      have e1 := F32.err_rel (q := |a i| / 2) (by rw [abs_of_nonneg (by positivity)]; norm_num at h ⊢; linarith)
      rw [abs_of_nonneg (by positivity : 0 ≤ |a i| / 2)] at e1
      have hov : |b32.rnd (|a i| / 2)| < 2 ^ b32.emax := F32.noOvf (by
        rw [abs_of_nonneg (by positivity)]
        have := hB i
        norm_num at hB2 ⊢
        linarith)
      have hrep := Fmt.rep_rnd hov
      have e2 := abs_le.mp e1
      have e3 : |a i| / 3 ≤ b32.rnd (|a i| / 2) := by norm_num at e2 ⊢; linarith [e2.1, abs_nonneg (a i)]
      have e4 : b32.rnd (|a i| / 2) ≤ |a i| * (51 / 100) := by norm_num at e2 ⊢; linarith [e2.2, abs_nonneg (a i)]
      have e0 : 0 ≤ b32.rnd (|a i| / 2) := Fmt.rnd_nonneg (by positivity)
      refine e3.trans (Fp.le_sqrt h1.rep hrep e0 ?_)
      have s1 : b32.rnd (|a i| / 2) * b32.rnd (|a i| / 2) ≤ |a i| * (51 / 100) * (|a i| * (51 / 100)) := by
        gcongr
      have s2 : |a i| * |a i| = a i * a i := abs_mul_abs_self _
      have s3 : (1 / 2 ^ 122 : ℚ) ≤ a i * a i := by
        rw [← s2]
        calc (1 / 2 ^ 122 : ℚ) = 1 / 2 ^ 61 * (1 / 2 ^ 61) := by norm_num
          _ ≤ _ := by gcongr
      have s4 := F32.err_rel (q := a i * a i) (by
        rw [abs_of_nonneg (mul_self_nonneg _)]; norm_num at s3 ⊢; linarith)
      rw [abs_of_nonneg (mul_self_nonneg (a i))] at s4
      have s5 := abs_le.mp s4
      have s6 := h3 i
      norm_num at s1 s3 s5 ⊢
      nlinarith [s5.1]
  · have e1 := F32.err_rel (q := 3 * B) (by rw [abs_of_nonneg (by linarith)]; norm_num at hB1 ⊢; linarith)
    rw [abs_of_nonneg (by linarith : 0 ≤ 3 * B)] at e1
    have hov : |b32.rnd (3 * B)| < 2 ^ b32.emax := F32.noOvf (by
      rw [abs_of_nonneg (by linarith)]; norm_num at hB2 ⊢; linarith)
    have hrep := Fmt.rep_rnd hov
    have e2 := abs_le.mp e1
    have hB0 : 0 < B := lt_of_lt_of_le (by norm_num) hB1
    have e3 : 2 * B ≤ b32.rnd (3 * B) := by norm_num at e2 ⊢; linarith [e2.1]
    have e4 : b32.rnd (3 * B) ≤ 4 * B := by norm_num at e2 ⊢; linarith [e2.2]
    refine (Fp.sqrt_le h1.rep h2 hrep (by linarith) (h4.trans ?_)).trans e4
    have e5 : 0 ≤ b32.rnd (3 * B) := by linarith
    calc 4 * (B * B) = 2 * B * (2 * B) := by ring
      _ ≤ _ := by gcongr

end NormSq

section Axis
variable {D : ℕ} {M ρ : ℚ} {o e : Point D F32} {bounds : Bounds D F32} {r : F32} {x y q : Fin D → ℚ}

lemma _root_.Verif.Spec.RayRange.pos {b : Point D F32} (h : RayRange M o e b r x y q ρ) : 0 < ρ :=
  lt_of_lt_of_le (by norm_num) h.lo

lemma _root_.Verif.Spec.RayRange.toRes {b : Point D F32} (h : RayRange M o e b r x y q ρ) : Res r ρ :=
  ⟨h.res, by have := h.lo; norm_num at this ⊢; linarith, by have := h.hi; norm_num at this ⊢; linarith⟩

/-- The components of the ray. -/
lemma ray_is {b : Point D F32} (h : RayRange M o e b r x y q ρ) (i : Fin D) :
    (e i -. o i).Is (b32.rnd (y i - x i)) ∧
      (y i = x i → b32.rnd (y i - x i) = 0) ∧
      |b32.rnd (y i - x i) - (y i - x i)| ≤ |y i - x i| * (1 / 2 ^ 24) ∧
      |y i - x i| ≤ 2 * M * ρ := by
  have hp := h.pos
  have h1 : |y i - x i| ≤ 2 * M * ρ := by
    have := abs_sub_le (y i) (q i) (x i)
    have h2 := h.end_near i
    have h3 := h.origin_near i
    rw [abs_sub_comm (q i)] at this
    linarith
  refine ⟨(h.end_ i).sub (h.origin i) (F32.noOvf_res hp h.toRes.2.2 ?_ ?_ h1), ?_, ?_, h1⟩
  · have := h.M_hi; norm_num at this ⊢; linarith
  · have := h.M_lo; linarith
  · intro he; rw [he, sub_self, F32.rnd_zero]
  · rcases h.apart i with he | he
    · rw [he, sub_self, F32.rnd_zero]; simp
    · apply F32.err_rel
      have := h.lo
      norm_num at he this ⊢
      linarith

/-- The length of the ray. -/
lemma len_is {b : Point D F32} (hD : D = 2 ∨ D = 3) (h : RayRange M o e b r x y q ρ) :
    ∃ L, (norm (fun i => e i -. o i : Point D F32)).Is L ∧ (∀ i, |y i - x i| / 4 ≤ L) ∧ L ≤ 12 * M * ρ := by
  have hp := h.pos
  have hM := h.M_lo
  have hMr : ρ ≤ M * ρ := by nlinarith
  have hMh : M * ρ ≤ 2 ^ 40 := by
    calc M * ρ ≤ 2 ^ 20 * 2 ^ 20 := by
          have := h.M_hi; have := h.hi; gcongr
      _ = _ := by norm_num
  have hlo := h.lo
  have b1 : ∀ i, |b32.rnd (y i - x i)| ≤ 3 * M * ρ := by
    intro i
    obtain ⟨-, -, h4, h6⟩ := ray_is h i
    have h5 := abs_sub_abs_le_abs_sub (b32.rnd (y i - x i)) (y i - x i)
    norm_num at h4
    linarith [abs_nonneg (y i - x i)]
  have b2 : ∀ i, b32.rnd (y i - x i) = 0 ∨ 1 / 2 ^ 61 ≤ |b32.rnd (y i - x i)| := by
    intro i
    rcases h.apart i with he | he
    · exact .inl ((ray_is h i).2.1 he)
    · right
      obtain ⟨-, -, h4, -⟩ := ray_is h i
      have h5 := abs_sub_abs_le_abs_sub (y i - x i) (b32.rnd (y i - x i))
      rw [abs_sub_comm (y i - x i)] at h5
      norm_num at h4 he hlo ⊢
      linarith [abs_nonneg (y i - x i)]
  obtain ⟨L, h1, h2, h3⟩ := norm_is (a := fun i => b32.rnd (y i - x i)) (B := 3 * M * ρ) hD
    (fun i => (ray_is h i).1) b1 (by norm_num at hlo ⊢; linarith) (by norm_num at hMh ⊢; linarith) b2
  refine ⟨L, h1, ?_, by linarith⟩
  intro i
  refine le_trans ?_ (h2 i)
  obtain ⟨-, -, h4, -⟩ := ray_is h i
  have h5 := abs_sub_abs_le_abs_sub (y i - x i) (b32.rnd (y i - x i))
  rw [abs_sub_comm (y i - x i)] at h5
  norm_num at h4
  linarith [abs_nonneg (y i - x i)]

lemma signum_is {d : F32} {g : ℚ} (h : d.Is g) : f32Signum d =
    if g = 0 then Scalar.lit 0 else if 0 < g then Scalar.lit 1 else Scalar.lit (-1) := by
  have e1 : Scalar.eq d (Scalar.lit 0) = decide (g = 0) := h.eq F32.zero_is
  have e2 : Scalar.lt (Scalar.lit 0) d = decide (0 < g) := F32.zero_is.lt h
  unfold f32Signum
  rw [e1, e2]
  simp

/-- The origin in its cell. -/
lemma origin_cell {b : Point D F32} (h : RayRange M o e b r x y q ρ) (i : Fin D) :
    |(cellFromPoint o b r i : ℚ)| ≤ M + 1 ∧
      |x i - (q i + cellFromPoint o b r i * ρ)| ≤ (1 / 2 + (2 * M + 2) / 2 ^ 24) * ρ := by
  have hp := h.pos
  have hM := h.M_hi
  obtain ⟨d, h1, h2⟩ := cellCoord_is h.toRes (h.offset i) (h.origin i) (h.origin_near i)
    (by norm_num at hM ⊢; linarith) h.M_lo
  have h3 := Fp.roundAway_err d
  have hc : cellFromPoint o b r i = roundAway d := h1
  rw [hc]
  generalize roundAway d = c at h3
  have h4 : |(x i - q i) / ρ| ≤ M := by
    rw [abs_div, abs_of_pos hp, div_le_iff₀ hp]; exact h.origin_near i
  have h5 : |(c : ℚ) - (x i - q i) / ρ| ≤ 1 / 2 + (2 * M + 2) / 2 ^ 24 := by
    have := abs_sub_le (c : ℚ) d ((x i - q i) / ρ)
    linarith
  constructor
  · have := abs_sub_abs_le_abs_sub (c : ℚ) ((x i - q i) / ρ)
    norm_num at h5 hM
    linarith
  · have e1 : x i - (q i + c * ρ) = ((x i - q i) / ρ - c) * ρ := by field_simp; ring
    rw [e1, abs_mul, abs_of_pos hp, abs_sub_comm]
    gcongr

/-- Error of a quotient by a direction component, measured in units of length. -/
lemma quot_err {f d G ρ : ℚ} (hd : |d - G| ≤ G * (3 / 2 ^ 24)) (hG : 1 / 2 ^ 64 ≤ G) (hG4 : G ≤ 4)
    (hρ : 1 / 2 ^ 20 ≤ ρ) (hρ' : ρ ≤ 2 ^ 20) {c : ℚ} (hc : 1 ≤ c) (hc2 : c ≤ 2) (hf : |f| ≤ c * ρ) :
    |b32.rnd (f / d) * G - f| ≤ (5 * c / 2 ^ 24) * ρ ∧ |f / d| ≤ 2 ^ 86 ∧ |b32.rnd (f / d)| ≤ 2 ^ 86 := by
  have hGp : 0 < G := lt_of_lt_of_le (by norm_num) hG
  have h1 := abs_le.mp hd
  have hdp : 0 < d := by norm_num at h1; linarith [h1.1]
  have hρp : 0 < ρ := lt_of_lt_of_le (by norm_num) hρ
  set z := f / d with hz
  have hzd : z * d = f := by rw [hz]; field_simp
  have hzd' : |z| * d = |f| := by rw [← hzd, abs_mul, abs_of_pos hdp]
  have hza := abs_nonneg z
  have hzG : |z| * G ≤ (51 / 50) * (c * ρ) := by
    have : |z| * (G * (1 - 3 / 2 ^ 24)) ≤ c * ρ := by
      refine le_trans ?_ (hzd'.le.trans hf)
      gcongr
      linarith [h1.1]
    have h2 : 0 ≤ |z| * G := by positivity
    norm_num at this ⊢
    linarith
  have hz86 : |z| ≤ 2 ^ 86 * (99 / 100) := by
    have h2 : |z| * (1 / 2 ^ 64) ≤ |z| * G := by gcongr
    have h3 : (51 / 50) * (c * ρ) ≤ (51 / 50) * (2 * 2 ^ 20) := by gcongr
    norm_num at h2 h3 ⊢
    linarith
  have herr := F32.err z
  have h3 : |z * G - f| ≤ |z| * G * (3 / 2 ^ 24) := by
    have : z * G - f = z * (G - d) := by rw [← hzd]; ring
    rw [this, abs_mul, abs_sub_comm G]
    calc |z| * |d - G| ≤ |z| * (G * (3 / 2 ^ 24)) := by gcongr
      _ = _ := by ring
  refine ⟨?_, hz86.trans (by norm_num), ?_⟩
  · have e1 : b32.rnd z * G - f = (b32.rnd z - z) * G + (z * G - f) := by ring
    rw [e1]
    refine (abs_add_le _ _).trans ?_
    rw [abs_mul, abs_of_pos hGp]
    have h4 : |b32.rnd z - z| * G ≤ (|z| * (1 / 2 ^ 24) + 1 / 2 ^ 150) * G := by gcongr
    have h5 : (1 / 2 ^ 150 : ℚ) * G ≤ 1 / 2 ^ 148 := by
      calc (1 / 2 ^ 150 : ℚ) * G ≤ 1 / 2 ^ 150 * 4 := by gcongr
        _ = _ := by norm_num
    have h6 : (1 / 2 ^ 20 : ℚ) ≤ c * ρ := hρ.trans (by nlinarith)
    norm_num at h3 h4 h5 h6 hzG ⊢
    linarith
  · have h4 := abs_sub_abs_le_abs_sub (b32.rnd z) z
    norm_num at hz86 herr ⊢
    linarith

/-- What the loop of `cast_ray` knows about an axis along which the ray moves: the step `s`, and in units of
length (after division by `G`, the length of the ray over its extent along the axis) the distance to the
first border and between borders. -/
structure AxisInfo (c : RayCtx D F32) (t : Point D F32) (i : Fin D) (M ρ w A : ℚ) (L : ℚ) : Prop where
  step : c.s i = 1 ∨ c.s i = -1
  toward : (c.s i : ℚ) * w = |w|
  first : ∃ T, (t i).Is T ∧ |T * (|w| / L) - (A + ρ / 2)| ≤ ((5 * M + 22) / 2 ^ 24) * ρ ∧ |T| ≤ 2 ^ 86
  delta : ∃ δ, (c.tDelta i).Is δ ∧ |δ * (|w| / L) - ρ| ≤ (5 / 2 ^ 24) * ρ ∧ 0 ≤ δ ∧ δ ≤ 2 ^ 86

/-- The axes along which the ray does not move. -/
lemma axis_still (h : RayRange M o e bounds.min r x y q ρ) {L : ℚ} (hL : 0 < L)
    (hn : (norm (fun i => e i -. o i : Point D F32)).Is L) (ml : F32) {i : Fin D} (hi : y i = x i) :
    (rayCtx o e bounds r ml).s i = 0 ∧ t0 o e bounds r i = Scalar.inf ∧
      (rayCtx o e bounds r ml).tDelta i = Scalar.inf := by
  obtain ⟨h1, h2, -, -⟩ := ray_is h i
  rw [h2 hi] at h1
  have hdir : (rayDir o e i).Is (b32.rnd (0 / L)) := h1.div hn hL.ne' (by
    rw [zero_div, F32.rnd_zero, abs_zero]; positivity)
  rw [zero_div, F32.rnd_zero] at hdir
  have hs : f32Signum (rayDir o e i) = Scalar.lit 0 := by rw [signum_is hdir, if_pos rfl]
  have hz : Scalar.eq (Scalar.lit 0 : F32) (Scalar.lit 0) = true := by decide +kernel
  refine ⟨?_, ?_, ?_⟩
  · change Scalar.toInt (f32Signum (rayDir o e i)) = 0
    rw [hs]
    decide +kernel
  · change tMax0 (f32Signum (rayDir o e i)) _ _ _ _ _ = _
    rw [hs]
    unfold tMax0
    rw [if_pos hz]
  · change tDelta0 (f32Signum (rayDir o e i)) _ _ = _
    rw [hs]
    unfold tDelta0
    rw [if_pos hz]

/-- The axes along which the ray moves. -/
lemma axis_moving (h : RayRange M o e bounds.min r x y q ρ) {L : ℚ} (hL : 0 < L)
    (hn : (norm (fun i => e i -. o i : Point D F32)).Is L) (hL1 : ∀ i, |y i - x i| / 4 ≤ L)
    (hL2 : L ≤ 12 * M * ρ) (ml : F32) {i : Fin D} (hi : y i ≠ x i) :
    AxisInfo (rayCtx o e bounds r ml) (t0 o e bounds r) i M ρ (y i - x i)
      ((rayCtx o e bounds r ml).s i * (q i + cellFromPoint o bounds.min r i * ρ - x i)) L := by
  have hp := h.pos
  have hlo := h.lo
  have hhi := h.hi
  have hM := h.M_hi
  have hM1 := h.M_lo
  obtain ⟨h1, -, h2, h3⟩ := ray_is h i
  set w := y i - x i with hw
  have hwp : 0 < |w| := abs_pos.mpr (sub_ne_zero.mpr hi)
  have hap : ρ / 2 ^ 40 ≤ |w| := (h.apart i).resolve_left hi
  set G := |w| / L with hG
  have hGL : G * L = |w| := by rw [hG]; field_simp
  have hGp : 0 < G := div_pos hwp hL
  have hG1 : 1 / 2 ^ 64 ≤ G := by
    rw [hG, le_div_iff₀ hL]
    have : 12 * M * ρ ≤ 12 * 2 ^ 20 * ρ := by gcongr
    norm_num at this hap ⊢
    linarith
  have hG4 : G ≤ 4 := by rw [hG, div_le_iff₀ hL]; linarith [hL1 i]
  -- the direction
  have hdirbound : |b32.rnd w / L - w / L| ≤ G * (1 / 2 ^ 24) := by
    rw [← sub_div, abs_div, abs_of_pos hL, div_le_iff₀ hL, mul_right_comm, hGL]
    exact h2
  have hwL : |w / L| = G := by rw [abs_div, abs_of_pos hL]
  have hv1 : |b32.rnd w / L| ≤ G * (1 + 1 / 2 ^ 24) := by
    have := abs_sub_abs_le_abs_sub (b32.rnd w / L) (w / L)
    rw [hwL] at this
    linarith
  have hv2 : G * (1 - 1 / 2 ^ 24) ≤ |b32.rnd w / L| := by
    have := abs_sub_abs_le_abs_sub (w / L) (b32.rnd w / L)
    rw [hwL, abs_sub_comm (w / L)] at this
    linarith
  have herr := F32.err_rel (q := b32.rnd w / L) (by
    refine le_trans ?_ hv2
    norm_num at hG1 ⊢
    linarith)
  set d := b32.rnd (b32.rnd w / L) with hd
  have hdir : (rayDir o e i).Is d := h1.div hn hL.ne' (F32.noOvf (by norm_num at hv1 ⊢; linarith))
  have hdw : |d - w / L| ≤ G * (3 / 2 ^ 24) := by
    have := abs_sub_le d (b32.rnd w / L) (w / L)
    norm_num at herr hv1 hdirbound this ⊢
    linarith
  -- the origin in its cell
  obtain ⟨hc1, hc2⟩ := origin_cell h i
  set oc := cellFromPoint o bounds.min r i with hoc
  -- the border
  obtain ⟨hP, hPe⟩ := pointCoord_is (c := oc) (N := M + 1) h.toRes (h.offset i) hc1
    ((h.offset_near i).trans (by nlinarith)) (by norm_num at hM ⊢; linarith) (by linarith)
  set P := cellPoint oc (q i) ρ with hPdef
  have hx : |x i| ≤ 2 * M * ρ := by
    have := abs_sub_abs_le_abs_sub (x i) (q i)
    linarith [h.origin_near i, h.offset_near i]
  have hrρ : b32.rnd (ρ * (1 / 2)) = ρ * (1 / 2) :=
    Fmt.rnd_of_rep (F32.rep_half h.res.rep (by rw [abs_of_pos hp]; exact hlo))
  have hhalf : (Scalar.lit (1 / 2) : F32).Is (1 / 2) := by
    refine Fp.ofRat_is_rep ⟨1, -1, by simp [b32], by simp [b32], by simp [b32], by norm_num⟩
  have hbig : ∀ {a : ℚ}, |a| ≤ 2 ^ 60 → |a| ≤ 2 ^ 127 := fun h => h.trans (by norm_num)
  -- for either sign of the step
  have key : ∀ (s : ℤ) (S : F32), (s = 1 ∨ s = -1) → S.Is s → (s : ℚ) * w = |w| →
      f32Signum (rayDir o e i) = S → Scalar.toInt S = s →
      Scalar.eq S (Scalar.lit 0) = false → AxisInfo (rayCtx o e bounds r ml) (t0 o e bounds r) i M ρ w
        ((rayCtx o e bounds r ml).s i * (q i + oc * ρ - x i)) L := by
    intro s S hs hS hsw hsig hSi hS0
    have hsr : (s : ℚ) * s = 1 := by rcases hs with rfl | rfl <;> norm_num
    have hsabs : |(s : ℚ)| = 1 := by rcases hs with rfl | rfl <;> norm_num
    have hcs : (rayCtx o e bounds r ml).s i = s := by
      change Scalar.toInt (f32Signum (rayDir o e i)) = s
      rw [hsig, hSi]
    have hsd : |(s : ℚ) * d - G| ≤ G * (3 / 2 ^ 24) := by
      have e1 : (s : ℚ) * d - G = s * (d - w / L) := by
        rw [hG, ← hsw]; ring
      rw [e1, abs_mul, hsabs, one_mul]
      exact hdw
    have hsdp : 0 < (s : ℚ) * d := by
      have := (abs_le.mp hsd).1
      norm_num at this
      linarith
    have hd0 : d ≠ 0 := fun h => by rw [h, mul_zero] at hsdp; exact lt_irrefl _ hsdp
    have habsd : |d| = s * d := by
      have : |(s : ℚ) * d| = |d| := by rw [abs_mul, hsabs, one_mul]
      rw [← this, abs_of_pos hsdp]
    -- half a cell in the direction of the ray
    have hsρ : b32.rnd ((s : ℚ) * ρ) = s * ρ := by
      rcases hs with rfl | rfl
      · rw [Int.cast_one, one_mul]; exact Fmt.rnd_of_rep h.res.rep
      · push_cast; rw [neg_one_mul]; exact Fmt.rnd_of_rep (Fmt.rep_neg h.res.rep)
    have hsρ2 : b32.rnd ((s : ℚ) * ρ * (1 / 2)) = s * ρ * (1 / 2) := by
      have hrep := F32.rep_half h.res.rep (by rw [abs_of_pos hp]; exact hlo)
      rcases hs with rfl | rfl
      · rw [Int.cast_one, one_mul]; exact Fmt.rnd_of_rep hrep
      · push_cast; rw [neg_one_mul, neg_mul]; exact Fmt.rnd_of_rep (Fmt.rep_neg hrep)
    have i1 := hS.mul h.res (F32.noOvf (hbig (by
      rw [abs_mul, hsabs, one_mul, abs_of_pos hp]; norm_num at hhi ⊢; linarith)))
    rw [hsρ] at i1
    have i2 := i1.mul hhalf (F32.noOvf (hbig (by
      rw [abs_mul, abs_mul, hsabs, one_mul, abs_of_pos hp]; norm_num at hhi ⊢; linarith)))
    rw [hsρ2] at i2
    set H := (s : ℚ) * ρ * (1 / 2) with hH
    have hHabs : |H| = ρ / 2 := by
      rw [hH, abs_mul, abs_mul, hsabs, one_mul, abs_of_pos hp]; norm_num; ring
    -- border
    have hPx : |P - x i| ≤ (1 / 2 + (5 * M + 7) / 2 ^ 24) * ρ := by
      have e1 := abs_sub_le P (oc * ρ + q i) (x i)
      have e2 : |(oc : ℚ) * ρ + q i - x i| = |x i - (q i + oc * ρ)| := by
        rw [abs_sub_comm, add_comm (q i)]
      rw [e2] at e1
      refine e1.trans ((add_le_add hPe hc2).trans (le_of_eq ?_))
      ring
    have hPH : |P + H| ≤ (2 * M + 2) * ρ := by
      have e1 := abs_add_le P H
      have e2 := abs_sub_abs_le_abs_sub P (x i)
      have e3 : (1 / 2 + (5 * M + 7) / 2 ^ 24) * ρ ≤ 1 * ρ := by
        refine mul_le_mul_of_nonneg_right ?_ hp.le
        norm_num at hM ⊢; linarith
      linarith
    have hlo' : 1 / 2 ^ 100 ≤ ρ := h.toRes.2.1
    have herr1 := F32.err_res hlo' hPH
    have i3 := hP.add i2 (F32.noOvf_res hp h.toRes.2.2 (by norm_num at hM ⊢; linarith) (by linarith) hPH)
    set Bd := b32.rnd (P + H) with hBd
    -- from the origin to the border
    have hPHx : |P + H - x i - (q i + oc * ρ + H - x i)| ≤ ((3 * M + 5) / 2 ^ 24) * ρ := by
      have e1 : P + H - x i - (q i + oc * ρ + H - x i) = P - (oc * ρ + q i) := by ring
      rw [e1]
      refine hPe.trans (le_of_eq (by ring))
    have hbx : |q i + oc * ρ + H - x i| ≤ (1 + (2 * M + 2) / 2 ^ 24) * ρ := by
      have e1 : q i + oc * ρ + H - x i = H - (x i - (q i + oc * ρ)) := by ring
      rw [e1]
      have := abs_sub H (x i - (q i + oc * ρ))
      linarith
    have hBx : |Bd - x i - (q i + oc * ρ + H - x i)| ≤ ((5 * M + 8) / 2 ^ 24) * ρ := by
      have e1 : Bd - x i - (q i + oc * ρ + H - x i)
          = (Bd - (P + H)) + (P + H - x i - (q i + oc * ρ + H - x i)) := by ring
      rw [e1]
      refine (abs_add_le _ _).trans ?_
      norm_num at herr1 hPHx ⊢
      linarith
    have hBx2 : |Bd - x i| ≤ (3 / 2 + 1 / 4) * ρ := by
      have := abs_sub_abs_le_abs_sub (Bd - x i) (q i + oc * ρ + H - x i)
      have e3 : (1 + (2 * M + 2) / 2 ^ 24) * ρ ≤ (1 + 1 / 4) * ρ := by
        refine mul_le_mul_of_nonneg_right ?_ hp.le
        norm_num at hM ⊢; linarith
      have e4 : ((5 * M + 8) / 2 ^ 24) * ρ ≤ 1 / 2 * ρ := by
        refine mul_le_mul_of_nonneg_right ?_ hp.le
        norm_num at hM ⊢; linarith
      linarith
    have herr2 := F32.err_res hlo' hBx2
    have i4 := i3.sub (h.origin i) (F32.noOvf_res hp h.toRes.2.2 (by norm_num) (by norm_num) hBx2)
    set f := b32.rnd (Bd - x i) with hf
    have hfe : |f - (q i + oc * ρ + H - x i)| ≤ ((5 * M + 11) / 2 ^ 24) * ρ := by
      have := abs_sub_le f (Bd - x i) (q i + oc * ρ + H - x i)
      norm_num at this herr2 hBx ⊢
      linarith
    have hf2 : |f| ≤ 2 * ρ := by
      have := abs_sub_abs_le_abs_sub f (Bd - x i)
      norm_num at this herr2 hBx2 ⊢
      linarith
    have hsf : |(s : ℚ) * f| ≤ 2 * ρ := by rw [abs_mul, hsabs, one_mul]; exact hf2
    have hsq : (s : ℚ) * f / (s * d) = f / d := by
      have : (s : ℚ) ≠ 0 := by rcases hs with rfl | rfl <;> norm_num
      rw [mul_div_mul_left _ _ this]
    obtain ⟨t1, t2, t3⟩ := quot_err hsd hG1 hG4 hlo hhi (by norm_num : (1 : ℚ) ≤ 2) le_rfl hsf
    rw [hsq] at t1 t2 t3
    obtain ⟨d1, d2, d3⟩ := quot_err hsd hG1 hG4 hlo hhi le_rfl (by norm_num : (1 : ℚ) ≤ 2)
      (f := ρ) (by rw [abs_of_pos hp, one_mul])
    have i5 := i4.div hdir hd0 (F32.noOvf (t2.trans (by norm_num)))
    have i6 := h.res.div hdir.abs (by rw [habsd]; exact hsdp.ne')
      (F32.noOvf (by rw [habsd]; exact d2.trans (by norm_num)))
    rw [habsd] at i6
    refine ⟨by rw [hcs]; exact hs, by rw [hcs]; exact hsw, ⟨b32.rnd (f / d), ?_, ?_, t3⟩,
      ⟨b32.rnd (ρ / (s * d)), ?_, ?_, Fmt.rnd_nonneg (by positivity), (le_abs_self _).trans d3⟩⟩
    · change (tMax0 (f32Signum (rayDir o e i)) _ _ _ _ _).Is _
      rw [hsig]
      unfold tMax0
      rw [hS0]
      exact i5
    · rw [hcs]
      have e1 : b32.rnd (f / d) * G - ((s : ℚ) * (q i + oc * ρ - x i) + ρ / 2)
          = (b32.rnd (f / d) * G - s * f) + s * (f - (q i + oc * ρ + H - x i)) := by
        rw [hH]
        linear_combination (ρ * (1 / 2)) * hsr
      rw [← hG, e1]
      refine (abs_add_le _ _).trans ?_
      rw [abs_mul, hsabs, one_mul]
      norm_num at t1 hfe ⊢
      linarith
    · change (tDelta0 (f32Signum (rayDir o e i)) _ _).Is _
      rw [hsig]
      unfold tDelta0
      rw [hS0]
      exact i6
    · rw [← hG]
      refine d1.trans (le_of_eq (by norm_num))
  -- the sign
  have hdw0 : 0 < d ↔ 0 < w := by
    have h5 := abs_le.mp hdw
    constructor
    · intro h6
      by_contra hc
      have h7 : w / L = -G := by
        rw [hG, abs_of_nonpos (not_lt.mp hc)]; ring
      rw [h7] at h5
      norm_num at h5
      linarith [h5.2]
    · intro h6
      have h7 : w / L = G := by rw [hG, abs_of_pos h6]
      rw [h7] at h5
      norm_num at h5
      linarith [h5.1]
  have hd0 : d ≠ 0 := by
    intro h6
    rw [h6, zero_sub, abs_neg, hwL] at hdw
    norm_num at hdw
    linarith
  rcases lt_or_gt_of_ne (sub_ne_zero.mpr hi) with hneg | hpos
  · have hdn : ¬ 0 < d := fun h => absurd (hdw0.mp h) (not_lt.mpr hneg.le)
    refine key (-1) (Scalar.lit (-1)) (.inr rfl) ?_ ?_ ?_ (by decide +kernel) (by decide +kernel)
    · have := F32.lit_int_is (n := -1) (by norm_num)
      rw [Int.cast_neg, Int.cast_one] at this ⊢
      exact this
    · rw [abs_of_neg hneg]; push_cast; ring
    · rw [signum_is hdir, if_neg hd0, if_neg hdn]
  · refine key 1 (Scalar.lit 1) (.inl rfl) ?_ ?_ ?_ (by decide +kernel) (by decide +kernel)
    · rw [Int.cast_one]; exact F32.one_is
    · rw [abs_of_pos hpos]; push_cast; ring
    · rw [signum_is hdir, if_neg hd0, if_pos (hdw0.mpr hpos)]

end Axis
end Verif
