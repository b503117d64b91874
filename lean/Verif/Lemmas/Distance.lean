import Verif.Lemmas.RayF32
import Verif.Spec.Distance
import Mathlib.Algebra.Order.BigOperators.Ring.Finset

/-!
# Distances: triangle inequality in squares, error of `norm_squared`
-/

namespace Verif
open Spec

variable {D : ℕ} {x y z : Fin D → ℚ} {l k η : ℚ}

lemma _root_.Verif.Spec.DistLe.trans (h1 : DistLe x y l) (h2 : DistLe y z k) : DistLe x z (l + k) := by
  obtain ⟨hl, h1⟩ := h1
  obtain ⟨hk, h2⟩ := h2
  refine ⟨by positivity, ?_⟩
  unfold distSq at *
  have hcs := Finset.sum_mul_sq_le_sq_mul_sq Finset.univ (fun i => y i - x i) (fun i => z i - y i)
  have hlk : 0 ≤ l * k := by positivity
  have h3 : (∑ i, (y i - x i) * (z i - y i)) ^ 2 ≤ (l * k) ^ 2 := by
    refine hcs.trans ?_
    rw [mul_pow]
    exact mul_le_mul h1 h2 (Finset.sum_nonneg fun i _ => sq_nonneg _) (by positivity)
  have h4 : ∑ i, (y i - x i) * (z i - y i) ≤ l * k := le_of_abs_le (abs_le_of_sq_le_sq h3 hlk)
  have e : ∑ i, (z i - x i) ^ 2 = ∑ i, (y i - x i) ^ 2 + 2 * ∑ i, (y i - x i) * (z i - y i) + ∑ i, (z i - y i) ^ 2 := by
    rw [Finset.mul_sum, ← Finset.sum_add_distrib, ← Finset.sum_add_distrib]
    exact Finset.sum_congr rfl fun i _ => by ring
  rw [e]
  nlinarith

lemma _root_.Verif.Spec.DistLe.symm (h : DistLe x y l) : DistLe y x l := by
  refine ⟨h.1, le_trans (le_of_eq ?_) h.2⟩
  exact Finset.sum_congr rfl fun i _ => by ring

lemma _root_.Verif.Spec.DistLe.mono (h : DistLe x y l) (hk : l ≤ k) : DistLe x y k :=
  ⟨h.1.trans hk, h.2.trans (pow_le_pow_left₀ h.1 hk 2)⟩

/-- Points close in every coordinate are close. -/
lemma distLe_of_coords (hD : D ≤ 4) (hη : 0 ≤ η) (h : ∀ i, |y i - x i| ≤ η) : DistLe x y (2 * η) := by
  refine ⟨by positivity, ?_⟩
  have h1 : ∀ i, (y i - x i) ^ 2 ≤ η ^ 2 := fun i => by
    rw [← sq_abs]; exact pow_le_pow_left₀ (abs_nonneg _) (h i) 2
  have h2 : distSq x y ≤ ∑ _i : Fin D, η ^ 2 := Finset.sum_le_sum fun i _ => h1 i
  rw [Finset.sum_const, Finset.card_univ, Fintype.card_fin, nsmul_eq_mul] at h2
  have h3 : (D : ℚ) ≤ 4 := by exact_mod_cast hD
  nlinarith [sq_nonneg η]

/-- A point no farther on any axis than another and `η`. -/
lemma distLe_of_axes (hD : D ≤ 4) (hη : 0 ≤ η) (hd : DistLe x y l) (h : ∀ i, |z i - x i| ≤ |y i - x i| + η) :
    DistLe x z (l + 2 * η) := by
  have a1 : DistLe (fun _ : Fin D => (0 : ℚ)) (fun i => |y i - x i|) l :=
    ⟨hd.1, le_trans (le_of_eq (Finset.sum_congr rfl fun i _ => by rw [sub_zero, sq_abs])) hd.2⟩
  have a2 : DistLe (fun i => |y i - x i|) (fun i => |y i - x i| + η) (2 * η) :=
    distLe_of_coords hD hη fun i => by rw [add_sub_cancel_left, abs_of_nonneg hη]
  obtain ⟨a3, a4⟩ := a1.trans a2
  refine ⟨a3, le_trans (Finset.sum_le_sum fun i _ => ?_) a4⟩
  rw [sub_zero, ← sq_abs]
  exact pow_le_pow_left₀ (abs_nonneg _) (h i) 2

/-- The error of `norm_squared`. -/
lemma normSquared_err {v : Point D F32} {a : Fin D → ℚ} (hD : D = 2 ∨ D = 3) (hv : ∀ i, (v i).Is (a i))
    (hS : ∑ i, a i ^ 2 ≤ 2 ^ 120) :
    ∃ Q, (normSquared v).Is Q ∧ |Q - ∑ i, a i ^ 2| ≤ (∑ i, a i ^ 2) / 2 ^ 21 + 1 / 2 ^ 146 := by
  have hsq : ∀ i, 0 ≤ a i ^ 2 := fun i => sq_nonneg _
  have hle : ∀ i, a i ^ 2 ≤ ∑ i, a i ^ 2 := fun i => Finset.single_le_sum (fun i _ => hsq i) (Finset.mem_univ i)
  have hm : ∀ i, (Scalar.mul (v i) (v i)).Is (b32.rnd (a i ^ 2)) ∧ 0 ≤ b32.rnd (a i ^ 2) ∧
      |b32.rnd (a i ^ 2) - a i ^ 2| ≤ a i ^ 2 * (1 / 2 ^ 24) + 1 / 2 ^ 150 := by
    intro i
    have h3 := F32.err (a i ^ 2)
    rw [abs_of_nonneg (hsq i)] at h3
    refine ⟨?_, Fmt.rnd_nonneg (hsq i), h3⟩
    have := (hv i).mul (hv i) (F32.noOvf (by
      rw [← sq, abs_of_nonneg (hsq i)]; exact (hle i).trans (hS.trans (by norm_num))))
    rw [← sq] at this
    exact this
  have hadd : ∀ {p s : F32} {c d : ℚ}, p.Is c → s.Is d → 0 ≤ c → 0 ≤ d → c + d ≤ 2 ^ 126 →
      (Scalar.add p s).Is (b32.rnd (c + d)) ∧ 0 ≤ b32.rnd (c + d) ∧
        |b32.rnd (c + d) - (c + d)| ≤ (c + d) * (1 / 2 ^ 24) + 1 / 2 ^ 150 := by
    intro p s c d hp hs hc hd hle
    have h0 : 0 ≤ c + d := by linarith
    have h3 := F32.err (c + d)
    rw [abs_of_nonneg h0] at h3
    exact ⟨hp.add hs (F32.noOvf (by rw [abs_of_nonneg h0]; exact hle.trans (by norm_num))), Fmt.rnd_nonneg h0, h3⟩
  have hz : (Scalar.lit 0 : F32).Is 0 := F32.zero_is
  rcases hD with rfl | rfl
  · obtain ⟨i0, n0, u0⟩ := hm 0
    obtain ⟨i1, n1, u1⟩ := hm 1
    have s0 := hsq 0
    have s1 := hsq 1
    rw [Fin.sum_univ_two] at hS ⊢
    rw [abs_le] at u0 u1
    norm_num at hS u0 u1
    obtain ⟨j1, k1, k2⟩ := hadd i0 i1 n0 n1 (by norm_num; linarith)
    rw [abs_le] at k2
    norm_num at k2
    obtain ⟨l1, l2, l3⟩ := hadd hz j1 le_rfl k1 (by norm_num; linarith)
    rw [abs_le] at l3
    norm_num at l3
    refine ⟨_, l1, ?_⟩
    rw [abs_le]
    norm_num
    constructor <;> linarith
  · obtain ⟨i0, n0, u0⟩ := hm 0
    obtain ⟨i1, n1, u1⟩ := hm 1
    obtain ⟨i2, n2, u2⟩ := hm 2
    have s0 := hsq 0
    have s1 := hsq 1
    have s2 := hsq 2
    rw [Fin.sum_univ_three] at hS ⊢
    rw [abs_le] at u0 u1 u2
    norm_num at hS u0 u1 u2
    obtain ⟨j1, k1, k2⟩ := hadd i0 i1 n0 n1 (by norm_num; linarith)
    rw [abs_le] at k2
    norm_num at k2
    obtain ⟨j2, k3, k4⟩ := hadd j1 i2 k1 n2 (by norm_num; linarith)
    rw [abs_le] at k4
    norm_num at k4
    obtain ⟨l1, l2, l3⟩ := hadd hz j2 le_rfl k3 (by norm_num; linarith)
    rw [abs_le] at l3
    norm_num at l3
    refine ⟨_, l1, ?_⟩
    rw [abs_le]
    norm_num
    constructor <;> linarith

end Verif
