import Verif.Lemmas.Mono
import Verif.Spec.Range

/-!
# Error analysis of the conversions between cells and points
-/

namespace Verif
open Spec

namespace F32

/-- Error of one rounding, in units of the resolution. -/
lemma err_res {q ρ N : ℚ} (hρ : 1 / 2 ^ 100 ≤ ρ) (h : |q| ≤ N * ρ) :
    |b32.rnd q - q| ≤ (N / 2 ^ 24 + 1 / 2 ^ 50) * ρ := by
  have h1 := err q
  have h2 : (1 / 2 ^ 150 : ℚ) ≤ 1 / 2 ^ 50 * ρ := by
    norm_num at hρ ⊢; linarith
  norm_num at h1 h2 ⊢
  nlinarith

lemma noOvf_res {q ρ N : ℚ} (hp : 0 < ρ) (hρ : ρ ≤ 2 ^ 100) (hN : N ≤ 2 ^ 27) (_hN0 : 0 ≤ N) (h : |q| ≤ N * ρ) :
    |b32.rnd q| < 2 ^ b32.emax := by
  apply noOvf
  calc |q| ≤ N * ρ := h
    _ ≤ 2 ^ 27 * 2 ^ 100 := by gcongr
    _ = 2 ^ 127 := by norm_num

end F32

section
variable {o r p : F32} {q ρ : ℚ}

/-- The point of a cell, as a rational. -/
def cellPoint (c : ℤ) (q ρ : ℚ) : ℚ := b32.rnd (b32.rnd (c * ρ) + q)

lemma pointCoord_is {c : ℤ} {N : ℚ} (hr : Res r ρ) (ho : o.Is q) (hc : |(c : ℚ)| ≤ N)
    (hq : |q| ≤ N * ρ) (hN : N ≤ 2 ^ 23) (hN1 : 1 ≤ N) :
    (pointCoordFromCellCoord c o r).Is (cellPoint c q ρ) ∧
      |cellPoint c q ρ - (c * ρ + q)| ≤ ((3 * N + 2) / 2 ^ 24) * ρ := by
  obtain ⟨hr0, hr1, hr2⟩ := hr
  have hpos : 0 < ρ := lt_of_lt_of_le (by norm_num) hr1
  have hci : (Scalar.ofInt c : F32).Is c := by
    apply Fp.is_ofInt
    have : |(c : ℚ)| ≤ 2 ^ 24 := by linarith
    exact_mod_cast this
  have a1 : |(c : ℚ) * ρ| ≤ N * ρ := by
    rw [abs_mul, abs_of_pos hpos]; gcongr
  have e1 := F32.err_res hr1 a1
  have i1 := hci.mul hr0 (F32.noOvf_res hpos hr2 (by linarith) (by linarith) a1)
  have a2 : |b32.rnd (c * ρ) + q| ≤ (2 * N + 1) * ρ := by
    have t1 := abs_add_le (b32.rnd (c * ρ)) q
    have t2 := abs_sub_abs_le_abs_sub (b32.rnd (c * ρ)) (c * ρ)
    have t3 : (N / 2 ^ 24 + 1 / 2 ^ 50) * ρ ≤ 1 * ρ := by
      gcongr; norm_num at hN ⊢; linarith
    linarith
  have e2 := F32.err_res hr1 a2
  have i2 := i1.add ho (F32.noOvf_res hpos hr2 (by norm_num at hN ⊢; linarith) (by linarith) a2)
  refine ⟨i2, ?_⟩
  have t1 := abs_sub_le (cellPoint c q ρ) (b32.rnd (c * ρ) + q) (c * ρ + q)
  have t2 : b32.rnd (c * ρ) + q - (c * ρ + q) = b32.rnd (c * ρ) - c * ρ := by ring
  rw [t2] at t1
  have t3 : ((2 * N + 1) / 2 ^ 24 + 1 / 2 ^ 50) * ρ + (N / 2 ^ 24 + 1 / 2 ^ 50) * ρ
      ≤ ((3 * N + 2) / 2 ^ 24) * ρ := by
    rw [← add_mul]
    gcongr
    norm_num
    linarith
  unfold cellPoint at t1 ⊢
  linarith

/-- The cell of a point: the nearest integer of a number close to the exact quotient. -/
lemma cellCoord_is {x M : ℚ} (hr : Res r ρ) (ho : o.Is q) (hp : p.Is x) (hx : |x - q| ≤ M * ρ)
    (hM : M ≤ 2 ^ 23) (hM1 : 1 ≤ M) :
    ∃ d : ℚ, cellCoordFromPointCoord p o r = roundAway d ∧ |d - (x - q) / ρ| ≤ (2 * M + 2) / 2 ^ 24 := by
  have hpos := hr.pos
  obtain ⟨hr0, hr1, hr2⟩ := hr
  have e1 := F32.err_res hr1 hx
  have i1 := hp.sub ho (F32.noOvf_res hpos hr2 (by norm_num at hM ⊢; linarith) (by linarith) hx)
  have b1 : |b32.rnd (x - q) / ρ - (x - q) / ρ| ≤ M / 2 ^ 24 + 1 / 2 ^ 50 := by
    rw [← sub_div, abs_div, abs_of_pos hpos, div_le_iff₀ hpos]; exact e1
  have b0 : |(x - q) / ρ| ≤ M := by
    rw [abs_div, abs_of_pos hpos, div_le_iff₀ hpos]; exact hx
  have b2 : |b32.rnd (x - q) / ρ| ≤ M + 3 / 4 := by
    have := abs_sub_abs_le_abs_sub (b32.rnd (x - q) / ρ) ((x - q) / ρ)
    norm_num at b1 hM ⊢
    linarith
  have e2 := F32.err (b32.rnd (x - q) / ρ)
  have i2 := i1.div hr0 hpos.ne' (F32.noOvf (by norm_num at b2 hM ⊢; linarith))
  refine ⟨b32.rnd (b32.rnd (x - q) / ρ), ?_, ?_⟩
  · have h := i2.round_toInt
    have h3 := Fp.roundAway_err (b32.rnd (b32.rnd (x - q) / ρ))
    have h4 := abs_sub_abs_le_abs_sub (roundAway (b32.rnd (b32.rnd (x - q) / ρ)) : ℚ)
      (b32.rnd (b32.rnd (x - q) / ρ))
    have h5 := abs_sub_abs_le_abs_sub (b32.rnd (b32.rnd (x - q) / ρ)) (b32.rnd (x - q) / ρ)
    have h6 : |(roundAway (b32.rnd (b32.rnd (x - q) / ρ)) : ℚ)| ≤ 2 ^ 24 := by
      norm_num at e2 b2 hM h3 ⊢
      linarith
    have h7 : |roundAway (b32.rnd (b32.rnd (x - q) / ρ))| ≤ 2 ^ 24 := by exact_mod_cast h6
    rw [abs_le] at h7
    refine h.trans (Fp.clampIsize_of_mem ?_ ?_)
    · unfold isizeMin; linarith [h7.1]
    · unfold isizeMax; linarith [h7.2]
  · have t1 := abs_sub_le (b32.rnd (b32.rnd (x - q) / ρ)) (b32.rnd (x - q) / ρ) ((x - q) / ρ)
    norm_num at b1 b2 e2 ⊢
    linarith

end
end Verif
