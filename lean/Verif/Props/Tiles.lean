import Verif.Spec.Boxes
import Mathlib.Tactic.Linarith
import Mathlib.Data.Fin.VecNotation

/-!
# C06, C07: rounding cell bounds to tiles
-/

namespace Verif.Props
open Verif Spec

lemma isizeOfUsize_small {t : ℕ} (h : t < 2 ^ 63) : isizeOfUsize t = t := by
  unfold isizeOfUsize; rw [if_pos h]

lemma irem_pos {c : ℤ} {t : ℕ} (h0 : 0 < t) : irem c t = .ok (c.tmod t) := by
  unfold irem
  rw [if_neg (by omega), if_neg (by omega)]

lemma abs_tmod {c : ℤ} {t : ℕ} :
    |c.tmod t| = if 0 ≤ c then c % t else (-c) % t := by
  split_ifs with h
  · rw [Int.tmod_eq_emod_of_nonneg h]
    rcases Nat.eq_zero_or_pos t with rfl | ht
    · simpa using h
    · exact abs_of_nonneg (Int.emod_nonneg _ (by omega))
  · have : c.tmod t = -((-c).tmod t) := by simp
    rw [this, abs_neg, Int.tmod_eq_emod_of_nonneg (by omega)]
    rcases Nat.eq_zero_or_pos t with rfl | ht
    · simp; omega
    · exact abs_of_nonneg (Int.emod_nonneg _ (by omega))

lemma tileMin_eq {t : ℕ} {c : ℤ} (h0 : 0 < t) (h1 : t < 2 ^ 63) (hc : InIsize c) :
    CellBounds.tileMin t c = isz (t * (c / t)) := by
  have ht : (0 : ℤ) < t := by exact_mod_cast h0
  have ht1 : (t : ℤ) < 2 ^ 63 := by exact_mod_cast h1
  have hb : (2 : ℤ) ^ 63 = 9223372036854775808 := by norm_num
  have hmm : isizeMax = 9223372036854775807 ∧ isizeMin = -9223372036854775808 := by decide
  have hda := Int.mul_ediv_add_emod c t
  have hnn := Int.emod_nonneg c ht.ne'
  have hlt := Int.emod_lt_of_pos c ht
  have hn2 := Int.emod_nonneg (-c) ht.ne'
  have hl2 := Int.emod_lt_of_pos (-c) ht
  unfold CellBounds.tileMin
  rw [isizeOfUsize_small h1, irem_pos h0]
  simp only [M.bind_ok]
  rw [abs_tmod]
  generalize hq : c / (t : ℤ) = q at *
  by_cases h : 0 ≤ c
  · rw [if_pos h]
    generalize hm : c % (t : ℤ) = m at *
    have : isz m = .ok m := isz_ok.mpr ⟨rfl, by unfold InIsize; omega⟩
    rw [this]
    simp only [M.bind_ok]
    split_ifs with h2 h3
    · subst h2
      have : (t : ℤ) * q = c := by omega
      rw [this, isz_ok.mpr ⟨rfl, hc⟩]
    · omega
    · have : c - m = t * q := by omega
      rw [this]
  · rw [if_neg h]
    have hneg : (-c) % (t : ℤ) = if c % (t : ℤ) = 0 then 0 else t - c % t := by
      split_ifs with hz
      · exact Int.emod_eq_zero_of_dvd (Int.dvd_neg.mpr (Int.dvd_of_emod_eq_zero hz))
      · have : (-c) = (t - c % t) + t * (-q - 1) := by rw [mul_sub, mul_neg]; omega
        rw [this, Int.add_mul_emod_self_left, Int.emod_eq_of_lt] <;> omega
    generalize (-c) % (t : ℤ) = n at *
    generalize hm : c % (t : ℤ) = m at *
    have : isz n = .ok n := isz_ok.mpr ⟨rfl, by unfold InIsize; omega⟩
    rw [this]
    simp only [M.bind_ok]
    split_ifs with h2 h3
    · split_ifs at hneg with hz
      · have : (t : ℤ) * q = c := by omega
        rw [this, isz_ok.mpr ⟨rfl, hc⟩]
      · omega
    · split_ifs at hneg with hz
      · omega
      have : isz (t - n) = .ok (t - n) := isz_ok.mpr ⟨rfl, by unfold InIsize; omega⟩
      rw [this]
      simp only [M.bind_ok]
      congr 1; omega
    · omega

lemma tileMax_eq {t : ℕ} {c : ℤ} (h0 : 0 < t) (h1 : t < 2 ^ 63) (hc : InIsize c) :
    CellBounds.tileMax t c = isz (-(t * ((-c) / t))) := by
  have ht : (0 : ℤ) < t := by exact_mod_cast h0
  have ht1 : (t : ℤ) < 2 ^ 63 := by exact_mod_cast h1
  have hb : (2 : ℤ) ^ 63 = 9223372036854775808 := by norm_num
  have hmm : isizeMax = 9223372036854775807 ∧ isizeMin = -9223372036854775808 := by decide
  have hda := Int.mul_ediv_add_emod (-c) t
  have hnn := Int.emod_nonneg c ht.ne'
  have hlt := Int.emod_lt_of_pos c ht
  have hn2 := Int.emod_nonneg (-c) ht.ne'
  have hl2 := Int.emod_lt_of_pos (-c) ht
  have hneg : c % (t : ℤ) = if (-c) % (t : ℤ) = 0 then 0 else t - (-c) % t := by
    split_ifs with hz
    · exact Int.emod_eq_zero_of_dvd (Int.dvd_neg.mp (Int.dvd_of_emod_eq_zero hz))
    · have : c = (t - (-c) % t) + t * (-((-c) / t) - 1) := by rw [mul_sub, mul_neg]; omega
      rw [this, Int.add_mul_emod_self_left, ← this, Int.emod_eq_of_lt] <;> omega
  unfold CellBounds.tileMax
  rw [isizeOfUsize_small h1, irem_pos h0]
  simp only [M.bind_ok]
  rw [abs_tmod]
  generalize hq : (-c) / (t : ℤ) = q at *
  generalize (-c) % (t : ℤ) = n at *
  generalize hm : c % (t : ℤ) = m at *
  by_cases h : 0 ≤ c
  · rw [if_pos h]
    have : isz m = .ok m := isz_ok.mpr ⟨rfl, by unfold InIsize; omega⟩
    rw [this]
    simp only [M.bind_ok]
    split_ifs with h2 h3
    · split_ifs at hneg with hz
      · have : -((t : ℤ) * q) = c := by omega
        rw [this, isz_ok.mpr ⟨rfl, hc⟩]
      · omega
    · omega
    · split_ifs at hneg with hz
      · omega
      have : isz (t - m) = .ok (t - m) := isz_ok.mpr ⟨rfl, by unfold InIsize; omega⟩
      rw [this]
      simp only [M.bind_ok]
      congr 1; omega
  · rw [if_neg h]
    have : isz n = .ok n := isz_ok.mpr ⟨rfl, by unfold InIsize; omega⟩
    rw [this]
    simp only [M.bind_ok]
    split_ifs with h2 h3
    · have : -((t : ℤ) * q) = c := by omega
      rw [this, isz_ok.mpr ⟨rfl, hc⟩]
    · congr 1; omega
    · omega

lemma discretized_ok {D : ℕ} {cb r : CellBounds D} {t : ℕ} (h0 : 0 < t) (h1 : t < 2 ^ 63)
    (hc : Machine cb) : cb.discretized t = .ok r ↔
      ∀ i, (r.min i = t * (cb.min i / t) ∧ InIsize (r.min i)) ∧
        (r.max i = -(t * ((-cb.max i) / t)) ∧ InIsize (r.max i)) := by
  unfold CellBounds.discretized
  simp only [M.bind_eq_ok, seqFin_ok]
  constructor
  · rintro ⟨mn, hmn, mx, hmx, h⟩ i
    cases h
    obtain ⟨a, a'⟩ := isz_ok.mp ((tileMin_eq h0 h1 (hc i).1).symm.trans (hmn i))
    obtain ⟨b, b'⟩ := isz_ok.mp ((tileMax_eq h0 h1 (hc i).2).symm.trans (hmx i))
    rw [a] at a'
    rw [b] at b'
    exact ⟨⟨a.symm, a'⟩, b.symm, b'⟩
  · intro h
    refine ⟨r.min, fun i => ?_, r.max, fun i => ?_, rfl⟩
    · rw [tileMin_eq h0 h1 (hc i).1, isz_ok]
      exact ⟨(h i).1.1.symm, (h i).1.1 ▸ (h i).1.2⟩
    · rw [tileMax_eq h0 h1 (hc i).2, isz_ok]
      exact ⟨(h i).2.1.symm, (h i).2.1 ▸ (h i).2.2⟩

lemma floor_tile_le {t : ℕ} (h0 : 0 < t) (c : ℤ) : t * (c / t) ≤ c :=
  Int.mul_ediv_self_le (by omega)

lemma le_floor_tile {t : ℕ} (h0 : 0 < t) {c m : ℤ} (hm : (t : ℤ) ∣ m) (h : m ≤ c) :
    m ≤ t * (c / t) := by
  obtain ⟨k, rfl⟩ := hm
  have ht : (0 : ℤ) < t := by exact_mod_cast h0
  exact mul_le_mul_of_nonneg_left ((Int.le_ediv_iff_mul_le ht).mpr (by linarith [mul_comm k (t:ℤ)])) ht.le

/-- **C06.** Whenever `CellBounds::discretized` returns, the result contains the original bounds, its
corners are multiples of the tile size, and it lies inside every such box: it is the least one. -/
theorem C06_discretized_is_least {D : ℕ} {cb r : CellBounds D} {t : ℕ} (ht : 0 < t)
    (ht' : t < 2 ^ 63) (hcb : Machine cb) (h : cb.discretized t = .ok r) :
    CellSub cb r ∧ Aligned t r ∧ ∀ s, Aligned t s → CellSub cb s → CellSub r s := by
  rw [discretized_ok ht ht' hcb] at h
  refine ⟨fun i => ?_, fun i => ?_, fun s hs hsub i => ?_⟩
  · rw [(h i).1.1, (h i).2.1]
    have := floor_tile_le ht (cb.min i)
    have := floor_tile_le ht (-cb.max i)
    omega
  · rw [(h i).1.1, (h i).2.1]
    exact ⟨Int.dvd_mul_right _ _, Int.dvd_neg.mpr (Int.dvd_mul_right _ _)⟩
  · rw [(h i).1.1, (h i).2.1]
    have := le_floor_tile ht (hs i).1 (hsub i).1
    have := le_floor_tile ht (Int.dvd_neg.mpr (hs i).2) (neg_le_neg (hsub i).2)
    omega

/-- **C06.** `CellBounds::discretized` returns exactly if some box with machine-integer corners that
are multiples of the tile size contains the bounds (otherwise it panics with an overflow). -/
theorem C06_discretized_returns_iff {D : ℕ} {cb : CellBounds D} {t : ℕ} (ht : 0 < t)
    (ht' : t < 2 ^ 63) (hcb : Machine cb) :
    (∃ r, cb.discretized t = .ok r) ↔
      ∃ s : CellBounds D, Machine s ∧ Aligned t s ∧ CellSub cb s := by
  constructor
  · rintro ⟨r, h⟩
    obtain ⟨h1, h2, -⟩ := C06_discretized_is_least ht ht' hcb h
    rw [discretized_ok ht ht' hcb] at h
    exact ⟨r, fun i => ⟨(h i).1.2, (h i).2.2⟩, h2, h1⟩
  · rintro ⟨s, hm, ha, hs⟩
    refine ⟨⟨fun i => t * (cb.min i / t), fun i => -(t * ((-cb.max i) / t))⟩, ?_⟩
    rw [discretized_ok ht ht' hcb]
    intro i
    have h1 := le_floor_tile ht (ha i).1 (hs i).1
    have h2 := le_floor_tile ht (Int.dvd_neg.mpr (ha i).2) (neg_le_neg (hs i).2)
    have h3 := floor_tile_le ht (cb.min i)
    have h4 := floor_tile_le ht (-cb.max i)
    have h5 := hm i
    have h6 := hcb i
    simp only [InIsize] at h5 h6
    exact ⟨⟨rfl, by unfold InIsize; dsimp only; omega⟩, rfl, by unfold InIsize; dsimp only; omega⟩

/-- **C07.** Discretizing discretized cell bounds changes nothing. -/
theorem C07_discretized_idempotent {D : ℕ} {cb r : CellBounds D} {t : ℕ} (ht : 0 < t)
    (ht' : t < 2 ^ 63) (hcb : Machine cb) (h : cb.discretized t = .ok r) :
    r.discretized t = .ok r := by
  have hr : Machine r := fun i => by
    rw [discretized_ok ht ht' hcb] at h
    exact ⟨(h i).1.2, (h i).2.2⟩
  obtain ⟨-, ha, -⟩ := C06_discretized_is_least ht ht' hcb h
  rw [discretized_ok ht ht' hr]
  intro i
  refine ⟨⟨(Int.mul_ediv_cancel' (ha i).1).symm, (hr i).1⟩, ?_, (hr i).2⟩
  rw [Int.mul_ediv_cancel' (Int.dvd_neg.mpr (ha i).2), neg_neg]

/-- **C07.** Bounds that are aligned already are returned unchanged. -/
theorem C07_discretized_of_aligned {D : ℕ} {cb : CellBounds D} {t : ℕ} (ht : 0 < t)
    (ht' : t < 2 ^ 63) (hcb : Machine cb) (ha : Aligned t cb) : cb.discretized t = .ok cb := by
  rw [discretized_ok ht ht' hcb]
  intro i
  refine ⟨⟨(Int.mul_ediv_cancel' (ha i).1).symm, (hcb i).1⟩, ?_, (hcb i).2⟩
  rw [Int.mul_ediv_cancel' (Int.dvd_neg.mpr (ha i).2), neg_neg]

/-- **C07.** A tile size of 0 panics (division by zero), whatever the bounds. -/
theorem C07_tile_size_zero_panics {D : ℕ} (cb : CellBounds (D + 1)) :
    cb.discretized 0 = .error (.panic .divByZero) := by
  simp [CellBounds.discretized, seqFin, CellBounds.tileMin, irem, isizeOfUsize]

/-- Concrete bounds with a positive, a negative and a mixed axis meet the hypotheses of the theorems of
this file (the example of the repository's tests). -/
example : let cb : CellBounds 2 := ⟨![-256, -692], ![279, 971]⟩
    Machine cb ∧ cb.discretized 100 = .ok ⟨![-300, -700], ![300, 1000]⟩ := by
  unfold Machine; decide +kernel

/-- The overflow case of `C06_discretized_returns_iff` occurs. -/
example : let cb : CellBounds 1 := ⟨![0], ![isizeMax]⟩
    Machine cb ∧ cb.discretized 100 = .error (.panic .overflow) := by
  unfold Machine; decide +kernel

/-- Why the tile size is required to be below 2^63: beyond, the cast to isize is negative and the
result does not contain the bounds. -/
example : let cb : CellBounds 1 := ⟨![5], ![5]⟩
    cb.discretized (2 ^ 64 - 3) = .ok ⟨![3], ![0]⟩ := by decide +kernel

end Verif.Props
