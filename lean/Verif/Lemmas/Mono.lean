import Verif.Lemmas.F32

/-!
# Monotone float operations
-/

namespace Verif
open Spec

namespace Fp
variable {f : Fmt} {x y o r : Fp f} {c : ℚ}

lemma sgn_of_pos (hr : r.Is c) (hc : 0 < c) : r.sgn = false := by
  obtain ⟨nz, h, hz, rfl⟩ := hr
  have : nz = false := by
    rw [Bool.eq_false_iff]; intro h'; rw [hz h'] at hc; exact lt_irrefl _ hc
  simp [sgn, this, hc.le]

lemma FLe_ofRat {a b : Bool} {p q : ℚ} (h : p ≤ q) : FLe (ofRat a p : Fp f) (ofRat b q) :=
  ⟨notNaN_ofRat, notNaN_ofRat, ofRat_mono h⟩

lemma FLe_neg_inf (hy : y.isNaN = false) : FLe (.inf true : Fp f) y :=
  ⟨rfl, hy, by simp [key]⟩

lemma FLe_pos_inf (hx : x.isNaN = false) : FLe x (.inf false : Fp f) := by
  refine ⟨hx, rfl, ?_⟩
  rcases x with _ | (_ | _) | _ <;> simp [key, isNaN] at hx ⊢

/-- The order on values, by cases. -/
lemma FLe_cases (h : FLe x y) :
    (∃ p q, x.Is p ∧ y.Is q ∧ p ≤ q) ∨ (x = .inf true ∧ y.isNaN = false) ∨
      (y = .inf false ∧ x.isNaN = false) := by
  obtain ⟨h1, h2, h3⟩ := h
  rcases x with _ | (_ | _) | ⟨p, _, _, _⟩ <;> rcases y with _ | (_ | _) | ⟨q, _, _, _⟩ <;>
    simp_all [key, isNaN]
  exact ⟨p, ⟨_, _, _, rfl⟩, q, ⟨_, _, _, rfl⟩, h3⟩

lemma add_mono_right (ho : o.Is c) (h : FLe x y) : FLe (x.add o) (y.add o) := by
  obtain ⟨nz, ho1, ho2, rfl⟩ := ho
  rcases FLe_cases h with ⟨p, q, ⟨_, _, _, rfl⟩, ⟨_, _, _, rfl⟩, hpq⟩ | ⟨rfl, hy⟩ | ⟨rfl, hx⟩
  · exact FLe_ofRat (by linarith)
  · apply FLe_neg_inf
    rcases y with _ | (_ | _) | _ <;> simp_all [add, isNaN]
    exact notNaN_ofRat
  · apply FLe_pos_inf
    rcases x with _ | (_ | _) | _ <;> simp_all [add, isNaN]
    exact notNaN_ofRat

lemma sub_mono (ho : o.Is c) (h : FLe x y) : FLe (x.sub o) (y.sub o) := add_mono_right ho.neg h

lemma div_mono (hr : r.Is c) (hc : 0 < c) (h : FLe x y) : FLe (x.div r) (y.div r) := by
  have hs := sgn_of_pos hr hc
  obtain ⟨nz, hr1, hr2, rfl⟩ := hr
  have hc' : ¬ c = 0 := hc.ne'
  rcases FLe_cases h with ⟨p, q, ⟨_, _, _, rfl⟩, ⟨_, _, _, rfl⟩, hpq⟩ | ⟨rfl, hy⟩ | ⟨rfl, hx⟩
  · simp only [div, if_neg hc']
    exact FLe_ofRat (by gcongr)
  · simp only [div, hs, Bool.xor_false]
    apply FLe_neg_inf
    rcases y with _ | (_ | _) | _ <;> simp_all [isNaN]
    exact notNaN_ofRat
  · simp only [div, hs, Bool.xor_false]
    apply FLe_pos_inf
    rcases x with _ | (_ | _) | _ <;> simp_all [isNaN]
    exact notNaN_ofRat

lemma mul_mono (hr : r.Is c) (hc : 0 < c) (h : FLe x y) : FLe (x.mul r) (y.mul r) := by
  have hs := sgn_of_pos hr hc
  obtain ⟨nz, hr1, hr2, rfl⟩ := hr
  have hc' : ¬ c = 0 := hc.ne'
  rcases FLe_cases h with ⟨p, q, ⟨_, _, _, rfl⟩, ⟨_, _, _, rfl⟩, hpq⟩ | ⟨rfl, hy⟩ | ⟨rfl, hx⟩
  · simp only [mul]
    exact FLe_ofRat (by gcongr)
  · simp only [mul, if_neg hc', hs, Bool.xor_false]
    apply FLe_neg_inf
    rcases y with _ | (_ | _) | _ <;> simp_all [isNaN]
    exact notNaN_ofRat
  · simp only [mul, if_neg hc', hs, Bool.xor_false]
    apply FLe_pos_inf
    rcases x with _ | (_ | _) | _ <;> simp_all [isNaN]
    exact notNaN_ofRat

lemma toIntegral_notNaN {i : ℚ → ℤ} (hx : x.isNaN = false) : (x.toIntegral i).isNaN = false := by
  rcases x with _ | (_ | _) | _ <;> simp_all [toIntegral, isNaN]
  exact notNaN_ofRat

lemma toIntegral_mono {i : ℚ → ℤ} (hi : ∀ a b, a ≤ b → i a ≤ i b) (h : FLe x y) :
    FLe (x.toIntegral i) (y.toIntegral i) := by
  rcases FLe_cases h with ⟨p, q, ⟨_, _, _, rfl⟩, ⟨_, _, _, rfl⟩, hpq⟩ | ⟨rfl, hy⟩ | ⟨rfl, hx⟩
  · exact FLe_ofRat (by exact_mod_cast hi _ _ hpq)
  · exact FLe_neg_inf (toIntegral_notNaN hy)
  · exact FLe_pos_inf (toIntegral_notNaN hx)

lemma round_mono (h : FLe x y) : FLe x.round y.round :=
  toIntegral_mono (fun _ _ h => roundAway_mono h) h

lemma truncQ_mono {a b : ℚ} (h : a ≤ b) : truncQ a ≤ truncQ b := by
  unfold truncQ
  split_ifs with h1 h2 h2
  · exact Int.floor_le_floor h
  · linarith
  · have e1 : ⌈a⌉ ≤ 0 := Int.ceil_le.mpr (by push_cast; linarith)
    have e2 : 0 ≤ ⌊b⌋ := Int.floor_nonneg.mpr h2
    omega
  · exact Int.ceil_le_ceil h

lemma toInt_bounds (x : Fp f) : isizeMin ≤ x.toInt ∧ x.toInt ≤ isizeMax := by
  have h : isizeMin ≤ 0 ∧ 0 ≤ isizeMax ∧ isizeMin ≤ isizeMax := by decide
  rcases x with _ | (_ | _) | _
  · exact ⟨h.1, h.2.1⟩
  · exact ⟨h.2.2, le_rfl⟩
  · exact ⟨le_rfl, h.2.2⟩
  · simp only [toInt, clampIsize]
    exact ⟨_root_.le_max_left _ _, _root_.max_le h.2.2 (_root_.min_le_left _ _)⟩

lemma toInt_mono (h : FLe x y) : x.toInt ≤ y.toInt := by
  rcases FLe_cases h with ⟨p, q, hx, hy, hpq⟩ | ⟨rfl, hy⟩ | ⟨rfl, hx⟩
  · rw [hx.toInt, hy.toInt]
    unfold clampIsize
    exact max_le_max le_rfl (min_le_min le_rfl (truncQ_mono hpq))
  · exact (toInt_bounds y).1
  · exact (toInt_bounds x).2

end Fp
end Verif
