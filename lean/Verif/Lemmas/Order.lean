import Verif.Spec.Boxes

/-!
# Order on floats, `min`, `max`
-/

namespace Verif
open Spec

variable {f : Fmt} {x y z : Fp f}

namespace Fp

lemma le_iff_FLe : x.le y = true ↔ FLe x y := le_iff

lemma FLe_refl (hx : x.isNaN = false) : FLe x x := ⟨hx, hx, le_rfl⟩

lemma FLe_trans (h1 : FLe x y) (h2 : FLe y z) : FLe x z := ⟨h1.1, h2.2.1, h1.2.2.trans h2.2.2⟩

lemma FLe_total (hx : x.isNaN = false) (hy : y.isNaN = false) : FLe x y ∨ FLe y x := by
  rcases le_total x.key y.key with h | h
  · exact .inl ⟨hx, hy, h⟩
  · exact .inr ⟨hy, hx, h⟩

lemma FLe_of_lt (h : x.lt y = true) : FLe x y := by
  obtain ⟨h1, h2, h3⟩ := lt_iff.mp h
  exact ⟨h1, h2, h3.le⟩

lemma FLe_of_not_lt (hx : x.isNaN = false) (hy : y.isNaN = false) (h : ¬ y.lt x = true) :
    FLe x y := by
  rw [lt_iff_key hy hx, not_lt] at h
  exact ⟨hx, hy, h⟩

lemma not_lt_of_FLe (h : FLe x y) : y.lt x = false := by
  rw [Bool.eq_false_iff, ne_eq, lt_iff_key h.2.1 h.1, not_lt]
  exact h.2.2

lemma FLe_is {q r : ℚ} (hx : x.Is q) (hy : y.Is r) : FLe x y ↔ q ≤ r := by
  unfold FLe
  rw [key_is hx, key_is hy]
  simp only [notNaN_is hx, notNaN_is hy, true_and]
  norm_cast

lemma min_notNaN (hx : x.isNaN = false) (hy : y.isNaN = false) : (x.min y).isNaN = false := by
  unfold min; rw [hx, hy]; simp only [Bool.false_eq_true, if_false]; split_ifs <;> assumption

lemma max_notNaN (hx : x.isNaN = false) (hy : y.isNaN = false) : (x.max y).isNaN = false := by
  unfold max; rw [hx, hy]; simp only [Bool.false_eq_true, if_false]; split_ifs <;> assumption

lemma min_key (hx : x.isNaN = false) (hy : y.isNaN = false) :
    (x.min y).key = Min.min x.key y.key := by
  unfold min; rw [hx, hy]; simp only [Bool.false_eq_true, if_false]
  split_ifs with h
  · rw [lt_iff_key hy hx] at h; rw [min_eq_right h.le]
  · rw [lt_iff_key hy hx, not_lt] at h; rw [min_eq_left h]

lemma max_key (hx : x.isNaN = false) (hy : y.isNaN = false) :
    (x.max y).key = Max.max x.key y.key := by
  unfold max; rw [hx, hy]; simp only [Bool.false_eq_true, if_false]
  split_ifs with h
  · rw [lt_iff_key hx hy] at h; rw [max_eq_right h.le]
  · rw [lt_iff_key hx hy, not_lt] at h; rw [max_eq_left h]

lemma min_nan_left (hx : x.isNaN = true) : x.min y = y := by unfold min; rw [hx]; rfl
lemma max_nan_left (hx : x.isNaN = true) : x.max y = y := by unfold max; rw [hx]; rfl
lemma min_nan_right (hx : x.isNaN = false) (hy : y.isNaN = true) : x.min y = x := by
  unfold min; rw [hx, hy]; rfl
lemma max_nan_right (hx : x.isNaN = false) (hy : y.isNaN = true) : x.max y = x := by
  unfold max; rw [hx, hy]; rfl

lemma le_min (h1 : FLe z x) (h2 : FLe z y) : FLe z (x.min y) :=
  ⟨h1.1, min_notNaN h1.2.1 h2.2.1, by rw [min_key h1.2.1 h2.2.1]; exact _root_.le_min h1.2.2 h2.2.2⟩

lemma max_le (h1 : FLe x z) (h2 : FLe y z) : FLe (x.max y) z :=
  ⟨max_notNaN h1.1 h2.1, h1.2.1, by rw [max_key h1.1 h2.1]; exact _root_.max_le h1.2.2 h2.2.2⟩

lemma min_le_left (hx : x.isNaN = false) (hy : y.isNaN = false) : FLe (x.min y) x :=
  ⟨min_notNaN hx hy, hx, by rw [min_key hx hy]; exact _root_.min_le_left _ _⟩

lemma min_le_right (hx : x.isNaN = false) (hy : y.isNaN = false) : FLe (x.min y) y :=
  ⟨min_notNaN hx hy, hy, by rw [min_key hx hy]; exact _root_.min_le_right _ _⟩

lemma le_max_left (hx : x.isNaN = false) (hy : y.isNaN = false) : FLe x (x.max y) :=
  ⟨hx, max_notNaN hx hy, by rw [max_key hx hy]; exact _root_.le_max_left _ _⟩

lemma le_max_right (hx : x.isNaN = false) (hy : y.isNaN = false) : FLe y (x.max y) :=
  ⟨hy, max_notNaN hx hy, by rw [max_key hx hy]; exact _root_.le_max_right _ _⟩

lemma notNaN_of_isFin (h : x.isFin = true) : x.isNaN = false := by
  cases x <;> simp_all [isFin, isNaN]

lemma notInf_is {q : ℚ} (h : x.Is q) : x.isInf = false := by
  obtain ⟨_, _, _, rfl⟩ := h; rfl

/-- Values with finite keys are finite. -/
lemma is_of_key {q : ℚ} (hx : x.isNaN = false)
    (h : x.key = ((q : WithTop ℚ) : WithBot (WithTop ℚ))) : x.Is q := by
  rcases x with _ | (_ | _) | ⟨r, nz, h1, h2⟩
  · simp [isNaN] at hx
  · exact absurd (WithBot.coe_injective h) (by simp)
  · simp [key] at h
  · have : r = q := by simpa [key] using h
    subst this; exact ⟨_, _, _, rfl⟩

/-- Values with the same key differ at most in the sign of zero. -/
lemma abs_congr (hx : x.isNaN = false) (hy : y.isNaN = false) (h : x.key = y.key) :
    x.abs = y.abs := by
  rcases x with _ | (_ | _) | _ <;> rcases y with _ | (_ | _) | _ <;>
    simp_all [key, isNaN, abs]

lemma isInf_congr (hx : x.isNaN = false) (hy : y.isNaN = false) (h : x.key = y.key) :
    x.isInf = y.isInf := by
  rcases x with _ | (_ | _) | _ <;> rcases y with _ | (_ | _) | _ <;>
    simp_all [key, isNaN, isInf]

lemma abs_ofRat (a b : Bool) (q : ℚ) : (ofRat a q : Fp f).abs = (ofRat b q : Fp f).abs := by
  unfold ofRat; split_ifs <;> rfl

lemma abs_sub_congr {x' y' : Fp f} (hx : x.isNaN = false) (hy : y.isNaN = false)
    (hx' : x'.isNaN = false) (hy' : y'.isNaN = false) (h : x.key = x'.key) (h' : y.key = y'.key) :
    (x.sub y).abs = (x'.sub y').abs := by
  rcases x with _ | (_ | _) | _ <;> rcases x' with _ | (_ | _) | _ <;>
  rcases y with _ | (_ | _) | _ <;> rcases y' with _ | (_ | _) | _ <;>
    simp_all [key, isNaN, sub, add, neg]
  exact abs_ofRat _ _ _

end Fp

instance : Decidable (FLe x y) := decidable_of_iff _ Fp.le_iff_FLe

instance (x : Fp f) (q : ℚ) : Decidable (x.Is q) :=
  match x with
  | .nan => .isFalse (by rintro ⟨_, _, _, h⟩; cases h)
  | .inf _ => .isFalse (by rintro ⟨_, _, _, h⟩; cases h)
  | .fin q' nz h hz => if e : q' = q then .isTrue (by subst e; exact ⟨nz, h, hz, rfl⟩)
      else .isFalse (by rintro ⟨_, _, _, h⟩; injection h with h; exact e h)

instance {D : ℕ} (p : Point D (Fp f)) : Decidable (NoNaN p) := by unfold NoNaN; infer_instance
instance {D : ℕ} (b : Bounds D (Fp f)) : Decidable (Ordered b) := by unfold Ordered; infer_instance
instance {D : ℕ} (a b : Bounds D (Fp f)) : Decidable (Spec.Sub a b) := by unfold Spec.Sub; infer_instance
instance {D : ℕ} (p : Point D (Fp f)) (b : Bounds D (Fp f)) : Decidable (InBox p b) := by
  unfold InBox; infer_instance

/-- `relative_eq!` does not see the sign of zero. -/
lemma relativeEq_congr {x' y' : Fp f} (hx : x.isNaN = false) (hy : y.isNaN = false)
    (hx' : x'.isNaN = false) (hy' : y'.isNaN = false) (h : x.key = x'.key) (h' : y.key = y'.key) :
    relativeEq x y = relativeEq x' y' := by
  unfold relativeEq
  have e1 : Scalar.eq x y = Scalar.eq x' y' := by
    rw [Bool.eq_iff_iff]
    change x.eq y = true ↔ x'.eq y' = true
    rw [Fp.eq_iff_key hx hy, Fp.eq_iff_key hx' hy', h, h']
  have e2 : Scalar.isInf x = Scalar.isInf x' := Fp.isInf_congr hx hx' h
  have e3 : Scalar.isInf y = Scalar.isInf y' := Fp.isInf_congr hy hy' h'
  have e4 : Scalar.abs (Scalar.sub x y) = Scalar.abs (Scalar.sub x' y') :=
    Fp.abs_sub_congr hx hy hx' hy' h h'
  have e5 : Scalar.abs x = Scalar.abs x' := Fp.abs_congr hx hx' h
  have e6 : Scalar.abs y = Scalar.abs y' := Fp.abs_congr hy hy' h'
  simp only [e1, e2, e3, e4, e5, e6]

/-- `relative_eq!` is symmetric on NaN-free values. -/
lemma relativeEq_comm (hx : x.isNaN = false) (hy : y.isNaN = false) :
    relativeEq x y = relativeEq y x := by
  unfold relativeEq
  have e1 : Scalar.eq x y = Scalar.eq y x := by
    rw [Bool.eq_iff_iff]
    change x.eq y = true ↔ y.eq x = true
    rw [Fp.eq_iff_key hx hy, Fp.eq_iff_key hy hx, eq_comm]
  have e2 : Scalar.abs (Scalar.sub x y) = Scalar.abs (Scalar.sub y x) := by
    rcases x with _ | (_ | _) | ⟨q, _, _, _⟩ <;> rcases y with _ | (_ | _) | ⟨r, _, _, _⟩ <;>
      simp_all [Fp.isNaN, Scalar.sub, Fp.sub, Fp.add, Fp.neg, Scalar.abs, Fp.abs]
    have hr : q + -r = -(r + -q) := by ring
    rw [hr]
    unfold Fp.ofRat
    simp only [Fmt.rnd_neg, abs_neg]
    split_ifs <;> simp
  have e3 : (if Scalar.lt (Scalar.abs x) (Scalar.abs y) = true then Scalar.abs y
      else Scalar.abs x) = (if Scalar.lt (Scalar.abs y) (Scalar.abs x) = true then Scalar.abs x
      else Scalar.abs y) := by
    rcases x with _ | (_ | _) | ⟨q, _, _, _⟩ <;> rcases y with _ | (_ | _) | ⟨r, _, _, _⟩ <;>
      simp_all [Fp.isNaN, Scalar.lt, Fp.lt, Scalar.abs, Fp.abs]
    rcases lt_trichotomy |q| |r| with h | h | h
    · rw [if_pos h, if_neg (by linarith)]
    · rw [if_neg (by linarith), if_neg (by linarith)]; simp [h]
    · rw [if_neg (by linarith), if_pos h]
  simp only [e1, e2, e3, Bool.or_comm]

end Verif
