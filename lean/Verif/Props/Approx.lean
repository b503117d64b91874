import Verif.Model.Approx
import Verif.Lemmas.F32
import Verif.Lemmas.Order
import Verif.Lemmas.Mono

/-!
# C74: approximate equality of bounds
-/

namespace Verif.Props
open Spec

variable {D : ℕ}

/-- The default tolerances give the comparison that `discretized` and `overlapping` use. -/
lemma relativeEqWith_default {F : Type} [Scalar F] (a b : F) :
    relativeEqWith defaultEps defaultEps a b = relativeEq a b := rfl

lemma abs_ofRat_eq {f : Fmt} (zs : Bool) (q : ℚ) : (Fp.ofRat zs q : Fp f).abs = Fp.ofRat false |q| := by
  have h : f.rnd |q| = |f.rnd q| := by
    rcases le_total 0 q with h | h
    · rw [abs_of_nonneg h, abs_of_nonneg (Fmt.rnd_nonneg h)]
    · rw [abs_of_nonpos h, Fmt.rnd_neg, abs_of_nonpos]
      have := Fmt.rnd_nonneg (f := f) (q := -q) (by linarith)
      rw [Fmt.rnd_neg] at this
      linarith
  unfold Fp.ofRat
  simp only [h, abs_abs]
  split_ifs <;> simp [Fp.abs]

lemma absdiff {f : Fmt} {a b : Fp f} {x y : ℚ} (ha : a.Is x) (hb : b.Is y) :
    Scalar.abs (Scalar.sub a b) = (Fp.ofRat false |x - y| : Fp f) := by
  obtain ⟨n, h1, h2, rfl⟩ := ha
  obtain ⟨n', h3, h4, rfl⟩ := hb
  have : ∃ zs, Fp.sub (.fin x n h1 h2 : Fp f) (.fin y n' h3 h4) = Fp.ofRat zs (x - y) :=
    ⟨_, by rw [sub_eq_add_neg]; rfl⟩
  obtain ⟨zs, h⟩ := this
  change (Fp.sub _ _).abs = _
  rw [h, abs_ofRat_eq]

lemma nan_false {f : Fmt} {e m a b : Fp f} (h : a.isNaN = true ∨ b.isNaN = true) :
    relativeEqWith e m a b = false ∧ absDiffEqWith e a b = false := by
  have hs : a.sub b = .nan := by
    rcases h with h | h
    · cases a <;> simp_all [Fp.isNaN, Fp.sub, Fp.add]
    · cases b <;> simp_all [Fp.isNaN, Fp.sub, Fp.add, Fp.neg] <;> cases a <;> rfl
  have he : a.eq b = false := by
    rcases h with h | h
    · cases a <;> simp_all [Fp.isNaN, Fp.eq]
    · cases b <;> simp_all [Fp.isNaN, Fp.eq] <;> cases a <;> rfl
  constructor
  · simp only [relativeEqWith, Scalar.eq, Scalar.sub, he, hs, Bool.false_eq_true, if_false]
    split_ifs with h1 h2
    · rfl
    · exact absurd h2 (by cases e <;> exact Bool.false_ne_true)
    all_goals
      generalize (Scalar.mul _ _ : Fp f) = w
      cases w <;> rfl
  · simp only [absDiffEqWith, Scalar.sub, hs]
    rfl

lemma absdiff_comm {f : Fmt} (x y : Fp f) : Scalar.abs (Scalar.sub x y) = Scalar.abs (Scalar.sub y x) := by
  rcases x with _ | (_ | _) | ⟨q, _, _, _⟩ <;> rcases y with _ | (_ | _) | ⟨r, _, _, _⟩ <;>
    simp [Scalar.sub, Fp.sub, Fp.add, Fp.neg, Scalar.abs, Fp.abs]
  have hr : q + -r = -(r + -q) := by ring
  rw [hr]
  unfold Fp.ofRat
  simp only [Fmt.rnd_neg, abs_neg]
  split_ifs <;> simp

lemma relWith_comm {f : Fmt} (e m a b : Fp f) : relativeEqWith e m a b = relativeEqWith e m b a := by
  rcases Bool.eq_false_or_eq_true a.isNaN with hx | hx
  · rw [(nan_false (.inl hx)).1, (nan_false (.inr hx)).1]
  rcases Bool.eq_false_or_eq_true b.isNaN with hy | hy
  · rw [(nan_false (.inl hy)).1, (nan_false (.inr hy)).1]
  unfold relativeEqWith
  have e1 : Scalar.eq a b = Scalar.eq b a := by
    rw [Bool.eq_iff_iff]
    change a.eq b = true ↔ b.eq a = true
    rw [Fp.eq_iff_key hx hy, Fp.eq_iff_key hy hx, eq_comm]
  have e2 := absdiff_comm a b
  have e3 : (if Scalar.lt (Scalar.abs a) (Scalar.abs b) = true then Scalar.abs b
      else Scalar.abs a) = (if Scalar.lt (Scalar.abs b) (Scalar.abs a) = true then Scalar.abs a
      else Scalar.abs b) := by
    rcases a with _ | (_ | _) | ⟨q, _, _, _⟩ <;> rcases b with _ | (_ | _) | ⟨r, _, _, _⟩ <;>
      simp_all [Fp.isNaN, Scalar.lt, Fp.lt, Scalar.abs, Fp.abs]
    rcases lt_trichotomy |q| |r| with h | h | h
    · rw [if_pos h, if_neg (by linarith)]
    · rw [if_neg (by linarith), if_neg (by linarith)]; simp [h]
    · rw [if_neg (by linarith), if_pos h]
  simp only [e1, e2, e3, Bool.or_comm]

/-! ### One coordinate -/

section Coord
variable {a b E M : F32} {x y e m : ℚ}

lemma large_is (ha : a.Is x) (hb : b.Is y) : ((if Scalar.lt (Scalar.abs a) (Scalar.abs b) = true then Scalar.abs b
    else Scalar.abs a) : F32).Is (max |x| |y|) := by
  have hl : Scalar.lt (Scalar.abs a) (Scalar.abs b) = decide (|x| < |y|) := ha.abs.lt hb.abs
  rw [hl]
  by_cases h : |x| < |y|
  · rw [if_pos (by simpa using h), max_eq_right h.le]
    exact hb.abs
  · rw [if_neg (by simpa using h), max_eq_left (not_lt.mp h)]
    exact ha.abs

lemma mul_ofRat (ha : a.Is x) (hb : b.Is y) : ∃ zs, Scalar.mul a b = (Fp.ofRat zs (x * y) : F32) := by
  obtain ⟨_, _, _, rfl⟩ := ha
  obtain ⟨_, _, _, rfl⟩ := hb
  exact ⟨_, rfl⟩

lemma abs_rnd_le (hE : E.Is e) {d : ℚ} (h : d ≤ e) : FLe (Fp.ofRat false d : F32) E := by
  have h1 : FLe (Fp.ofRat false d : F32) (Fp.ofRat false e) := Fp.FLe_ofRat h
  have h2 : FLe (Fp.ofRat false e : F32) E := (Fp.FLe_is (Fp.ofRat_is_rep hE.rep) hE).mpr le_rfl
  exact Fp.FLe_trans h1 h2

lemma le_of_rnd_le {d : ℚ} (hd : 0 ≤ d) (hE : E.Is e) (h : Scalar.le (Fp.ofRat false d : F32) E = true) :
    d ≤ (1 + 1 / 2 ^ 23) * e + 1 / 2 ^ 149 := by
  rcases F32.ofRat_cases false d with h1 | ⟨h1, h2⟩
  · have h3 : b32.rnd d ≤ e := by
      have := h1.le hE
      change (Fp.ofRat false d : F32).le E = true at h
      rw [this] at h
      simpa using h
    have h4 := F32.err d
    rw [abs_of_nonneg hd, abs_sub_comm] at h4
    have h5 := le_abs_self (d - b32.rnd d)
    norm_num at h4 ⊢
    have := Fmt.rnd_nonneg (f := b32) hd
    linarith
  · exfalso
    rw [h1] at h
    obtain ⟨_, _, _, rfl⟩ := hE
    rw [show decide (d < 0) = false by simpa using hd] at h
    cases h

lemma nonneg_of_rnd_le {d : ℚ} (hd : 0 ≤ d) (hE : E.Is e) (h : Scalar.le (Fp.ofRat false d : F32) E = true) :
    0 ≤ e := by
  have h1 : FLe (Fp.ofRat false 0 : F32) (Fp.ofRat false d) := Fp.FLe_ofRat hd
  have h0 : (Fp.ofRat false 0 : F32).Is 0 := F32.zero_is
  exact (Fp.FLe_is h0 hE).mp (Fp.FLe_trans h1 (Fp.le_iff_FLe.mp h))

lemma rel_of_close (ha : a.Is x) (hb : b.Is y) (hE : E.Is e) (hM : M.Is m)
    (h : |x - y| ≤ max e (m * max |x| |y|)) : relativeEqWith E M a b = true := by
  unfold relativeEqWith
  have e2 : Scalar.isInf a = false := Fp.notInf_is ha
  have e3 : Scalar.isInf b = false := Fp.notInf_is hb
  obtain ⟨zs, ht⟩ := mul_ofRat (large_is ha hb) hM
  simp only [e2, e3, Bool.or_self, Bool.false_eq_true, if_false, absdiff ha hb, ht]
  split_ifs with h1 h2
  · rfl
  · rfl
  · rcases le_max_iff.mp h with h | h
    · exact absurd (Fp.le_iff_FLe.mpr (abs_rnd_le hE h)) h2
    · exact Fp.le_iff_FLe.mpr ⟨Fp.notNaN_ofRat, Fp.notNaN_ofRat, Fp.ofRat_mono (by rwa [mul_comm])⟩

lemma rel_close (ha : a.Is x) (hb : b.Is y) (hE : E.Is e) (hM : M.Is m) (he : 0 ≤ e) (hm0 : 0 ≤ m) (hm : m ≤ 1)
    (h : relativeEqWith E M a b = true) :
    |x - y| ≤ (1 + 1 / 2 ^ 22) * max e (m * max |x| |y|) + 1 / 2 ^ 148 := by
  have hL : 0 ≤ max |x| |y| := le_max_of_le_left (abs_nonneg _)
  have hB : 0 ≤ max e (m * max |x| |y|) := le_max_of_le_left he
  by_cases hxy : x = y
  · subst hxy
    simp only [sub_self, abs_zero]
    positivity
  unfold relativeEqWith at h
  have e1 : Scalar.eq a b = false := by
    change a.eq b = false
    rw [ha.eq hb]; simpa using hxy
  have e2 : Scalar.isInf a = false := Fp.notInf_is ha
  have e3 : Scalar.isInf b = false := Fp.notInf_is hb
  obtain ⟨zs, ht⟩ := mul_ofRat (large_is ha hb) hM
  simp only [e1, e2, e3, Bool.or_self, Bool.false_eq_true, if_false, absdiff ha hb, ht] at h
  have hLl : max |x| |y| < 2 ^ 128 := max_lt (F32.rep_lt ha.rep) (F32.rep_lt hb.rep)
  split_ifs at h with h1
  · have := le_of_rnd_le (abs_nonneg _) hE h1
    have h2 := le_max_left e (m * max |x| |y|)
    norm_num at this ⊢
    linarith
  · have hmL : |max |x| |y| * m| = max |x| |y| * m := abs_of_nonneg (by positivity)
    have hmul : (Fp.ofRat zs (max |x| |y| * m) : F32).Is (b32.rnd (max |x| |y| * m)) := by
      have h3 := (large_is ha hb).rep
      have h4 : b32.rnd (max |x| |y| * m) ≤ max |x| |y| := by
        have := Fmt.rnd_mono (f := b32) (show max |x| |y| * m ≤ max |x| |y| by nlinarith)
        rwa [Fmt.rnd_of_rep h3] at this
      refine Fp.ofRat_is ?_
      rw [abs_of_nonneg (Fmt.rnd_nonneg (by positivity))]
      exact h4.trans_lt hLl
    have h4 := le_of_rnd_le (abs_nonneg _) hmul h
    have h5 := F32.err (max |x| |y| * m)
    rw [hmL] at h5
    have h6 := le_abs_self (b32.rnd (max |x| |y| * m) - max |x| |y| * m)
    have h2 := le_max_right e (m * max |x| |y|)
    have h7 : 0 ≤ max |x| |y| * m := by positivity
    rw [mul_comm m] at h2 ⊢
    generalize max |x| |y| * m = t at *
    generalize max e t = B at *
    norm_num at h4 h5 ⊢
    linarith

end Coord

lemma relativeEq_iff (a b : Bounds D F32) (e m : F32) : a.relativeEq b e m = true ↔
    ∀ i, relativeEqWith e m (a.min i) (b.min i) = true ∧ relativeEqWith e m (a.max i) (b.max i) = true := by
  simp [Bounds.relativeEq, forall_and]

lemma absDiffEq_iff (a b : Bounds D F32) (e : F32) : a.absDiffEq b e = true ↔
    ∀ i, absDiffEqWith e (a.min i) (b.min i) = true ∧ absDiffEqWith e (a.max i) (b.max i) = true := by
  simp [Bounds.absDiffEq, forall_and]

/-- C74: both comparisons are symmetric, for all floats and tolerances. -/
theorem C74_symmetric (a b : Bounds D F32) (e m : F32) :
    a.relativeEq b e m = b.relativeEq a e m ∧ a.absDiffEq b e = b.absDiffEq a e := by
  constructor
  · rw [Bool.eq_iff_iff, relativeEq_iff, relativeEq_iff]
    exact forall_congr' fun i => by rw [relWith_comm, relWith_comm e m (a.max i)]
  · rw [Bool.eq_iff_iff, absDiffEq_iff, absDiffEq_iff]
    simp only [absDiffEqWith]
    exact forall_congr' fun i => by rw [absdiff_comm, absdiff_comm (a.max i)]

/-- C74: bounds are relatively equal to themselves, with whatever tolerances, exactly if they hold no NaN; they are
absolutely equal to themselves exactly if they are finite (and the tolerance is not negative). -/
theorem C74_reflexive [NeZero D] (a : Bounds D F32) (e m : F32) :
    (a.relativeEq a e m = true ↔ ∀ i, (a.min i).isNaN = false ∧ (a.max i).isNaN = false) ∧
    (a.absDiffEq a e = true ↔ (∀ i, (a.min i).isFin = true ∧ (a.max i).isFin = true) ∧ (Fp.lit 0 : F32).le e = true) := by
  have r1 : ∀ x : F32, relativeEqWith e m x x = true ↔ x.isNaN = false := by
    intro x
    rcases Bool.eq_false_or_eq_true x.isNaN with hx | hx
    · rw [(nan_false (.inl hx)).1, hx]
      simp
    · have : Scalar.eq x x = true := (Fp.eq_iff_key hx hx).mpr rfl
      simp [relativeEqWith, this, hx]
  have r2 : ∀ x : F32, absDiffEqWith e x x = true ↔ x.isFin = true ∧ (Fp.lit 0 : F32).le e = true := by
    intro x
    rcases Bool.eq_false_or_eq_true x.isFin with hx | hx
    · have h := absdiff (Fp.isFin_is hx) (Fp.isFin_is hx)
      rw [sub_self, abs_zero] at h
      simp only [absDiffEqWith, h, hx, true_and]
      rfl
    · have h : Scalar.abs (Scalar.sub x x) = (.nan : F32) := by
        rcases x with _ | (_ | _) | _
        · rfl
        · rfl
        · rfl
        · cases hx
      rw [absDiffEqWith, h, hx]
      simp only [Bool.false_eq_true, false_and, iff_false]
      cases e <;> exact Bool.false_ne_true
  constructor
  · rw [relativeEq_iff]
    simp only [r1]
  · rw [absDiffEq_iff]
    simp only [r2]
    exact ⟨fun h => ⟨fun i => ⟨(h i).1.1, (h i).2.1⟩, (h 0).1.2⟩, fun h i => ⟨⟨(h.1 i).1, h.2⟩, (h.1 i).2, h.2⟩⟩

/-- C74: bounds that are equal (`==`) are relatively equal. -/
theorem C74_equal (a b : Bounds D F32) (e m : F32) (h : a.beq b = true) : a.relativeEq b e m = true := by
  rw [relativeEq_iff]
  simp only [Bounds.beq, Bool.and_eq_true, decide_eq_true_eq] at h
  exact fun i => ⟨by simp [relativeEqWith, h.1 i], by simp [relativeEqWith, h.2 i]⟩

/-- C74: with a finite tolerance, absolutely equal bounds are relatively equal. -/
theorem C74_absolute (a b : Bounds D F32) (e m : F32) (he : e.isFin = true) (h : a.absDiffEq b e = true) :
    a.relativeEq b e m = true := by
  rw [relativeEq_iff]
  rw [absDiffEq_iff] at h
  have key : ∀ x y : F32, absDiffEqWith e x y = true → relativeEqWith e m x y = true := by
    intro x y h
    have hi : (Scalar.isInf x || Scalar.isInf y) = false := by
      obtain ⟨q, hq⟩ := Fp.isFin_iff.mp he
      obtain ⟨_, _, _, rfl⟩ := hq
      rcases x with _ | (_ | _) | _ <;> rcases y with _ | (_ | _) | _ <;> first | rfl | cases h
    unfold relativeEqWith
    unfold absDiffEqWith at h
    simp [h, hi]
  exact fun i => ⟨key _ _ (h i).1, key _ _ (h i).2⟩

/-- C74: what relative equality says of finite bounds. Bounds all of whose coordinates differ by at most the
absolute tolerance, or by at most the relative tolerance times the larger one, are found equal, without any rounding
error. Of bounds found equal, all coordinates differ by at most that, up to a relative 2^-22 and 2^-148. -/
theorem C74_meaning (a b : Bounds D F32) (x y u v : Fin D → ℚ) (ha : ∀ i, (a.min i).Is (x i) ∧ (a.max i).Is (u i))
    (hb : ∀ i, (b.min i).Is (y i) ∧ (b.max i).Is (v i)) {E M : F32} {e m : ℚ} (hE : E.Is e) (hM : M.Is m)
    (he : 0 ≤ e) (hm0 : 0 ≤ m) (hm : m ≤ 1) :
    ((∀ i, |x i - y i| ≤ max e (m * max |x i| |y i|) ∧ |u i - v i| ≤ max e (m * max |u i| |v i|)) →
      a.relativeEq b E M = true) ∧
    (a.relativeEq b E M = true → ∀ i,
      |x i - y i| ≤ (1 + 1 / 2 ^ 22) * max e (m * max |x i| |y i|) + 1 / 2 ^ 148 ∧
      |u i - v i| ≤ (1 + 1 / 2 ^ 22) * max e (m * max |u i| |v i|) + 1 / 2 ^ 148) := by
  rw [relativeEq_iff]
  exact ⟨fun h i => ⟨rel_of_close (ha i).1 (hb i).1 hE hM (h i).1, rel_of_close (ha i).2 (hb i).2 hE hM (h i).2⟩,
    fun h i => ⟨rel_close (ha i).1 (hb i).1 hE hM he hm0 hm (h i).1,
      rel_close (ha i).2 (hb i).2 hE hM he hm0 hm (h i).2⟩⟩

/-- C74: absolute equality of finite bounds. -/
theorem C74_meaning_absolute (a b : Bounds D F32) (x y u v : Fin D → ℚ)
    (ha : ∀ i, (a.min i).Is (x i) ∧ (a.max i).Is (u i))
    (hb : ∀ i, (b.min i).Is (y i) ∧ (b.max i).Is (v i)) {E : F32} {e : ℚ} (hE : E.Is e) :
    ((∀ i, |x i - y i| ≤ e ∧ |u i - v i| ≤ e) → a.absDiffEq b E = true) ∧
    (a.absDiffEq b E = true → ∀ i, |x i - y i| ≤ (1 + 1 / 2 ^ 22) * e + 1 / 2 ^ 148 ∧
      |u i - v i| ≤ (1 + 1 / 2 ^ 22) * e + 1 / 2 ^ 148) := by
  rw [absDiffEq_iff]
  have fwd : ∀ {a b : F32} {x y : ℚ}, a.Is x → b.Is y → |x - y| ≤ e → absDiffEqWith E a b = true := by
    intro a b x y ha hb h
    rw [absDiffEqWith, absdiff ha hb]
    exact Fp.le_iff_FLe.mpr (abs_rnd_le hE h)
  have bwd : ∀ {a b : F32} {x y : ℚ}, a.Is x → b.Is y → absDiffEqWith E a b = true →
      |x - y| ≤ (1 + 1 / 2 ^ 22) * e + 1 / 2 ^ 148 := by
    intro a b x y ha hb h
    rw [absDiffEqWith, absdiff ha hb] at h
    have h1 := le_of_rnd_le (abs_nonneg _) hE h
    have h0 : 0 ≤ e := nonneg_of_rnd_le (abs_nonneg _) hE h
    norm_num at h1 ⊢
    linarith
  exact ⟨fun h i => ⟨fwd (ha i).1 (hb i).1 (h i).1, fwd (ha i).2 (hb i).2 (h i).2⟩,
    fun h i => ⟨bwd (ha i).1 (hb i).1 (h i).1, bwd (ha i).2 (hb i).2 (h i).2⟩⟩

/-- C74 (deviation): neither comparison is transitive. -/
theorem C74_not_transitive : ∃ a b c : Bounds 2 F32,
    a.relativeEq b defaultEps defaultEps = true ∧ b.relativeEq c defaultEps defaultEps = true ∧
    a.relativeEq c defaultEps defaultEps = false ∧
    a.absDiffEq b defaultEps = true ∧ b.absDiffEq c defaultEps = true ∧ a.absDiffEq c defaultEps = false :=
  ⟨⟨fun _ => Fp.lit 0, fun _ => Fp.lit 1⟩, ⟨fun _ => Fp.lit (1 / 2 ^ 23), fun _ => Fp.lit 1⟩,
    ⟨fun _ => Fp.lit (2 / 2 ^ 23), fun _ => Fp.lit 1⟩, by decide +kernel, by decide +kernel, by decide +kernel,
    by decide +kernel, by decide +kernel, by decide +kernel⟩

/-- The hypotheses are met: the bounds of the unit test (`src/geom/bounds.rs:192-203`) and bounds a little off; the
default tolerance is 2^-23. -/
example : ∃ (a b : Bounds 2 F32) (x y u v : Fin 2 → ℚ),
    (∀ i, (a.min i).Is (x i) ∧ (a.max i).Is (u i)) ∧ (∀ i, (b.min i).Is (y i) ∧ (b.max i).Is (v i)) ∧
    (defaultEps : F32).Is (1 / 2 ^ 23) ∧
    (∀ i, |x i - y i| ≤ max (1 / 2 ^ 23) (1 / 2 ^ 23 * max |x i| |y i|) ∧
      |u i - v i| ≤ max (1 / 2 ^ 23) (1 / 2 ^ 23 * max |u i| |v i|)) ∧ a.beq b = false :=
  ⟨⟨fun _ => Fp.lit (-1), fun _ => Fp.lit 8⟩, ⟨fun _ => Fp.lit (-1), fun _ => Fp.lit (8 + 1 / 2 ^ 20)⟩, fun _ => -1,
    fun _ => -1, fun _ => 8, fun _ => 8 + 1 / 2 ^ 20, by decide +kernel, by decide +kernel, by decide +kernel,
    by decide +kernel, by decide +kernel⟩

end Verif.Props
