import Verif.Lemmas.F32

/-!
# C05, C09, C10, C11: conversions per axis, constructors, enclosing and overlapping boxes
-/

namespace Verif.Props
open Spec

/-! ## C05 -/

section C05
variable {F : Type} [Scalar F] {D : ℕ}

/-- C05: with one resolution for every axis, the per-axis functions are the scalar ones. -/
theorem C05_constant_resolution (cell size ofs : Cell D) (cb : CellBounds D) (p offset : Point D F)
    (r : F) :
    pointFromCellN cell offset (fun _ => r) = pointFromCell cell offset r ∧
    cellFromPointN p offset (fun _ => r) = cellFromPoint p offset r ∧
    Bounds.fromCellBoundsN cb (fun _ => r) = Bounds.fromCellBounds cb r ∧
    Bounds.fromSizeCellsN size (fun _ => r) ofs = Bounds.fromSizeCells size r ofs :=
  ⟨rfl, rfl, rfl, rfl⟩

/-- C05: in general, axis `i` of the per-axis functions is axis `i` of the scalar function called with
the resolution of that axis; nothing else of the resolutions, the point or the offset matters. -/
theorem C05_per_axis (cell : Cell D) (cb : CellBounds D) (p offset res : Point D F) (i : Fin D) :
    pointFromCellN cell offset res i = pointFromCell cell offset (res i) i ∧
    cellFromPointN p offset res i = cellFromPoint p offset (res i) i ∧
    (Bounds.fromCellBoundsN cb res).min i = (Bounds.fromCellBounds cb (res i)).min i ∧
    (Bounds.fromCellBoundsN cb res).max i = (Bounds.fromCellBounds cb (res i)).max i :=
  ⟨rfl, rfl, rfl, rfl⟩

/-- C05: the same for `from_size_cells_n`; it panics together with the scalar function, whatever the
resolution. -/
theorem C05_size_per_axis (size ofs : Cell D) (res : Point D F) (i : Fin D) :
    (∀ b, Bounds.fromSizeCellsN size res ofs = .ok b → ∃ b', Bounds.fromSizeCells size (res i) ofs = .ok b' ∧
      b.min i = b'.min i ∧ b.max i = b'.max i) ∧
    ∀ e, Bounds.fromSizeCellsN size res ofs = .error e ↔ Bounds.fromSizeCells size (res i) ofs = .error e := by
  unfold Bounds.fromSizeCellsN Bounds.fromSizeCells
  cases Bounds.sizeCellBounds size ofs with
  | ok cb =>
    refine ⟨fun b h => ?_, fun e => ⟨fun h => ?_, fun h => ?_⟩⟩
    · cases h; exact ⟨_, rfl, rfl, rfl⟩
    · cases h
    · cases h
  | error e =>
    refine ⟨fun b h => ?_, fun e => ⟨fun h => ?_, fun h => ?_⟩⟩
    · cases h
    · cases h; rfl
    · cases h; rfl

/-- C05: axis `i` of the converted point or cell is determined by axis `i` of the arguments. -/
theorem C05_axis_independent (c c' : Cell D) (p p' o o' res res' : Point D F) (i : Fin D)
    (hc : c i = c' i) (hp : p i = p' i) (ho : o i = o' i) (hr : res i = res' i) :
    pointFromCellN c o res i = pointFromCellN c' o' res' i ∧
    cellFromPointN p o res i = cellFromPointN p' o' res' i := by
  simp [pointFromCellN, cellFromPointN, hc, hp, ho, hr]

/-- The conversions do depend on the resolution of their own axis. -/
example : cellFromPointN (![Fp.lit 3, Fp.lit 3] : Point 2 F32) originPt ![Fp.lit 1, Fp.lit (1/2)]
    = ![3, 6] := by decide +kernel

end C05

/-! ## C09 -/

section C09
variable {f : Fmt} {D : ℕ}

/-- C09: `Bounds::new` returns the given corners if they are ordered on every axis (so none of them is
NaN) and panics on its assertion otherwise. -/
theorem C09_bounds_new (mn mx : Point D (Fp f)) :
    ((∀ i, FLe (mn i) (mx i)) → Bounds.new mn mx = .ok ⟨mn, mx⟩) ∧
    ((¬ ∀ i, FLe (mn i) (mx i)) → Bounds.new mn mx = .error (.panic .assertion)) := by
  have key : (∀ i, (Scalar.le (mn i) (mx i)) = true) ↔ ∀ i, FLe (mn i) (mx i) :=
    forall_congr' fun i => Fp.le_iff_FLe
  unfold Bounds.new
  constructor <;> intro h
  · rw [if_pos (key.mpr h)]
  · rw [if_neg (mt key.mp h)]

/-- C09: a NaN anywhere panics. -/
theorem C09_bounds_new_nan (mn mx : Point D (Fp f)) (i : Fin D)
    (h : mn i = .nan ∨ mx i = .nan) : Bounds.new mn mx = .error (.panic .assertion) := by
  apply (C09_bounds_new mn mx).2
  intro hall
  obtain ⟨h1, h2, -⟩ := hall i
  rcases h with h | h
  · rw [h] at h1; cases h1
  · rw [h] at h2; cases h2

/-- C09: `CellBounds::new`. -/
theorem C09_cell_bounds_new (mn mx : Cell D) :
    ((∀ i, mn i ≤ mx i) → CellBounds.new mn mx = .ok ⟨mn, mx⟩) ∧
    ((∃ i, mx i < mn i) → CellBounds.new mn mx = .error (.panic .assertion)) := by
  unfold CellBounds.new
  constructor
  · intro h; rw [if_pos h]
  · rintro ⟨i, hi⟩; rw [if_neg (fun h => absurd (h i) (not_le.mpr hi))]

example : ∀ i, FLe ((![Fp.lit (-1), .inf true] : Point 2 F32) i)
    ((![Fp.lit (-1), Fp.lit 2] : Point 2 F32) i) := by decide +kernel
example : ¬ ∀ i, FLe ((![Fp.lit (-1), Fp.lit 3] : Point 2 F32) i)
    ((![Fp.lit 4, Fp.lit 2] : Point 2 F32) i) := by decide +kernel
example : ∃ i : Fin 2, (![4, 1] : Cell 2) i < (![5, 1] : Cell 2) i := by decide

end C09

/-! ## C10 -/

section C10
variable {f : Fmt} {D : ℕ} {a b c : Bounds D (Fp f)}

/-- No coordinate of the corners is NaN. -/
def NaNFree (b : Bounds D (Fp f)) : Prop := NoNaN b.min ∧ NoNaN b.max

instance : Decidable (NaNFree b) := by unfold NaNFree; infer_instance

/-- All corner coordinates are zeros. -/
def AllZero (b : Bounds D (Fp f)) : Prop :=
  ∀ i, (b.min i).Is 0 ∧ (b.max i).Is 0

lemma eq_zero_iff {x : Fp f} : x.eq (Fp.lit 0) = true ↔ x.Is 0 := by
  have h0 : (Fp.lit 0 : Fp f).Is 0 := Fp.ofRat_is_rep Fmt.rep_zero
  constructor
  · intro h
    obtain ⟨h1, h2⟩ := Fp.notNaN_of_eq h
    rw [Fp.eq_iff_key h1 h2, Fp.key_is h0] at h
    exact Fp.is_of_key h1 h
  · intro h; rw [h.eq h0]; simp

lemma beq_empty_iff : a.beq Bounds.empty = true ↔ AllZero a := by
  unfold Bounds.beq AllZero Bounds.empty originPt
  rw [Bool.and_eq_true, decide_eq_true_iff, decide_eq_true_iff, ← forall_and]
  exact forall_congr' fun i => and_congr eq_zero_iff eq_zero_iff

/-- C10: enclosing the empty bounds (all corners zero) returns the other box. -/
theorem C10_enclosing_of_empty (h : AllZero a) : a.enclosing b = b := by
  unfold Bounds.enclosing; rw [if_pos (beq_empty_iff.mpr h)]

lemma enclosing_eq (h : ¬ AllZero a) : a.enclosing b =
    ⟨fun i => if (a.min i).lt (b.min i) then a.min i else b.min i,
     fun i => if (b.max i).lt (a.max i) then a.max i else b.max i⟩ := by
  unfold Bounds.enclosing; rw [if_neg (fun h' => h (beq_empty_iff.mp h'))]; rfl

/-- C10: otherwise the result contains both boxes, and lies in every box that does. -/
theorem C10_enclosing_is_least (h : ¬ AllZero a) (ha : NaNFree a) (hb : NaNFree b) :
    Sub a (a.enclosing b) ∧ Sub b (a.enclosing b) ∧
    ∀ c : Bounds D (Fp f), Sub a c → Sub b c → Sub (a.enclosing b) c := by
  rw [enclosing_eq h]
  refine ⟨fun i => ?_, fun i => ?_, fun c h1 h2 i => ?_⟩
  · dsimp only
    constructor
    · split_ifs with h1
      · exact Fp.FLe_refl (ha.1 i)
      · exact Fp.FLe_of_not_lt (hb.1 i) (ha.1 i) h1
    · split_ifs with h1
      · exact Fp.FLe_refl (ha.2 i)
      · exact Fp.FLe_of_not_lt (ha.2 i) (hb.2 i) h1
  · dsimp only
    constructor
    · split_ifs with h1
      · exact Fp.FLe_of_lt h1
      · exact Fp.FLe_refl (hb.1 i)
    · split_ifs with h1
      · exact Fp.FLe_of_lt h1
      · exact Fp.FLe_refl (hb.2 i)
  · dsimp only
    constructor
    · split_ifs
      · exact (h1 i).1
      · exact (h2 i).1
    · split_ifs
      · exact (h1 i).2
      · exact (h2 i).2

/-- C10: every point of either box is in the result. -/
theorem C10_enclosing_points (h : ¬ AllZero a) (ha : NaNFree a) (hb : NaNFree b)
    {p : Point D (Fp f)} (hp : InBox p a ∨ InBox p b) : InBox p (a.enclosing b) := by
  obtain ⟨h1, h2, -⟩ := C10_enclosing_is_least h ha hb
  rcases hp with hp | hp
  · exact fun i => ⟨Fp.FLe_trans (h1 i).1 (hp i).1, Fp.FLe_trans (hp i).2 (h1 i).2⟩
  · exact fun i => ⟨Fp.FLe_trans (h2 i).1 (hp i).1, Fp.FLe_trans (hp i).2 (h2 i).2⟩

example : ¬ AllZero (⟨![Fp.lit 0, Fp.lit 0], ![Fp.lit 0, Fp.lit 1]⟩ : Bounds 2 F32) := by
  intro h
  exact absurd ((h 1).2.unique F32.one_is) (by norm_num)
example : NaNFree (⟨![Fp.lit 0, .inf true], ![Fp.lit 0, Fp.lit 1]⟩ : Bounds 2 F32) := by decide +kernel
example : AllZero (Bounds.empty : Bounds 3 F32) :=
  fun _ => ⟨F32.zero_is, F32.zero_is⟩

/-- C10, limit of the claim: the special case is on the left only. The empty bounds on the right are a
box like any other, so `a.enclosing(empty)` grows to include the origin. -/
theorem C10_enclosing_not_symmetric : ∃ a : Bounds 2 F32, Ordered a ∧
    Bounds.enclosing Bounds.empty a = a ∧ ¬ Sub (a.enclosing Bounds.empty) a := by
  refine ⟨⟨![Fp.lit 1, Fp.lit 1], ![Fp.lit 2, Fp.lit 2]⟩, by decide +kernel, ?_, by decide +kernel⟩
  exact C10_enclosing_of_empty fun _ => ⟨F32.zero_is, F32.zero_is⟩

end C10

/-! ## C11 -/

section C11
variable {f : Fmt} {D : ℕ} {a b : Bounds D (Fp f)}

/-- C11: the result is the empty bounds, or exactly the set of common points. -/
theorem C11_overlapping_empty_or_intersection (ha : NaNFree a) (hb : NaNFree b) :
    a.overlapping b = Bounds.empty ∨
      ∀ p, InBox p (a.overlapping b) ↔ InBox p a ∧ InBox p b := by
  unfold Bounds.overlapping
  dsimp only
  by_cases h : ∃ i, ((Scalar.fmin (a.max i) (b.max i) <. Scalar.fmax (a.min i) (b.min i)) ||
      relativeEq (Scalar.fmin (a.max i) (b.max i)) (Scalar.fmax (a.min i) (b.min i))) = true
  · left; rw [if_pos h]
  · right
    rw [if_neg h]
    intro p
    unfold InBox
    rw [← forall_and]
    refine forall_congr' fun i => ?_
    change FLe ((a.min i).max (b.min i)) (p i) ∧ FLe (p i) ((a.max i).min (b.max i)) ↔ _
    constructor
    · rintro ⟨h1, h2⟩
      exact ⟨⟨Fp.FLe_trans (Fp.le_max_left (ha.1 i) (hb.1 i)) h1,
          Fp.FLe_trans h2 (Fp.min_le_left (ha.2 i) (hb.2 i))⟩,
        ⟨Fp.FLe_trans (Fp.le_max_right (ha.1 i) (hb.1 i)) h1,
          Fp.FLe_trans h2 (Fp.min_le_right (ha.2 i) (hb.2 i))⟩⟩
    · rintro ⟨⟨h1, h2⟩, ⟨h3, h4⟩⟩
      exact ⟨Fp.max_le h1 h3, Fp.le_min h2 h4⟩

/-- C11: the result does not depend on the order of the two boxes (as boxes: the sign of a zero
coordinate may differ). -/
theorem C11_overlapping_comm (ha : NaNFree a) (hb : NaNFree b) :
    Bounds.beq (a.overlapping b) (b.overlapping a) = true := by
  have hc : ∀ i, ((Scalar.fmin (a.max i) (b.max i) <. Scalar.fmax (a.min i) (b.min i)) ||
        relativeEq (Scalar.fmin (a.max i) (b.max i)) (Scalar.fmax (a.min i) (b.min i)))
      = ((Scalar.fmin (b.max i) (a.max i) <. Scalar.fmax (b.min i) (a.min i)) ||
        relativeEq (Scalar.fmin (b.max i) (a.max i)) (Scalar.fmax (b.min i) (a.min i))) := by
    intro i
    have k1 : ((a.max i).min (b.max i)).key = ((b.max i).min (a.max i)).key := by
      rw [Fp.min_key (ha.2 i) (hb.2 i), Fp.min_key (hb.2 i) (ha.2 i), min_comm]
    have k2 : ((a.min i).max (b.min i)).key = ((b.min i).max (a.min i)).key := by
      rw [Fp.max_key (ha.1 i) (hb.1 i), Fp.max_key (hb.1 i) (ha.1 i), max_comm]
    have n1 := Fp.min_notNaN (ha.2 i) (hb.2 i)
    have n2 := Fp.min_notNaN (hb.2 i) (ha.2 i)
    have n3 := Fp.max_notNaN (ha.1 i) (hb.1 i)
    have n4 := Fp.max_notNaN (hb.1 i) (ha.1 i)
    have e1 : Fp.lt ((a.max i).min (b.max i)) ((a.min i).max (b.min i))
        = Fp.lt ((b.max i).min (a.max i)) ((b.min i).max (a.min i)) := by
      rw [Bool.eq_iff_iff, Fp.lt_iff_key n1 n3, Fp.lt_iff_key n2 n4, k1, k2]
    have e2 := relativeEq_congr n1 n3 n2 n4 k1 k2
    exact congrArg₂ (· || ·) e1 e2
  unfold Bounds.overlapping
  dsimp only
  simp only [hc]
  by_cases h : ∃ i, ((Scalar.fmin (b.max i) (a.max i) <. Scalar.fmax (b.min i) (a.min i)) ||
      relativeEq (Scalar.fmin (b.max i) (a.max i)) (Scalar.fmax (b.min i) (a.min i))) = true
  · rw [if_pos h, if_pos h, beq_empty_iff]
    intro i
    have h0 : (Fp.lit 0 : Fp f).Is 0 := Fp.ofRat_is_rep Fmt.rep_zero
    exact ⟨h0, h0⟩
  · rw [if_neg h, if_neg h]
    unfold Bounds.beq
    rw [Bool.and_eq_true, decide_eq_true_iff, decide_eq_true_iff]
    constructor
    · intro i
      change Fp.eq ((a.min i).max (b.min i)) ((b.min i).max (a.min i)) = true
      rw [Fp.eq_iff_key (Fp.max_notNaN (ha.1 i) (hb.1 i)) (Fp.max_notNaN (hb.1 i) (ha.1 i)),
        Fp.max_key (ha.1 i) (hb.1 i), Fp.max_key (hb.1 i) (ha.1 i), max_comm]
    · intro i
      change Fp.eq ((a.max i).min (b.max i)) ((b.max i).min (a.max i)) = true
      rw [Fp.eq_iff_key (Fp.min_notNaN (ha.2 i) (hb.2 i)) (Fp.min_notNaN (hb.2 i) (ha.2 i)),
        Fp.min_key (ha.2 i) (hb.2 i), Fp.min_key (hb.2 i) (ha.2 i), min_comm]

/-- C11: if along some axis one box ends where the other begins, or before, the result is the empty
bounds (also when one of the boxes is itself flat). -/
theorem C11_overlapping_degenerate (ha : NaNFree a) (hb : NaNFree b) (i : Fin D)
    (h : FLe (a.max i) (b.min i) ∨ FLe (b.max i) (a.min i) ∨ FLe (a.max i) (a.min i) ∨
      FLe (b.max i) (b.min i)) :
    a.overlapping b = Bounds.empty := by
  unfold Bounds.overlapping
  dsimp only
  rw [if_pos]
  refine ⟨i, ?_⟩
  rw [Bool.or_eq_true]
  have n1 := Fp.min_notNaN (ha.2 i) (hb.2 i)
  have n2 := Fp.max_notNaN (ha.1 i) (hb.1 i)
  have hle : ((a.max i).min (b.max i)).key ≤ ((a.min i).max (b.min i)).key := by
    rw [Fp.min_key (ha.2 i) (hb.2 i), Fp.max_key (ha.1 i) (hb.1 i)]
    rcases h with h | h | h | h
    · exact (min_le_left _ _).trans (h.2.2.trans (le_max_right _ _))
    · exact (min_le_right _ _).trans (h.2.2.trans (le_max_left _ _))
    · exact (min_le_left _ _).trans (h.2.2.trans (le_max_left _ _))
    · exact (min_le_right _ _).trans (h.2.2.trans (le_max_right _ _))
  rcases hle.lt_or_eq with h | h
  · exact .inl ((Fp.lt_iff_key n1 n2).mpr h)
  · right
    unfold relativeEq
    have : Scalar.eq (Scalar.fmin (a.max i) (b.max i)) (Scalar.fmax (a.min i) (b.min i)) = true :=
      (Fp.eq_iff_key n1 n2).mpr h
    simp [this]

end C11

section C11f32
variable {D : ℕ} {a b : Bounds D F32} {amin amax bmin bmax : Fin D → ℚ}

/-- C11, f32: for finite boxes whose common part is longer than `2^-22 · max(1, |corner|)` on every
axis, the result is exactly the intersection. -/
theorem C11_overlapping_is_intersection
    (h1 : ∀ i, (a.min i).Is (amin i)) (h2 : ∀ i, (a.max i).Is (amax i))
    (h3 : ∀ i, (b.min i).Is (bmin i)) (h4 : ∀ i, (b.max i).Is (bmax i))
    (h : ∀ i, max (amin i) (bmin i)
      + 1 / 2 ^ 22 * max 1 (max |min (amax i) (bmax i)| |max (amin i) (bmin i)|)
        < min (amax i) (bmax i)) :
    ∀ i, ((a.overlapping b).min i).Is (max (amin i) (bmin i)) ∧
      ((a.overlapping b).max i).Is (min (amax i) (bmax i)) := by
  have k1 : ∀ i, ((a.max i).min (b.max i)).Is (min (amax i) (bmax i)) := by
    intro i
    apply Fp.is_of_key (Fp.min_notNaN (Fp.notNaN_is (h2 i)) (Fp.notNaN_is (h4 i)))
    rw [Fp.min_key (Fp.notNaN_is (h2 i)) (Fp.notNaN_is (h4 i)), Fp.key_is (h2 i), Fp.key_is (h4 i)]
    norm_cast
  have k2 : ∀ i, ((a.min i).max (b.min i)).Is (max (amin i) (bmin i)) := by
    intro i
    apply Fp.is_of_key (Fp.max_notNaN (Fp.notNaN_is (h1 i)) (Fp.notNaN_is (h3 i)))
    rw [Fp.max_key (Fp.notNaN_is (h1 i)) (Fp.notNaN_is (h3 i)), Fp.key_is (h1 i), Fp.key_is (h3 i)]
    norm_cast
  unfold Bounds.overlapping
  dsimp only
  rw [if_neg]
  · exact fun i => ⟨k2 i, k1 i⟩
  · rintro ⟨i, hi⟩
    have hp : (0 : ℚ) < 1 / 2 ^ 22 * max 1 (max |min (amax i) (bmax i)| |max (amin i) (bmin i)|) := by
      positivity
    have hi' := h i
    have hd : max (amin i) (bmin i) < min (amax i) (bmax i) := by linarith
    rw [Bool.or_eq_true] at hi
    rcases hi with hi | hi
    · have := (k1 i).lt (k2 i)
      have hi2 : ((a.max i).min (b.max i)).lt ((a.min i).max (b.min i)) = true := hi
      rw [this, decide_eq_true_iff] at hi2
      linarith
    · have hi2 : relativeEq ((a.max i).min (b.max i)) ((a.min i).max (b.min i)) = true := hi
      rw [relativeEq_false_of_gap (k1 i) (k2 i) ?_] at hi2
      · cases hi2
      · rw [abs_of_pos (a := _ - _) (by linarith)]
        linarith

/-- A case of the hypotheses: two overlapping squares. -/
example : (∀ i : Fin 2, max ((![0, 0] : Fin 2 → ℚ) i) ((![1, 1] : Fin 2 → ℚ) i)
      + 1 / 2 ^ 22 * max 1 (max |min ((![2, 2] : Fin 2 → ℚ) i) ((![3, 3] : Fin 2 → ℚ) i)|
          |max ((![0, 0] : Fin 2 → ℚ) i) ((![1, 1] : Fin 2 → ℚ) i)|)
        < min ((![2, 2] : Fin 2 → ℚ) i) ((![3, 3] : Fin 2 → ℚ) i)) := by decide +kernel
example : NaNFree (⟨![Fp.lit 1], ![Fp.lit 2]⟩ : Bounds 1 F32) ∧
    FLe (Fp.lit 2 : F32) (Fp.lit 5) := by decide +kernel

/-- C11: the tolerance is real. Boxes whose common part is 2^-24 long are reported as not
overlapping. -/
theorem C11_tolerance : ∃ a b : Bounds 1 F32, Ordered a ∧ Ordered b ∧
    (a.max 0).val - (b.min 0).val = 1 / 2 ^ 24 ∧ a.overlapping b = Bounds.empty := by
  refine ⟨⟨![Fp.lit 0], ![Fp.lit 1]⟩, ⟨![Fp.lit (1 - 1 / 2 ^ 24)], ![Fp.lit 2]⟩,
    by decide +kernel, by decide +kernel, by decide +kernel, ?_⟩
  unfold Bounds.overlapping
  rw [if_pos (by decide +kernel)]

end C11f32
end Verif.Props
