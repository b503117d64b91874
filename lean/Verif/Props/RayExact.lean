import Verif.Lemmas.Path
import Verif.Spec.Segment
import Verif.Spec.Rays
import Mathlib.Tactic.FieldSimp
import Mathlib.Tactic.Positivity
import Mathlib.Tactic.FinCases

/-!
# C22, C23: rays in exact arithmetic
-/

namespace Verif

namespace XR

lemma lt_asymm (a b : XR) (h : Scalar.lt a b = true) : Scalar.lt b a = false := by
  cases a <;> cases b <;> simp [Scalar.lt] at h ⊢
  exact h.le

lemma not_lt_trans (a b c : XR) (h : Scalar.lt a b = false) (h' : Scalar.lt b c = false) :
    Scalar.lt a c = false := by
  cases a <;> cases b <;> cases c <;> simp [Scalar.lt] at h h' ⊢
  exact h'.trans h

lemma abs_sub_roundR (x : ℝ) : |x - roundR x| ≤ 1 / 2 := by
  unfold roundR
  split_ifs with h
  · have h1 := Int.floor_le (x + 1 / 2)
    have h2 := Int.lt_floor_add_one (x + 1 / 2)
    rw [abs_le]; constructor <;> linarith
  · have h1 := Int.floor_le (-x + 1 / 2)
    have h2 := Int.lt_floor_add_one (-x + 1 / 2)
    push_cast
    rw [abs_le]; constructor <;> linarith

lemma toInt_round (x : ℝ) : Scalar.toInt (Scalar.round (XR.fin x)) = roundR x := by
  simp only [Scalar.toInt, Scalar.round, op1]
  split_ifs <;> simp

end XR

namespace Props
open Spec Scalar XR

variable {D : ℕ} {o e b : Fin D → ℝ} {r : ℝ}

/-- The cell of a point, in exact arithmetic. -/
lemma cell_exact (p b : Fin D → ℝ) (r : ℝ) (i : Fin D) :
    cellFromPoint (exact p) (exact b) (.fin r) i = roundR ((p i - b i) / r) :=
  toInt_round _

lemma inBox_cell (hr : 0 < r) (p b : Fin D → ℝ) :
    InCellBox b r (cellFromPoint (exact p) (exact b) (.fin r)) p := by
  intro i
  rw [cell_exact]
  have h := abs_sub_roundR ((p i - b i) / r)
  have e1 : p i - (b i + (roundR ((p i - b i) / r) : ℝ) * r)
      = ((p i - b i) / r - roundR ((p i - b i) / r)) * r := by field_simp; ring
  rw [e1, abs_mul, abs_of_pos hr]
  nlinarith

/-- Off the borders a point is strictly inside its cell. -/
lemma inside_cell (hr : 0 < r) {p b : Fin D → ℝ} (h : OffBorders b r p) (i : Fin D) :
    |p i - (b i + cellFromPoint (exact p) (exact b) (.fin r) i * r)| < r / 2 := by
  refine lt_of_le_of_ne (inBox_cell hr p b i) fun h1 => ?_
  set c := cellFromPoint (exact p) (exact b) (.fin r) i
  rcases abs_cases (p i - (b i + c * r)) with ⟨h2, -⟩ | ⟨h2, -⟩
  · exact h i c (by rw [h2] at h1; linarith)
  · exact h i (c - 1) (by push_cast; rw [h2] at h1; linarith)

lemma norm_exact (hD : D = 2 ∨ D = 3) (h : o ≠ e) :
    ∃ ℓ : ℝ, 0 < ℓ ∧ norm (fun i => exact e i -. exact o i : Point D XR) = .fin ℓ := by
  have hne : ∃ i, e i - o i ≠ 0 := by
    by_contra hc
    push Not at hc
    exact h (funext fun i => by have := hc i; linarith)
  obtain ⟨i, hi⟩ := hne
  have hpos : 0 < ∑ i, (e i - o i) * (e i - o i) :=
    Finset.sum_pos' (fun j _ => mul_self_nonneg _) ⟨i, Finset.mem_univ _, mul_self_pos.mpr hi⟩
  refine ⟨Real.sqrt (∑ i, (e i - o i) * (e i - o i)), Real.sqrt_pos.mpr hpos, ?_⟩
  rcases hD with rfl | rfl
  · simp only [norm, normSquared, exact, Scalar.sub, Scalar.mul, Scalar.add, Scalar.lit, Scalar.sqrt, op1,
      op2, Fin.sum_univ_two]
    norm_num
  · simp only [norm, normSquared, exact, Scalar.sub, Scalar.mul, Scalar.add, Scalar.lit, Scalar.sqrt, op1,
      op2, Fin.sum_univ_three]
    norm_num

lemma signum_exact (x : ℝ) : f32Signum (XR.fin x)
    = if x = 0 then XR.fin 0 else if 0 < x then .fin 1 else .fin (-1) := by
  simp only [f32Signum, Scalar.eq, Scalar.lt, Scalar.lit]
  norm_num

/-- The quantities of the loop, for an axis. `s` is the step, `w` the extent of the ray along the axis, `A`
the position of the origin in its cell against the direction of the ray. -/
lemma axis_exact {bounds : Bounds D XR} (hb : bounds.min = exact b) {ml : XR} {ℓ : ℝ} (hℓ : 0 < ℓ)
    (hn : norm (fun i => exact e i -. exact o i : Point D XR) = .fin ℓ) (i : Fin D) :
    let c := rayCtx (exact o) (exact e) bounds (.fin r) ml
    (e i = o i → c.s i = 0 ∧ t0 (exact o) (exact e) bounds (.fin r) i = .inf ∧ c.tDelta i = .inf) ∧
    (e i ≠ o i → ∃ s : ℤ, (s = 1 ∨ s = -1) ∧ c.s i = s ∧ s * (e i - o i) = |e i - o i| ∧
      t0 (exact o) (exact e) bounds (.fin r) i = .fin (ℓ / |e i - o i| *
        (s * (b i + cellFromPoint (exact o) (exact b) (.fin r) i * r - o i) + r / 2)) ∧
      c.tDelta i = .fin (ℓ / |e i - o i| * r)) := by
  intro c
  have hdir : rayDir (exact o) (exact e) i = .fin ((e i - o i) / ℓ) := by
    unfold rayDir
    simp only
    rw [hn]
    rfl
  have hz : (e i - o i) / ℓ = 0 ↔ e i = o i := by
    rw [div_eq_zero_iff]
    constructor
    · rintro (h | h)
      · linarith
      · exact absurd h hℓ.ne'
    · intro h; left; linarith
  have hst : c.step i = f32Signum (.fin ((e i - o i) / ℓ)) := by
    change f32Signum (rayDir (exact o) (exact e) i) = _
    rw [hdir]
  have ht : t0 (exact o) (exact e) bounds (.fin r) i = tMax0 (f32Signum (.fin ((e i - o i) / ℓ)))
      (.fin ((e i - o i) / ℓ)) (.fin (o i)) (.fin (b i)) (.fin r)
      (cellFromPoint (exact o) (exact b) (.fin r) i) := by
    unfold t0 vecSignum
    rw [hdir, hb]
    rfl
  have htd : c.tDelta i = tDelta0 (f32Signum (.fin ((e i - o i) / ℓ))) (.fin ((e i - o i) / ℓ)) (.fin r) := by
    change tDelta0 (f32Signum (rayDir (exact o) (exact e) i)) (rayDir (exact o) (exact e) i) _ = _
    rw [hdir]
  rw [signum_exact] at hst ht htd
  constructor
  · intro h
    rw [if_pos (hz.mpr h)] at hst ht htd
    refine ⟨?_, ?_, ?_⟩
    · unfold RayCtx.s
      rw [hst]
      simp [Scalar.toInt]
    · rw [ht]; simp [tMax0, Scalar.eq, Scalar.lit, Scalar.inf]
    · rw [htd]; simp [tDelta0, Scalar.eq, Scalar.lit, Scalar.inf]
  · intro h
    rw [if_neg (hz.not.mpr h)] at hst ht htd
    by_cases hp : 0 < (e i - o i) / ℓ
    · rw [if_pos hp] at hst ht htd
      have hv : 0 < e i - o i := by
        have := mul_pos hp hℓ
        rwa [div_mul_cancel₀ _ hℓ.ne'] at this
      refine ⟨1, .inl rfl, ?_, ?_, ?_, ?_⟩
      · unfold RayCtx.s
        rw [hst]
        exact ScalarLaws.toInt_one (F := XR) ▸ by simp [Scalar.lit]
      · rw [abs_of_pos hv]; push_cast; ring
      · rw [ht, abs_of_pos hv]
        simp only [tMax0, Scalar.eq, Scalar.lit, pointCoordFromCellCoord, Scalar.ofInt, Scalar.mul,
          Scalar.add, Scalar.sub, Scalar.div, op2]
        norm_num
        field_simp
        ring
      · rw [htd, abs_of_pos hv]
        simp only [tDelta0, Scalar.eq, Scalar.lit, Scalar.div, Scalar.abs, op1, op2]
        norm_num
        rw [abs_div, abs_of_pos hv, abs_of_pos hℓ]
        field_simp
    · rw [if_neg hp] at hst ht htd
      have hv : e i - o i < 0 := by
        rcases lt_trichotomy (e i - o i) 0 with h1 | h1 | h1
        · exact h1
        · exact absurd (by linarith) h
        · exact absurd (div_pos h1 hℓ) hp
      have hv' := hv.ne
      refine ⟨-1, .inr rfl, ?_, ?_, ?_, ?_⟩
      · unfold RayCtx.s
        rw [hst]
        exact ScalarLaws.toInt_neg_one (F := XR) ▸ by simp [Scalar.lit]
      · rw [abs_of_neg hv]; push_cast; ring
      · rw [ht, abs_of_neg hv]
        simp only [tMax0, Scalar.eq, Scalar.lit, pointCoordFromCellCoord, Scalar.ofInt, Scalar.mul,
          Scalar.add, Scalar.sub, Scalar.div, op2]
        norm_num
        field_simp
        ring
      · rw [htd, abs_of_neg hv]
        simp only [tDelta0, Scalar.eq, Scalar.lit, Scalar.div, Scalar.abs, op1, op2]
        norm_num
        rw [abs_div, abs_of_neg hv, abs_of_pos hℓ]
        have : o i - e i ≠ 0 := by linarith
        field_simp
        ring

/-- The whole path of the loop, with the times at which the segment enters the cells. -/
lemma path_exact (hD : D = 2 ∨ D = 3) (hr : 0 < r) {bounds : Bounds D XR} (hb : bounds.min = exact b)
    (ml : XR) (hoff : OffBorders b r e)
    (ho : ∀ i, InIsize (cellFromPoint (exact o) (exact b) (.fin r) i))
    (he : ∀ i, InIsize (cellFromPoint (exact e) (exact b) (.fin r) i))
    (hne : cellFromPoint (exact o) (exact b) (.fin r) ≠ cellFromPoint (exact e) (exact b) (.fin r)) :
    ∃ l, (rayCtx (exact o) (exact e) bounds (.fin r) ml).Path (cellFromPoint (exact o) (exact b) (.fin r))
        (t0 (exact o) (exact e) bounds (.fin r)) l ∧
      Passes b r (onSegment o e) 0 (cellFromPoint (exact o) (exact b) (.fin r) :: l) := by
  set oc := cellFromPoint (exact o) (exact b) (.fin r) with hoc
  set ec := cellFromPoint (exact e) (exact b) (.fin r) with hec
  set c := rayCtx (exact o) (exact e) bounds (.fin r) ml with hc
  have hoe : o ≠ e := by rintro rfl; exact hne rfl
  obtain ⟨ℓ, hℓ, hn⟩ := norm_exact hD hoe
  have hend : c.endCell = ec := by
    change cellFromPoint (exact e) bounds.min (.fin r) = ec
    rw [hb]
  -- position of the origin within its cell, against the direction of the ray
  set w : Fin D → ℝ := fun i => |e i - o i| with hw
  set A : Fin D → ℝ := fun i => (c.s i : ℝ) * (b i + oc i * r - o i) with hA
  have hax := fun i => axis_exact (r := r) (o := o) (e := e) hb (ml := ml) hℓ hn i
  have hobox := fun i => inBox_cell hr o b i
  have hebox := fun i => inside_cell hr hoff i
  simp only [← hoc, ← hec] at hobox hebox
  have hs0 : ∀ i, e i = o i → c.s i = 0 := fun i h => ((hax i).1 h).1
  have hs1 : ∀ i, e i ≠ o i → (c.s i = 1 ∨ c.s i = -1) ∧ (c.s i : ℝ) * (e i - o i) = w i := by
    intro i h
    obtain ⟨s, h1, h2, h3, -⟩ := (hax i).2 h
    rw [h2]
    exact ⟨h1, h3⟩
  have hwpos : ∀ i, e i ≠ o i → 0 < w i := fun i h => abs_pos.mpr (sub_ne_zero.mpr h)
  -- the number of steps
  have hstep0 : ∀ i, e i = o i → ec i = oc i := by
    intro i h
    rw [hec, hoc, cell_exact, cell_exact, h]
  have hahead : ∀ i, 0 ≤ c.s i * (ec i - oc i) := by
    intro i
    by_cases h : e i = o i
    · rw [hs0 i h, zero_mul]
    · obtain ⟨h1, h2⟩ := hs1 i h
      have h3 := hwpos i h
      have h4 := abs_le.mp (hobox i)
      have h5 := abs_lt.mp (hebox i)
      rcases h1 with h1 | h1
      · rw [h1] at h2 ⊢
        push_cast at h2
        rw [one_mul]
        by_contra hlt
        have : ec i - oc i ≤ -1 := by omega
        have : (ec i : ℝ) - oc i ≤ -1 := by exact_mod_cast this
        nlinarith
      · rw [h1] at h2 ⊢
        push_cast at h2
        by_contra hlt
        have : 1 ≤ ec i - oc i := by omega
        have : (1 : ℝ) ≤ ec i - oc i := by exact_mod_cast this
        nlinarith
  set N : Fin D → ℕ := fun i => (c.s i * (ec i - oc i)).toNat with hN
  have hNz : ∀ i, (N i : ℤ) = c.s i * (ec i - oc i) := fun i => Int.toNat_of_nonneg (hahead i)
  have hNr : ∀ i, (N i : ℝ) = c.s i * (ec i - oc i) := fun i => by exact_mod_cast congrArg (Int.cast (R := ℝ)) (hNz i)
  have hcellN : c.cellAt oc N = ec := by
    funext i
    unfold RayCtx.cellAt
    rw [hNz]
    by_cases h : e i = o i
    · rw [hs0 i h, hstep0 i h]; ring
    · rcases (hs1 i h).1 with h1 | h1 <;> rw [h1] <;> ring
  have hAle : ∀ i, e i ≠ o i → |A i| ≤ r / 2 := by
    intro i h
    have h4 := abs_le.mp (hobox i)
    rw [abs_le]
    rcases (hs1 i h).1 with h1 | h1 <;> simp only [hA, h1] <;> push_cast <;> constructor <;> linarith [h4.1, h4.2]
  -- where the end of the ray lies
  have hNlo : ∀ i, e i ≠ o i → A i + (N i - 1 / 2) * r < w i ∧ w i < A i + (N i + 1 / 2) * r := by
    intro i h
    obtain ⟨h1, h2⟩ := hs1 i h
    have h5 := abs_lt.mp (hebox i)
    rw [hNr, ← h2]
    rcases h1 with h1 | h1 <;> simp only [hA, h1] <;> push_cast <;> constructor <;> nlinarith [h5.1, h5.2]
  -- `t_max` as a function of the steps made
  set T : Fin D → ℕ → XR := fun i k =>
    if e i = o i then .inf else .fin (ℓ / w i * (A i + (k + 1 / 2) * r)) with hTdef
  have hT : ∀ i k, T i (k + 1) = T i k +. c.tDelta i := by
    intro i k
    by_cases h : e i = o i
    · simp only [hTdef, if_pos h]
      rw [((hax i).1 h).2.2]
      rfl
    · simp only [hTdef, if_neg h]
      obtain ⟨s, -, -, -, -, h5⟩ := (hax i).2 h
      rw [h5]
      simp only [Scalar.add, op2]
      congr 1
      push_cast
      ring
  have hT0 : t0 (exact o) (exact e) bounds (.fin r) = fun i => T i 0 := by
    funext i
    by_cases h : e i = o i
    · simp only [hTdef, if_pos h]
      exact ((hax i).1 h).2.1
    · simp only [hTdef, if_neg h]
      obtain ⟨s, -, h2, -, h4, -⟩ := (hax i).2 h
      have h2' : c.s i = s := h2
      rw [h4]
      congr 1
      simp only [hA, h2', hw, ← hoc]
      push_cast
      ring
  -- crossing times as fractions of the segment
  have hcross : ∀ i j (k l : ℕ), e i ≠ o i → e j ≠ o j →
      (Scalar.lt (T i k) (T j l) = false ↔ (A j + (l + 1 / 2) * r) / w j ≤ (A i + (k + 1 / 2) * r) / w i) := by
    intro i j k l hi hj
    simp only [hTdef, if_neg hi, if_neg hj, Scalar.lt, decide_eq_false_iff_not, not_lt]
    rw [div_mul_eq_mul_div, div_mul_eq_mul_div, mul_div_assoc, mul_div_assoc, mul_le_mul_iff_right₀ hℓ]
  have hinf : ∀ i j (k l : ℕ), e i ≠ o i → e j = o j → Scalar.lt (T i k) (T j l) = true := by
    intro i j k l hi hj
    simp only [hTdef, if_neg hi, if_pos hj, Scalar.lt]
  -- selection
  have hselect : ∀ k : Fin D → ℕ, (∀ i, k i ≤ N i) → k ≠ N → ∀ d, selDim (fun i => T i (k i)) = some d →
      e d ≠ o d ∧ k d < N d ∧ (A d + (k d + 1 / 2) * r) / w d < 1 ∧
      ∀ i, e i ≠ o i → (A d + (k d + 1 / 2) * r) / w d ≤ (A i + (k i + 1 / 2) * r) / w i := by
    intro k hk hkN d hd
    have hmin := selDim_min hd (fun i j => XR.lt_asymm _ _) (fun i j l => XR.not_lt_trans _ _ _)
    obtain ⟨j, hj⟩ : ∃ j, k j < N j := by
      by_contra hcon
      push Not at hcon
      exact hkN (funext fun i => le_antisymm (hk i) (hcon i))
    have hjm : e j ≠ o j := by
      intro h
      have := hNz j
      rw [hs0 j h, zero_mul] at this
      omega
    have hdm : e d ≠ o d := by
      intro h
      have := hmin j
      rw [hinf j d _ _ hjm h] at this
      cases this
    have hall : ∀ i, e i ≠ o i → (A d + (k d + 1 / 2) * r) / w d ≤ (A i + (k i + 1 / 2) * r) / w i :=
      fun i hi => (hcross i d _ _ hi hdm).mp (hmin i)
    have hj1 : (A j + (k j + 1 / 2) * r) / w j < 1 := by
      rw [div_lt_one (hwpos j hjm)]
      refine lt_of_le_of_lt ?_ (hNlo j hjm).1
      have : (k j : ℝ) + 1 ≤ N j := by exact_mod_cast hj
      nlinarith
    have hd1 := lt_of_le_of_lt (hall j hjm) hj1
    refine ⟨hdm, ?_, hd1, hall⟩
    by_contra hcon
    have : k d = N d := le_antisymm (hk d) (not_lt.mp hcon)
    rw [this, div_lt_one (hwpos d hdm)] at hd1
    exact absurd hd1 (not_lt.mpr (hNlo d hdm).2.le)
  -- the time spent in a cell
  let Inv : (Fin D → ℕ) → ℝ → Prop := fun k u => ∀ i, e i ≠ o i →
    A i + (k i - 1 / 2) * r ≤ u * w i ∧ u * w i ≤ A i + (k i + 1 / 2) * r
  have hbox : ∀ (k : Fin D → ℕ) (t : ℝ), Inv k t → InCellBox b r (c.cellAt oc k) (onSegment o e t) := by
    intro k t hI i
    simp only [onSegment, RayCtx.cellAt]
    by_cases h : e i = o i
    · rw [hs0 i h, h]
      simpa using hobox i
    · obtain ⟨h1, h2⟩ := hs1 i h
      obtain ⟨h3, h4⟩ := hI i h
      rw [← h2] at h3 h4
      rw [abs_le]
      rcases h1 with h1 | h1 <;> simp only [hA, h1] at h3 h4 ⊢ <;> push_cast at h3 h4 ⊢ <;>
        constructor <;> nlinarith
  have hnext : ∀ (k : Fin D → ℕ) (d : Fin D) (u : ℝ), (∀ i, k i ≤ N i) → k ≠ N →
      selDim (fun i => T i (k i)) = some d → Inv k u →
      let v := (A d + (k d + 1 / 2) * r) / w d
      u ≤ v ∧ v < 1 ∧ (∀ t, u ≤ t → t ≤ v → InCellBox b r (c.cellAt oc k) (onSegment o e t)) ∧
        Inv (Function.update k d (k d + 1)) v := by
    intro k d u hk hkN hd hI v
    obtain ⟨hdm, hlt, hv1, hmin⟩ := hselect k hk hkN d hd
    have huv : u ≤ v := (le_div_iff₀ (hwpos d hdm)).mpr (hI d hdm).2
    refine ⟨huv, hv1, ?_, ?_⟩
    · intro t h1 h2
      refine hbox k t fun i hi => ⟨(hI i hi).1.trans ?_, ?_⟩
      · exact mul_le_mul_of_nonneg_right h1 (hwpos i hi).le
      · exact (le_div_iff₀ (hwpos i hi)).mp (h2.trans (hmin i hi))
    · intro i hi
      by_cases hid : i = d
      · subst hid
        rw [Function.update_self]
        have : v * w i = A i + (k i + 1 / 2) * r := div_mul_cancel₀ _ (hwpos i hi).ne'
        rw [this]
        push_cast
        constructor <;> nlinarith
      · rw [Function.update_of_ne hid]
        refine ⟨(hI i hi).1.trans (mul_le_mul_of_nonneg_right huv (hwpos i hi).le), ?_⟩
        exact (le_div_iff₀ (hwpos i hi)).mp (hmin i hi)
  have hk0N : (fun _ => 0 : Fin D → ℕ) ≠ N := by
    intro h
    apply hne
    rw [← hcellN, ← h]
    funext i
    simp [RayCtx.cellAt]
  obtain ⟨l, hl, hQ⟩ := c.exists_path (a := oc) (T := T) (N := N)
    (Q := fun k l => ∀ u, Inv k u → Passes b r (onSegment o e) u (c.cellAt oc k :: l))
    (fun i => by
      by_cases h : e i = o i
      · right; right
        refine ⟨hs0 i h, ?_⟩
        have := hNz i
        rw [hs0 i h, zero_mul] at this
        exact_mod_cast this
      · rcases (hs1 i h).1 with h1 | h1
        · exact .inl h1
        · exact .inr (.inl h1))
    hT (hend.trans hcellN.symm) ho (by rw [hend]; exact he)
    (fun k hk hkN => by
      obtain ⟨d, hd⟩ := selDim_some hD (fun i => T i (k i))
      exact ⟨d, hd, (hselect k hk hkN d hd).2.1⟩)
    (fun k d hk hd hfin u hI => by
      have hkN : k ≠ N := by
        intro h
        have := congrFun hfin d
        rw [Function.update_self, h] at this
        omega
      obtain ⟨h1, h2, h3, h4⟩ := hnext k d u hk hkN hd hI
      refine .next h1 h3 (.last h2.le fun t ht1 ht2 => ?_)
      rw [hend, ← hcellN]
      rw [hfin] at h4
      refine hbox N t fun i hi => ⟨(h4 i hi).1.trans (mul_le_mul_of_nonneg_right ht1 (hwpos i hi).le), ?_⟩
      refine le_trans ?_ (hNlo i hi).2.le
      have := hwpos i hi
      nlinarith)
    (fun k d l hk hlt hd hQ u hI => by
      have hkN : k ≠ N := by
        rintro rfl
        exact lt_irrefl _ hlt
      obtain ⟨h1, h2, h3, h4⟩ := hnext k d u hk hkN hd hI
      exact .next h1 h3 (hQ _ h4))
    (fun _ => 0) (fun _ => Nat.zero_le _) hk0N
  have hc0 : c.cellAt oc (fun _ => 0) = oc := by
    funext i
    simp [RayCtx.cellAt]
  rw [hc0] at hl
  refine ⟨l, ?_, ?_⟩
  · rw [hT0]; exact hl
  · have := hQ 0 fun i hi => by
      have := abs_le.mp (hAle i hi)
      push_cast
      constructor <;> nlinarith [this.1, this.2]
    rwa [hc0] at this

/-- The path does not depend on the range limit. -/
lemma path_limit {F : Type} [Scalar F] {origin end_ : Point D F} {bounds : Bounds D F} {res ml ml' : F}
    {a : Cell D} {t : Point D F} {l : List (Cell D)}
    (h : (rayCtx origin end_ bounds res ml).Path a t l) : (rayCtx origin end_ bounds res ml').Path a t l := by
  induction h with
  | hit h1 h2 h3 => exact .hit h1 h2 h3
  | step h1 h2 h3 _ ih => exact .step h1 h2 h3 ih

/-- Without a positive limit nothing is too far. -/
lemma not_tooFar {F : Type} [Scalar F] {origin end_ : Point D F} {bounds : Bounds D F} {res ml : F}
    {x : Cell D} (h : (Scalar.lt (lit 0) ml) = false ∨ ¬ Beyond origin bounds res ml x) :
    (rayCtx origin end_ bounds res ml).tooFar x = false := by
  rw [Bool.eq_false_iff]
  intro hf
  unfold RayCtx.tooFar at hf
  rw [Bool.and_eq_true] at hf
  rcases h with h | h
  · have : (Scalar.lt (lit 0) ml) = true := hf.1
    rw [h] at this; cases this
  · exact h hf.2

lemma tooFar_pos {F : Type} [Scalar F] {c : RayCtx D F} {x : Cell D} (h : c.tooFar x = true) :
    Scalar.lt (lit 0) c.maxLen = true := by
  unfold RayCtx.tooFar at h
  rw [Bool.and_eq_true] at h
  exact h.1

lemma isTooFar {F : Type} [Scalar F] {origin end_ : Point D F} {bounds : Bounds D F} {res ml : F}
    {x : Cell D} (h : (Scalar.lt (lit 0) ml) = true) (hb : Beyond origin bounds res ml x) :
    (rayCtx origin end_ bounds res ml).tooFar x = true := by
  unfold RayCtx.tooFar
  rw [Bool.and_eq_true]
  exact ⟨h, hb⟩

/-- C23: in exact arithmetic, if the end point is not on a cell border, there is a list of cells from the
cell of the origin to the cell of the end point which the segment passes in this order, and `cast_ray`
follows it: without range limit it returns all cells but the last, and the last; with a limit it stops
before the first cell beyond the limit. -/
theorem C23_follows_segment (hD : D = 2 ∨ D = 3) (hr : 0 < r) {bounds : Bounds D XR}
    (hb : bounds.min = exact b) (hoff : OffBorders b r e)
    (ho : ∀ i, InIsize (cellFromPoint (exact o) (exact b) (.fin r) i))
    (he : ∀ i, InIsize (cellFromPoint (exact e) (exact b) (.fin r) i)) :
    ∃ (cells : List (Cell D)) (hc : cells ≠ []),
      cells.head hc = cellFromPoint (exact o) (exact b) (.fin r) ∧
      cells.getLast hc = cellFromPoint (exact e) (exact b) (.fin r) ∧
      Passes b r (onSegment o e) 0 cells ∧
      (∀ ml, (Scalar.lt (lit 0) ml = false ∨
          ∀ x ∈ cells.tail.dropLast, ¬ Beyond (exact o) bounds (.fin r) ml x) →
        Casts (exact o) (exact e) bounds (.fin r) ml cells.dropLast (some (cells.getLast hc))) ∧
      (∀ ml pre x post, cells = pre ++ x :: post → pre ≠ [] → post ≠ [] → Scalar.lt (lit 0) ml = true →
        (∀ y ∈ pre.tail, ¬ Beyond (exact o) bounds (.fin r) ml y) → Beyond (exact o) bounds (.fin r) ml x →
        Casts (exact o) (exact e) bounds (.fin r) ml pre none) := by
  by_cases hne : cellFromPoint (exact o) (exact b) (.fin r) = cellFromPoint (exact e) (exact b) (.fin r)
  · refine ⟨[cellFromPoint (exact e) (exact b) (.fin r)], by simp, by simp [hne], by simp, ?_, ?_, ?_⟩
    · refine .last (by norm_num) fun t h0 h1 i => ?_
      have h2 := inBox_cell hr o b i
      have h3 := inBox_cell hr e b i
      rw [hne] at h2
      rw [abs_le] at h2 h3 ⊢
      simp only [onSegment]
      constructor <;> nlinarith
    · intro ml _
      refine ⟨0, ?_⟩
      unfold castRay
      rw [if_pos hD]
      dsimp only
      rw [hb, if_pos hne]
      rfl
    · intro ml pre x post h h1 h2
      cases pre with
      | nil => exact absurd rfl h1
      | cons y pre =>
        have := congrArg List.length h
        simp at this
  · obtain ⟨l, hl, hp⟩ := path_exact hD hr hb (.fin 0) hoff ho he hne
    have hend : (rayCtx (exact o) (exact e) bounds (.fin r) (.fin 0)).endCell
        = cellFromPoint (exact e) (exact b) (.fin r) := by
      change cellFromPoint (exact e) bounds.min (.fin r) = _
      rw [hb]
    have hlast := hl.getLast
    rw [hend] at hlast
    have hne' : cellFromPoint (exact o) bounds.min (.fin r) ≠ cellFromPoint (exact e) bounds.min (.fin r) := by
      rw [hb]; exact hne
    refine ⟨cellFromPoint (exact o) (exact b) (.fin r) :: l, by simp, rfl, ?_, hp, ?_, ?_⟩
    · rw [List.getLast_cons hl.ne_nil]; exact hlast
    · intro ml hml
      have h1 := (path_limit (ml' := ml) hl).castLoop_near (fun x hx => not_tooFar (by
        rcases hml with h | h
        · exact .inl h
        · exact .inr (h x (by simpa using hx))))
      rw [← hb] at h1
      have := castRay_path hD hne' h1
      rw [List.getLast_cons hl.ne_nil, List.dropLast_cons_of_ne_nil hl.ne_nil, hlast]
      refine ⟨l.length, ?_⟩
      rw [this, ← hend, hb]
      rfl
    · intro ml pre x post h h1 h2 h3 h4 h5
      cases pre with
      | nil => exact absurd rfl h1
      | cons y pre =>
        simp only [List.cons_append, List.cons.injEq] at h
        obtain ⟨rfl, h⟩ := h
        have h6 := (path_limit (ml' := ml) hl).castLoop_far h h2
          (fun y hy => not_tooFar (.inr (h4 y hy))) (isTooFar h3 h5)
        rw [← hb] at h6
        have := castRay_path hD hne' h6
        refine ⟨l.length, ?_⟩
        rw [this, hb]

lemma _root_.Verif.Spec.Passes.meets {p : ℝ → Fin D → ℝ} {u : ℝ} {cells : List (Cell D)}
    (h : Passes b r p u cells) : u ≤ 1 ∧ ∀ x ∈ cells, ∃ t, u ≤ t ∧ t ≤ 1 ∧ InCellBox b r x (p t) := by
  induction h with
  | last h1 h2 =>
    refine ⟨h1, fun x hx => ?_⟩
    rw [List.mem_singleton] at hx
    subst hx
    exact ⟨_, le_rfl, h1, h2 _ le_rfl h1⟩
  | next h1 h2 h3 ih =>
    refine ⟨h1.trans ih.1, fun x hx => ?_⟩
    rcases List.mem_cons.mp hx with rfl | hx
    · exact ⟨_, le_rfl, h1.trans ih.1, h2 _ le_rfl h1⟩
    · obtain ⟨t, h4, h5⟩ := ih.2 x hx
      exact ⟨t, h1.trans h4, h5⟩

lemma _root_.Verif.Spec.Passes.covers {p : ℝ → Fin D → ℝ} {u : ℝ} {cells : List (Cell D)}
    (h : Passes b r p u cells) {t : ℝ} (hu : u ≤ t) (h1 : t ≤ 1) : ∃ x ∈ cells, InCellBox b r x (p t) := by
  induction h with
  | last _ h2 => exact ⟨_, List.mem_singleton_self _, h2 t hu h1⟩
  | @next u v x y l _ h2 h3 ih =>
    by_cases htv : t ≤ v
    · exact ⟨x, List.mem_cons_self, h2 t hu htv⟩
    · obtain ⟨z, hz, hz'⟩ := ih (not_le.mp htv).le
      exact ⟨z, List.mem_cons_of_mem _ hz, hz'⟩

/-- C23, in other words: without a range limit `cast_ray` returns the end cell; every ray cell touches the
segment, and every point of the segment lies in a ray cell or in the end cell. -/
theorem C23_reaches_end (hD : D = 2 ∨ D = 3) (hr : 0 < r) {bounds : Bounds D XR}
    (hb : bounds.min = exact b) (hoff : OffBorders b r e)
    (ho : ∀ i, InIsize (cellFromPoint (exact o) (exact b) (.fin r) i))
    (he : ∀ i, InIsize (cellFromPoint (exact e) (exact b) (.fin r) i)) {ml : XR}
    (hml : Scalar.lt (lit 0) ml = false) :
    ∃ ray, Casts (exact o) (exact e) bounds (.fin r) ml ray
        (some (cellFromPoint (exact e) (exact b) (.fin r))) ∧
      (∀ x ∈ ray, ∃ t, 0 ≤ t ∧ t ≤ 1 ∧ InCellBox b r x (onSegment o e t)) ∧
      ∀ t, 0 ≤ t → t ≤ 1 → ∃ x, (x ∈ ray ∨ x = cellFromPoint (exact e) (exact b) (.fin r)) ∧
        InCellBox b r x (onSegment o e t) := by
  obtain ⟨cells, hc, -, h2, h3, h4, -⟩ := C23_follows_segment hD hr hb hoff ho he
  have h5 := h4 ml (.inl hml)
  rw [h2] at h5
  refine ⟨_, h5, fun x hx => h3.meets.2 x (List.mem_of_mem_dropLast hx), fun t ht0 ht1 => ?_⟩
  obtain ⟨x, hx, hx'⟩ := h3.covers ht0 ht1
  refine ⟨x, ?_, hx'⟩
  rw [← List.dropLast_append_getLast hc, h2] at hx
  simpa using hx

/-- C22 in exact arithmetic: `cast_ray` returns for every range limit, if the end point is not on a cell
border. -/
theorem C22_exact_returns (hD : D = 2 ∨ D = 3) (hr : 0 < r) {bounds : Bounds D XR}
    (hb : bounds.min = exact b) (hoff : OffBorders b r e)
    (ho : ∀ i, InIsize (cellFromPoint (exact o) (exact b) (.fin r) i))
    (he : ∀ i, InIsize (cellFromPoint (exact e) (exact b) (.fin r) i)) (ml : XR) :
    ∃ ray x, Casts (exact o) (exact e) bounds (.fin r) ml ray x := by
  obtain ⟨cells, hc, -, -, -, h4, h5⟩ := C23_follows_segment hD hr hb hoff ho he
  by_cases hml : Scalar.lt (lit 0) ml = false
  · exact ⟨_, _, h4 ml (.inl hml)⟩
  · rw [Bool.not_eq_false] at hml
    by_cases hall : ∀ x ∈ cells.tail.dropLast, ¬ Beyond (exact o) bounds (.fin r) ml x
    · exact ⟨_, _, h4 ml (.inr hall)⟩
    · -- the first cell beyond the limit
      have key : ∀ l : List (Cell D), (¬ ∀ x ∈ l, ¬ Beyond (exact o) bounds (.fin r) ml x) →
          ∃ pre x post, l = pre ++ x :: post ∧ (∀ y ∈ pre, ¬ Beyond (exact o) bounds (.fin r) ml y) ∧
            Beyond (exact o) bounds (.fin r) ml x := by
        intro l
        induction l with
        | nil => intro h; exact absurd (fun x hx => by simp at hx) h
        | cons a l ih =>
          intro h
          by_cases ha : Beyond (exact o) bounds (.fin r) ml a
          · exact ⟨[], a, l, rfl, by simp, ha⟩
          · obtain ⟨pre, x, post, h1, h2, h3⟩ := ih fun h' => h fun y hy => by
              rcases List.mem_cons.mp hy with rfl | hy
              · exact ha
              · exact h' y hy
            refine ⟨a :: pre, x, post, by rw [h1]; rfl, fun y hy => ?_, h3⟩
            rcases List.mem_cons.mp hy with rfl | hy
            · exact ha
            · exact h2 y hy
      obtain ⟨pre, x, post, h1, h2, h3⟩ := key _ hall
      cases cells with
      | nil => exact absurd rfl hc
      | cons a l =>
        simp only [List.tail_cons] at h1
        have hl : l ≠ [] := by rintro rfl; simp at h1
        refine ⟨_, _, h5 ml (a :: pre) x (post ++ [l.getLast hl]) ?_ (by simp) (by simp) hml h2 h3⟩
        conv_lhs => rw [← List.dropLast_append_getLast hl, h1]
        simp

/-- Points meeting the hypotheses: from (0, 0) to (2, -13/4), cells of side 1. -/
example : OffBorders (fun _ => 0) 1 (![2, -13 / 4] : Fin 2 → ℝ) ∧
    (∀ i, InIsize (cellFromPoint (exact (fun _ => 0 : Fin 2 → ℝ)) (exact fun _ => 0) (.fin 1) i)) ∧
    ∀ i, InIsize (cellFromPoint (exact (![2, -13 / 4] : Fin 2 → ℝ)) (exact fun _ => 0) (.fin 1) i) := by
  have h1 : ⌊(2 : ℝ) + 1 / 2⌋ = 2 := by rw [Int.floor_eq_iff]; norm_num
  have h2 : ⌊-(-13 / 4 : ℝ) + 1 / 2⌋ = 3 := by rw [Int.floor_eq_iff]; norm_num
  refine ⟨fun i k h => ?_, fun i => ?_, fun i => ?_⟩
  · fin_cases i
    · have h3 : (2 : ℝ) * 2 = 2 * k + 1 := by simp at h; linarith
      have : (2 : ℤ) * 2 = 2 * k + 1 := by exact_mod_cast h3
      omega
    · have h3 : (-13 : ℝ) = 4 * k + 2 := by simp at h; linarith
      have : (-13 : ℤ) = 4 * k + 2 := by exact_mod_cast h3
      omega
  · rw [cell_exact]
    simp [roundR, InIsize, isizeMin, isizeMax]
    norm_num
  · rw [cell_exact]
    fin_cases i
    · simp [roundR, InIsize, isizeMin, isizeMax]
      norm_num [h1]
    · simp [roundR, InIsize, isizeMin, isizeMax]
      norm_num [h2]

/-! ## Rays that end on a cell border -/

/-- A loop that has passed the end cell does not return, without a range limit. -/
lemma castLoop_passed {F : Type} [Scalar F] [ScalarLaws F] {c : RayCtx D F} (hg : c.Good) {cell : Cell D}
    {t : Point D F} (ht : c.GoodT t) (hml : Scalar.lt (lit 0) c.maxLen = false) (hp : ¬ c.Ahead cell c.endCell)
    (fuel : ℕ) (r) : castLoop c fuel cell t ≠ .ok r := by
  intro h
  obtain ⟨rest, x⟩ := r
  have hnf : ∀ y, c.tooFar y = false := by
    intro y
    unfold RayCtx.tooFar
    rw [show (lit 0 <. c.maxLen) = false from hml]
    rfl
  have hne : cell ≠ c.endCell := by
    intro h'
    exact hp (h' ▸ RayCtx.Ahead.refl _)
  rcases castLoop_trace hg ht hne h with h1 | ⟨-, -, h1⟩
  · rcases h1.end_eq with rfl | rfl
    · obtain ⟨y, -, -, h2⟩ := h1.last_none
      rw [hnf] at h2; cases h2
    · exact hp (h1.end_ahead _ List.mem_cons_self)
  · rw [hnf] at h1; cases h1

/-- C22, C23: an end point on a cell border can be missed. From (0, 1) to (1/2, 1/2), cells of side 1, both
next borders are reached at the same time, at the end point; the tie goes to y, which leaves the row of
the end cell (1, 1). Without a range limit `cast_ray` then never returns. -/
theorem C22_border_missed (ray : List (Cell 2)) (x : Option (Cell 2)) :
    ¬ Casts (![Fp.lit 0, Fp.lit 1] : Point 2 F32) ![Fp.lit (1 / 2), Fp.lit (1 / 2)]
      ⟨![Fp.lit 0, Fp.lit 0], ![Fp.lit 9, Fp.lit 9]⟩ (Fp.lit 1) (Fp.lit 0) ray x := by
  rintro ⟨fuel, h⟩
  set o : Point 2 F32 := ![Fp.lit 0, Fp.lit 1] with ho
  set e : Point 2 F32 := ![Fp.lit (1 / 2), Fp.lit (1 / 2)] with he
  set bd : Bounds 2 F32 := ⟨![Fp.lit 0, Fp.lit 0], ![Fp.lit 9, Fp.lit 9]⟩ with hbd
  have hgood := rayCtx_good o e bd (Fp.lit 1) (Fp.lit 0)
  have hne : ¬ cellFromPoint o bd.min (Fp.lit 1) = cellFromPoint e bd.min (Fp.lit 1) := by decide +kernel
  unfold castRay at h
  rw [if_pos (.inl rfl)] at h
  dsimp only at h
  rw [if_neg hne, M.bind_eq_ok] at h
  obtain ⟨⟨rest, y⟩, h, -⟩ := h
  have ht : (rayCtx o e bd (Fp.lit 1) (Fp.lit 0)).GoodT (t0 o e bd (Fp.lit 1)) := t0_good _ _ _ _ _
  cases fuel with
  | zero => simp [castLoop] at h
  | succ fuel =>
    have hsel : selDim (t0 o e bd (Fp.lit 1)) = some 1 := by decide +kernel
    change castLoop (rayCtx o e bd (Fp.lit 1) (Fp.lit 0)) (fuel + 1) (cellFromPoint o bd.min (Fp.lit 1))
      (t0 o e bd (Fp.lit 1)) = _ at h
    simp only [castLoop, hsel, M.bind_eq_ok] at h
    obtain ⟨z, hz, h⟩ := h
    rw [isz_ok] at hz
    obtain ⟨rfl, -⟩ := hz
    have hs1 : (rayCtx o e bd (Fp.lit 1) (Fp.lit 0)).s 1 = -1 := by decide +kernel
    have hcell : cellFromPoint o bd.min (Fp.lit 1) 1 + toInt ((rayCtx o e bd (Fp.lit 1) (Fp.lit 0)).step 1)
        = 0 := by decide +kernel
    have hec : (rayCtx o e bd (Fp.lit 1) (Fp.lit 0)).endCell 1 = 1 := by decide +kernel
    have hne2 : ¬ Function.update (cellFromPoint o bd.min (Fp.lit 1)) 1
        (cellFromPoint o bd.min (Fp.lit 1) 1 + toInt ((rayCtx o e bd (Fp.lit 1) (Fp.lit 0)).step 1))
        = (rayCtx o e bd (Fp.lit 1) (Fp.lit 0)).endCell := by
      intro h'
      have := congrFun h' 1
      rw [Function.update_self, hcell, hec] at this
      cases this
    rw [if_neg hne2] at h
    by_cases hf : (rayCtx o e bd (Fp.lit 1) (Fp.lit 0)).tooFar (Function.update
        (cellFromPoint o bd.min (Fp.lit 1)) 1 (cellFromPoint o bd.min (Fp.lit 1) 1 +
          toInt ((rayCtx o e bd (Fp.lit 1) (Fp.lit 0)).step 1))) = true
    · exact absurd (tooFar_pos hf) (by decide +kernel)
    · rw [if_neg hf, M.bind_eq_ok] at h
      obtain ⟨r', h1, -⟩ := h
      refine castLoop_passed hgood ?_ (by decide +kernel) ?_ fuel r' h1
      · intro i hi
        have hi1 : i ≠ 1 := by rintro rfl; rw [hs1] at hi; cases hi
        rw [Function.update_of_ne hi1]
        exact ht i hi
      · intro ha
        have := (ha 1).1
        rw [hs1, hec, Function.update_self, hcell] at this
        omega

end Props
end Verif
