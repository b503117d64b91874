import Verif.Props.Expand
import Verif.Props.Bounds

/-!
# C62: the predecessor of `expand_bounds`
-/

namespace Verif.Props
open Spec

variable {A : Type} {D : ℕ} {r : F32} {ρ : ℚ}

lemma _root_.Verif.Spec.Near.inRange {cb : CellBounds D} (h : Near cb) : InRange cb :=
  fun i => ⟨(h.min_le i).trans (by norm_num), (h.max_le i).trans (by norm_num)⟩

/-- The points of two cell corners are ordered like the corners, at a distance. -/
lemma corner_gap {a b : ℤ} {x y : ℚ} (hpos : 0 < ρ) (hab : a < b)
    (ex : |x - a * ρ| ≤ (2 ^ 20 / 2 ^ 24 + 1 / 2 ^ 50) * ρ)
    (ey : |y - b * ρ| ≤ (2 ^ 20 / 2 ^ 24 + 1 / 2 ^ 50) * ρ) : x + 3 / 4 * ρ ≤ y := by
  have h1 : ((a : ℚ) + 1) * ρ ≤ b * ρ := by
    apply mul_le_mul_of_nonneg_right _ hpos.le
    exact_mod_cast hab
  rw [abs_le] at ex ey
  norm_num at ex ey
  linarith [ex.2, ey.1]

lemma corner_le {a b : ℤ} {x y : F32} {X Y : ℚ} (hr : Res r ρ)
    (hx : x = pointCoordFromCellCoord a (Fp.lit 0) r) (hy : y = pointCoordFromCellCoord b (Fp.lit 0) r)
    (ix : x.Is X) (iy : y.Is Y)
    (ex : |X - a * ρ| ≤ (2 ^ 20 / 2 ^ 24 + 1 / 2 ^ 50) * ρ)
    (ey : |Y - b * ρ| ≤ (2 ^ 20 / 2 ^ 24 + 1 / 2 ^ 50) * ρ) (hab : a ≤ b) : X ≤ Y := by
  rcases hab.lt_or_eq with h | h
  · have := corner_gap hr.pos h ex ey
    have := hr.pos
    linarith
  · subst h
    rw [← hx] at hy
    subst hy
    exact (ix.unique iy).le

/-- The common part of two boxes. -/
def meet (a b : CellBounds D) : CellBounds D := ⟨fun i => max (a.min i) (b.min i), fun i => min (a.max i) (b.max i)⟩

lemma overlap_corners {f t : CellBounds D} (hr : Res r ρ) (hlo : 1 / 2 ^ 20 ≤ ρ) (hf : Near f) (ht : Near t)
    (h : ∀ i, (meet f t).min i < (meet f t).max i) :
    let ov := (Bounds.fromCellBounds f r).overlapping (Bounds.fromCellBounds t r)
    ∀ i, (∃ x, (ov.min i).Is x ∧ |x - (meet f t).min i * ρ| ≤ (2 ^ 20 / 2 ^ 24 + 1 / 2 ^ 50) * ρ) ∧
      ∃ y, (ov.max i).Is y ∧ |y - (meet f t).max i * ρ| ≤ (2 ^ 20 / 2 ^ 24 + 1 / 2 ^ 50) * ρ := by
  intro ov
  have hpos := hr.pos
  choose fa ifa efa using fun i => pointCoord_zero hr (hf.inRange i).1
  choose fb ifb efb using fun i => pointCoord_zero hr (hf.inRange i).2
  choose ta ita eta using fun i => pointCoord_zero hr (ht.inRange i).1
  choose tb itb etb using fun i => pointCoord_zero hr (ht.inRange i).2
  have emin : ∀ i, |max (fa i) (ta i) - (meet f t).min i * ρ| ≤ (2 ^ 20 / 2 ^ 24 + 1 / 2 ^ 50) * ρ := by
    intro i
    change |_ - ((max (f.min i) (t.min i) : ℤ) : ℚ) * ρ| ≤ _
    rcases le_total (f.min i) (t.min i) with hh | hh
    · rw [max_eq_right hh, max_eq_right (corner_le hr rfl rfl (ifa i) (ita i) (efa i) (eta i) hh)]
      exact eta i
    · rw [max_eq_left hh, max_eq_left (corner_le hr rfl rfl (ita i) (ifa i) (eta i) (efa i) hh)]
      exact efa i
  have emax : ∀ i, |min (fb i) (tb i) - (meet f t).max i * ρ| ≤ (2 ^ 20 / 2 ^ 24 + 1 / 2 ^ 50) * ρ := by
    intro i
    change |_ - ((min (f.max i) (t.max i) : ℤ) : ℚ) * ρ| ≤ _
    rcases le_total (f.max i) (t.max i) with hh | hh
    · rw [min_eq_left hh, min_eq_left (corner_le hr rfl rfl (ifb i) (itb i) (efb i) (etb i) hh)]
      exact efb i
    · rw [min_eq_right hh, min_eq_right (corner_le hr rfl rfl (itb i) (ifb i) (etb i) (efb i) hh)]
      exact etb i
  have bmin : ∀ i, |max (fa i) (ta i)| ≤ (2 ^ 19 + 1) * ρ := by
    intro i
    have h1 : |(meet f t).min i| ≤ 2 ^ 19 := by
      have := hf.min_le i; have := ht.min_le i
      change |max (f.min i) (t.min i)| ≤ _
      rcases max_choice (f.min i) (t.min i) with hh | hh <;> rw [hh] <;> assumption
    have h2 : |((meet f t).min i : ℚ) * ρ| ≤ 2 ^ 19 * ρ := by
      rw [abs_mul, abs_of_pos hpos]
      apply mul_le_mul_of_nonneg_right _ hpos.le
      exact_mod_cast h1
    have h3 := abs_sub_abs_le_abs_sub (max (fa i) (ta i)) ((meet f t).min i * ρ)
    have h4 := emin i
    norm_num at h4
    linarith
  have bmax : ∀ i, |min (fb i) (tb i)| ≤ (2 ^ 19 + 1) * ρ := by
    intro i
    have h1 : |(meet f t).max i| ≤ 2 ^ 19 := by
      have := hf.max_le i; have := ht.max_le i
      change |min (f.max i) (t.max i)| ≤ _
      rcases min_choice (f.max i) (t.max i) with hh | hh <;> rw [hh] <;> assumption
    have h2 : |((meet f t).max i : ℚ) * ρ| ≤ 2 ^ 19 * ρ := by
      rw [abs_mul, abs_of_pos hpos]
      apply mul_le_mul_of_nonneg_right _ hpos.le
      exact_mod_cast h1
    have h3 := abs_sub_abs_le_abs_sub (min (fb i) (tb i)) ((meet f t).max i * ρ)
    have h4 := emax i
    norm_num at h4
    linarith
  have key := C11_overlapping_is_intersection (a := Bounds.fromCellBounds f r)
    (b := Bounds.fromCellBounds t r) ifa ifb ita itb (fun i => by
      have h1 := corner_gap hpos (h i) (emin i) (emax i)
      have h2 : max 1 (max |min (fb i) (tb i)| |max (fa i) (ta i)|) ≤ (2 ^ 20 + 2) * ρ := by
        refine max_le ?_ (max_le ((bmax i).trans ?_) ((bmin i).trans ?_))
        · norm_num at hlo ⊢; linarith
        · norm_num; linarith
        · norm_num; linarith
      have h3 : (1 : ℚ) / 2 ^ 22 * max 1 (max |min (fb i) (tb i)| |max (fa i) (ta i)|)
          ≤ 1 / 2 ^ 22 * ((2 ^ 20 + 2) * ρ) := mul_le_mul_of_nonneg_left h2 (by norm_num)
      generalize max 1 (max |min (fb i) (tb i)| |max (fa i) (ta i)|) = mm at *
      linarith)
  exact fun i => ⟨⟨_, (key i).1, emin i⟩, _, (key i).2, emax i⟩

lemma overlap_none {f t : CellBounds D} (hr : Res r ρ) (hf : Near f) (ht : Near t) {i : Fin D}
    (h : (meet f t).max i ≤ (meet f t).min i) :
    (Bounds.fromCellBounds f r).overlapping (Bounds.fromCellBounds t r) = Bounds.empty := by
  have hnn : ∀ cb : CellBounds D, Near cb → NaNFree (Bounds.fromCellBounds cb r) := by
    intro cb hcb
    constructor <;> intro j
    · obtain ⟨x, hx, -⟩ := pointCoord_zero hr (hcb.inRange j).1
      exact Fp.notNaN_is hx
    · obtain ⟨x, hx, -⟩ := pointCoord_zero hr (hcb.inRange j).2
      exact Fp.notNaN_is hx
  have le : ∀ {a b : ℤ}, |a| ≤ 2 ^ 19 → |b| ≤ 2 ^ 19 → a ≤ b →
      FLe (pointCoordFromCellCoord a (Fp.lit 0) r) (pointCoordFromCellCoord b (Fp.lit 0) r) := by
    intro a b ha hb hab
    obtain ⟨x, ix, ex⟩ := pointCoord_zero hr (c := a) (ha.trans (by norm_num))
    obtain ⟨y, iy, ey⟩ := pointCoord_zero hr (c := b) (hb.trans (by norm_num))
    refine ⟨Fp.notNaN_is ix, Fp.notNaN_is iy, ?_⟩
    rw [Fp.key_is ix, Fp.key_is iy]
    exact_mod_cast corner_le hr rfl rfl ix iy ex ey hab
  apply C11_overlapping_degenerate (hnn f hf) (hnn t ht) i
  have h' : min (f.max i) (t.max i) ≤ max (f.min i) (t.min i) := h
  have h1 := hf.ordered i
  have h2 := ht.ordered i
  by_cases c1 : f.max i ≤ t.min i
  · exact .inl (le (hf.max_le i) (ht.min_le i) c1)
  by_cases c2 : t.max i ≤ f.min i
  · exact .inr (.inl (le (ht.max_le i) (hf.min_le i) c2))
  by_cases c3 : f.max i ≤ f.min i
  · exact .inr (.inr (.inl (le (hf.max_le i) (hf.min_le i) c3)))
  · exact .inr (.inr (.inr (le (ht.max_le i) (ht.min_le i) (by
      rcases min_choice (f.max i) (t.max i) with q | q <;> rcases max_choice (f.min i) (t.min i) with q' | q' <;>
        omega))))

/-- C62: for boxes of cells in the working range, `_resized_ndarray` returns the array of the target box;
it holds the source's value at every world cell of both boxes and the given value elsewhere. -/
theorem C62_resized (hD0 : 0 < D) (hD : D ≤ 3) (hr : Res r ρ) (hlo : 1 / 2 ^ 20 ≤ ρ) {f t : CellBounds D} (hf : Near f)
    (ht : Near t) {data : NdArray D A} (hs : ∀ i, (data.shape i : ℤ) = f.max i - f.min i) (v : A) :
    ∃ d, resizedNdarray data (Bounds.fromCellBounds f r) (Bounds.fromCellBounds t r) r v = .ok d ∧
      (∀ i, (d.shape i : ℤ) = t.max i - t.min i) ∧
      ∀ w, InCells w t → d.get (fun i => (w i - t.min i).toNat) =
        if InCells w f then data.get (fun i => (w i - f.min i).toNat) else .ok v := by
  have hsize : ∀ i, sizeOf r (Bounds.fromCellBounds t r) i = t.max i - t.min i :=
    fun i => C08_size t hr ht.inRange i
  obtain ⟨d, hd, hds, hdv⟩ := ndarrayWithBounds_ok (r := r) (b := Bounds.fromCellBounds t r) v
    (fun i => by rw [hsize]; have := ht.ordered i; omega)
    (by
      have : nonzeroProd (fun i => (sizeOf r (Bounds.fromCellBounds t r) i).toNat) ≤ (2 ^ 20) ^ D := by
        apply nonzeroProd_le (by norm_num)
        intro i
        have h1 := ht.min_le i
        have h2 := ht.max_le i
        rw [hsize]; rw [abs_le] at h1 h2; omega
      have h2 : (2 ^ 20) ^ D ≤ (2 ^ 20) ^ 3 := Nat.pow_le_pow_right (by norm_num) hD
      have h3 := this.trans (h2.trans (by norm_num : _ ≤ 2 ^ 60))
      unfold isizeMax
      omega)
  have hshape : ∀ i, (d.shape i : ℤ) = t.max i - t.min i := fun i => by rw [hds, hsize]
  have hin : ∀ w, InCells w t → InShape d.shape fun i => (w i - t.min i).toNat := by
    intro w hw i
    have h1 := hw i
    have h2 := hshape i
    change (w i - t.min i).toNat < d.shape i
    omega
  unfold resizedNdarray
  rw [hd, M.bind_ok]
  dsimp only
  by_cases hm : ∃ i, (meet f t).max i ≤ (meet f t).min i
  · obtain ⟨i, hi⟩ := hm
    rw [overlap_none hr hf ht hi, if_pos (beq_empty_iff.mpr fun j => ⟨F32.zero_is, F32.zero_is⟩)]
    refine ⟨d, rfl, hshape, fun w hw => ?_⟩
    rw [hdv _ (hin w hw), if_neg]
    intro hwf
    have h1 := hwf i
    have h2 := hw i
    have h3 : min (f.max i) (t.max i) ≤ max (f.min i) (t.min i) := hi
    omega
  push Not at hm
  have hov := overlap_corners hr hlo hf ht hm
  dsimp only at hov
  generalize (Bounds.fromCellBounds f r).overlapping (Bounds.fromCellBounds t r) = ov at *
  have hpos := hr.pos
  have hne : ¬ ov.beq Bounds.empty = true := by
    rw [beq_empty_iff]
    intro h0
    have i : Fin D := ⟨0, hD0⟩
    obtain ⟨⟨x, ix, ex⟩, y, iy, ey⟩ := hov i
    have := corner_gap hpos (hm i) ex ey
    rw [ix.unique (h0 i).1, iy.unique (h0 i).2] at this
    linarith
  rw [if_neg hne]
  have hmin : ∀ i, |(meet f t).min i| ≤ 2 ^ 20 := by
    intro i
    have h1 := hf.min_le i; have h2 := ht.min_le i
    change |max (f.min i) (t.min i)| ≤ _
    rcases max_choice (f.min i) (t.min i) with hh | hh <;> rw [hh] <;> omega
  have hmax : ∀ i, |(meet f t).max i| ≤ 2 ^ 20 := by
    intro i
    have h1 := hf.max_le i; have h2 := ht.max_le i
    change |min (f.max i) (t.max i)| ≤ _
    rcases min_choice (f.max i) (t.max i) with hh | hh <;> rw [hh] <;> omega
  have cells : ∀ cb : CellBounds D, Near cb →
      cellFromPoint ov.min (Bounds.fromCellBounds cb r).min r = (fun i => (meet f t).min i - cb.min i) ∧
      cellFromPoint ov.max (Bounds.fromCellBounds cb r).min r = (fun i => (meet f t).max i - cb.min i) := by
    intro cb hcb
    constructor <;> funext i <;> obtain ⟨⟨x, ix, ex⟩, y, iy, ey⟩ := hov i <;>
      obtain ⟨q, iq, eq⟩ := pointCoord_zero hr (hcb.inRange i).1
    · exact size_coord_is hr (hcb.inRange i).1 (hmin i) ix ex iq eq
    · exact size_coord_is hr (hcb.inRange i).1 (hmax i) iy ey iq eq
  rw [(cells t ht).1, (cells t ht).2, (cells f hf).1, (cells f hf).2]
  have m1 : ∀ i, f.min i ≤ (meet f t).min i ∧ t.min i ≤ (meet f t).min i :=
    fun i => ⟨le_max_left _ _, le_max_right _ _⟩
  have m2 : ∀ i, (meet f t).max i ≤ f.max i ∧ (meet f t).max i ≤ t.max i :=
    fun i => ⟨min_le_left _ _, min_le_right _ _⟩
  obtain ⟨e, he, hes, hev⟩ := NdArray.sliceAssign_block (dst := d) (src := data)
    (a1 := fun i => (meet f t).min i - t.min i) (b1 := fun i => (meet f t).max i - t.min i)
    (a2 := fun i => (meet f t).min i - f.min i) (b2 := fun i => (meet f t).max i - f.min i)
    (fun i => by have := m1 i; omega) (fun i => by have := hm i; omega)
    (fun i => by rw [hshape]; have := m2 i; omega) (fun i => by have := m1 i; omega) (fun i => by omega)
    (fun i => by rw [hs]; have := m2 i; omega)
  refine ⟨e, he, fun i => by rw [hes]; exact hshape i, fun w hw => ?_⟩
  rw [hev _ (hin w hw)]
  have hiff : (∀ i, (meet f t).min i - t.min i ≤ ((w i - t.min i).toNat : ℤ) ∧
      ((w i - t.min i).toNat : ℤ) < (meet f t).max i - t.min i) ↔ InCells w f := by
    refine forall_congr' fun i => ?_
    have h1 := hw i
    change max (f.min i) (t.min i) - t.min i ≤ _ ∧ _ < min (f.max i) (t.max i) - t.min i ↔ _
    omega
  by_cases hwf : InCells w f
  · rw [if_pos (hiff.mpr hwf), if_pos hwf]
    congr 1
    funext i
    have h1 := hw i
    have h2 := hwf i
    have h3 := m1 i
    have h4 := (hiff.mpr hwf) i
    omega
  · rw [if_neg (fun h => hwf (hiff.mp h)), if_neg hwf, hdv _ (hin w hw)]

/-- A case of the hypotheses: a source of 2 by 3 cells, moved and grown. -/
example : Near (⟨![0, 0], ![2, 3]⟩ : CellBounds 2) ∧ Near (⟨![-1, 1], ![4, 5]⟩ : CellBounds 2) :=
  ⟨⟨by decide, by decide, by decide⟩, ⟨by decide, by decide, by decide⟩⟩
example : Res (Fp.lit (1 / 10) : F32) (13421773 / 134217728) ∧ (1 : ℚ) / 2 ^ 20 ≤ 13421773 / 134217728 :=
  ⟨res_default, by norm_num⟩

/-- C62: on maps in the working range `_resized_ndarray` does what `expand_bounds` does to the data. -/
theorem C62_agrees (hD0 : 0 < D) (hD : D ≤ 3) {m m' : GridMap D F32 A} {cb : CellBounds D}
    {b : Bounds D F32} (hP : Placed m cb ρ) (hlo : 1 / 2 ^ 20 ≤ ρ) (hb : Request b ρ) {v : A}
    (h : m.expandBounds b v = .ok m') :
    resizedNdarray m.data m.bounds m'.bounds m.resolution v = .ok m'.data := by
  obtain ⟨m'', ncb, h1, -, hP', h2, h3⟩ := expand_spec hD hP hb v
  rw [h] at h1
  cases h1
  have hres : m'.resolution = m.resolution := by
    exact (C36_expandBounds h).1
  have near : ∀ {m : GridMap D F32 A} {cb}, Placed m cb ρ → Near cb := by
    intro m cb hP
    refine ⟨hP.ordered, fun i => ?_, fun i => ?_⟩
    · rcases hP.min_range i with h | h <;> omega
    · rcases hP.max_range i with h | h <;> omega
  obtain ⟨d, hd, hs, hv⟩ := C62_resized hD0 hD hP.res hlo (near hP) (near hP') hP.shape v
  rw [hP.bounds, hP'.bounds, hres, hd]
  congr 1
  apply NdArray.ext_get
  · funext i
    have := hs i
    have := hP'.shape i
    omega
  · intro ix hix
    set w : Cell D := fun i => ncb.min i + ix i with hw
    have hwin : InCells w ncb := by
      intro i
      have := hix i
      have := hs i
      simp only [hw]
      omega
    have e1 : (fun i => (w i - ncb.min i).toNat) = ix := by funext i; simp [hw]
    have idx : ∀ {m : GridMap D F32 A} {cb}, InCells w cb →
        m.data.get (fun i => (w i - cb.min i).toNat) = valueAt m cb w := by
      intro m cb hc
      unfold valueAt GridMap.get toNdIndex usizeOfIsize
      congr 1
      funext i
      have := hc i
      rw [if_pos (show 0 ≤ w i - cb.min i by omega)]
    have e2 := hv w hwin
    rw [e1] at e2
    have e3 := idx (m := m') hwin
    rw [e1] at e3
    rw [e2, e3]
    by_cases hc : InCells w cb
    · rw [if_pos hc, (h2 w hc).2, idx hc]
    · rw [if_neg hc, h3 w hwin hc]

/-- The values of an array. -/
def okData (x : M (NdArray D A)) : Option (List A) := x.toOption.map NdArray.data

/-- C62 needs the working range: at the default resolution, 6.4 million cells from the origin, the source and
the target slice of two maps aligned with the cells have different lengths, and the copy panics. This is the
floating point error that the comment in the sources warns of. -/
theorem C62_far_refuted :
    let r : F32 := Fp.lit (1 / 10)
    let f : CellBounds 2 := ⟨![6424704, 0], ![6424706, 1]⟩
    let t : CellBounds 2 := ⟨![6424702, 0], ![6424706, 1]⟩
    (do let data ← ndarrayWithBounds r (Bounds.fromCellBounds f r) 7
        resizedNdarray data (Bounds.fromCellBounds f r) (Bounds.fromCellBounds t r) r 0 : M (NdArray 2 ℕ))
      matches .error (.panic .shape) := by
  decide +kernel

/-- C62 needs boxes aligned with the cells: with a box starting at 0.3 of a cell, the one source cell found is
silently copied to both target cells, which loses the other source cell. -/
theorem C62_misaligned_refuted :
    let f : Bounds 2 F32 := ⟨![Fp.lit (3 / 10), Fp.lit 0], ![Fp.lit (23 / 10), Fp.lit 1]⟩
    let t : Bounds 2 F32 := ⟨![Fp.lit 0, Fp.lit 0], ![Fp.lit (16 / 10), Fp.lit 1]⟩
    okData (do let data ← NdArray.fromShapeVec ![2, 1] [5, 6]
               resizedNdarray data f t (Fp.lit 1) 0) = some [5, 5] := by
  decide +kernel

/-- C62 needs resolutions that are not tiny: with cells of side 2^-24 the two boxes count as not overlapping
and the data is lost, although source and target are the same box. -/
theorem C62_tiny_refuted :
    let b : Bounds 2 F32 := Bounds.fromCellBounds ⟨![0, 0], ![2, 1]⟩ (Fp.lit (1 / 2 ^ 24))
    okData (do let data ← NdArray.fromShapeVec ![2, 1] [5, 6]
               resizedNdarray data b b (Fp.lit (1 / 2 ^ 24)) 0) = some [0, 0] := by
  decide +kernel

end Verif.Props
