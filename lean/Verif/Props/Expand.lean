import Verif.Props.Convert
import Verif.Props.Tiles
import Verif.Props.GridMap
import Mathlib.Tactic.FinCases

/-!
# C32 – C35: growing a map
-/

namespace Verif.Props
open Spec

variable {A : Type} {D : ℕ}

/-! ## The requested cells -/

section
variable {r v : F32} {ρ : ℚ}

/-- World cell coordinate of a point coordinate. -/
def cellOf (r x : F32) : ℤ := cellCoordFromPointCoord x (Fp.lit 0) r

lemma cellOf_mono {x y : F32} (hr : r.Is ρ) (hρ : 0 < ρ) (h : FLe x y) : cellOf r x ≤ cellOf r y :=
  C03_monotone F32.zero_is hr hρ h

lemma cellOf_range {x : F32} {y : ℚ} {N : ℤ} (hr : Res r ρ) (hx : x.Is y) (hN1 : 1 ≤ N)
    (hN : N ≤ 2 ^ 22) (hy : |y| ≤ N * ρ) : |cellOf r x| ≤ N + 1 := by
  have hpos := hr.pos
  have hN' : (N : ℚ) ≤ 2 ^ 22 := by exact_mod_cast hN
  have hN1' : (1 : ℚ) ≤ N := by exact_mod_cast hN1
  obtain ⟨d, hd, e⟩ := cellCoord_is (M := N) hr F32.zero_is hx (by rwa [sub_zero])
    (by norm_num at hN' ⊢; linarith) hN1'
  rw [sub_zero] at e
  have b0 : |y / ρ| ≤ N := by rw [abs_div, abs_of_pos hpos, div_le_iff₀ hpos]; exact hy
  have e2 := Fp.roundAway_err d
  have t1 := abs_sub_abs_le_abs_sub (roundAway d : ℚ) d
  have t2 := abs_sub_abs_le_abs_sub d (y / ρ)
  have : |(roundAway d : ℚ)| < N + 2 := by
    norm_num at e hN' e2 ⊢
    linarith
  unfold cellOf
  rw [hd]
  have h3 : |roundAway d| < N + 2 := by exact_mod_cast this
  omega

lemma fromBounds_eq (b : Bounds D F32) (hr : r.Is ρ) (hρ : 0 < ρ) :
    CellBounds.fromBounds b r = ⟨fun i => cellOf r (b.min i), fun i => cellOf r (b.max i)⟩ := by
  have hz : ∀ x : F32, x.Is 0 → cellOf r x = 0 := by
    intro x hx
    unfold cellOf
    have := cellCoord_exact (z := 0) (p := x) F32.zero_is hr hρ hx (by simpa using Fmt.rep_zero)
      (by simp) Fmt.rep_zero
    rw [this]
    have := Fp.roundAway_int 0
    rw [Int.cast_zero] at this
    rw [this]; decide
  unfold CellBounds.fromBounds
  by_cases he : b.beq Bounds.empty = true
  · rw [if_pos he]
    rw [beq_empty_iff] at he
    ext i
    · exact (hz _ (he i).1).symm
    · exact (hz _ (he i).2).symm
  · rw [if_neg he]; rfl

lemma disc_range (hr : Res r ρ) {x : ℚ} (hv : v.Is x) (hx : |x| ≤ 2 ^ 18 * ρ) :
    (∃ y, (Bounds.discMin r v).Is y ∧ |y| ≤ (2 ^ 18 + 2) * ρ) ∧
    (∃ y, (Bounds.discMax r true v).Is y ∧ |y| ≤ (2 ^ 18 + 2) * ρ) := by
  have hpos := hr.pos
  obtain ⟨hr0, hr1, hr2⟩ := hr
  have hself : ∃ y, v.Is y ∧ |y| ≤ (2 ^ 18 + 2) * ρ := ⟨x, hv, by linarith⟩
  have hq : |x / ρ| ≤ 2 ^ 18 := by rw [abs_div, abs_of_pos hpos, div_le_iff₀ hpos]; exact hx
  have hc := hv.div hr0 hpos.ne' (F32.noOvf (hq.trans (by norm_num)))
  have hrep : b32.Rep ((2 ^ 18 : ℤ) : ℚ) := Fmt.rep_int (f := b32) (by norm_num [b32])
  have hcr : |b32.rnd (x / ρ)| ≤ 2 ^ 18 := by
    rw [abs_le] at hq ⊢
    constructor
    · have := Fmt.le_rnd_of_rep (Fmt.rep_neg hrep) (q := x / ρ) (by push_cast; linarith [hq.1])
      push_cast at this; linarith
    · have := Fmt.rnd_le_of_rep hrep (q := x / ρ) (by push_cast; linarith [hq.2])
      push_cast at this; linarith
  have scaled : ∀ k : ℤ, |k| ≤ 2 ^ 18 → ∀ a : F32, a.Is k →
      ∃ y, (a.mul r).Is y ∧ |y| ≤ (2 ^ 18 + 2) * ρ := by
    intro k hk a ha
    have hk' : |(k : ℚ)| ≤ 2 ^ 18 := by exact_mod_cast hk
    have hkr : |(k : ℚ) * ρ| ≤ 2 ^ 18 * ρ := by rw [abs_mul, abs_of_pos hpos]; gcongr
    refine ⟨_, ha.mul hr0 (F32.noOvf_res hpos hr2 (by norm_num) (by norm_num) hkr), ?_⟩
    have e := F32.err_res hr1 hkr
    have t := abs_sub_abs_le_abs_sub (b32.rnd ((k : ℚ) * ρ)) ((k : ℚ) * ρ)
    linarith
  rw [abs_le] at hcr
  constructor
  · unfold Bounds.discMin
    dsimp only
    by_cases he : relativeEq (Scalar.div v r) (Scalar.round (Scalar.div v r)) = true
    · rw [if_pos he]; exact hself
    · rw [if_neg he]
      refine scaled _ ?_ _ hc.floor
      rw [abs_le]
      constructor
      · rw [Int.le_floor]; push_cast; linarith [hcr.1]
      · have := Int.floor_le (b32.rnd (x / ρ))
        have : (⌊b32.rnd (x / ρ)⌋ : ℚ) ≤ ((2 ^ 18 : ℤ) : ℚ) := by push_cast; linarith [hcr.2]
        exact_mod_cast this
  · unfold Bounds.discMax
    dsimp only
    by_cases he : relativeEq (Scalar.div v r) (Scalar.round (Scalar.div v r)) = true
    · rw [if_pos he, if_pos rfl]
      have hs : |x + ρ| ≤ (2 ^ 18 + 1) * ρ := by
        have := abs_add_le x ρ
        rw [abs_of_pos hpos] at this
        linarith
      refine ⟨_, hv.add hr0 (F32.noOvf_res hpos hr2 (by norm_num) (by norm_num) hs), ?_⟩
      have e := F32.err_res hr1 hs
      have t := abs_sub_abs_le_abs_sub (b32.rnd (x + ρ)) (x + ρ)
      norm_num at e hs ⊢
      linarith
    · rw [if_neg he]
      refine scaled _ ?_ _ hc.ceil
      rw [abs_le]
      constructor
      · have := Int.le_ceil (b32.rnd (x / ρ))
        have : ((-2 ^ 18 : ℤ) : ℚ) ≤ (⌈b32.rnd (x / ρ)⌉ : ℚ) := by push_cast; linarith [hcr.1]
        exact_mod_cast this
      · rw [Int.ceil_le]; push_cast; linarith [hcr.2]

end

/-- The world cells of the request after rounding to the grid. -/
def discCells (r : F32) (b : Bounds D F32) : CellBounds D :=
  ⟨fun i => cellOf r (Bounds.discMin r (b.min i)), fun i => cellOf r (Bounds.discMax r true (b.max i))⟩

/-- The smallest box around two boxes. -/
def join (a b : CellBounds D) : CellBounds D :=
  ⟨fun i => min (a.min i) (b.min i), fun i => max (a.max i) (b.max i)⟩

section
variable {m m' : GridMap D F32 A} {cb : CellBounds D} {ρ : ℚ} {b : Bounds D F32}

lemma _root_.Verif.Spec.Request.ordered (h : Request b ρ) : Ordered b := fun i => by
  obtain ⟨x, y, hx, hy, hxy, -⟩ := h i
  exact (Fp.FLe_is hx hy).mpr hxy

lemma discCells_range (hr : Res m.resolution ρ) (h : Request b ρ) (i : Fin D) :
    |(discCells m.resolution b).min i| ≤ 2 ^ 18 + 3 ∧ |(discCells m.resolution b).max i| ≤ 2 ^ 18 + 3 ∧
      (discCells m.resolution b).min i ≤ (discCells m.resolution b).max i := by
  obtain ⟨x, y, hx, hy, hxy, hx', hy'⟩ := h i
  obtain ⟨u, hu, hu'⟩ := (disc_range hr hx hx').1
  obtain ⟨w, hw, hw'⟩ := (disc_range hr hy hy').2
  refine ⟨?_, ?_, ?_⟩
  · have := cellOf_range (N := 2 ^ 18 + 2) hr hu (by norm_num) (by norm_num)
      (by push_cast; linarith)
    exact this
  · have := cellOf_range (N := 2 ^ 18 + 2) hr hw (by norm_num) (by norm_num)
      (by push_cast; linarith)
    exact this
  · refine cellOf_mono hr.1 hr.pos (Fp.FLe_trans (discMin_le hr.1 hr.pos (Fp.notNaN_is hx))
      (Fp.FLe_trans (Request.ordered h i) (le_discMax true hr.1 hr.pos (Fp.notNaN_is hy))))

lemma discretized_eq (hr : Res m.resolution ρ) (h : Request b ρ) :
    b.discretized m.resolution true = .ok ⟨fun i => Bounds.discMin m.resolution (b.min i),
      fun i => Bounds.discMax m.resolution true (b.max i)⟩ := by
  refine (C09_bounds_new _ _).1 fun i => ?_
  have hb := Request.ordered h i
  exact Fp.FLe_trans (discMin_le hr.1 hr.pos hb.1)
    (Fp.FLe_trans hb (le_discMax true hr.1 hr.pos hb.2.1))

lemma _root_.Verif.Spec.Placed.inRange (hP : Placed m cb ρ) : InRange cb := fun i => by
  have h1 := hP.min_range i
  have h2 := hP.max_range i
  omega

lemma _root_.Verif.Spec.Placed.cells (hP : Placed m cb ρ) : CellBounds.fromBounds m.bounds m.resolution = cb := by
  rw [hP.bounds]
  exact C08_cell_bounds_round_trip cb hP.res hP.inRange

lemma _root_.Verif.Spec.Placed.allZero_iff (hP : Placed m cb ρ) : AllZero m.bounds ↔ cb = CellBounds.empty := by
  constructor
  · intro h
    have := hP.cells
    unfold CellBounds.fromBounds at this
    rw [if_pos (beq_empty_iff.mpr h)] at this
    exact this.symm
  · rintro rfl
    rw [hP.bounds]
    intro i
    have h0 : ∀ c : ℤ, c = 0 → (pointCoordFromCellCoord c (Fp.lit 0) m.resolution).Is 0 := by
      rintro c rfl
      have hci : (Scalar.ofInt 0 : F32).Is 0 := by
        have := Fp.is_ofInt (f := b32) (n := 0) (by norm_num)
        rw [Int.cast_zero] at this
        exact this
      have h1 := hci.mul hP.res.1 (by rw [zero_mul, Fmt.rnd_zero, abs_zero]; positivity)
      rw [zero_mul, Fmt.rnd_zero] at h1
      have h2 := h1.add F32.zero_is (by rw [add_zero, Fmt.rnd_zero, abs_zero]; positivity)
      rwa [add_zero, Fmt.rnd_zero] at h2
    exact ⟨h0 _ rfl, h0 _ rfl⟩

/-- The cells around which `expand_bounds` puts its tiles. -/
lemma enclosing_cells (hP : Placed m cb ρ) (h : Request b ρ) :
    CellBounds.fromBounds (m.bounds.enclosing ⟨fun i => Bounds.discMin m.resolution (b.min i),
      fun i => Bounds.discMax m.resolution true (b.max i)⟩) m.resolution
    = if cb = CellBounds.empty then discCells m.resolution b
      else join cb (discCells m.resolution b) := by
  have hr := hP.res.1
  have hρ := hP.res.pos
  rw [fromBounds_eq _ hr hρ]
  by_cases hz : AllZero m.bounds
  · rw [if_pos (hP.allZero_iff.mp hz), C10_enclosing_of_empty hz]; rfl
  · rw [if_neg (fun h => hz (hP.allZero_iff.mpr h)), enclosing_eq hz]
    have hcells := hP.cells
    rw [fromBounds_eq _ hr hρ] at hcells
    have hcb : cb = ⟨fun i => cellOf m.resolution (m.bounds.min i),
      fun i => cellOf m.resolution (m.bounds.max i)⟩ := hcells.symm
    have hnn : ∀ i, (m.bounds.min i).isNaN = false ∧ (m.bounds.max i).isNaN = false := by
      intro i
      rw [hP.bounds]
      obtain ⟨x, hx, -⟩ := pointCoord_zero hP.res (hP.inRange i).1
      obtain ⟨y, hy, -⟩ := pointCoord_zero hP.res (hP.inRange i).2
      exact ⟨Fp.notNaN_is hx, Fp.notNaN_is hy⟩
    rw [hcb]
    unfold join discCells
    ext i
    · have h1 := (discMin_le hr hρ (v := b.min i) (Request.ordered h i).1).1
      dsimp only
      split_ifs with hlt
      · rw [min_eq_left]
        exact cellOf_mono hr hρ (Fp.FLe_of_lt hlt)
      · rw [min_eq_right]
        exact cellOf_mono hr hρ (Fp.FLe_of_not_lt h1 (hnn i).1 hlt)
    · have h1 := (le_discMax true hr hρ (v := b.max i) (Request.ordered h i).2.1).2.1
      dsimp only
      split_ifs with hlt
      · rw [max_eq_left]
        exact cellOf_mono hr hρ (Fp.FLe_of_lt hlt)
      · rw [max_eq_right]
        exact cellOf_mono hr hρ (Fp.FLe_of_not_lt (hnn i).2 h1 hlt)

/-- The new cell bounds: tiles around the old and the requested cells. -/
lemma newCellBounds_spec (hP : Placed m cb ρ) (h : Request b ρ) :
    ∃ ncb, m.newCellBounds b = .ok ncb ∧ Aligned m.tileSize ncb ∧
      CellSub (discCells m.resolution b) ncb ∧ (cb ≠ CellBounds.empty → CellSub cb ncb) ∧
      (∀ s, Aligned m.tileSize s → CellSub (discCells m.resolution b) s →
        (cb ≠ CellBounds.empty → CellSub cb s) → CellSub ncb s) ∧
      (∀ i, |ncb.min i| ≤ 2 ^ 19 ∧ |ncb.max i| ≤ 2 ^ 19 ∧ ncb.min i ≤ ncb.max i) := by
  set e := (if cb = CellBounds.empty then discCells m.resolution b
      else join cb (discCells m.resolution b)) with he
  have hdr := discCells_range hP.res h
  have ht := hP.tile_pos
  have ht2 := hP.tile_le
  have hmin : ∀ i, |e.min i| ≤ 2 ^ 18 + 3 ∨ ((m.tileSize : ℤ) ∣ e.min i ∧ |e.min i| ≤ 2 ^ 19) := by
    intro i
    have h1 := hP.min_range i
    have h2 := hdr i
    rw [he]; split_ifs
    · exact .inl h2.1
    · change |min _ _| ≤ _ ∨ (_ ∣ min _ _ ∧ |min _ _| ≤ _)
      rcases min_choice (cb.min i) ((discCells m.resolution b).min i) with hh | hh <;> rw [hh]
      · rcases h1 with h1 | h1
        · left; omega
        · right; exact h1
      · exact .inl h2.1
  have hmax : ∀ i, |e.max i| ≤ 2 ^ 18 + 3 ∨ ((m.tileSize : ℤ) ∣ e.max i ∧ |e.max i| ≤ 2 ^ 19) := by
    intro i
    have h1 := hP.max_range i
    have h2 := hdr i
    rw [he]; split_ifs
    · exact .inl h2.2.1
    · change |max _ _| ≤ _ ∨ (_ ∣ max _ _ ∧ |max _ _| ≤ _)
      rcases max_choice (cb.max i) ((discCells m.resolution b).max i) with hh | hh <;> rw [hh]
      · rcases h1 with h1 | h1
        · left; omega
        · right; exact h1
      · exact .inl h2.2.1
  have hord : ∀ i, e.min i ≤ e.max i := by
    intro i
    have h1 := hP.ordered i
    have h2 := (hdr i).2.2
    rw [he]; split_ifs
    · exact h2
    · exact le_trans (min_le_left _ _) (h1.trans (le_max_left _ _))
  have hmach : Machine e := by
    intro i
    have h1 := hmin i
    have h2 := hmax i
    unfold InIsize isizeMin isizeMax
    simp only [abs_le] at h1 h2
    omega
  set ncb : CellBounds D := ⟨fun i => m.tileSize * (e.min i / m.tileSize),
    fun i => -(m.tileSize * ((-e.max i) / m.tileSize))⟩ with hn
  have tile : ∀ c : ℤ, (|c| ≤ 2 ^ 18 + 3 ∨ ((m.tileSize : ℤ) ∣ c ∧ |c| ≤ 2 ^ 19)) →
      |(m.tileSize : ℤ) * (c / m.tileSize)| ≤ 2 ^ 19 := by
    intro c hc
    rcases hc with hc | ⟨hd, hc⟩
    · have h1 := Int.mul_ediv_add_emod c m.tileSize
      have h2 := Int.emod_nonneg c (b := (m.tileSize : ℤ)) (by omega)
      have h3 := Int.emod_lt_of_pos c (b := (m.tileSize : ℤ)) (by omega)
      generalize (m.tileSize : ℤ) * (c / m.tileSize) = z at *
      rw [abs_le] at hc ⊢
      omega
    · rw [Int.mul_ediv_cancel' hd]; exact hc
  have hb1 : ∀ i, |ncb.min i| ≤ 2 ^ 19 := fun i => tile _ (hmin i)
  have hb2 : ∀ i, |ncb.max i| ≤ 2 ^ 19 := fun i => by
    have := tile (-e.max i) (by rw [abs_neg, dvd_neg]; exact hmax i)
    rw [hn]; dsimp only; rw [abs_neg]; exact this
  have hdisc : e.discretized m.tileSize = .ok ncb := by
    rw [discretized_ok (by omega) (by omega) hmach]
    intro i
    have h1 := hb1 i
    have h2 := hb2 i
    rw [abs_le] at h1 h2
    refine ⟨⟨rfl, ?_⟩, rfl, ?_⟩ <;> unfold InIsize isizeMin isizeMax <;> omega
  obtain ⟨hsub, hal, hleast⟩ := C06_discretized_is_least (by omega) (by omega) hmach hdisc
  have hde : CellSub (discCells m.resolution b) e := by
    intro i
    rw [he]; split_ifs
    · exact ⟨le_rfl, le_rfl⟩
    · exact ⟨min_le_right _ _, le_max_right _ _⟩
  have hce : cb ≠ CellBounds.empty → CellSub cb e := by
    intro hne i
    rw [he, if_neg hne]
    exact ⟨min_le_left _ _, le_max_left _ _⟩
  refine ⟨ncb, ?_, hal, ?_, ?_, ?_, ?_⟩
  · unfold GridMap.newCellBounds
    rw [discretized_eq hP.res h, M.bind_ok, enclosing_cells hP h]
    exact hdisc
  · exact fun i => ⟨(hsub i).1.trans (hde i).1, (hde i).2.trans (hsub i).2⟩
  · exact fun hne i => ⟨(hsub i).1.trans (hce hne i).1, (hce hne i).2.trans (hsub i).2⟩
  · intro s h1 h2 h3
    refine hleast s h1 fun i => ?_
    rw [he]; split_ifs with hc
    · exact h2 i
    · exact ⟨le_min (h3 hc i).1 (h2 i).1, max_le (h3 hc i).2 (h2 i).2⟩
  · intro i
    exact ⟨hb1 i, hb2 i, (hsub i).1.trans ((hord i).trans (hsub i).2)⟩

lemma nonzeroProd_le {D : ℕ} {s : Fin D → ℕ} {B : ℕ} (hB : 1 ≤ B) (h : ∀ i, s i ≤ B) :
    nonzeroProd s ≤ B ^ D := by
  induction D with
  | zero => simp [nonzeroProd]
  | succ D ih =>
    simp only [nonzeroProd]
    rw [pow_succ, mul_comm (B ^ D)]
    refine Nat.mul_le_mul ?_ (ih fun i => h i.succ)
    split_ifs
    · exact hB
    · exact h 0

lemma toNdIndex_of_nonneg {c : Cell D} {i : Fin D} (h : 0 ≤ c i) : (toNdIndex c i : ℤ) = c i := by
  unfold toNdIndex usizeOfIsize
  rw [if_pos h]
  exact Int.toNat_of_nonneg h

/-- What `expand_bounds` does. -/
lemma expand_spec (hD : D ≤ 3) (hP : Placed m cb ρ) (h : Request b ρ) (v : A) :
    ∃ m' ncb, m.expandBounds b v = .ok m' ∧ m.newCellBounds b = .ok ncb ∧ Placed m' ncb ρ ∧
      (∀ w, InCells w cb → InCells w ncb ∧ valueAt m' ncb w = valueAt m cb w) ∧
      (∀ w, InCells w ncb → ¬ InCells w cb → valueAt m' ncb w = .ok v) := by
  obtain ⟨ncb, hn, hal, hd, hc, hl, hrange⟩ := newCellBounds_spec hP h
  have hold : ∀ w, InCells w cb → InCells w ncb := by
    intro w hw i
    by_cases he : cb = CellBounds.empty
    · have := hw i
      rw [he] at this
      simp only [CellBounds.empty] at this
      omega
    · have := hw i
      have := hc he i
      omega
  unfold GridMap.expandBounds
  rw [hn, M.bind_ok]
  dsimp only
  rw [hP.cells]
  by_cases heq : ncb = cb
  · subst heq
    rw [if_pos rfl]
    exact ⟨m, ncb, rfl, rfl, hP, fun w hw => ⟨hw, rfl⟩, fun w h1 h2 => absurd h1 h2⟩
  rw [if_neg heq]
  have hir : InRange ncb := fun i => by have := hrange i; omega
  have hsize : ∀ i, sizeOf m.resolution (Bounds.fromCellBounds ncb m.resolution) i
      = ncb.max i - ncb.min i := fun i => C08_size ncb hP.res hir i
  obtain ⟨d, hdd, hds, hdv⟩ := ndarrayWithBounds_ok (r := m.resolution)
    (b := Bounds.fromCellBounds ncb m.resolution) v
    (fun i => by rw [hsize]; have := hrange i; omega)
    (by
      have : nonzeroProd (fun i => (sizeOf m.resolution (Bounds.fromCellBounds ncb m.resolution) i).toNat)
          ≤ (2 ^ 20) ^ D := by
        apply nonzeroProd_le (by norm_num)
        intro i; rw [hsize]; have := hrange i; simp only [abs_le] at this; omega
      have h2 : (2 ^ 20) ^ D ≤ (2 ^ 20) ^ 3 := Nat.pow_le_pow_right (by norm_num) hD
      have h3 : nonzeroProd (fun i => (sizeOf m.resolution (Bounds.fromCellBounds ncb m.resolution) i).toNat)
          ≤ 2 ^ 60 := this.trans (h2.trans (by norm_num))
      unfold isizeMax
      omega)
  rw [hdd, M.bind_ok]
  have hshape : ∀ i, (d.shape i : ℤ) = ncb.max i - ncb.min i := fun i => by rw [hds, hsize]
  have hplaced : ∀ d' : NdArray D A, d'.shape = d.shape →
      Placed { m with bounds := Bounds.fromCellBounds ncb m.resolution, data := d' } ncb ρ := by
    intro d' hd'
    refine ⟨hP.res, rfl, fun i => (hrange i).2.2, fun i => ?_, hP.tile_pos, hP.tile_le,
      fun i => .inr ⟨(hal i).1, (hrange i).1⟩, fun i => .inr ⟨(hal i).2, (hrange i).2.1⟩⟩
    change (d'.shape i : ℤ) = _
    rw [hd']; exact hshape i
  have hidx : ∀ w, InCells w ncb → InShape d.shape (toNdIndex fun i => w i - ncb.min i) ∧
      ∀ i, (toNdIndex (fun i => w i - ncb.min i) i : ℤ) = w i - ncb.min i := by
    intro w hw
    have : ∀ i, (toNdIndex (fun i => w i - ncb.min i) i : ℤ) = w i - ncb.min i := by
      intro i
      have := hw i
      exact toNdIndex_of_nonneg (c := fun i => w i - ncb.min i) (by omega)
    refine ⟨fun i => ?_, this⟩
    have h1 := this i
    have h2 := hshape i
    have h3 := hw i
    omega
  by_cases he : m.bounds.beq Bounds.empty = true
  · rw [if_pos he, M.bind_ok]
    have hcb : cb = CellBounds.empty := hP.allZero_iff.mp (beq_empty_iff.mp he)
    by_cases hD0 : D = 0
    · subst hD0
      exfalso; apply heq
      ext i <;> exact i.elim0
    have hno : ∀ w, ¬ InCells w cb := by
      intro w hw
      have := hw ⟨0, by omega⟩
      rw [hcb] at this
      simp only [CellBounds.empty] at this
      omega
    refine ⟨_, ncb, rfl, rfl, hplaced d rfl, fun w hw => absurd hw (hno w), fun w hw _ => ?_⟩
    exact hdv _ (hidx w hw).1
  · rw [if_neg he]
    have hne : cb ≠ CellBounds.empty := fun h => he (beq_empty_iff.mpr (hP.allZero_iff.mpr h))
    have hc := hc hne
    have hir0 := hP.inRange
    have isz' : ∀ n : ℤ, |n| ≤ 2 ^ 22 → isz n = .ok n := by
      intro n hn
      rw [isz_ok]
      rw [abs_le] at hn
      refine ⟨rfl, ?_, ?_⟩ <;> simp only [isizeMin, isizeMax] <;> omega
    have e1 : seqFin (fun i => isz (cb.min i - ncb.min i)) = .ok fun i => cb.min i - ncb.min i := by
      rw [seqFin_ok]; intro i; apply isz'
      have h1 := hir0 i; have h2 := hrange i; simp only [abs_le] at h1 h2 ⊢; omega
    have e2 : seqFin (fun i => isz (cb.max i - cb.min i)) = .ok fun i => cb.max i - cb.min i := by
      rw [seqFin_ok]; intro i; apply isz'
      have h1 := hir0 i; have h2 := hrange i; simp only [abs_le] at h1 h2 ⊢; omega
    have e3 : seqFin (fun i => isz (cb.max i - cb.min i + (cb.min i - ncb.min i)))
        = .ok fun i => cb.max i - cb.min i + (cb.min i - ncb.min i) := by
      rw [seqFin_ok]; intro i; apply isz'
      have h1 := hir0 i; have h2 := hrange i; simp only [abs_le] at h1 h2 ⊢; omega
    obtain ⟨d', hd', hs', hv'⟩ := NdArray.sliceAssign_ok (dst := d) (src := m.data)
      (off := fun i => cb.min i - ncb.min i) (size := fun i => cb.max i - cb.min i)
      (fun i => by have := hc i; omega) (fun i => by have := hP.ordered i; omega)
      (fun i => by rw [hshape i]; have := hc i; omega)
      (fun i => by rw [hP.shape i])
    have hcopy : m.copyOld cb ncb d = .ok d' := by
      unfold GridMap.copyOld
      rw [e1, M.bind_ok, e2, M.bind_ok, if_pos (fun i _ => by
          have := hc i
          change 0 ≤ cb.min i - ncb.min i
          omega), e3,
        M.bind_ok]
      exact hd'
    rw [hcopy, M.bind_ok]
    refine ⟨_, ncb, rfl, rfl, hplaced d' hs', fun w hw => ⟨hold w hw, ?_⟩, fun w hw hnw => ?_⟩
    · obtain ⟨i1, i2⟩ := hidx w (hold w hw)
      change d'.get _ = m.data.get _
      rw [hv' _ i1, if_pos (fun i => by rw [i2 i]; have := hw i; constructor <;> omega)]
      congr 1
      funext i
      have h1 := i2 i
      have h2 := hw i
      have h3 := hc i
      have h4 := toNdIndex_of_nonneg (c := fun i => w i - cb.min i) (i := i) (by omega)
      omega
    · obtain ⟨i1, i2⟩ := hidx w hw
      change d'.get _ = _
      rw [hv' _ i1, if_neg, hdv _ i1]
      intro hall
      apply hnw
      intro i
      have h1 := hall i
      rw [i2 i] at h1
      omega

/-! ## C32 -/

/-- C32: expanding a map succeeds, and every value stored before is found at the same world cell. (The
map and the request are in the f32 working range; D is 2 or 3.) -/
theorem C32_values_kept (hD : D ≤ 3) (hP : Placed m cb ρ) (h : Request b ρ) (v : A) :
    ∃ m' cb', m.expandBounds b v = .ok m' ∧ Placed m' cb' ρ ∧
      ∀ w, InCells w cb → InCells w cb' ∧ valueAt m' cb' w = valueAt m cb w := by
  obtain ⟨m', ncb, h1, -, h2, h3, -⟩ := expand_spec hD hP h v
  exact ⟨m', ncb, h1, h2, h3⟩

/-- C32: the same for any number of expansions, one after the other. -/
theorem C32_values_kept_always (hD : D ≤ 3) (hP : Placed m cb ρ) (bs : List (Bounds D F32))
    (h : ∀ b ∈ bs, Request b ρ) (v : A) :
    ∃ m' cb', bs.foldlM (fun m b => m.expandBounds b v) m = .ok m' ∧ Placed m' cb' ρ ∧
      ∀ w, InCells w cb → InCells w cb' ∧ valueAt m' cb' w = valueAt m cb w := by
  induction bs generalizing m cb with
  | nil => exact ⟨m, cb, rfl, hP, fun w hw => ⟨hw, rfl⟩⟩
  | cons b bs ih =>
    obtain ⟨m1, cb1, h1, h2, h3⟩ := C32_values_kept hD hP (h b (by simp)) v
    obtain ⟨m2, cb2, h4, h5, h6⟩ := ih h2 fun b' hb' => h b' (by simp [hb'])
    refine ⟨m2, cb2, ?_, h5, fun w hw => ?_⟩
    · rw [List.foldlM_cons, h1, M.bind_ok, h4]
    · obtain ⟨a1, a2⟩ := h3 w hw
      obtain ⟨a3, a4⟩ := h6 w a1
      exact ⟨a3, a4.trans a2⟩

/-- C32: the default map is placed (it stores the empty box), so the theorems apply to it and to
everything reached from it. -/
theorem C32_default_placed (hD : 1 ≤ D) : ∃ m : GridMap D F32 A, GridMap.default_ = .ok m ∧
    Placed m CellBounds.empty (13421773 / 134217728) := by
  have h1 : ∀ D : ℕ, nonzeroProd (fun _ : Fin D => 0) = 1 := by
    intro D; induction D with
    | zero => rfl
    | succ D ih => simp only [nonzeroProd, ih, if_true]
  have hz : pointCoordFromCellCoord 0 (Fp.lit 0) (Fp.lit (1 / 10) : F32) = Fp.lit 0 := by
    decide +kernel
  have hsp : shapeProd (fun _ : Fin D => 0) = 0 := by
    obtain ⟨k, rfl⟩ : ∃ k, D = k + 1 := ⟨D - 1, by omega⟩
    simp [shapeProd]
  refine ⟨⟨⟨fun _ => 0, [], by rw [hsp]; rfl, by rw [h1]; unfold isizeMax; norm_num⟩,
    DEFAULT_RESOLUTION, Bounds.empty, DEFAULT_TILE_SIZE, false, []⟩, ?_, ?_⟩
  · unfold GridMap.default_ NdArray.fromShapeVec
    rw [dif_pos (by rw [h1]; unfold isizeMax; norm_num), dif_pos (by rw [hsp]; rfl)]
    rfl
  · refine ⟨res_default, ?_, fun _ => le_rfl, fun _ => rfl, show 1 ≤ 100 by norm_num,
      show 100 ≤ 2 ^ 17 by norm_num, fun _ => .inl ?_,
      fun _ => .inl ?_⟩
    · ext i
      · exact hz.symm
      · exact hz.symm
    · simp [CellBounds.empty]
    · simp [CellBounds.empty]

/-- C32: `new` over the bounds of a box of cells gives a placed map holding the default everywhere. -/
theorem C32_new_placed (hD : D ≤ 3) {r : F32} {ρ : ℚ} (hr : Res r ρ) (cb : CellBounds D) {t : ℕ}
    (ht : 1 ≤ t) (ht' : t ≤ 2 ^ 17) (ho : ∀ i, cb.min i ≤ cb.max i)
    (hc : ∀ i, |cb.min i| ≤ 2 ^ 18 ∧ |cb.max i| ≤ 2 ^ 18) (v : A) :
    ∃ m, GridMap.new r (Bounds.fromCellBounds cb r) t v = .ok m ∧ Placed m cb ρ ∧
      ∀ w, InCells w cb → valueAt m cb w = .ok v := by
  have hir : InRange cb := fun i => by have := hc i; omega
  have hsize : ∀ i, sizeOf r (Bounds.fromCellBounds cb r) i = cb.max i - cb.min i :=
    fun i => C08_size cb hr hir i
  obtain ⟨d, hdd, hds, hdv⟩ := ndarrayWithBounds_ok (r := r) (b := Bounds.fromCellBounds cb r) v
    (fun i => by rw [hsize]; have := ho i; omega)
    (by
      have : nonzeroProd (fun i => (sizeOf r (Bounds.fromCellBounds cb r) i).toNat)
          ≤ (2 ^ 20) ^ D := by
        apply nonzeroProd_le (by norm_num)
        intro i; rw [hsize]; have := hc i; simp only [abs_le] at this; omega
      have h2 : (2 ^ 20) ^ D ≤ (2 ^ 20) ^ 3 := Nat.pow_le_pow_right (by norm_num) hD
      have h3 : nonzeroProd (fun i => (sizeOf r (Bounds.fromCellBounds cb r) i).toNat)
          ≤ 2 ^ 60 := this.trans (h2.trans (by norm_num))
      unfold isizeMax
      omega)
  refine ⟨⟨d, r, Bounds.fromCellBounds cb r, t, false, []⟩, ?_, ?_, ?_⟩
  · unfold GridMap.new; rw [hdd]; rfl
  · exact ⟨hr, rfl, ho, fun i => (hds i).trans (hsize i), ht, ht', fun i => .inl (hc i).1,
      fun i => .inl (hc i).2⟩
  · intro w hw
    apply hdv
    intro i
    have h1 := hw i
    have h2 := toNdIndex_of_nonneg (c := fun i => w i - cb.min i) (i := i) (by omega)
    have h3 := hds i
    rw [hsize] at h3
    omega

/-- C32: storing a value keeps the map placed. -/
theorem C32_set_placed (hP : Placed m cb ρ) {c : Cell D} {v : A} (h : m.set c v = .ok m') :
    Placed m' cb ρ := by
  obtain ⟨d, hd, rfl⟩ := set_data h
  refine ⟨hP.res, hP.bounds, hP.ordered, fun i => ?_, hP.tile_pos, hP.tile_le, hP.min_range,
    hP.max_range⟩
  rw [← hP.shape i, ← (NdArray.set_shape hd).1]

/-- C01, for the methods of a map: a cell converted to its centre by the map and back is the same cell. -/
theorem C01_map (hP : Placed m cb ρ) (c : Cell D) (hc : ∀ i, |c i| ≤ 2 ^ 20) :
    m.cellFromPoint (m.pointFromCell c) = c := by
  have hpos := hP.res.pos
  have key : ∀ i, ∃ q : ℚ, (m.bounds.min i).Is q ∧ |q| ≤ 2 ^ 20 * ρ := by
    intro i
    obtain ⟨q, hq, e⟩ := pointCoord_zero hP.res (hP.inRange i).1
    have hb : m.bounds.min i = pointCoordFromCellCoord (cb.min i) (Fp.lit 0) m.resolution := by
      rw [hP.bounds]; rfl
    have r1 := hP.min_range i
    simp only [abs_le] at r1
    have s3 : |cb.min i| ≤ 2 ^ 19 := by rw [abs_le]; omega
    have s3' : |((cb.min i : ℤ) : ℚ)| ≤ 2 ^ 19 := by exact_mod_cast s3
    refine ⟨q, by rw [hb]; exact hq, ?_⟩
    have t1 := abs_sub_abs_le_abs_sub q ((cb.min i : ℚ) * ρ)
    have t2 : |(cb.min i : ℚ) * ρ| ≤ 2 ^ 19 * ρ := by rw [abs_mul, abs_of_pos hpos]; gcongr
    linarith
  choose q h1 h2 using key
  exact C01_cell_point_cell c hP.res h1 hc h2

/-- C32: same world cell means same place in the world. A cell `w` stored by two placed maps of the same
resolution (such as a map before and after an expansion): its centre, computed with the one map,
lies in that cell for the other. -/
theorem C32_world_position {B : Type} {n : GridMap D F32 B} {cn : CellBounds D} (hm : Placed m cb ρ)
    (hn : Placed n cn ρ) (hr : n.resolution = m.resolution) {w : Cell D} (hw : InCells w cb)
    (hw' : InCells w cn) :
    n.cellFromPoint (m.pointFromCell fun i => w i - cb.min i) = fun i => w i - cn.min i := by
  funext i
  have hpos := hm.res.pos
  obtain ⟨q, hq, eq⟩ := pointCoord_zero hm.res (hm.inRange i).1
  obtain ⟨q', hq', eq'⟩ := pointCoord_zero hm.res (hn.inRange i).1
  have hmb : m.bounds.min i = pointCoordFromCellCoord (cb.min i) (Fp.lit 0) m.resolution := by
    rw [hm.bounds]; rfl
  have hnb : n.bounds.min i = pointCoordFromCellCoord (cn.min i) (Fp.lit 0) m.resolution := by
    rw [hn.bounds, hr]; rfl
  rw [← hmb] at hq
  rw [← hnb] at hq'
  have r1 := hm.min_range i
  have r2 := hm.max_range i
  have r3 := hn.min_range i
  have r4 := hn.max_range i
  have r5 := hw i
  have r6 := hw' i
  simp only [abs_le] at r1 r2 r3 r4
  have s1 : |w i - cb.min i| ≤ 2 ^ 20 := by rw [abs_le]; omega
  have s1' : |((w i - cb.min i : ℤ) : ℚ)| ≤ 2 ^ 20 := by exact_mod_cast s1
  have s2 : |w i - cn.min i| ≤ 2 ^ 20 := by rw [abs_le]; omega
  have s2' : |((w i - cn.min i : ℤ) : ℚ)| ≤ 2 ^ 20 := by exact_mod_cast s2
  have s3 : |cb.min i| ≤ 2 ^ 19 := by rw [abs_le]; omega
  have s3' : |((cb.min i : ℤ) : ℚ)| ≤ 2 ^ 19 := by exact_mod_cast s3
  have hqb : |q| ≤ 2 ^ 20 * ρ := by
    have t1 := abs_sub_abs_le_abs_sub q ((cb.min i : ℚ) * ρ)
    have t2 : |(cb.min i : ℚ) * ρ| ≤ 2 ^ 19 * ρ := by rw [abs_mul, abs_of_pos hpos]; gcongr
    linarith
  obtain ⟨i1, e1⟩ := pointCoord_is hm.res hq s1' hqb (by norm_num) (by norm_num)
  set y := cellPoint (w i - cb.min i) q ρ with hy
  have e2 : |y - q' - ((w i - cn.min i : ℤ) : ℚ) * ρ| ≤ (5 / 16 + 1 / 2 ^ 20) * ρ := by
    have : y - q' - ((w i - cn.min i : ℤ) : ℚ) * ρ
        = (y - (((w i - cb.min i : ℤ) : ℚ) * ρ + q)) + (q - cb.min i * ρ) - (q' - cn.min i * ρ) := by
      push_cast; ring
    rw [this]
    have t1 := abs_sub ((y - (((w i - cb.min i : ℤ) : ℚ) * ρ + q)) + (q - cb.min i * ρ)) (q' - cn.min i * ρ)
    have t2 := abs_add_le (y - (((w i - cb.min i : ℤ) : ℚ) * ρ + q)) (q - cb.min i * ρ)
    linarith
  have e3 : |y - q'| ≤ (2 ^ 20 + 1) * ρ := by
    have t1 := abs_sub_abs_le_abs_sub (y - q') (((w i - cn.min i : ℤ) : ℚ) * ρ)
    have t2 : |((w i - cn.min i : ℤ) : ℚ) * ρ| ≤ 2 ^ 20 * ρ := by rw [abs_mul, abs_of_pos hpos]; gcongr
    linarith
  obtain ⟨d, hd, e4⟩ := cellCoord_is hm.res hq' i1 e3 (by norm_num) (by norm_num)
  change cellCoordFromPointCoord (pointCoordFromCellCoord (w i - cb.min i) (m.bounds.min i) m.resolution)
    (n.bounds.min i) n.resolution = w i - cn.min i
  rw [hr, hd]
  apply Fp.roundAway_eq_of_lt
  have e5 : |(y - q') / ρ - ((w i - cn.min i : ℤ) : ℚ)| ≤ 5 / 16 + 1 / 2 ^ 20 := by
    have : (y - q') / ρ - ((w i - cn.min i : ℤ) : ℚ)
        = (y - q' - ((w i - cn.min i : ℤ) : ℚ) * ρ) / ρ := by field_simp
    rw [this, abs_div, abs_of_pos hpos, div_le_iff₀ hpos]
    exact e2
  have t1 := abs_sub_le d ((y - q') / ρ) ((w i - cn.min i : ℤ) : ℚ)
  linarith

/-- C32 needs the map's bounds to be bounds of cells. A map made by `new` over other bounds has a grid of
another size than its cell bounds, and expanding it can panic: bounds [0.4, 1.6]² at resolution 1
hold 1 × 1 cells, but `expand_bounds` copies 2 × 2. -/
theorem C32_unaligned_map_panics : ∃ (b : Bounds 2 F32) (req : Bounds 2 F32), Ordered b ∧ Ordered req ∧
    (∃ m : GridMap 2 F32 ℕ, GridMap.new (Fp.lit 1) b 10 0 = .ok m) ∧
    (do
      let m ← GridMap.new (Fp.lit 1) b 10 0
      let _ ← m.expandBounds req (0 : ℕ)
      return ()) = Except.error (Err.panic .slice) := by
  refine ⟨⟨![Fp.lit (2/5), Fp.lit (2/5)], ![Fp.lit (8/5), Fp.lit (8/5)]⟩,
    ⟨![Fp.lit 0, Fp.lit 0], ![Fp.lit 5, Fp.lit 5]⟩, by decide +kernel, by decide +kernel, ?_,
    by decide +kernel⟩
  rw [C30_new_returns_iff]
  decide +kernel

/-- A concrete map and a concrete request in the working range. -/
example : Request (⟨![Fp.lit (-3), Fp.lit 2], ![Fp.lit 7, Fp.lit (5/2)]⟩ : Bounds 2 F32)
    (13421773 / 134217728) := by
  intro i
  fin_cases i
  · exact ⟨-3, 7, by decide +kernel, by decide +kernel, by norm_num, by norm_num [abs_of_neg], by norm_num⟩
  · exact ⟨2, 5 / 2, by decide +kernel, by decide +kernel, by norm_num, by norm_num, by norm_num⟩

example : ∃ m : GridMap 2 F32 ℕ, Placed m ⟨![-100, 3], ![200, 1000]⟩ (13421773 / 134217728) := by
  obtain ⟨m, -, h, -⟩ := C32_new_placed (D := 2) (by norm_num) res_default ⟨![-100, 3], ![200, 1000]⟩
    (t := 100) (by norm_num) (by norm_num) (by decide) (by decide) (0 : ℕ)
  exact ⟨m, h⟩

/-! ## C33 -/

/-- C33: every cell of the expanded map that was not in the old map reads the default given. -/
theorem C33_new_cells_default (hD : D ≤ 3) (hP : Placed m cb ρ) (h : Request b ρ) (v : A) :
    ∃ m' cb', m.expandBounds b v = .ok m' ∧ Placed m' cb' ρ ∧
      ∀ w, InCells w cb' → ¬ InCells w cb → valueAt m' cb' w = .ok v := by
  obtain ⟨m', ncb, h1, -, h2, -, h3⟩ := expand_spec hD hP h v
  exact ⟨m', ncb, h1, h2, h3⟩

/-! ## C34 -/

/-- C34: the cell bounds of the expanded map are multiples of the tile size, contain the cell bounds of
the request and the cell of every point of the request (the maximum corner included in the
box), contain the old cell bounds (unless the map was empty), and are the least such tiles around
the old and the rounded requested cells. -/
theorem C34_covers (hD : D ≤ 3) (hP : Placed m cb ρ) (h : Request b ρ) (v : A) :
    ∃ m' cb', m.expandBounds b v = .ok m' ∧ Placed m' cb' ρ ∧ Aligned m.tileSize cb' ∧
      CellSub (CellBounds.fromBounds b m.resolution) cb' ∧
      (∀ p, InBox p b → ∀ i, cb'.min i ≤ cellFromPoint p originPt m.resolution i ∧
        cellFromPoint p originPt m.resolution i ≤ cb'.max i) ∧
      (cb ≠ CellBounds.empty → CellSub cb cb') ∧
      (∀ s b', b.discretized m.resolution true = .ok b' → Aligned m.tileSize s →
        CellSub (CellBounds.fromBounds b' m.resolution) s → (cb ≠ CellBounds.empty → CellSub cb s) →
        CellSub cb' s) := by
  obtain ⟨m', ncb, h1, h0, h2, -, -⟩ := expand_spec hD hP h v
  obtain ⟨ncb', h0', h3, h4, h5, h6, -⟩ := newCellBounds_spec hP h
  rw [h0] at h0'
  cases h0'
  have hr := hP.res.1
  have hρ := hP.res.pos
  have hlo : ∀ i, cellOf m.resolution (Bounds.discMin m.resolution (b.min i))
      ≤ cellOf m.resolution (b.min i) := fun i =>
    cellOf_mono hr hρ (discMin_le hr hρ (h.ordered i).1)
  have hhi : ∀ i, cellOf m.resolution (b.max i)
      ≤ cellOf m.resolution (Bounds.discMax m.resolution true (b.max i)) := fun i =>
    cellOf_mono hr hρ (le_discMax true hr hρ (h.ordered i).2.1)
  refine ⟨m', ncb, h1, h2, h3, fun i => ?_, fun p hp i => ?_, h5, fun s b' hb' hs hd hc => ?_⟩
  · rw [fromBounds_eq _ hr hρ]
    exact ⟨(h4 i).1.trans (hlo i), (hhi i).trans (h4 i).2⟩
  · exact ⟨((h4 i).1.trans (hlo i)).trans (cellOf_mono hr hρ (hp i).1),
      (cellOf_mono hr hρ (hp i).2).trans ((hhi i).trans (h4 i).2)⟩
  · rw [discretized_eq hP.res h] at hb'
    cases hb'
    rw [fromBounds_eq _ hr hρ] at hd
    exact h6 s hs hd hc

/-! ## C35 -/

/-- C35: if the tiles of the map already contain the cells of the rounded request, expanding changes
nothing. -/
theorem C35_covered (hP : Placed m cb ρ) (h : Request b ρ) (v : A) (ha : Aligned m.tileSize cb)
    (hc : ∀ b', b.discretized m.resolution true = .ok b' →
      CellSub (CellBounds.fromBounds b' m.resolution) cb) :
    m.expandBounds b v = .ok m := by
  obtain ⟨ncb, h0, h3, h4, h5, h6, h7⟩ := newCellBounds_spec hP h
  have hd := hc _ (discretized_eq hP.res h)
  rw [fromBounds_eq _ hP.res.1 hP.res.pos] at hd
  have hsub := h6 cb ha hd fun _ i => ⟨le_rfl, le_rfl⟩
  have heq : ncb = cb := by
    by_cases he : cb = CellBounds.empty
    · ext i
      · have := hsub i; have := h7 i; rw [he] at *
        simp only [CellBounds.empty] at *; omega
      · have := hsub i; have := h7 i; rw [he] at *
        simp only [CellBounds.empty] at *; omega
    · ext i
      · exact le_antisymm (h5 he i).1 (hsub i).1
      · exact le_antisymm (hsub i).2 (h5 he i).2
  unfold GridMap.expandBounds
  rw [h0, M.bind_ok]
  dsimp only
  rw [hP.cells, if_pos heq]

/-- C35: expanding twice by the same bounds is the same as expanding once (even with another
default value). -/
theorem C35_idempotent (hD : D ≤ 3) (hP : Placed m cb ρ) (h : Request b ρ) (v v' : A)
    (hm' : m.expandBounds b v = .ok m') : m'.expandBounds b v' = .ok m' := by
  obtain ⟨m1, ncb, h1, h0, h2, -, -⟩ := expand_spec hD hP h v
  rw [hm'] at h1
  cases h1
  obtain ⟨ncb', h0', h3, h4, -, -, -⟩ := newCellBounds_spec hP h
  rw [h0] at h0'
  cases h0'
  obtain ⟨hres, ht, -⟩ := C36_expandBounds hm'
  refine C35_covered h2 h v' (by rw [ht]; exact h3) fun b' hb' => ?_
  rw [hres, discretized_eq hP.res h] at hb'
  cases hb'
  rw [hres, fromBounds_eq _ hP.res.1 hP.res.pos]
  exact h4

end
end Verif.Props
