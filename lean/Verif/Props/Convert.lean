import Verif.Lemmas.Convert
import Verif.Props.Bounds

/-!
# C01 – C04, C08, C12: conversions between points and cells in `f32`
-/

namespace Verif.Props
open Spec

variable {D : ℕ}

/-! ## C01, C02 -/

section
variable {o r p : F32} {q ρ x : ℚ}

lemma roundTrip_coord {c : ℤ} (hr : Res r ρ) (ho : o.Is q) (hc : |c| ≤ 2 ^ 20)
    (hq : |q| ≤ 2 ^ 20 * ρ) :
    cellCoordFromPointCoord (pointCoordFromCellCoord c o r) o r = c := by
  have hpos := hr.pos
  have hc' : |(c : ℚ)| ≤ 2 ^ 20 := by exact_mod_cast hc
  obtain ⟨i1, e1⟩ := pointCoord_is hr ho hc' hq (by norm_num) (by norm_num)
  have b1 : |cellPoint c q ρ - q| ≤ (2 ^ 20 + 1) * ρ := by
    have t1 := abs_sub_le (cellPoint c q ρ) (c * ρ + q) q
    have t2 : (c : ℚ) * ρ + q - q = c * ρ := by ring
    rw [t2, abs_mul, abs_of_pos hpos] at t1
    have t3 : |(c : ℚ)| * ρ ≤ 2 ^ 20 * ρ := by gcongr
    norm_num at e1 t1 t3 ⊢
    linarith
  obtain ⟨d, hd, e2⟩ := cellCoord_is hr ho i1 b1 (by norm_num) (by norm_num)
  rw [hd]
  apply Fp.roundAway_eq_of_lt
  have e3 : |(cellPoint c q ρ - q) / ρ - c| ≤ (3 * 2 ^ 20 + 2) / 2 ^ 24 := by
    have : (cellPoint c q ρ - q) / ρ - c = (cellPoint c q ρ - (c * ρ + q)) / ρ := by
      field_simp; ring
    rw [this, abs_div, abs_of_pos hpos, div_le_iff₀ hpos]
    exact e1
  have t1 := abs_sub_le d ((cellPoint c q ρ - q) / ρ) c
  norm_num at e2 e3 ⊢
  linarith

/-- C01: a cell converted to its centre and back is the same cell, in f32, for cells and offsets of up
to 2^20 cells. -/
theorem C01_cell_point_cell {offset : Point D F32} {q : Fin D → ℚ} (c : Cell D) (hr : Res r ρ)
    (ho : ∀ i, (offset i).Is (q i)) (hc : ∀ i, |c i| ≤ 2 ^ 20) (hq : ∀ i, |q i| ≤ 2 ^ 20 * ρ) :
    cellFromPoint (pointFromCell c offset r) offset r = c := by
  funext i
  exact roundTrip_coord hr (ho i) (hc i) (hq i)

/-- C01, the same per axis resolution. -/
theorem C01_cell_point_cell_n {offset res : Point D F32} {q ρ : Fin D → ℚ} (c : Cell D)
    (hr : ∀ i, Res (res i) (ρ i)) (ho : ∀ i, (offset i).Is (q i)) (hc : ∀ i, |c i| ≤ 2 ^ 20)
    (hq : ∀ i, |q i| ≤ 2 ^ 20 * ρ i) :
    cellFromPointN (pointFromCellN c offset res) offset res = c := by
  funext i
  exact roundTrip_coord (hr i) (ho i) (hc i) (hq i)

/-- Cells, offset and resolution of a concrete map in the working range. -/
example : cellFromPoint (pointFromCell (![-7, 1000000] : Cell 2) ![Fp.lit (1/3), Fp.lit (-1000)]
    (Fp.lit (1/10) : F32)) ![Fp.lit (1/3), Fp.lit (-1000)] (Fp.lit (1/10) : F32) = ![-7, 1000000] := by
  refine C01_cell_point_cell (ρ := 13421773 / 134217728) (q := ![11184811 / 33554432, -1000]) _
    ⟨by decide +kernel, by norm_num, by norm_num⟩ (by decide +kernel) (by decide +kernel) ?_
  decide +kernel

/-- C01, outside the working range the round trip fails: cell 2^24 + 1 at resolution 1. -/
theorem C01_fails_for_huge_cells : ∃ c : Cell 2,
    cellFromPoint (pointFromCell c originPt (Fp.lit 1 : F32)) originPt (Fp.lit 1 : F32) ≠ c := by
  refine ⟨![2 ^ 24 + 1, 0], ?_⟩
  decide +kernel

/-- C02: the centre of the cell of a point is within half a cell of the point, plus a slack that
grows with the number `N` of cells the coordinates are away from zero. -/
theorem C02_within_half_cell {N : ℚ} (hr : Res r ρ) (ho : o.Is q) (hp : p.Is x) (hN : N ≤ 2 ^ 21)
    (hN1 : 1 ≤ N) (hx : |x - q| ≤ N * ρ) (hq : |q| ≤ N * ρ) :
    ∃ y, (pointCoordFromCellCoord (cellCoordFromPointCoord p o r) o r).Is y ∧
      |y - x| ≤ (1 / 2 + (5 * N + 7) / 2 ^ 24) * ρ := by
  have hpos := hr.pos
  obtain ⟨d, hd, e1⟩ := cellCoord_is hr ho hp hx (by norm_num at hN ⊢; linarith) hN1
  have e2 := Fp.roundAway_err d
  have b0 : |(x - q) / ρ| ≤ N := by
    rw [abs_div, abs_of_pos hpos, div_le_iff₀ hpos]; exact hx
  have e3 : |(roundAway d : ℚ) - (x - q) / ρ| ≤ 1 / 2 + (2 * N + 2) / 2 ^ 24 := by
    have := abs_sub_le (roundAway d : ℚ) d ((x - q) / ρ)
    linarith
  have b1 : |(roundAway d : ℚ)| ≤ N + 1 := by
    have := abs_sub_abs_le_abs_sub (roundAway d : ℚ) ((x - q) / ρ)
    linarith
  have hq' : |q| ≤ (N + 1) * ρ := by nlinarith
  obtain ⟨i1, e4⟩ := pointCoord_is (c := roundAway d) hr ho b1 hq' (by norm_num at hN ⊢; linarith)
    (by linarith)
  rw [hd]
  refine ⟨_, i1, ?_⟩
  have e5 : |roundAway d * ρ + q - x| ≤ (1 / 2 + (2 * N + 2) / 2 ^ 24) * ρ := by
    have : roundAway d * ρ + q - x = ((roundAway d : ℚ) - (x - q) / ρ) * ρ := by
      field_simp; ring
    rw [this, abs_mul, abs_of_pos hpos]
    gcongr
  have t1 := abs_sub_le (cellPoint (roundAway d) q ρ) (roundAway d * ρ + q) x
  have : ((3 * (N + 1) + 2) / 2 ^ 24) * ρ + (1 / 2 + (2 * N + 2) / 2 ^ 24) * ρ
      = (1 / 2 + (5 * N + 7) / 2 ^ 24) * ρ := by ring
  linarith

/-- C02 for points and one resolution: every coordinate of the centre of the point's cell is that close
to the point. -/
theorem C02_within_half_cell_points {N : ℚ} {p offset : Point D F32} {q x : Fin D → ℚ} (hr : Res r ρ)
    (ho : ∀ i, (offset i).Is (q i)) (hp : ∀ i, (p i).Is (x i)) (hN : N ≤ 2 ^ 21) (hN1 : 1 ≤ N)
    (hx : ∀ i, |x i - q i| ≤ N * ρ) (hq : ∀ i, |q i| ≤ N * ρ) (i : Fin D) :
    ∃ y, (pointFromCell (cellFromPoint p offset r) offset r i).Is y ∧
      |y - x i| ≤ (1 / 2 + (5 * N + 7) / 2 ^ 24) * ρ :=
  C02_within_half_cell hr (ho i) (hp i) hN hN1 (hx i) (hq i)

/-- C02: the slack is needed, in f32 the distance can exceed half a cell. Resolution 0.1 and point
512.05: the centre is 5e-5 further away than half a cell. -/
theorem C02_half_cell_exceeded : ∃ p r : F32,
    let y := pointCoordFromCellCoord (cellCoordFromPointCoord p (Fp.lit 0) r) (Fp.lit 0) r
    p.isFin = true ∧ y.isFin = true ∧ r.val / 2 < |y.val - p.val| :=
  ⟨Fp.lit (51205 / 100), Fp.lit (1 / 10), by decide +kernel⟩

/-! ## C03 -/

/-- C03: moving a point up never moves its cell down. Every pair of comparable coordinates, infinite
ones included; every finite offset; every positive finite resolution. -/
theorem C03_monotone {p p' : F32} (ho : o.Is q) (hr : r.Is ρ) (hρ : 0 < ρ) (h : FLe p p') :
    cellCoordFromPointCoord p o r ≤ cellCoordFromPointCoord p' o r :=
  Fp.toInt_mono (Fp.round_mono (Fp.div_mono hr hρ (Fp.sub_mono ho h)))

/-- C03 for points: coordinate by coordinate. -/
theorem C03_monotone_points {p p' offset : Point D F32} {q : Fin D → ℚ} (ho : ∀ i, (offset i).Is (q i))
    (hr : r.Is ρ) (hρ : 0 < ρ) (h : ∀ i, FLe (p i) (p' i)) (i : Fin D) :
    cellFromPoint p offset r i ≤ cellFromPoint p' offset r i :=
  C03_monotone (ho i) hr hρ (h i)

example : FLe (Fp.lit (1/3) : F32) (.inf false) := by decide +kernel

/-! ## C04 -/

/-- The quotient is computed exactly when the difference is representable. -/
lemma cellCoord_exact {z : ℚ} {p : F32} (ho : o.Is q) (hr : r.Is ρ) (hρ : 0 < ρ) (hp : p.Is x)
    (hd : b32.Rep (x - q)) (hz : x - q = z * ρ) (hz' : b32.Rep z) :
    cellCoordFromPointCoord p o r = clampIsize (roundAway z) := by
  have i1 := hp.sub ho (by rw [Fmt.rnd_of_rep hd]; exact Fmt.rep_abs_lt hd)
  rw [Fmt.rnd_of_rep hd] at i1
  have he : (x - q) / ρ = z := by rw [hz]; field_simp
  have i2 := i1.div hr hρ.ne' (by rw [he, Fmt.rnd_of_rep hz']; exact Fmt.rep_abs_lt hz')
  rw [he, Fmt.rnd_of_rep hz'] at i2
  exact i2.round_toInt

lemma rep_half {k : ℤ} (hk : |k| ≤ 2 ^ 22) : b32.Rep ((k : ℚ) + 1 / 2) := by
  refine ⟨2 * k + 1, -1, ?_, by simp [b32], by simp [b32], ?_⟩
  · simp only [b32]
    rw [abs_le] at hk
    rw [abs_lt]; constructor <;> linarith [hk.1, hk.2]
  · push_cast; rw [zpow_neg_one]; ring

/-- C04 (partial). The full claim, from the doc comment of `cell_from_point`: a point lying exactly on
the boundary between two cells is assigned the higher cell. It holds for boundaries at or above the
centre of cell 0: a point half way between the centres of cells `k` and `k + 1`, `k ≥ 0`, is assigned
cell `k + 1`. What is missing is false, see `C04_negative_boundary`. (The difference point - offset
is assumed representable, as it is for offset 0.) -/
theorem C04_boundary_partial {k : ℤ} (ho : o.Is q) (hr : r.Is ρ) (hρ : 0 < ρ) (hp : p.Is x)
    (hd : b32.Rep (x - q)) (hx : x - q = ((k : ℚ) + 1 / 2) * ρ) (hk : 0 ≤ k) (hk' : k ≤ 2 ^ 22) :
    cellCoordFromPointCoord p o r = k + 1 := by
  rw [cellCoord_exact ho hr hρ hp hd hx (rep_half (by rw [abs_of_nonneg hk]; exact hk'))]
  have : roundAway ((k : ℚ) + 1 / 2) = k + 1 := by
    unfold roundAway
    have hk2 : (0 : ℚ) ≤ k := by exact_mod_cast hk
    rw [if_pos (by linarith)]
    rw [show (k : ℚ) + 1 / 2 + 1 / 2 = ((k + 1 : ℤ) : ℚ) by push_cast; ring, Int.floor_intCast]
  rw [this]
  exact Fp.clampIsize_of_mem (by unfold isizeMin; linarith) (by unfold isizeMax; linarith)

/-- C04 is false on the negative side: a point half way between the centres of cells `k` and `k + 1`,
`k < 0`, is assigned the lower cell `k`. -/
theorem C04_negative_boundary {k : ℤ} (ho : o.Is q) (hr : r.Is ρ) (hρ : 0 < ρ) (hp : p.Is x)
    (hd : b32.Rep (x - q)) (hx : x - q = ((k : ℚ) + 1 / 2) * ρ) (hk : k < 0) (hk' : -2 ^ 22 ≤ k) :
    cellCoordFromPointCoord p o r = k := by
  rw [cellCoord_exact ho hr hρ hp hd hx (rep_half (by rw [abs_of_neg hk]; linarith))]
  have : roundAway ((k : ℚ) + 1 / 2) = k := by
    unfold roundAway
    have hk2 : (k : ℚ) ≤ -1 := by exact_mod_cast Int.le_sub_one_of_lt hk
    rw [if_neg (by linarith)]
    rw [show -((k : ℚ) + 1 / 2) + 1 / 2 = ((-k : ℤ) : ℚ) by push_cast; ring, Int.floor_intCast]
    ring
  rw [this]
  exact Fp.clampIsize_of_mem (by unfold isizeMin; linarith) (by unfold isizeMax; linarith)

/-- Concrete boundary points. -/
example : cellCoordFromPointCoord (Fp.lit (5/2)) (Fp.lit 0) (Fp.lit 1 : F32) = 3 ∧
    cellCoordFromPointCoord (Fp.lit (-5/2)) (Fp.lit 0) (Fp.lit 1 : F32) = -3 := by decide +kernel

end

/-! ## C08 -/

section C08
variable {r : F32} {ρ : ℚ}

lemma pointCoord_zero {c : ℤ} (hr : Res r ρ) (hc : |c| ≤ 2 ^ 20) :
    ∃ y, (pointCoordFromCellCoord c (Fp.lit 0) r).Is y ∧ |y - c * ρ| ≤ (2 ^ 20 / 2 ^ 24 + 1 / 2 ^ 50) * ρ := by
  have hpos := hr.pos
  obtain ⟨hr0, hr1, hr2⟩ := hr
  have hc' : |(c : ℚ)| ≤ 2 ^ 20 := by exact_mod_cast hc
  have hci : (Scalar.ofInt c : F32).Is c := by
    apply Fp.is_ofInt
    exact hc.trans (by norm_num [b32])
  have a1 : |(c : ℚ) * ρ| ≤ 2 ^ 20 * ρ := by
    rw [abs_mul, abs_of_pos hpos]; gcongr
  have e1 := F32.err_res hr1 a1
  have i1 := hci.mul hr0 (F32.noOvf_res hpos hr2 (by norm_num) (by norm_num) a1)
  refine ⟨_, ?_, e1⟩
  have i2 := i1.add F32.zero_is (by rw [add_zero, Fmt.rnd_of_rep i1.rep]; exact Fmt.rep_abs_lt i1.rep)
  rwa [add_zero, Fmt.rnd_of_rep i1.rep] at i2

/-- Two values close to the corners `a` and `b` are `b - a` cells apart. -/
lemma size_coord_is {a b : ℤ} {fx fq : F32} {x q : ℚ} (hr : Res r ρ) (ha : |a| ≤ 2 ^ 20) (hb : |b| ≤ 2 ^ 20)
    (ix : fx.Is x) (ex : |x - b * ρ| ≤ (2 ^ 20 / 2 ^ 24 + 1 / 2 ^ 50) * ρ)
    (iq : fq.Is q) (eq : |q - a * ρ| ≤ (2 ^ 20 / 2 ^ 24 + 1 / 2 ^ 50) * ρ) :
    cellCoordFromPointCoord fx fq r = b - a := by
  have hpos := hr.pos
  have hb' : |(b : ℚ)| ≤ 2 ^ 20 := by exact_mod_cast hb
  have ha' : |(a : ℚ)| ≤ 2 ^ 20 := by exact_mod_cast ha
  have e0 : |(x - q) - (b - a) * ρ| ≤ (2 / 2 ^ 4 + 1 / 2 ^ 49) * ρ := by
    have : (x - q) - (b - a) * ρ = (x - b * ρ) - (q - a * ρ) := by ring
    rw [this]
    have t := abs_sub (x - b * ρ) (q - a * ρ)
    norm_num at ex eq t ⊢
    linarith
  have bd : |x - q| ≤ (2 ^ 21 + 1) * ρ := by
    have t1 := abs_sub_abs_le_abs_sub (x - q) ((b - a) * ρ)
    have t2 : |((b : ℚ) - a) * ρ| ≤ 2 ^ 21 * ρ := by
      rw [abs_mul, abs_of_pos hpos]
      have := abs_sub (b : ℚ) a
      gcongr
      linarith
    linarith
  obtain ⟨d, hd, ed⟩ := cellCoord_is hr iq ix bd (by norm_num) (by norm_num)
  rw [hd]
  apply Fp.roundAway_eq_of_lt
  have e3 : |(x - q) / ρ - ((b - a : ℤ) : ℚ)| ≤ 2 / 2 ^ 4 + 1 / 2 ^ 49 := by
    have : (x - q) / ρ - ((b - a : ℤ) : ℚ) = ((x - q) - (b - a) * ρ) / ρ := by
      push_cast; field_simp
    rw [this, abs_div, abs_of_pos hpos, div_le_iff₀ hpos]
    exact e0
  have t1 := abs_sub_le d ((x - q) / ρ) ((b - a : ℤ) : ℚ)
  linarith

lemma size_coord {a b : ℤ} (hr : Res r ρ) (ha : |a| ≤ 2 ^ 20) (hb : |b| ≤ 2 ^ 20) :
    cellCoordFromPointCoord (pointCoordFromCellCoord b (Fp.lit 0) r)
      (pointCoordFromCellCoord a (Fp.lit 0) r) r = b - a := by
  obtain ⟨x, ix, ex⟩ := pointCoord_zero hr hb
  obtain ⟨q, iq, eq⟩ := pointCoord_zero hr ha
  exact size_coord_is hr ha hb ix ex iq eq

/-- The corners of the cell bounds are at most 2^20 cells from the origin. -/
def InRange (cb : CellBounds D) : Prop := ∀ i, |cb.min i| ≤ 2 ^ 20 ∧ |cb.max i| ≤ 2 ^ 20

instance (cb : CellBounds D) : Decidable (InRange cb) := by unfold InRange; infer_instance

lemma cell_of_zero_point {c : ℤ} (hr : Res r ρ) (hc : |c| ≤ 2 ^ 20)
    (h : (pointCoordFromCellCoord c (Fp.lit 0) r).Is 0) : c = 0 := by
  have hpos := hr.pos
  obtain ⟨y, iy, ey⟩ := pointCoord_zero hr hc
  rw [← h.unique iy, zero_sub, abs_neg, abs_mul, abs_of_pos hpos] at ey
  have : |(c : ℚ)| ≤ 2 ^ 20 / 2 ^ 24 + 1 / 2 ^ 50 := le_of_mul_le_mul_right ey hpos
  have h2 : |(c : ℚ)| < 1 := by norm_num at this ⊢; linarith
  have h3 : |c| < 1 := by exact_mod_cast h2
  exact Int.abs_lt_one_iff.mp h3

/-- C08: the cell bounds of the bounds of `cb` are `cb`. -/
theorem C08_cell_bounds_round_trip (cb : CellBounds D) (hr : Res r ρ) (h : InRange cb) :
    CellBounds.fromBounds (Bounds.fromCellBounds cb r) r = cb := by
  have h0 : |(0 : ℚ)| ≤ 2 ^ 20 * ρ := by
    rw [abs_zero]; have := hr.pos; positivity
  unfold CellBounds.fromBounds
  by_cases he : (Bounds.fromCellBounds cb r).beq Bounds.empty = true
  · rw [if_pos he]
    rw [beq_empty_iff] at he
    ext i
    · exact (cell_of_zero_point hr (h i).1 (he i).1).symm
    · exact (cell_of_zero_point hr (h i).2 (he i).2).symm
  · rw [if_neg he]
    ext i
    · exact roundTrip_coord hr F32.zero_is (h i).1 h0
    · exact roundTrip_coord hr F32.zero_is (h i).2 h0

/-- C08: the bounds of `cb` span exactly the cells of `cb`: measured from the minimum corner, the
maximum corner is `max - min` cells away. -/
theorem C08_size (cb : CellBounds D) (hr : Res r ρ) (h : InRange cb) (i : Fin D) :
    cellFromPoint (Bounds.fromCellBounds cb r).max (Bounds.fromCellBounds cb r).min r i
      = cb.max i - cb.min i :=
  size_coord hr (h i).1 (h i).2

/-- C08: `from_size_cells` spans exactly `size` cells starting at `offset`. -/
theorem C08_from_size_cells (size offset : Cell D) (hr : Res r ρ) (h1 : ∀ i, |offset i| ≤ 2 ^ 20)
    (h2 : ∀ i, |size i + offset i| ≤ 2 ^ 20) :
    ∃ b, Bounds.fromSizeCells size r offset = .ok b ∧
      CellBounds.fromBounds b r = ⟨offset, fun i => size i + offset i⟩ ∧
      cellFromPoint b.max b.min r = size := by
  have hin : ∀ n : ℤ, |n| ≤ 2 ^ 20 → isz n = .ok n := by
    intro n hn
    rw [abs_le] at hn
    rw [isz_ok]
    refine ⟨rfl, ?_, ?_⟩
    · unfold isizeMin; linarith [hn.1]
    · unfold isizeMax; linarith [hn.2]
  have hs : (Bounds.sizeCellBounds size offset : M (CellBounds D))
      = .ok ⟨offset, fun i => size i + offset i⟩ := by
    unfold Bounds.sizeCellBounds
    have e1 : seqFin (fun i => isz (0 + offset i)) = .ok offset := by
      rw [seqFin_ok]; intro i; rw [zero_add]; exact hin _ (h1 i)
    have e2 : seqFin (fun i => isz (size i + offset i)) = .ok fun i => size i + offset i := by
      rw [seqFin_ok]; intro i; exact hin _ (h2 i)
    rw [e1, e2]; rfl
  have hr' : InRange (⟨offset, fun i => size i + offset i⟩ : CellBounds D) := fun i => ⟨h1 i, h2 i⟩
  refine ⟨_, ?_, C08_cell_bounds_round_trip _ hr hr', ?_⟩
  · unfold Bounds.fromSizeCells; rw [hs]; rfl
  · funext i
    rw [C08_size _ hr hr' i]
    simp

/-- The default resolution is in the working range. -/
lemma res_default : Res (Fp.lit (1/10) : F32) (13421773 / 134217728) := by
  refine ⟨?_, by norm_num, by norm_num⟩
  decide +kernel

/-- A concrete grid with a negative corner. -/
example : InRange (⟨![-100, 3], ![200, 1000]⟩ : CellBounds 2) := by decide

end C08

/-! ## C12 -/

section C12
variable {r v : F32} {ρ : ℚ}

lemma relativeEq_inf (s : Bool) : relativeEq (.inf s : F32) (Fp.inf s : F32).round = true :=
  relativeEq_of_eq (by cases s <;> rfl)

lemma inf_div (hr : r.Is ρ) (hρ : 0 < ρ) (s : Bool) : (Fp.inf s : F32).div r = .inf s := by
  have hs := Fp.sgn_of_pos hr hρ
  obtain ⟨nz, h, hz, rfl⟩ := hr
  cases s <;> simp only [Fp.div, hs] <;> rfl

/-- The quotient of `discretized`: infinite, or the rounded quotient. -/
lemma disc_cell (hr : r.Is ρ) (hρ : 0 < ρ) (hv : v.isNaN = false) :
    (∃ s, v.div r = .inf s) ∨ (∃ x, v.Is x ∧ (v.div r).Is (b32.rnd (x / ρ))) := by
  rcases v with _ | s | ⟨x, nz, h, hz⟩
  · cases hv
  · exact .inl ⟨s, inf_div hr hρ s⟩
  · obtain ⟨nz', h', hz', rfl⟩ := hr
    simp only [Fp.div, if_neg hρ.ne']
    rcases F32.ofRat_cases (_ ^^ _) (x / ρ) with h1 | ⟨h1, -⟩
    · exact .inr ⟨x, ⟨_, _, _, rfl⟩, h1⟩
    · exact .inl ⟨_, h1⟩

lemma relativeEq_int {a : F32} {c : ℚ} (ha : a.Is c) {k : ℤ} (h : c = k) :
    relativeEq a a.round = true := by
  subst h
  apply relativeEq_of_eq
  have := ha.round
  rw [Fp.roundAway_int] at this
  rw [ha.eq this]; simp

lemma mul_eq_ofRat {a b : F32} {x y : ℚ} (ha : a.Is x) (hb : b.Is y) :
    ∃ s, a.mul b = Fp.ofRat s (x * y) := by
  obtain ⟨_, _, _, rfl⟩ := ha
  obtain ⟨_, _, _, rfl⟩ := hb
  exact ⟨_, rfl⟩

lemma add_eq_ofRat {a b : F32} {x y : ℚ} (ha : a.Is x) (hb : b.Is y) :
    ∃ s, a.add b = Fp.ofRat s (x + y) := by
  obtain ⟨_, _, _, rfl⟩ := ha
  obtain ⟨_, _, _, rfl⟩ := hb
  exact ⟨_, rfl⟩

lemma FLe_ofRat_of_is {x y : ℚ} {s : Bool} (hv : v.Is x) (h : y ≤ x) : FLe (Fp.ofRat s y) v := by
  have h1 : FLe (Fp.ofRat s y : F32) (Fp.ofRat false x) := Fp.FLe_ofRat h
  exact Fp.FLe_trans h1 ((Fp.FLe_is (Fp.ofRat_is_rep hv.rep) hv).mpr le_rfl)

lemma FLe_of_is_ofRat {x y : ℚ} {s : Bool} (hv : v.Is x) (h : x ≤ y) : FLe v (Fp.ofRat s y) := by
  have h1 : FLe (Fp.ofRat false x : F32) (Fp.ofRat s y) := Fp.FLe_ofRat h
  exact Fp.FLe_trans ((Fp.FLe_is hv (Fp.ofRat_is_rep hv.rep)).mpr le_rfl) h1

lemma discMin_le (hr : r.Is ρ) (hρ : 0 < ρ) (hv : v.isNaN = false) : FLe (Bounds.discMin r v) v := by
  have hrfl : FLe v v := Fp.FLe_refl hv
  unfold Bounds.discMin
  dsimp only
  by_cases he : relativeEq (Scalar.div v r) (Scalar.round (Scalar.div v r)) = true
  · rw [if_pos he]; exact hrfl
  rw [if_neg he]
  rcases disc_cell hr hρ hv with ⟨s, hs⟩ | ⟨x, hx, hc⟩
  · exfalso; apply he
    change relativeEq (v.div r) (v.div r).round = true
    rw [hs]; exact relativeEq_inf s
  · have hle : (⌊b32.rnd (x / ρ)⌋ : ℚ) * ρ ≤ x := by
      rw [← le_div_iff₀ hρ]
      by_contra hlt
      rw [not_le] at hlt
      have h1 := Fmt.rnd_le_of_rep (Fp.rep_floor hc.rep) hlt.le
      exact he (relativeEq_int hc (le_antisymm h1 (Int.floor_le _)))
    obtain ⟨s, hs⟩ := mul_eq_ofRat hc.floor hr
    change FLe ((v.div r).floor.mul r) v
    rw [hs]
    exact FLe_ofRat_of_is hx hle

lemma le_discMax (expand : Bool) (hr : r.Is ρ) (hρ : 0 < ρ) (hv : v.isNaN = false) :
    FLe v (Bounds.discMax r expand v) := by
  have hrfl : FLe v v := Fp.FLe_refl hv
  unfold Bounds.discMax
  dsimp only
  by_cases he : relativeEq (Scalar.div v r) (Scalar.round (Scalar.div v r)) = true
  · rw [if_pos he]
    cases expand
    · exact hrfl
    · change FLe v (v.add r)
      rcases v with _ | s | ⟨x, nz, h, hz⟩
      · cases hv
      · obtain ⟨_, _, _, rfl⟩ := hr
        exact hrfl
      · obtain ⟨s, hs⟩ := add_eq_ofRat (a := Fp.fin x nz h hz) ⟨_, _, _, rfl⟩ hr
        rw [hs]
        exact FLe_of_is_ofRat ⟨_, _, _, rfl⟩ (by linarith)
  rw [if_neg he]
  rcases disc_cell hr hρ hv with ⟨s, hs⟩ | ⟨x, hx, hc⟩
  · exfalso; apply he
    change relativeEq (v.div r) (v.div r).round = true
    rw [hs]; exact relativeEq_inf s
  · have hle : x ≤ (⌈b32.rnd (x / ρ)⌉ : ℚ) * ρ := by
      rw [← div_le_iff₀ hρ]
      by_contra hlt
      rw [not_le] at hlt
      have h1 := Fmt.le_rnd_of_rep (Fp.rep_ceil hc.rep) hlt.le
      exact he (relativeEq_int hc (le_antisymm (Int.le_ceil _) h1))
    obtain ⟨s, hs⟩ := mul_eq_ofRat hc.ceil hr
    change FLe v ((v.div r).ceil.mul r)
    rw [hs]
    exact FLe_of_is_ofRat hx hle

/-- C12: rounding ordered bounds (infinite corners included) to the grid of any positive finite
resolution never panics and gives bounds containing the original ones, with or without `expand`. -/
theorem C12_discretized_contains (b : Bounds D F32) (expand : Bool) (hb : Ordered b) (hr : r.Is ρ)
    (hρ : 0 < ρ) :
    ∃ b', b.discretized r expand = .ok b' ∧ Spec.Sub b b' := by
  refine ⟨⟨fun i => Bounds.discMin r (b.min i), fun i => Bounds.discMax r expand (b.max i)⟩, ?_, ?_⟩
  · refine (C09_bounds_new _ _).1 fun i => ?_
    exact Fp.FLe_trans (discMin_le hr hρ (hb i).1)
      (Fp.FLe_trans (hb i) (le_discMax expand hr hρ (hb i).2.1))
  · exact fun i => ⟨discMin_le hr hρ (hb i).1, le_discMax expand hr hρ (hb i).2.1⟩

example : Ordered (⟨![Fp.lit (-1/3), Fp.lit 2], ![Fp.lit (7/3), .inf false]⟩ : Bounds 2 F32) := by
  decide +kernel

end C12
end Verif.Props
