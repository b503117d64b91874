import Verif.Props.NoPanic

/-!
# C12: bounds rounded to the grid are on the grid and hardly larger
-/

namespace Verif.Props
open Spec Scalar

section
variable {D : ℕ} {r v : F32} {ρ x N : ℚ}

lemma quot_near (hr : Res r ρ) (hN1 : 1 ≤ N) (hN : N ≤ 2 ^ 18) (hx : |x| ≤ N * ρ) :
    |x / ρ| ≤ N ∧ |b32.rnd (x / ρ) - x / ρ| ≤ N / 2 ^ 24 + 1 / 2 ^ 150 ∧ |b32.rnd (x / ρ)| ≤ N + 1 / 2 := by
  have hpos := hr.pos
  have hq : |x / ρ| ≤ N := by rw [abs_div, abs_of_pos hpos, div_le_iff₀ hpos]; exact hx
  have e := F32.err (x / ρ)
  have e' : |b32.rnd (x / ρ) - x / ρ| ≤ N / 2 ^ 24 + 1 / 2 ^ 150 := by
    refine e.trans ?_
    have : |x / ρ| * (1 / 2 ^ 24) ≤ N * (1 / 2 ^ 24) := by gcongr
    linarith
  refine ⟨hq, e', ?_⟩
  have t := abs_sub_abs_le_abs_sub (b32.rnd (x / ρ)) (x / ρ)
  have : N / 2 ^ 24 + 1 / 2 ^ 150 ≤ (1 : ℚ) / 2 := by
    have : N / 2 ^ 24 ≤ (2 ^ 18 : ℚ) / 2 ^ 24 := by gcongr
    norm_num at this ⊢
    linarith
  linarith

/-- If the quotient counts as whole, the value is near that grid line. -/
lemma whole_near (hr : Res r ρ) (hN1 : 1 ≤ N) (hN : N ≤ 2 ^ 18) (hx : |x| ≤ N * ρ) {c : F32}
    (hc : c.Is (b32.rnd (x / ρ))) (he : relativeEq c c.round = true) :
    |x / ρ - roundAway (b32.rnd (x / ρ))| ≤ 13 / 4 * N / 2 ^ 22 + 1 / 2 ^ 150 := by
  obtain ⟨-, h2, h3⟩ := quot_near hr hN1 hN hx
  have h4 := close_of_relativeEq hc hc.round he
  have h5 := Fp.roundAway_err (b32.rnd (x / ρ))
  have h6 := abs_sub_abs_le_abs_sub (roundAway (b32.rnd (x / ρ)) : ℚ) (b32.rnd (x / ρ))
  have h7 : (1 / 2 ^ 22 : ℚ) * max 1 (max |b32.rnd (x / ρ)| |(roundAway (b32.rnd (x / ρ)) : ℚ)|) ≤
      1 / 2 ^ 22 * (N + 1) := by
    gcongr
    exact max_le (by linarith) (max_le (by linarith) (by linarith))
  have t := abs_sub_le (x / ρ) (b32.rnd (x / ρ)) (roundAway (b32.rnd (x / ρ)))
  rw [abs_sub_comm (x / ρ) (b32.rnd (x / ρ))] at t
  have h8 := h4.trans h7
  norm_num at t h8 h2 ⊢
  linarith

/-- A multiple of the resolution, computed. -/
lemma grid_line (hr : Res r ρ) (hN1 : 1 ≤ N) (hN : N ≤ 2 ^ 18) {k : ℤ} (hk : |(k : ℚ)| ≤ N + 3 / 2) {a : F32}
    (ha : a.Is k) : ∃ u, (a.mul r).Is u ∧ |u - k * ρ| ≤ N / 2 ^ 22 * ρ := by
  have hpos := hr.pos
  have hkr : |(k : ℚ) * ρ| ≤ (N + 3 / 2) * ρ := by rw [abs_mul, abs_of_pos hpos]; gcongr
  have hM : N + 3 / 2 ≤ 2 ^ 20 := by norm_num at hN ⊢; linarith
  refine ⟨_, ha.mul hr.1 (F32.noOvf_res hpos hr.2.2 (hM.trans (by norm_num)) (by linarith) hkr), ?_⟩
  refine (F32.err_res hr.2.1 hkr).trans ?_
  gcongr
  norm_num
  linarith

lemma discMin_near (hr : Res r ρ) (hN1 : 1 ≤ N) (hN : N ≤ 2 ^ 18) (hv : v.Is x) (hx : |x| ≤ N * ρ) :
    ∃ (u : ℚ) (k : ℤ), (Bounds.discMin r v).Is u ∧ |u - k * ρ| ≤ N / 2 ^ 20 * ρ ∧ u ≤ x ∧
      x ≤ u + (1 + N / 2 ^ 20) * ρ := by
  have hpos := hr.pos
  obtain ⟨h1, h2, h3⟩ := quot_near hr hN1 hN hx
  have hN' : N ≤ 2 ^ 127 := hN.trans (by norm_num)
  have hc := hv.div hr.1 hpos.ne' (F32.noOvf (h1.trans hN'))
  have hle := discMin_le hr.1 hpos (Fp.notNaN_is hv)
  have hNρ : 0 ≤ N / 2 ^ 20 * ρ := by positivity
  by_cases he : relativeEq (Scalar.div v r) (Scalar.round (Scalar.div v r)) = true
  · have hd : Bounds.discMin r v = v := by unfold Bounds.discMin; exact if_pos he
    rw [hd]
    have h4 := whole_near hr hN1 hN hx hc he
    refine ⟨x, roundAway (b32.rnd (x / ρ)), hv, ?_, le_rfl, by nlinarith⟩
    rw [show x - roundAway (b32.rnd (x / ρ)) * ρ = (x / ρ - roundAway (b32.rnd (x / ρ))) * ρ by field_simp,
      abs_mul, abs_of_pos hpos]
    gcongr
    refine h4.trans ?_
    norm_num
    linarith
  · have hd : Bounds.discMin r v = (v.div r).floor.mul r := by unfold Bounds.discMin; exact if_neg he
    rw [hd] at hle ⊢
    have f1 := Int.floor_le (b32.rnd (x / ρ))
    have f2 := Int.lt_floor_add_one (b32.rnd (x / ρ))
    rw [abs_le] at h3
    obtain ⟨u, hu, hu'⟩ := grid_line hr hN1 hN (k := ⌊b32.rnd (x / ρ)⌋)
      (by rw [abs_le]; constructor <;> linarith [h3.1, h3.2]) hc.floor
    refine ⟨u, ⌊b32.rnd (x / ρ)⌋, hu, hu'.trans ?_, (Fp.FLe_is hu hv).mp hle, ?_⟩
    · gcongr <;> norm_num
    · have h5 : x = x / ρ * ρ := by field_simp
      have h6 : x / ρ ≤ ⌊b32.rnd (x / ρ)⌋ + 1 + (N / 2 ^ 24 + 1 / 2 ^ 150) := by
        linarith [(abs_le.mp h2).1]
      have h7 : x ≤ (⌊b32.rnd (x / ρ)⌋ + 1 + (N / 2 ^ 24 + 1 / 2 ^ 150)) * ρ := by
        calc x = x / ρ * ρ := h5
          _ ≤ _ := by gcongr
      have h8 : (N / 2 ^ 24 + 1 / 2 ^ 150 + N / 2 ^ 22) * ρ ≤ N / 2 ^ 20 * ρ := by
        gcongr; norm_num; linarith
      linarith [(abs_le.mp hu').1]

lemma discMax_near (expand : Bool) (hr : Res r ρ) (hN1 : 1 ≤ N) (hN : N ≤ 2 ^ 18) (hv : v.Is x)
    (hx : |x| ≤ N * ρ) :
    ∃ (u : ℚ) (k : ℤ), (Bounds.discMax r expand v).Is u ∧ |u - k * ρ| ≤ N / 2 ^ 20 * ρ ∧ x ≤ u ∧
      u ≤ x + (1 + N / 2 ^ 20) * ρ ∧ (expand = true → x < k * ρ) := by
  have hpos := hr.pos
  obtain ⟨h1, h2, h3⟩ := quot_near hr hN1 hN hx
  have hN' : N ≤ 2 ^ 127 := hN.trans (by norm_num)
  have hc := hv.div hr.1 hpos.ne' (F32.noOvf (h1.trans hN'))
  have hle := le_discMax expand hr.1 hpos (Fp.notNaN_is hv)
  have hNρ : 0 ≤ N / 2 ^ 20 * ρ := by positivity
  by_cases he : relativeEq (Scalar.div v r) (Scalar.round (Scalar.div v r)) = true
  · have h4 := whole_near hr hN1 hN hx hc he
    have hx' : |x - roundAway (b32.rnd (x / ρ)) * ρ| ≤ (13 / 4 * N / 2 ^ 22 + 1 / 2 ^ 150) * ρ := by
      rw [show x - roundAway (b32.rnd (x / ρ)) * ρ = (x / ρ - roundAway (b32.rnd (x / ρ))) * ρ by field_simp,
        abs_mul, abs_of_pos hpos]
      gcongr
    have hsm : (13 / 4 * N / 2 ^ 22 + 1 / 2 ^ 150) * ρ ≤ N / 2 ^ 20 * ρ := by
      gcongr; norm_num; linarith
    cases expand
    · have hd : Bounds.discMax r false v = v := by
        unfold Bounds.discMax; rw [if_pos he]; rfl
      rw [hd]
      exact ⟨x, roundAway (b32.rnd (x / ρ)), hv, hx'.trans hsm, le_rfl, by nlinarith, by simp⟩
    · have hd : Bounds.discMax r true v = v.add r := by
        unfold Bounds.discMax; rw [if_pos he]; rfl
      rw [hd] at hle ⊢
      have hs : |x + ρ| ≤ (N + 1) * ρ := by
        have := abs_add_le x ρ
        rw [abs_of_pos hpos] at this
        linarith
      have hM : N + 1 ≤ 2 ^ 20 := by norm_num at hN ⊢; linarith
      have i1 := hv.add hr.1 (F32.noOvf_res hpos hr.2.2 (hM.trans (by norm_num)) (by linarith) hs)
      have e1 := F32.err_res hr.2.1 hs
      have e2 : ((N + 1) / 2 ^ 24 + 1 / 2 ^ 50) * ρ ≤ (N / 2 ^ 23 + 1 / 2 ^ 50) * ρ := by
        refine mul_le_mul_of_nonneg_right ?_ hpos.le
        norm_num; linarith
      have e3 : (13 / 4 * N / 2 ^ 22 + 1 / 2 ^ 150) * ρ + (N / 2 ^ 23 + 1 / 2 ^ 50) * ρ ≤ N / 2 ^ 20 * ρ := by
        rw [← add_mul]; gcongr; norm_num; linarith
      refine ⟨_, roundAway (b32.rnd (x / ρ)) + 1, i1, ?_, (Fp.FLe_is hv i1).mp hle, ?_, fun _ => ?_⟩
      · push_cast
        rw [show b32.rnd (x + ρ) - ((roundAway (b32.rnd (x / ρ)) : ℚ) + 1) * ρ =
          (b32.rnd (x + ρ) - (x + ρ)) + (x - roundAway (b32.rnd (x / ρ)) * ρ) by ring]
        refine (abs_add_le _ _).trans ?_
        linarith
      · have e4 : 0 ≤ (13 / 4 * N / 2 ^ 22 + 1 / 2 ^ 150) * ρ := by positivity
        linarith [(abs_le.mp e1).2]
      · push_cast
        have e5 : N / 2 ^ 20 * ρ ≤ (2 ^ 18 : ℚ) / 2 ^ 20 * ρ := by gcongr
        norm_num at e5
        linarith [(abs_le.mp hx').2]
  · have hd : Bounds.discMax r expand v = (v.div r).ceil.mul r := by unfold Bounds.discMax; exact if_neg he
    rw [hd] at hle ⊢
    have f1 := Int.le_ceil (b32.rnd (x / ρ))
    have f2 := Int.ceil_lt_add_one (b32.rnd (x / ρ))
    rw [abs_le] at h3
    obtain ⟨u, hu, hu'⟩ := grid_line hr hN1 hN (k := ⌈b32.rnd (x / ρ)⌉)
      (by rw [abs_le]; constructor <;> linarith [h3.1, h3.2]) hc.ceil
    refine ⟨u, ⌈b32.rnd (x / ρ)⌉, hu, hu'.trans ?_, (Fp.FLe_is hv hu).mp hle, ?_, fun _ => ?_⟩
    · gcongr <;> norm_num
    · have h6 : (⌈b32.rnd (x / ρ)⌉ : ℚ) ≤ x / ρ + 1 + (N / 2 ^ 24 + 1 / 2 ^ 150) := by
        linarith [(abs_le.mp h2).2]
      have h7 : (⌈b32.rnd (x / ρ)⌉ : ℚ) * ρ ≤ (x / ρ + 1 + (N / 2 ^ 24 + 1 / 2 ^ 150)) * ρ := by gcongr
      have h5 : x / ρ * ρ = x := by field_simp
      have h8 : (N / 2 ^ 24 + 1 / 2 ^ 150 + N / 2 ^ 22) * ρ ≤ N / 2 ^ 20 * ρ := by
        gcongr; norm_num; linarith
      linarith [(abs_le.mp hu').2]
    · rw [← div_lt_iff₀ hpos]
      by_contra hlt
      rw [not_lt] at hlt
      have h5 := Fmt.le_rnd_of_rep (Fp.rep_ceil hc.rep) hlt
      exact he (relativeEq_int hc (le_antisymm (Int.le_ceil _) h5))

/-- C12: in the working range the rounded bounds lie on grid lines, up to `N / 2^20` cells, and each corner
has moved outwards by at most one cell plus that; with `expand` the grid line of the upper corner is
strictly above the original corner. -/
theorem C12_near (b : Bounds D F32) (expand : Bool) (hr : Res r ρ) (hN1 : 1 ≤ N) (hN : N ≤ 2 ^ 18)
    {x y : Fin D → ℚ} (hx : ∀ i, (b.min i).Is (x i)) (hy : ∀ i, (b.max i).Is (y i)) (hxy : ∀ i, x i ≤ y i)
    (hx' : ∀ i, |x i| ≤ N * ρ) (hy' : ∀ i, |y i| ≤ N * ρ) :
    ∃ b', b.discretized r expand = .ok b' ∧ ∀ i, ∃ (u w : ℚ) (k l : ℤ),
      (b'.min i).Is u ∧ (b'.max i).Is w ∧ |u - k * ρ| ≤ N / 2 ^ 20 * ρ ∧ |w - l * ρ| ≤ N / 2 ^ 20 * ρ ∧
      u ≤ x i ∧ x i ≤ u + (1 + N / 2 ^ 20) * ρ ∧ y i ≤ w ∧ w ≤ y i + (1 + N / 2 ^ 20) * ρ ∧
      (expand = true → y i < l * ρ) := by
  refine ⟨⟨fun i => Bounds.discMin r (b.min i), fun i => Bounds.discMax r expand (b.max i)⟩, ?_, fun i => ?_⟩
  · refine (C09_bounds_new _ _).1 fun i => ?_
    exact Fp.FLe_trans (discMin_le hr.1 hr.pos (Fp.notNaN_is (hx i)))
      (Fp.FLe_trans ((Fp.FLe_is (hx i) (hy i)).mpr (hxy i)) (le_discMax expand hr.1 hr.pos (Fp.notNaN_is (hy i))))
  · obtain ⟨u, k, h1, h2, h3, h4⟩ := discMin_near hr hN1 hN (hx i) (hx' i)
    obtain ⟨w, l, g1, g2, g3, g4, g5⟩ := discMax_near expand hr hN1 hN (hy i) (hy' i)
    exact ⟨u, w, k, l, h1, g1, h2, g2, h3, h4, g3, g4, g5⟩

/-- Bounds in the working range, with a corner on a grid line. -/
example : Res (Fp.lit (1 / 10) : F32) (13421773 / 134217728) ∧ (Fp.lit (-1 / 4) : F32).Is (-1 / 4) ∧
    (Fp.lit 7 : F32).Is 7 ∧ |(-1 / 4 : ℚ)| ≤ 100 * (13421773 / 134217728) ∧
    |(7 : ℚ)| ≤ 100 * (13421773 / 134217728) := by
  refine ⟨res_default, ?_, ?_, by norm_num [abs_le], by norm_num [abs_le]⟩ <;> decide +kernel

/-- The cell of a rounded lower corner is less than two cells below the corner. -/
lemma discMin_cell_ge (hr : Res r ρ) (hv : v.Is x) (hx : |x| ≤ 2 ^ 18 * ρ) :
    x / ρ - 2 ≤ cellOf r (Bounds.discMin r v) := by
  have hpos := hr.pos
  obtain ⟨u, -, hu, -, hle, hge⟩ := discMin_near hr (by norm_num) le_rfl hv hx
  have hu' : |u - 0| ≤ (2 ^ 18 + 2) * ρ := by
    rw [sub_zero, abs_le]
    rw [abs_le] at hx
    norm_num at hx hge ⊢
    constructor <;> linarith [hx.1, hx.2]
  have hn := cell_near hr F32.zero_is hu hu' (by norm_num) (by norm_num)
  change |u - (0 + cellOf r (Bounds.discMin r v) * ρ)| ≤ _ at hn
  rw [sub_le_iff_le_add, div_le_iff₀ hpos]
  norm_num at hn hge
  linarith [(abs_le.mp hn).2]

/-- The cell of a rounded upper corner is less than two cells above the corner. -/
lemma discMax_cell_le (hr : Res r ρ) (hv : v.Is x) (hx : |x| ≤ 2 ^ 18 * ρ) :
    cellOf r (Bounds.discMax r true v) ≤ x / ρ + 2 := by
  have hpos := hr.pos
  obtain ⟨u, -, hu, -, hle, hge, -⟩ := discMax_near true hr (by norm_num) le_rfl hv hx
  have hu' : |u - 0| ≤ (2 ^ 18 + 2) * ρ := by
    rw [sub_zero, abs_le]
    rw [abs_le] at hx
    norm_num at hx hge ⊢
    constructor <;> linarith [hx.1, hx.2]
  have hn := cell_near hr F32.zero_is hu hu' (by norm_num) (by norm_num)
  change |u - (0 + cellOf r (Bounds.discMax r true v) * ρ)| ≤ _ at hn
  rw [← sub_le_iff_le_add, le_div_iff₀ hpos]
  norm_num at hn hge
  linarith [(abs_le.mp hn).1]

end

section
variable {D : ℕ} {A : Type} {m : GridMap D F32 A} {cb : CellBounds D} {ρ : ℚ} {b : Bounds D F32}

/-- C34: the map does not grow beyond what is needed: a tile line that bounds the old map (if not empty) and
the request on some side, the request with two cells to spare, bounds the new map. -/
theorem C34_not_larger (hD : D ≤ 3) (hP : Placed m cb ρ) (h : Request b ρ) (v : A) :
    ∃ m' cb', m.expandBounds b v = .ok m' ∧ Placed m' cb' ρ ∧
      ∀ i x y, (b.min i).Is x → (b.max i).Is y → ∀ k : ℤ,
        ((cb ≠ CellBounds.empty → k * m.tileSize ≤ cb.min i) → (k * m.tileSize + 2 : ℚ) * ρ ≤ x →
          k * m.tileSize ≤ cb'.min i) ∧
        ((cb ≠ CellBounds.empty → cb.max i ≤ k * m.tileSize) → y ≤ (k * m.tileSize - 2 : ℚ) * ρ →
          cb'.max i ≤ k * m.tileSize) := by
  obtain ⟨m', ncb, h1, h0, h2, -, -⟩ := expand_spec hD hP h v
  obtain ⟨ncb', h0', h3, h4, h5, h6, -⟩ := newCellBounds_spec hP h
  rw [h0] at h0'
  cases h0'
  have hpos := hP.res.pos
  refine ⟨m', ncb, h1, h2, fun i x y hx hy k => ?_⟩
  obtain ⟨x', y', hx', hy', -, bx, by_⟩ := h i
  obtain rfl := hx.unique hx'
  obtain rfl := hy.unique hy'
  have e1 := discMin_cell_ge hP.res hx bx
  have e2 := discMax_cell_le hP.res hy by_
  constructor
  · intro hk hkx
    have hd : k * m.tileSize ≤ cellOf m.resolution (Bounds.discMin m.resolution (b.min i)) := by
      have : ((k * m.tileSize : ℤ) : ℚ) ≤ cellOf m.resolution (Bounds.discMin m.resolution (b.min i)) := by
        refine le_trans ?_ e1
        rw [le_sub_iff_add_le, le_div_iff₀ hpos]
        push_cast
        exact hkx
      exact_mod_cast this
    have := h6 ⟨Function.update ncb.min i (k * m.tileSize), ncb.max⟩ (fun j => ?_) (fun j => ?_)
      (fun hne j => ?_)
    · simpa using (this i).1
    · refine ⟨?_, (h3 j).2⟩
      by_cases hj : j = i
      · subst hj; simp
      · simpa [hj] using (h3 j).1
    · refine ⟨?_, (h4 j).2⟩
      by_cases hj : j = i
      · subst hj; simpa [discCells] using hd
      · simpa [hj] using (h4 j).1
    · refine ⟨?_, (h5 hne j).2⟩
      by_cases hj : j = i
      · subst hj; simpa using hk hne
      · simpa [hj] using (h5 hne j).1
  · intro hk hky
    have hd : cellOf m.resolution (Bounds.discMax m.resolution true (b.max i)) ≤ k * m.tileSize := by
      have : (cellOf m.resolution (Bounds.discMax m.resolution true (b.max i)) : ℚ) ≤
          ((k * m.tileSize : ℤ) : ℚ) := by
        refine e2.trans ?_
        rw [← le_sub_iff_add_le, div_le_iff₀ hpos]
        push_cast
        exact hky
      exact_mod_cast this
    have := h6 ⟨ncb.min, Function.update ncb.max i (k * m.tileSize)⟩ (fun j => ?_) (fun j => ?_)
      (fun hne j => ?_)
    · simpa using (this i).2
    · refine ⟨(h3 j).1, ?_⟩
      by_cases hj : j = i
      · subst hj; simp
      · simpa [hj] using (h3 j).2
    · refine ⟨(h4 j).1, ?_⟩
      by_cases hj : j = i
      · subst hj; simpa [discCells] using hd
      · simpa [hj] using (h4 j).2
    · refine ⟨(h5 hne j).1, ?_⟩
      by_cases hj : j = i
      · subst hj; simpa using hk hne
      · simpa [hj] using (h5 hne j).2

/-- A map, a request and tile lines with two cells to spare: the request ends at 7 metres, the tile at 10. -/
example : ∃ (m : GridMap 2 F32 ℕ) (cb : CellBounds 2) (b : Bounds 2 F32) (ρ : ℚ),
    Placed m cb ρ ∧ Request b ρ ∧ m.tileSize = 100 ∧ cb ≠ CellBounds.empty ∧ (b.max 0).Is 7 ∧
    cb.max 0 ≤ 1 * (m.tileSize : ℤ) ∧ (7 : ℚ) ≤ (1 * m.tileSize - 2 : ℚ) * ρ := by
  obtain ⟨m, hm, h, -⟩ := C32_new_placed (D := 2) (by norm_num) res_default ⟨![-100, 3], ![50, 1000]⟩
    (t := 100) (by norm_num) (by norm_num) (by decide) (by decide) (0 : ℕ)
  have ht : m.tileSize = 100 := by
    rw [GridMap.new] at hm
    obtain ⟨d, -, hd⟩ := M.bind_eq_ok.mp hm
    cases hd
    rfl
  refine ⟨m, _, ⟨![Fp.lit (-3), Fp.lit 2], ![Fp.lit 7, Fp.lit (5/2)]⟩, _, h, ?_, ht,
    fun hc => ?_, by decide +kernel, ?_, ?_⟩
  · intro i
    fin_cases i
    · exact ⟨-3, 7, by decide +kernel, by decide +kernel, by norm_num, by norm_num [abs_of_neg], by norm_num⟩
    · exact ⟨2, 5 / 2, by decide +kernel, by decide +kernel, by norm_num, by norm_num, by norm_num⟩
  · have := congrFun (congrArg CellBounds.min hc) 0
    simp [CellBounds.empty] at this
  · rw [ht]; norm_num
  · rw [ht]; norm_num

end
end Verif.Props
