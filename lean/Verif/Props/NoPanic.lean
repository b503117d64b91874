import Verif.Props.RayLimit
import Verif.Props.RayF32
import Verif.Props.History
import Verif.Props.VizWitness
import Verif.Spec.Scan

/-!
# C44: integrating a cloud does not panic
-/

namespace Verif.Props
open Spec Scalar

variable {D : ℕ} {nm : LidarNoiseModel F32} {m : GridMap D F32 F32} {cb : CellBounds D} {ρ : ℚ}
  {origin : Point D F32} {cloud : PointCloud D F32} {ord : List (Cell D) → List (Cell D)}
  {M : ℚ} {o e : Point D F32} {bounds : Bounds D F32} {r : F32} {x y q : Fin D → ℚ}

/-- C24 for any range limit: a ray that keeps the margin returns, and all its cells lie between the cells of
its ends. -/
theorem C24_stays_between (hD : D = 2 ∨ D = 3) (h : RayRange M o e bounds.min r x y q ρ) {K : ℕ}
    (hK : ∀ i, |cellFromPoint e bounds.min r i - cellFromPoint o bounds.min r i| ≤ K)
    (hmargin : ∀ i, y i ≠ x i → |y i - (q i + cellFromPoint e bounds.min r i * ρ)| ≤
      (1 / 2 - (5 * M + K ^ 2 + 10 * K + 23) / 2 ^ 24) * ρ) (ml : F32) :
    ∃ ray res, Casts o e bounds r ml ray res ∧
      ∀ z ∈ ray, Between (cellFromPoint o bounds.min r) (cellFromPoint e bounds.min r) z := by
  have h0 : Scalar.lt (lit 0) (lit 0 : F32) = false := by decide +kernel
  cases hml : (lit 0 <. ml) with
  | false =>
    obtain ⟨ray, hr⟩ := C24_reaches_end hD h hK hmargin (ml := ml) (by rw [hml]; simp)
    exact ⟨ray, _, hr, C19_in_box hr⟩
  | true =>
    obtain ⟨ray, hr⟩ := C24_reaches_end hD h hK hmargin (ml := lit 0) (by rw [h0]; simp)
    obtain ⟨ray', e', hr', hp, -⟩ := C56_limit_cuts h0 hml hr
    exact ⟨ray', e', hr', fun z hz => C19_in_box hr z (hp.subset hz)⟩

section
variable {v : F32} {x : ℚ}

/-- The world cell of a scaled integer. -/
lemma cellOf_scaled (hr : Res r ρ) {k : ℤ} (hk : |k| ≤ 2 ^ 18) {a : F32} (ha : a.Is k) :
    cellOf r (a.mul r) = k := by
  have hpos := hr.pos
  have hk' : |(k : ℚ)| ≤ 2 ^ 18 := by exact_mod_cast hk
  have hkr : |(k : ℚ) * ρ| ≤ 2 ^ 18 * ρ := by rw [abs_mul, abs_of_pos hpos]; gcongr
  have i1 := ha.mul hr.1 (F32.noOvf_res hpos hr.2.2 (by norm_num) (by norm_num) hkr)
  have e1 := F32.err_res hr.2.1 hkr
  have b1 : |b32.rnd (k * ρ) - 0| ≤ (2 ^ 18 + 1) * ρ := by
    rw [sub_zero]
    have := abs_sub_abs_le_abs_sub (b32.rnd (k * ρ)) (k * ρ)
    have e2 : (2 ^ 18 / 2 ^ 24 + 1 / 2 ^ 50) * ρ ≤ 1 * ρ := by gcongr; norm_num
    linarith
  obtain ⟨d, h1, h2⟩ := cellCoord_is hr F32.zero_is i1 b1 (by norm_num) (by norm_num)
  change cellCoordFromPointCoord _ _ _ = _
  refine h1.trans ?_
  apply Fp.roundAway_eq_of_lt
  rw [sub_zero] at h2
  have e3 : |b32.rnd (k * ρ) / ρ - k| ≤ 2 ^ 18 / 2 ^ 24 + 1 / 2 ^ 50 := by
    rw [show b32.rnd (k * ρ) / ρ - k = (b32.rnd (k * ρ) - k * ρ) / ρ by field_simp, abs_div, abs_of_pos hpos,
      div_le_iff₀ hpos]
    exact e1
  have := abs_sub_le d (b32.rnd (k * ρ) / ρ) k
  norm_num at this h2 e3 ⊢
  linarith

lemma floor_ceil_range (hr : Res r ρ) (hx : |x| ≤ 2 ^ 18 * ρ) :
    |b32.rnd (x / ρ)| ≤ 2 ^ 18 ∧ |⌊b32.rnd (x / ρ)⌋| ≤ 2 ^ 18 ∧ |⌈b32.rnd (x / ρ)⌉| ≤ 2 ^ 18 := by
  have hpos := hr.pos
  have hq : |x / ρ| ≤ 2 ^ 18 := by rw [abs_div, abs_of_pos hpos, div_le_iff₀ hpos]; exact hx
  have hrep : b32.Rep ((2 ^ 18 : ℤ) : ℚ) := Fmt.rep_int (f := b32) (by norm_num [b32])
  have hcr : |b32.rnd (x / ρ)| ≤ 2 ^ 18 := by
    rw [abs_le] at hq ⊢
    constructor
    · have := Fmt.le_rnd_of_rep (Fmt.rep_neg hrep) (q := x / ρ) (by push_cast; linarith [hq.1])
      push_cast at this; linarith
    · have := Fmt.rnd_le_of_rep hrep (q := x / ρ) (by push_cast; linarith [hq.2])
      push_cast at this; linarith
  refine ⟨hcr, ?_, ?_⟩
  · rw [abs_le] at hcr ⊢
    constructor
    · rw [Int.le_floor]; push_cast; linarith [hcr.1]
    · have := Int.floor_le (b32.rnd (x / ρ))
      have : (⌊b32.rnd (x / ρ)⌋ : ℚ) ≤ ((2 ^ 18 : ℤ) : ℚ) := by push_cast; linarith [hcr.2]
      exact_mod_cast this
  · rw [abs_le] at hcr ⊢
    constructor
    · have := Int.le_ceil (b32.rnd (x / ρ))
      have : ((-2 ^ 18 : ℤ) : ℚ) ≤ (⌈b32.rnd (x / ρ)⌉ : ℚ) := by push_cast; linarith [hcr.1]
      exact_mod_cast this
    · rw [Int.ceil_le]; push_cast; linarith [hcr.2]

/-- The upper corner of a request is strictly below the cell it is rounded to. -/
lemma lt_cellOf_discMax (hr : Res r ρ) (hv : v.Is x) (hx : |x| ≤ 2 ^ 18 * ρ) :
    x < cellOf r (Bounds.discMax r true v) * ρ := by
  have hpos := hr.pos
  obtain ⟨h1, -, h3⟩ := floor_ceil_range hr hx
  have hq : |x / ρ| ≤ 2 ^ 18 := by rw [abs_div, abs_of_pos hpos, div_le_iff₀ hpos]; exact hx
  have hc := hv.div hr.1 hpos.ne' (F32.noOvf (hq.trans (by norm_num)))
  rw [← div_lt_iff₀ hpos]
  unfold Bounds.discMax
  dsimp only
  by_cases he : relativeEq (Scalar.div v r) (Scalar.round (Scalar.div v r)) = true
  · rw [if_pos he, if_pos rfl]
    have hs : |x + ρ| ≤ (2 ^ 18 + 1) * ρ := by
      have := abs_add_le x ρ
      rw [abs_of_pos hpos] at this
      linarith
    have i1 := hv.add hr.1 (F32.noOvf_res hpos hr.2.2 (by norm_num) (by norm_num) hs)
    have e1 := F32.err_res hr.2.1 hs
    have b1 : |b32.rnd (x + ρ) - 0| ≤ (2 ^ 18 + 2) * ρ := by
      rw [sub_zero]
      have := abs_sub_abs_le_abs_sub (b32.rnd (x + ρ)) (x + ρ)
      have e2 : ((2 ^ 18 + 1) / 2 ^ 24 + 1 / 2 ^ 50) * ρ ≤ 1 * ρ := by gcongr; norm_num
      linarith
    obtain ⟨d, g1, g2⟩ := cellCoord_is hr F32.zero_is i1 b1 (by norm_num) (by norm_num)
    have g3 : cellOf r (v +. r) = roundAway d := g1
    rw [g3]
    rw [sub_zero] at g2
    have e3 : |b32.rnd (x + ρ) / ρ - (x / ρ + 1)| ≤ (2 ^ 18 + 1) / 2 ^ 24 + 1 / 2 ^ 50 := by
      rw [show b32.rnd (x + ρ) / ρ - (x / ρ + 1) = (b32.rnd (x + ρ) - (x + ρ)) / ρ by field_simp, abs_div,
        abs_of_pos hpos, div_le_iff₀ hpos]
      exact e1
    have g4 := Fp.roundAway_err d
    rw [abs_le] at g2 g4 e3
    norm_num at g2 e3 ⊢
    linarith [g2.1, g4.1, e3.1]
  · rw [if_neg he]
    have h4 : cellOf r ((v.div r).ceil.mul r) = ⌈b32.rnd (x / ρ)⌉ := cellOf_scaled hr h3 hc.ceil
    change x / ρ < (cellOf r ((v.div r).ceil.mul r) : ℤ)
    rw [h4]
    by_contra hlt
    rw [not_lt] at hlt
    have h5 := Fmt.le_rnd_of_rep (Fp.rep_ceil hc.rep) hlt
    exact he (relativeEq_int hc (le_antisymm (Int.le_ceil _) h5))

/-- The lower corner of a request is hardly below the cell it is rounded to. -/
lemma cellOf_discMin_le (hr : Res r ρ) (hv : v.Is x) (hx : |x| ≤ 2 ^ 18 * ρ) :
    (cellOf r (Bounds.discMin r v) - 1 / 8) * ρ ≤ x := by
  have hpos := hr.pos
  obtain ⟨h1, h2, -⟩ := floor_ceil_range hr hx
  have hq : |x / ρ| ≤ 2 ^ 18 := by rw [abs_div, abs_of_pos hpos, div_le_iff₀ hpos]; exact hx
  have hc := hv.div hr.1 hpos.ne' (F32.noOvf (hq.trans (by norm_num)))
  rw [← le_div_iff₀ hpos]
  unfold Bounds.discMin
  dsimp only
  by_cases he : relativeEq (Scalar.div v r) (Scalar.round (Scalar.div v r)) = true
  · rw [if_pos he]
    have h3 : |b32.rnd (x / ρ) - roundAway (b32.rnd (x / ρ))| ≤ 1 / 2 ^ 22 * (2 ^ 18 + 1) := by
      have h4 := close_of_relativeEq hc hc.round he
      refine h4.trans ?_
      have h5 := Fp.roundAway_err (b32.rnd (x / ρ))
      have h6 := abs_sub_abs_le_abs_sub (roundAway (b32.rnd (x / ρ)) : ℚ) (b32.rnd (x / ρ))
      gcongr
      refine max_le (by norm_num) (max_le (by linarith) (by linarith))
    have h4 := F32.err (x / ρ)
    obtain ⟨d, g1, g2⟩ := cellCoord_is (M := 2 ^ 18) hr F32.zero_is hv (by rw [sub_zero]; exact hx) (by norm_num)
      (by norm_num)
    rw [sub_zero] at g2
    have g3 : cellOf r v = roundAway d := g1
    rw [g3]
    have g5 : roundAway d = roundAway (b32.rnd (x / ρ)) := by
      apply Fp.roundAway_eq_of_lt
      have t1 := abs_sub_le d (x / ρ) (roundAway (b32.rnd (x / ρ)))
      have t2 := abs_sub_le (x / ρ) (b32.rnd (x / ρ)) (roundAway (b32.rnd (x / ρ)))
      rw [abs_sub_comm (x / ρ) (b32.rnd (x / ρ))] at t2
      norm_num at t1 t2 g2 h3 h4 hq ⊢
      linarith
    rw [g5]
    rw [abs_le] at h3 h4
    norm_num at h3 h4 hq ⊢
    linarith [h3.1, h4.2]
  · rw [if_neg he]
    have h4 : cellOf r ((v.div r).floor.mul r) = ⌊b32.rnd (x / ρ)⌋ := cellOf_scaled hr h2 hc.floor
    change ((cellOf r ((v.div r).floor.mul r) : ℤ) : ℚ) - 1 / 8 ≤ x / ρ
    rw [h4]
    have h5 : ((⌊b32.rnd (x / ρ)⌋ : ℤ) : ℚ) ≤ x / ρ := by
      by_contra hlt
      rw [not_le] at hlt
      have h5 := Fmt.rnd_le_of_rep (Fp.rep_floor hc.rep) hlt.le
      exact he (relativeEq_int hc (le_antisymm h5 (Int.floor_le _)))
    linarith

/-- A point is within half a cell of the centre of its cell, up to rounding. -/
lemma cell_near {p b : F32} {z q M : ℚ} (hr : Res r ρ) (hb : b.Is q) (hp : p.Is z) (h : |z - q| ≤ M * ρ)
    (hM1 : 1 ≤ M) (hM : M ≤ 2 ^ 20) :
    |z - (q + cellCoordFromPointCoord p b r * ρ)| ≤ (1 / 2 + (2 * M + 2) / 2 ^ 24) * ρ := by
  have hpos := hr.pos
  obtain ⟨d, h1, h2⟩ := cellCoord_is hr hb hp h (hM.trans (by norm_num)) hM1
  rw [h1]
  have h3 := Fp.roundAway_err d
  have h4 := abs_sub_le ((z - q) / ρ) d (roundAway d)
  rw [abs_sub_comm ((z - q) / ρ) d, abs_sub_comm d (roundAway d : ℚ)] at h4
  have e1 : z - (q + roundAway d * ρ) = ((z - q) / ρ - roundAway d) * ρ := by field_simp; ring
  rw [e1, abs_mul, abs_of_pos hpos]
  gcongr
  linarith

/-- The lower corner of the request is rounded down by at most a cell. -/
lemma le_cellOf_discMin (hr : Res r ρ) (hv : v.Is x) {M : ℕ} (hM1 : 1 ≤ M) (hM : M ≤ 2 ^ 18)
    (hx : |x| ≤ M * ρ) : -(M + 1 : ℤ) ≤ cellOf r (Bounds.discMin r v) := by
  have hpos := hr.pos
  have hMq : (M : ℚ) ≤ 2 ^ 18 := by exact_mod_cast hM
  have hx' : |x| ≤ 2 ^ 18 * ρ := hx.trans (by gcongr)
  obtain ⟨h1, h2, -⟩ := floor_ceil_range hr hx'
  have hq : |x / ρ| ≤ M := by rw [abs_div, abs_of_pos hpos, div_le_iff₀ hpos]; exact hx
  have hc := hv.div hr.1 hpos.ne' (F32.noOvf (hq.trans (hMq.trans (by norm_num))))
  unfold Bounds.discMin
  dsimp only
  by_cases he : relativeEq (Scalar.div v r) (Scalar.round (Scalar.div v r)) = true
  · rw [if_pos he]
    have := cellOf_range (N := M) hr hv (by exact_mod_cast hM1) (by push_cast; omega) (by exact_mod_cast hx)
    rw [abs_le] at this
    exact this.1
  · rw [if_neg he]
    have h4 : cellOf r ((v.div r).floor.mul r) = ⌊b32.rnd (x / ρ)⌋ := cellOf_scaled hr h2 hc.floor
    change _ ≤ cellOf r ((v.div r).floor.mul r)
    rw [h4, Int.le_floor]
    have hrep : b32.Rep ((M : ℤ) : ℚ) := Fmt.rep_int (f := b32) (by
      rw [abs_of_nonneg (by positivity)]; simp [b32]; omega)
    have := Fmt.le_rnd_of_rep (Fmt.rep_neg hrep) (q := x / ρ) (by push_cast; linarith [(abs_le.mp hq).1])
    push_cast at this ⊢
    linarith

end

/-- Each corner coordinate of the bounds of a cloud is zero or a coordinate of a point. -/
lemma cloud_bounds_pred (cloud : PointCloud D F32) (i : Fin D) (P : F32 → Prop) (h0 : P (Fp.lit 0))
    (h : ∀ p ∈ cloud.points, P (p i)) : P (cloud.bounds.min i) ∧ P (cloud.bounds.max i) := by
  have key : ∀ (ps : List (Point D F32)) (b : Bounds D F32), P (b.min i) → P (b.max i) → (∀ p ∈ ps, P (p i)) →
      P ((ps.foldl PointCloud.boundsStep b).min i) ∧ P ((ps.foldl PointCloud.boundsStep b).max i) := by
    intro ps
    induction ps with
    | nil => intro b h1 h2 _; exact ⟨h1, h2⟩
    | cons p ps ih =>
      intro b h1 h2 h3
      have hp := h3 p List.mem_cons_self
      refine ih (PointCloud.boundsStep b p) ?_ ?_ fun q hq => h3 q (List.mem_cons_of_mem _ hq)
      · unfold PointCloud.boundsStep; dsimp only; split_ifs <;> assumption
      · unfold PointCloud.boundsStep; dsimp only; split_ifs <;> assumption
  exact key cloud.points Bounds.empty h0 h0 h

/-- Everything about a scan in the working range: the expanded map stores the least tiles `ncb` around the old
cells and the cloud, every coordinate is within half a cell of the centre of its cell, and the rays are in the
working range and keep the margin at their ends. -/
lemma scan_setup {M K : ℕ} {x : Fin D → ℚ} (hD : D = 2 ∨ D = 3) (hP : Placed m cb ρ)
    (h : ScanRange M K m cb ρ x origin cloud) :
    ∃ me ncb q, m.expandBounds cloud.bounds (Fp.lit 0) = .ok me ∧ Placed me ncb ρ ∧
      (∀ w, InCells w cb → InCells w ncb ∧ valueAt me ncb w = valueAt m cb w) ∧
      (∀ w, InCells w ncb → ¬ InCells w cb → valueAt me ncb w = .ok (Fp.lit 0)) ∧
      (∀ i, (me.bounds.min i).Is (q i)) ∧
      (∀ i, |q i - ncb.min i * ρ| ≤ (3 * (M + m.tileSize + 1) + 2) / 2 ^ 24 * ρ) ∧
      Request cloud.bounds ρ ∧ Aligned m.tileSize ncb ∧
      CellSub (discCells m.resolution cloud.bounds) ncb ∧ (cb ≠ CellBounds.empty → CellSub cb ncb) ∧
      (∀ s, Aligned m.tileSize s → CellSub (discCells m.resolution cloud.bounds) s →
        (cb ≠ CellBounds.empty → CellSub cb s) → CellSub ncb s) ∧
      (∀ i, (∃ x, (cloud.bounds.min i).Is x ∧ |x| ≤ M * ρ) ∧ ∃ x, (cloud.bounds.max i).Is x ∧ |x| ≤ M * ρ) ∧
      (∀ i (p : F32) z, p.Is z → |z| ≤ M * ρ →
        |z - (ncb.min i + cellCoordFromPointCoord p (me.bounds.min i) me.resolution) * ρ| ≤
          (1 / 2 + (7 * M + 5 * m.tileSize + 11) / 2 ^ 24) * ρ) ∧
      ∀ p ∈ cloud.points,
        ∃ y, RayRange (2 * M + m.tileSize + 2) origin p me.bounds.min me.resolution x y q ρ ∧
          (∀ i, |y i - (ncb.min i + cellFromPoint p me.bounds.min me.resolution i) * ρ| ≤
            (1 / 2 + (7 * M + 5 * m.tileSize + 11) / 2 ^ 24) * ρ) ∧
          (∀ i, |cellFromPoint p me.bounds.min me.resolution i
            - cellFromPoint origin me.bounds.min me.resolution i| ≤ (K + 2 : ℕ)) ∧
          (∀ i, y i ≠ x i → |y i - (q i + cellFromPoint p me.bounds.min me.resolution i * ρ)| ≤
            (1 / 2 - (5 * (2 * M + m.tileSize + 2) + (K + 2 : ℕ) ^ 2 + 10 * (K + 2 : ℕ) + 23) / 2 ^ 24) * ρ) := by
  have hpos := hP.res.pos
  have hM1 := h.M_lo
  have hM := h.M_hi
  have hMq : (M : ℚ) ≤ 262144 := by exact_mod_cast hM
  have hMq1 : (1 : ℚ) ≤ M := by exact_mod_cast hM1
  have hT1 := hP.tile_pos
  have hT2 := hP.tile_le
  have hT1q : (1 : ℚ) ≤ m.tileSize := by exact_mod_cast hT1
  have hT2q : (m.tileSize : ℚ) ≤ 131072 := by exact_mod_cast hT2
  have hcloud : CloudInRange cloud ρ := by
    intro p hp i
    obtain ⟨y, h1, h2, -⟩ := h.points p hp i
    exact ⟨y, h1, h2.trans (by norm_num; gcongr)⟩
  have hreq := request_of_cloud hpos hcloud
  obtain ⟨me, ncb, h1, h0, hP', hold, hnew⟩ := expand_spec (by omega) hP hreq (Fp.lit 0 : F32)
  obtain ⟨ncb', h0', hal, hdc, hcb, hleast, hrange⟩ := newCellBounds_spec hP hreq
  rw [h0] at h0'
  cases h0'
  obtain ⟨hres, htile, -, -⟩ := C36_expandBounds h1
  -- the corners of the cloud bounds
  have hcorner : ∀ i, (∃ x, (cloud.bounds.min i).Is x ∧ |x| ≤ M * ρ) ∧ ∃ x, (cloud.bounds.max i).Is x ∧ |x| ≤ M * ρ :=
    fun i => cloud_bounds_pred cloud i (fun v => ∃ x, v.Is x ∧ |x| ≤ M * ρ) ⟨0, F32.zero_is, by rw [abs_zero]; positivity⟩ fun p hp => by
      obtain ⟨y, h1, h2, -⟩ := h.points p hp i
      exact ⟨y, h1, h2⟩
  have h18 : ∀ {z : ℚ}, |z| ≤ M * ρ → |z| ≤ 2 ^ 18 * ρ := fun hz => hz.trans (by norm_num; gcongr)
  -- the lower corner of the expanded map
  have hlow : ∀ i, |ncb.min i| ≤ M + m.tileSize + 1 := by
    have hsub := hleast ⟨fun _ => m.tileSize * (-(M + 1 : ℤ) / m.tileSize), fun _ => m.tileSize * 2 ^ 20⟩
      (fun i => ⟨dvd_mul_right _ _, dvd_mul_right _ _⟩)
      (fun i => by
        obtain ⟨⟨z, hz, hz'⟩, -⟩ := hcorner i
        have h2 := le_cellOf_discMin hP.res hz hM1 hM hz'
        have h3 := Int.mul_ediv_self_le (x := -(M + 1 : ℤ)) (k := (m.tileSize : ℤ)) (by omega)
        have h4 := (discCells_range hP.res hreq i).2.1
        refine ⟨h3.trans h2, ?_⟩
        rw [abs_le] at h4
        have : (2 : ℤ) ^ 20 ≤ m.tileSize * 2 ^ 20 := by
          have : (1 : ℤ) ≤ m.tileSize := by exact_mod_cast hT1
          linarith
        dsimp only
        omega)
      (fun _ i => by
        have h2 := abs_le.mp (h.corner i)
        have h3 := Int.mul_ediv_self_le (x := -(M + 1 : ℤ)) (k := (m.tileSize : ℤ)) (by omega)
        have h4 := hP.inRange i
        refine ⟨by dsimp only; omega, ?_⟩
        have h5 := (abs_le.mp h4.2).2
        have : (2 : ℤ) ^ 20 ≤ m.tileSize * 2 ^ 20 := by
          have : (1 : ℤ) ≤ m.tileSize := by exact_mod_cast hT1
          linarith
        dsimp only
        omega)
    intro i
    have h2 := (hsub i).1
    dsimp only at h2
    have h3 := Int.lt_mul_ediv_self_add (x := -(M + 1 : ℤ)) (k := (m.tileSize : ℤ)) (by omega)
    obtain ⟨⟨z, hz, hz'⟩, -⟩ := hcorner i
    have h4 := cellOf_discMin_le hP.res hz (h18 hz')
    have h5 := (hdc i).1
    have h6 : ((ncb.min i : ℤ) : ℚ) < ((M + 1 : ℤ) : ℚ) := by
      have h7 : ((ncb.min i : ℤ) : ℚ) ≤ cellOf m.resolution (Bounds.discMin m.resolution (cloud.bounds.min i)) := by
        exact_mod_cast h5
      have h8 : ((ncb.min i : ℤ) : ℚ) - 1 / 8 ≤ M := by
        have : ((ncb.min i : ℤ) - 1 / 8 : ℚ) * ρ ≤ M * ρ := by
          refine le_trans ?_ (h4.trans ((le_abs_self z).trans hz'))
          gcongr
        exact le_of_mul_le_mul_right this hpos
      push_cast
      linarith
    have h7 : ncb.min i < M + 1 := by exact_mod_cast h6
    rw [abs_le]
    omega
  -- its offset
  set M' : ℚ := 2 * M + m.tileSize + 2 with hM'
  have hM'1 : 1 ≤ M' := by linarith
  have hM'2 : M' ≤ 2 ^ 20 := by norm_num; linarith [hM']
  set ε : ℚ := (3 * (M + m.tileSize + 1) + 2) / 2 ^ 24 with hε
  have hq : ∀ i, ∃ q, (me.bounds.min i).Is q ∧ |q - ncb.min i * ρ| ≤ ε * ρ := by
    intro i
    have h2 : |(ncb.min i : ℚ)| ≤ M + m.tileSize + 1 := by exact_mod_cast hlow i
    obtain ⟨h3, h4⟩ := pointCoord_is (c := ncb.min i) (N := M + m.tileSize + 1) hP'.res F32.zero_is h2
      (by rw [abs_zero]; positivity) (by norm_num; linarith) (by linarith)
    rw [add_zero] at h4
    refine ⟨_, ?_, h4⟩
    rw [hP'.bounds]
    exact h3
  choose q hq hqe using hq
  have hεle : ε ≤ 1 := by
    rw [hε]; norm_num; linarith
  have hqb : ∀ i, |q i| ≤ (M + m.tileSize + 2) * ρ := by
    intro i
    have h2 : |(ncb.min i : ℚ)| ≤ M + m.tileSize + 1 := by exact_mod_cast hlow i
    have h3 := abs_sub_abs_le_abs_sub (q i) (ncb.min i * ρ)
    have h4 : |(ncb.min i : ℚ) * ρ| ≤ (M + m.tileSize + 1) * ρ := by
      rw [abs_mul, abs_of_pos hpos]; gcongr
    have h5 : ε * ρ ≤ 1 * ρ := by gcongr
    linarith [hqe i]
  have hnear : ∀ i z, |z| ≤ M * ρ → |z - q i| ≤ M' * ρ := by
    intro i z hz
    have := abs_sub z (q i)
    rw [hM']
    linarith [hqb i]
  -- the cell of a coordinate in the expanded map
  have hcell : ∀ i (p : F32) z, p.Is z → |z| ≤ M * ρ →
      |z - (ncb.min i + cellCoordFromPointCoord p (me.bounds.min i) me.resolution) * ρ| ≤
        (1 / 2 + (7 * M + 5 * m.tileSize + 11) / 2 ^ 24) * ρ := by
    intro i p z hp hz
    have h2 := cell_near (M := M') hP'.res (hq i) hp (hnear i z hz) hM'1 hM'2
    have h3 := hqe i
    have h4 := abs_add_le (z - (q i + cellCoordFromPointCoord p (me.bounds.min i) me.resolution * ρ))
      (q i - ncb.min i * ρ)
    have e1 : z - (q i + cellCoordFromPointCoord p (me.bounds.min i) me.resolution * ρ) + (q i - ncb.min i * ρ)
        = z - (ncb.min i + cellCoordFromPointCoord p (me.bounds.min i) me.resolution) * ρ := by ring
    rw [e1] at h4
    refine h4.trans ?_
    refine (add_le_add h2 h3).trans (le_of_eq ?_)
    rw [hM', hε]
    ring
  refine ⟨me, ncb, q, h1, hP', hold, hnew, hq, hqe, hreq, hal, hdc, hcb, hleast, hcorner, hcell, fun p hp => ?_⟩
  choose y hy1 hy2 hy4 hy5 using h.points p hp
  have hrr : RayRange M' origin p me.bounds.min me.resolution x y q ρ := by
    refine ⟨hP'.res.1, h.res_lo, h.res_hi, hM'1, hM'2, h.sensor, hy1, hq, fun i => hnear i _ (h.sensor_near i),
      fun i => hnear i _ (hy2 i), fun i => (hqb i).trans ?_, fun i => (hy5 i).imp id And.left⟩
    rw [hM']; gcongr; linarith
  refine ⟨y, hrr, fun i => hcell i _ _ (hy1 i) (hy2 i), ?_, ?_⟩
  · intro i
    have h2 := abs_le.mp (hcell i _ _ (hy1 i) (hy2 i))
    have h3 := abs_le.mp (hcell i _ _ (h.sensor i) (h.sensor_near i))
    have h4 := abs_le.mp (hy4 i)
    change |cellCoordFromPointCoord (p i) (me.bounds.min i) me.resolution
      - cellCoordFromPointCoord (origin i) (me.bounds.min i) me.resolution| ≤ _
    generalize cellCoordFromPointCoord (p i) (me.bounds.min i) me.resolution = a at h2
    generalize cellCoordFromPointCoord (origin i) (me.bounds.min i) me.resolution = b at h3
    have h5 : (1 / 2 + (7 * (M : ℚ) + 5 * m.tileSize + 11) / 2 ^ 24) * ρ ≤ 1 * ρ := by
      refine mul_le_mul_of_nonneg_right ?_ hpos.le
      norm_num
      linarith
    have h6 : ((a : ℚ) - b) * ρ ≤ (K + 2) * ρ := by linarith [h2.1, h3.2, h4.2]
    have h7 : ((b : ℚ) - a) * ρ ≤ (K + 2) * ρ := by linarith [h2.2, h3.1, h4.1]
    have h8 := le_of_mul_le_mul_right h6 hpos
    have h9 := le_of_mul_le_mul_right h7 hpos
    have h10 : a - b ≤ K + 2 := by exact_mod_cast h8
    have h11 : b - a ≤ K + 2 := by exact_mod_cast h9
    push_cast
    rw [abs_le]
    omega
  · intro i hne
    obtain ⟨-, hb⟩ := (hy5 i).resolve_left hne
    have h2 := abs_le.mp (hcell i _ _ (hy1 i) (hy2 i))
    have h3 := abs_le.mp (hqe i)
    change |y i - (q i + cellCoordFromPointCoord (p i) (me.bounds.min i) me.resolution * ρ)| ≤ _
    generalize cellCoordFromPointCoord (p i) (me.bounds.min i) me.resolution = a at h2
    have hb1 := hb (ncb.min i + a)
    have hb2 := hb (ncb.min i + a - 1)
    push_cast at hb1 hb2
    set δ : ℚ := (13 * M + 8 * m.tileSize + K ^ 2 + 14 * K + 80) / 2 ^ 24 with hδ
    have hδ1 : (7 * (M : ℚ) + 5 * m.tileSize + 11) / 2 ^ 24 < δ := by
      rw [hδ]
      have : (0 : ℚ) ≤ K ^ 2 + 14 * K := by positivity
      refine div_lt_div_of_pos_right ?_ (by norm_num)
      linarith
    have hδ2 : (7 * (M : ℚ) + 5 * m.tileSize + 11) / 2 ^ 24 * ρ < δ * ρ := by gcongr
    have u1 : y i - (ncb.min i + a) * ρ ≤ (1 / 2 - δ) * ρ := by
      by_contra hc
      rw [not_le] at hc
      have : |y i - (ncb.min i + a + 1 / 2) * ρ| < δ * ρ := by
        rw [abs_lt]; constructor <;> linarith [h2.2]
      linarith
    have u2 : -((1 / 2 - δ) * ρ) ≤ y i - (ncb.min i + a) * ρ := by
      by_contra hc
      rw [not_le] at hc
      have : |y i - (ncb.min i + a - 1 + 1 / 2) * ρ| < δ * ρ := by
        rw [abs_lt]; constructor <;> linarith [h2.1]
      linarith
    have e1 : (5 * M' + ((K + 2 : ℕ) : ℚ) ^ 2 + 10 * ((K + 2 : ℕ) : ℚ) + 23) / 2 ^ 24 + ε ≤ δ := by
      rw [hM', hε, hδ, ← add_div]
      refine div_le_div_of_nonneg_right ?_ (by norm_num)
      push_cast
      ring_nf
      linarith
    have e2 : (1 / 2 - δ) * ρ + ε * ρ ≤
        (1 / 2 - (5 * M' + ((K + 2 : ℕ) : ℚ) ^ 2 + 10 * ((K + 2 : ℕ) : ℚ) + 23) / 2 ^ 24) * ρ := by
      rw [← add_mul]
      refine mul_le_mul_of_nonneg_right ?_ hpos.le
      linarith
    rw [abs_le]
    constructor <;> linarith [h3.1, h3.2]

lemma _root_.Verif.Spec.ClearScan.range {M K : ℕ} {x : Fin D → ℚ} (h : ClearScan M K m cb ρ x origin cloud) :
    ScanRange M K m cb ρ x origin cloud :=
  ⟨h.res_lo, h.res_hi, h.M_lo, h.M_hi, h.corner, h.sensor, h.sensor_near, fun p hp i => by
    obtain ⟨y, h1, h2, -, h3, h4⟩ := h.points p hp i
    exact ⟨y, h1, h2, h3, h4⟩⟩

/-- Everything about a clear scan: the expanded map stores the cells `ncb`, the sensor and the points are in its
cells, and the rays are in the working range and keep the margin at their ends. -/
lemma clear_scan {M K : ℕ} {x : Fin D → ℚ} (hD : D = 2 ∨ D = 3) (hP : Placed m cb ρ)
    (h : ClearScan M K m cb ρ x origin cloud) :
    ∃ me ncb q, m.expandBounds cloud.bounds (Fp.lit 0) = .ok me ∧ Placed me ncb ρ ∧
      (∀ w, InCells w cb → InCells w ncb ∧ valueAt me ncb w = valueAt m cb w) ∧
      (∀ w, InCells w ncb → ¬ InCells w cb → valueAt me ncb w = .ok (Fp.lit 0)) ∧
      (∀ i, (me.bounds.min i).Is (q i)) ∧
      (∀ i, |q i - ncb.min i * ρ| ≤ (3 * (M + m.tileSize + 1) + 2) / 2 ^ 24 * ρ) ∧
      InGrid me (cellFromPoint origin me.bounds.min me.resolution) ∧
      ∀ p ∈ cloud.points, InGrid me (cellFromPoint p me.bounds.min me.resolution) ∧
        ∃ y, RayRange (2 * M + m.tileSize + 2) origin p me.bounds.min me.resolution x y q ρ ∧
          (∀ i, |y i - (ncb.min i + cellFromPoint p me.bounds.min me.resolution i) * ρ| ≤
            (1 / 2 + (7 * M + 5 * m.tileSize + 11) / 2 ^ 24) * ρ) ∧
          (∀ i, |cellFromPoint p me.bounds.min me.resolution i
            - cellFromPoint origin me.bounds.min me.resolution i| ≤ (K + 2 : ℕ)) ∧
          (∀ i, y i ≠ x i → |y i - (q i + cellFromPoint p me.bounds.min me.resolution i * ρ)| ≤
            (1 / 2 - (5 * (2 * M + m.tileSize + 2) + (K + 2 : ℕ) ^ 2 + 10 * (K + 2 : ℕ) + 23) / 2 ^ 24) * ρ) := by
  have hpos := hP.res.pos
  have hM := h.M_hi
  have hMq : (M : ℚ) ≤ 262144 := by exact_mod_cast hM
  have hT2 := hP.tile_le
  have hT2q : (m.tileSize : ℚ) ≤ 131072 := by exact_mod_cast hT2
  obtain ⟨me, ncb, q, h1, hP', hold, hnew, hq, hqe, hreq, hal, hdc, hcb, hleast, hcorner, hcell, hpts⟩ :=
    scan_setup hD hP h.range
  have h18 : ∀ {z : ℚ}, |z| ≤ M * ρ → |z| ≤ 2 ^ 18 * ρ := fun hz => hz.trans (by norm_num; gcongr)
  -- points inside the cloud bounds
  have hinside : ∀ i (p : F32) z, p.Is z → FLe (cloud.bounds.min i) p → FLe p (cloud.bounds.max i) →
      (ncb.min i - 1 / 8) * ρ ≤ z ∧ z < ncb.max i * ρ := by
    intro i p z hp h2 h3
    obtain ⟨⟨u, hu, hu'⟩, ⟨w, hw, hw'⟩⟩ := hcorner i
    have h4 := (Fp.FLe_is hu hp).mp h2
    have h5 := (Fp.FLe_is hp hw).mp h3
    have h6 := cellOf_discMin_le hP.res hu (h18 hu')
    have h7 := lt_cellOf_discMax hP.res hw (h18 hw')
    have h8 := hdc i
    constructor
    · refine le_trans ?_ (h6.trans h4)
      have : (ncb.min i : ℚ) ≤ cellOf m.resolution (Bounds.discMin m.resolution (cloud.bounds.min i)) := by
        exact_mod_cast h8.1
      gcongr
    · refine lt_of_le_of_lt h5 (h7.trans_le ?_)
      have : (cellOf m.resolution (Bounds.discMax m.resolution true (cloud.bounds.max i)) : ℚ) ≤ ncb.max i := by
        exact_mod_cast h8.2
      gcongr
  have hgrid : ∀ i (p : F32) z, p.Is z → |z| ≤ M * ρ → (ncb.min i - 1 / 8) * ρ ≤ z → z < ncb.max i * ρ →
      ClearAbove m.tileSize ρ cloud i z → 0 ≤ cellCoordFromPointCoord p (me.bounds.min i) me.resolution ∧
        cellCoordFromPointCoord p (me.bounds.min i) me.resolution < me.data.shape i := by
    intro i p z hp hz hlo hhi htile
    have h2 := hcell i p z hp hz
    set c := cellCoordFromPointCoord p (me.bounds.min i) me.resolution with hc
    have h3 : (1 / 2 + (7 * (M : ℚ) + 5 * m.tileSize + 11) / 2 ^ 24) * ρ ≤ (3 / 4 - 1 / 16) * ρ := by
      refine mul_le_mul_of_nonneg_right ?_ hpos.le
      norm_num
      linarith
    have h4 := abs_le.mp (h2.trans h3)
    have hsh := hP'.shape i
    constructor
    · have h5 : ((-1 : ℤ) : ℚ) < (c : ℚ) := by
        push_cast
        have : (-1 : ℚ) * ρ < c * ρ := by linarith [h4.2]
        exact lt_of_mul_lt_mul_right this hpos.le
      have : -1 < c := by exact_mod_cast h5
      omega
    · obtain ⟨k, hk⟩ := (hal i).2
      have hkq : (ncb.max i : ℚ) = m.tileSize * k := by rw [hk]; push_cast; ring
      have h7 : z < (k * m.tileSize - 3 / 4) * ρ := by
        rcases htile with h6 | ⟨p', hp', z', h6, h8⟩
        · by_contra h8
          rw [hkq] at hhi
          exact h6 k ⟨not_lt.mp h8, by linarith⟩
        · obtain ⟨-, -, g4⟩ := C14_bounds_contain cloud i
          obtain ⟨g5, g6⟩ := g4 p' hp' (Fp.notNaN_is h6)
          have h9 := (hinside i _ _ h6 g5 g6).2
          rw [hkq] at h9
          linarith
      have h5 : ((ncb.min i + c : ℤ) : ℚ) < ncb.max i := by
        rw [hkq]
        push_cast
        have : ((ncb.min i : ℚ) + c) * ρ < m.tileSize * k * ρ := by linarith [h4.1]
        exact lt_of_mul_lt_mul_right this hpos.le
      have : ncb.min i + c < ncb.max i := by exact_mod_cast h5
      omega
  have hsensor : ∀ i, 0 ≤ cellFromPoint origin me.bounds.min me.resolution i ∧
      cellFromPoint origin me.bounds.min me.resolution i < me.data.shape i := by
    intro i
    have h2 : (ncb.min i - 1 / 8) * ρ ≤ x i ∧ x i < ncb.max i * ρ := by
      rcases h.sensor_inside i with ⟨h3, h4⟩ | ⟨h3, h4⟩
      · have hne : cb ≠ CellBounds.empty := by
          rintro rfl
          have : x i < ((0 : ℤ) : ℚ) * ρ := h4
          have h5 : ((0 : ℤ) : ℚ) * ρ ≤ x i := h3
          linarith
        have h5 := hcb hne i
        have h6 : (ncb.min i : ℚ) ≤ cb.min i := by exact_mod_cast h5.1
        have h7 : (cb.max i : ℚ) ≤ ncb.max i := by exact_mod_cast h5.2
        constructor
        · refine le_trans ?_ h3
          gcongr
          linarith
        · refine lt_of_lt_of_le h4 ?_
          gcongr
      · exact hinside i _ _ (h.sensor i) h3 h4
    exact hgrid i _ _ (h.sensor i) (h.sensor_near i) h2.1 h2.2 (h.sensor_tile i)
  have hpoint : ∀ p ∈ cloud.points, ∀ i, 0 ≤ cellFromPoint p me.bounds.min me.resolution i ∧
      cellFromPoint p me.bounds.min me.resolution i < me.data.shape i := by
    intro p hp i
    obtain ⟨y, g1, g2, g3, -⟩ := h.points p hp i
    obtain ⟨-, -, g4⟩ := C14_bounds_contain cloud i
    obtain ⟨g5, g6⟩ := g4 p hp (Fp.notNaN_is g1)
    obtain ⟨g7, g8⟩ := hinside i _ _ g1 g5 g6
    exact hgrid i _ _ g1 g2 g7 g8 g3
  exact ⟨me, ncb, q, h1, hP', hold, hnew, hq, hqe, hsensor, fun p hp => ⟨hpoint p hp, hpts p hp⟩⟩

/-- C44: a scan that keeps clear of the tile edges (`ClearScan`) is integrated without a panic, whatever the
range limit of the noise model and the order of the hash sets.

Partial: the full claim, `CloudInRange cloud ρ → (sensor in the map) → ∃ m', Integrates ord nm m origin cloud m'`,
is false for the program; see `C44_edge_panics` and `C44_sensor_outside_panics` below, and `C44_decides` in
`Verif/Props/Edge.lean` for the exact condition. What is missing there: points within the margins of
`ClearScan` of a cell border. -/
theorem C44_no_panic_partial {M K : ℕ} {x : Fin D → ℚ} (hD : D = 2 ∨ D = 3) (hP : Placed m cb ρ)
    (h : ClearScan M K m cb ρ x origin cloud) (ho : IsOrder ord) :
    ∃ m', Integrates ord nm m origin cloud m' := by
  obtain ⟨me, ncb, q, h1, -, -, -, -, -, hsensor, hpts⟩ := clear_scan hD hP h
  have hray : ∀ p ∈ cloud.points, ∃ ray res, Casts origin p me.bounds me.resolution nm.maxRange ray res ∧
      ∀ z ∈ ray, Between (cellFromPoint origin me.bounds.min me.resolution)
        (cellFromPoint p me.bounds.min me.resolution) z := by
    intro p hp
    obtain ⟨-, y, hrr, -, hK, hmargin⟩ := hpts p hp
    exact C24_stays_between hD hrr hK hmargin nm.maxRange
  have hpoint : ∀ p ∈ cloud.points, InGrid me (cellFromPoint p me.bounds.min me.resolution) :=
    fun p hp => (hpts p hp).1
  rw [C38_returns_iff ho]
  obtain ⟨free, occ, hc⟩ := C28_returns_iff.mpr fun p hp => (hray p hp).imp fun ray => Exists.imp fun _ => And.left
  refine ⟨me, free, occ, h1, hc, ?_, ?_⟩
  · intro c hcf i
    obtain ⟨⟨p, hp, ray, res, h2, h3⟩, -⟩ := (C28_free hc c).mp hcf
    obtain ⟨ray', res', h4, h5⟩ := hray p hp
    obtain ⟨rfl, -⟩ := casts_unique h2 h4
    have h6 := h5 c h3 i
    have h7 := hsensor i
    have h8 := hpoint p hp i
    omega
  · intro c hco i
    obtain ⟨p, hp, ray, h2⟩ := (C28_occupied hc c).mp hco
    rcases (C18_end_not_in_ray h2).2.2 with h3 | h3
    · cases h3
    · injection h3 with h3
      rw [h3]
      exact hpoint p hp i

/-- A clear scan: the small map (cells of side 1, tiles of 2), the sensor at (1/2, 1/2), the points (9/4, 1/2) and
(-3, 1/4). -/
lemma smallScan_clear : ClearScan 8 8 smallMap CellBounds.empty 1 ![1 / 2, 1 / 2] ![Fp.lit (1 / 2), Fp.lit (1 / 2)]
    (PointCloud.fromPoints [![Fp.lit (9 / 4), Fp.lit (1 / 2)], ![Fp.lit (-3), Fp.lit (1 / 4)]]) := by
  have hT : smallMap.tileSize = 2 := rfl
  have off : ∀ (y : ℚ) (a : ℤ), 2 * (a : ℚ) ≤ y → y < 2 * a + 5 / 4 → OffTileEdge 2 1 y := by
    rintro y a h1 h2 k ⟨h3, h4⟩
    push_cast at h3 h4
    rcases le_or_gt k a with h | h
    · have : (k : ℚ) ≤ a := by exact_mod_cast h
      linarith
    · have : (a : ℚ) + 1 ≤ k := by exact_mod_cast h
      linarith
  have half : ∀ (y : ℚ) (a : ℤ), (a : ℚ) - 1 / 4 ≤ y → y ≤ a + 1 / 4 → ∀ n : ℤ, 1 / 4 ≤ |y - (n + 1 / 2) * 1| := by
    intro y a h1 h2 n
    rcases lt_or_ge n a with h | h
    · have : (n : ℚ) + 1 ≤ a := by exact_mod_cast h
      exact le_trans (by linarith) (le_abs_self _)
    · have : (a : ℚ) ≤ n := by exact_mod_cast h
      exact le_trans (by linarith) (neg_le_abs _)
  have hd : (13 * (8 : ℕ) + 8 * (2 : ℕ) + (8 : ℕ) ^ 2 + 14 * (8 : ℕ) + 80 : ℚ) / 2 ^ 24 * 1 ≤ 1 / 4 := by norm_num
  refine ⟨by norm_num, by norm_num, by norm_num, by norm_num, by decide, by decide +kernel, ?_, ?_, ?_, ?_⟩
  · intro i; fin_cases i <;> norm_num
  · intro i; right; revert i; decide +kernel
  · intro i; rw [hT]; fin_cases i <;> exact .inl (off (1 / 2) 0 (by norm_num) (by norm_num))
  · intro p hp
    rw [C13_points_fromPoints] at hp
    rw [hT]
    rcases List.mem_pair.mp hp with rfl | rfl
    · intro i
      fin_cases i
      · exact ⟨9 / 4, by decide +kernel, by norm_num, .inl (off _ 1 (by norm_num) (by norm_num)), by norm_num,
          .inr ⟨by norm_num, fun n => hd.trans (half _ 2 (by norm_num) (by norm_num) n)⟩⟩
      · exact ⟨1 / 2, by decide +kernel, by norm_num, .inl (off _ 0 (by norm_num) (by norm_num)), by norm_num, .inl rfl⟩
    · intro i
      fin_cases i
      · exact ⟨-3, by decide +kernel, by norm_num, .inl (off _ (-2) (by norm_num) (by norm_num)), by norm_num,
          .inr ⟨by norm_num, fun n => hd.trans (half _ (-3) (by norm_num) (by norm_num) n)⟩⟩
      · exact ⟨1 / 4, by decide +kernel, by norm_num, .inl (off _ 0 (by norm_num) (by norm_num)), by norm_num,
          .inr ⟨by norm_num, fun n => hd.trans (half _ 0 (by norm_num) (by norm_num) n)⟩⟩

/-- C44: if a free or an occupied cell of the scan is no cell of the expanded map, the call panics. -/
theorem C44_outside_panics {me : GridMap D F32 F32} {free occ : List (Cell D)} (ho : IsOrder ord)
    (h1 : m.expandBounds cloud.bounds (Fp.lit 0) = .ok me)
    (h2 : CastsRays origin cloud me.bounds me.resolution nm.maxRange free occ)
    (h3 : ∃ c, (c ∈ free ∨ c ∈ occ) ∧ ¬ InGrid me c) :
    ∃ fuel, nm.integratePointCloud ord fuel m origin cloud = .error (.panic .index) := by
  obtain ⟨k1, k2⟩ := castsRays_machine h2
  obtain ⟨n1, -⟩ := castRays_nodup h2
  obtain ⟨fuel, h2⟩ := h2
  refine ⟨fuel, ?_⟩
  have of := ho free
  have oo := ho occ
  rw [integrate_unfold, show m.expandBounds cloud.bounds (Scalar.lit 0) = .ok me from h1, M.bind_ok, h2, M.bind_ok]
  simp only
  by_cases hf : ∀ c ∈ ord free, InGrid me c
  · obtain ⟨m1, e1⟩ := foldUpd_ok (g := nm.missValue) (l := ord free) (m := me)
      (fun c hc => k1 c (of.mem_iff.mp hc)) hf
    obtain ⟨-, -, s1, -⟩ := foldUpd (of.nodup_iff.mpr n1) (fun c hc => k1 c (of.mem_iff.mp hc)) e1
    rw [e1, M.bind_ok, foldUpd_panic (fun c hc => k2 c (oo.mem_iff.mp hc)) ?_]
    · rfl
    · intro hc
      obtain ⟨c, hc1 | hc1, hc2⟩ := h3
      · exact hc2 (hf c (of.mem_iff.mpr hc1))
      · exact hc2 ((inGrid_congr s1 c).mp (hc c (oo.mem_iff.mpr hc1)))
  · rw [foldUpd_panic (fun c hc => k1 c (of.mem_iff.mp hc)) hf]
    rfl

/-- The resolution 0.1 as an f32. -/
def tenth : ℚ := 13421773 / 134217728

/-- The shape and the bounds of a map of the default resolution and tile size storing the cells from (0, 0) to
(100, 100), after it has been expanded to hold one point. -/
lemma edge_setup {m : GridMap 2 F32 F32} (hP : Placed m ⟨![0, 0], ![100, 100]⟩ tenth)
    (hres : m.resolution = DEFAULT_RESOLUTION) (ht : m.tileSize = DEFAULT_TILE_SIZE) (p : Point 2 F32)
    (hp : CloudInRange (PointCloud.fromPoints [p]) tenth) {ncb : CellBounds 2}
    (hn : ((PointCloud.fromPoints [p]).bounds.discretized DEFAULT_RESOLUTION true >>= fun d =>
      (CellBounds.fromBounds ((Bounds.fromCellBounds ⟨![0, 0], ![100, 100]⟩ (DEFAULT_RESOLUTION : F32)).enclosing d)
        DEFAULT_RESOLUTION).discretized DEFAULT_TILE_SIZE) = .ok ncb) :
    ∃ me, m.expandBounds (PointCloud.fromPoints [p]).bounds (Fp.lit 0) = .ok me ∧
      me.bounds = Bounds.fromCellBounds ncb DEFAULT_RESOLUTION ∧ me.resolution = DEFAULT_RESOLUTION ∧
      ∀ i, (me.data.shape i : ℤ) = ncb.max i - ncb.min i := by
  obtain ⟨me, ncb', h1, h0, hP', -, -⟩ := expand_spec (by norm_num) hP (request_of_cloud hP.res.pos hp) (Fp.lit 0 : F32)
  obtain ⟨hr, -⟩ := C36_expandBounds h1
  have : m.newCellBounds (PointCloud.fromPoints [p]).bounds = .ok ncb := by
    unfold GridMap.newCellBounds
    rw [hP.bounds, hres, ht]
    exact hn
  rw [this] at h0
  cases h0
  exact ⟨me, h1, by rw [hP'.bounds, hr, hres], hr.trans hres, hP'.shape⟩

/-- C44 in full is false. A map of the default resolution and tile size stores the cells from (0, 0) to
(100, 100), the sensor stands at (9, 5) and sees a point at (9.97, 5), both inside the bounds of the map. The map need not
grow, but the point rounds to cell 100, one past the last. The call panics. -/
theorem C44_edge_panics {m : GridMap 2 F32 F32} {nm : LidarNoiseModel F32} {ord : List (Cell 2) → List (Cell 2)}
    (hP : Placed m ⟨![0, 0], ![100, 100]⟩ tenth) (hres : m.resolution = DEFAULT_RESOLUTION)
    (ht : m.tileSize = DEFAULT_TILE_SIZE) (hr : nm.maxRange = Fp.lit 60) (ho : IsOrder ord) :
    (∃ fuel, nm.integratePointCloud ord fuel m ![Fp.lit 9, Fp.lit 5]
        (PointCloud.fromPoints [![Fp.lit 9.97, Fp.lit 5]]) = .error (.panic .index)) ∧
      CloudInRange (PointCloud.fromPoints [(![Fp.lit 9.97, Fp.lit 5] : Point 2 F32)]) tenth := by
  have hc : CloudInRange (PointCloud.fromPoints [(![Fp.lit 9.97, Fp.lit 5] : Point 2 F32)]) tenth := by
    intro p hp
    rw [C13_points_fromPoints, List.mem_singleton] at hp
    subst hp
    intro i
    refine ⟨![10454303 / 1048576, 5] i, ?_, ?_⟩ <;> revert i <;> decide +kernel
  refine ⟨?_, hc⟩
  obtain ⟨me, h1, h2, h3, h4⟩ := edge_setup hP hres ht _ hc (ncb := ⟨![0, 0], ![100, 100]⟩) (by decide +kernel)
  have hcast : CastsRays ![Fp.lit 9, Fp.lit 5] (PointCloud.fromPoints [(![Fp.lit 9.97, Fp.lit 5] : Point 2 F32)])
      me.bounds me.resolution nm.maxRange ((List.range 10).map fun k : ℕ => ![90 + (k : ℤ), 50]) [![100, 50]] := by
    rw [h2, h3, hr]
    exact ⟨20, by decide +kernel⟩
  refine C44_outside_panics ho h1 hcast ⟨![100, 50], .inr (by simp), fun h => ?_⟩
  have := h 0
  have h5 := h4 0
  simp at this h5
  omega

/-- Nor does it suffice that the sensor is not far away: the same map, the sensor at (-1, 5) and the point
(0, 5). The map is expanded for the cloud only, not for the sensor. -/
theorem C44_sensor_outside_panics {m : GridMap 2 F32 F32} {nm : LidarNoiseModel F32}
    {ord : List (Cell 2) → List (Cell 2)}
    (hP : Placed m ⟨![0, 0], ![100, 100]⟩ tenth) (hres : m.resolution = DEFAULT_RESOLUTION)
    (ht : m.tileSize = DEFAULT_TILE_SIZE) (hr : nm.maxRange = Fp.lit 60) (ho : IsOrder ord) :
    ∃ fuel, nm.integratePointCloud ord fuel m ![Fp.lit (-1), Fp.lit 5]
        (PointCloud.fromPoints [![Fp.lit 0, Fp.lit 5]]) = .error (.panic .index) := by
  have hc : CloudInRange (PointCloud.fromPoints [(![Fp.lit 0, Fp.lit 5] : Point 2 F32)]) tenth := by
    intro p hp
    rw [C13_points_fromPoints, List.mem_singleton] at hp
    subst hp
    intro i
    refine ⟨![0, 5] i, ?_, ?_⟩ <;> revert i <;> decide +kernel
  obtain ⟨me, h1, h2, h3, h4⟩ := edge_setup hP hres ht _ hc (ncb := ⟨![0, 0], ![100, 100]⟩) (by decide +kernel)
  have hcast : CastsRays ![Fp.lit (-1), Fp.lit 5] (PointCloud.fromPoints [(![Fp.lit 0, Fp.lit 5] : Point 2 F32)])
      me.bounds me.resolution nm.maxRange ((List.range 10).map fun k : ℕ => ![-10 + (k : ℤ), 50]) [![0, 50]] := by
    rw [h2, h3, hr]
    exact ⟨20, by decide +kernel⟩
  refine C44_outside_panics ho h1 hcast ⟨![-10, 50], .inl ?_, fun h => ?_⟩
  · simp only [List.mem_map, List.mem_range]
    exact ⟨0, by norm_num, by simp⟩
  · have := h 0
    simp at this

/-- A map as in the last two theorems. -/
example : ∃ m : GridMap 2 F32 F32, Placed m ⟨![0, 0], ![100, 100]⟩ tenth ∧ m.resolution = DEFAULT_RESOLUTION ∧
    m.tileSize = DEFAULT_TILE_SIZE := by
  obtain ⟨m, h1, h, -⟩ := C32_new_placed (D := 2) (by norm_num) res_default ⟨![0, 0], ![100, 100]⟩
    (t := 100) (by norm_num) (by norm_num) (by decide) (by decide) (Fp.lit 0 : F32)
  unfold GridMap.new at h1
  rw [Verif.M.bind_eq_ok] at h1
  obtain ⟨d, -, h1⟩ := h1
  injection h1 with h1
  subst h1
  exact ⟨_, h, rfl, rfl⟩

end Verif.Props
