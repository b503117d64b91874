import Verif.Props.ScanMarks
import Verif.Props.RangeLimit

/-!
# C75: a scan with points on both sides of the range limit
-/

namespace Verif.Props
open Spec Scalar

variable {D : ℕ} {lam l ρ : ℚ}

section
variable {M : ℚ} {o e : Point D F32} {bounds : Bounds D F32} {r ml : F32} {x y q : Fin D → ℚ}
  {z : Cell D} {ray : List (Cell D)} {res : Option (Cell D)}

/-- C75, for one ray: the range limit removes no cell from a ray whose centre is nearer than the limit by two cells
and the rounding errors. All cells before it are near too, since a ray does not turn back. -/
theorem C75_near_kept (hD : D = 2 ∨ D = 3) (h : RayRange M o e bounds.min r x y q ρ) (hml : ml.Is lam)
    (h60 : lam ≤ 2 ^ 60) {ml0 : F32} (hml0 : Scalar.lt (lit 0) ml0 = false) {ray0 : List (Cell D)} {c : Cell D}
    (h0 : Casts o e bounds r ml0 ray0 (some c)) (hr : Casts o e bounds r ml ray res)
    (hz : z ∈ ray0 ++ [c]) (hd : DistLe x (centre q ρ z) l)
    (hl : l + 2 * ρ + rangeTol (M + 1) ρ ≤ lam * (1 - 1 / 2 ^ 20)) : z ∈ ray ∨ res = some z := by
  have hp := h.pos
  have hlo := h.lo
  have hM := h.M_hi
  have hM1 := h.M_lo
  have hl0 := hd.1
  have ht : 0 ≤ rangeTol (M + 1) ρ := by
    unfold rangeTol
    have : 0 ≤ (5 * (M + 1) + 4) / 2 ^ 24 * ρ := mul_nonneg (by norm_num; linarith) hp.le
    linarith
  have hlam : 1 / 2 ^ 60 ≤ lam := by norm_num at hlo hl ⊢; linarith
  have hpos : Scalar.lt (lit 0) ml = true := by
    have : Fp.lt (Fp.lit 0) ml = decide (0 < lam) := Fp.Is.lt F32.zero_is hml
    rw [show Scalar.lt (lit 0) ml = decide (0 < lam) from this, decide_eq_true_iff]
    exact lt_of_lt_of_le (by norm_num) hlam
  obtain rfl : c = cellFromPoint e bounds.min r := by
    rcases (C18_end_not_in_ray h0).2.2 with h1 | h1 <;> simpa using h1
  obtain ⟨ray', res', h1, -, -, h2, -⟩ := C56_limit_cuts hml0 hpos h0
  obtain ⟨rfl, rfl⟩ := casts_unique hr h1
  rcases h2 with ⟨rfl, rfl⟩ | ⟨rfl, b, rest, h3, h4⟩
  · rcases List.mem_append.mp hz with hz | hz
    · exact .inl hz
    · rw [List.mem_singleton] at hz
      exact .inr (by rw [hz])
  · left
    by_contra hzr
    have hbmem : b ∈ ray0 := by rw [h3]; simp
    have hbt : Between (cellFromPoint o bounds.min r) z b := by
      rcases List.mem_append.mp hz with hz | hz
      · have hpw := C19_no_return h0
        rw [h3] at hz hpw
        rcases List.mem_cons.mp ((List.mem_append.mp hz).resolve_left hzr) with rfl | hz
        · exact fun i => ⟨min_le_right _ _, le_max_right _ _⟩
        · exact (List.pairwise_cons.mp (List.pairwise_append.mp hpw).2.1).1 z hz
      · rw [List.mem_singleton] at hz
        rw [hz]
        exact C19_in_box h0 b hbmem
    refine C68_near hD h (N := M + 1) (by linarith) (by norm_num at hM ⊢; linarith)
      (between_small h (C19_in_box h0 b hbmem)) hml hlam h60 ?_ hl h4
    refine distLe_of_axes (by omega) hp.le hd fun i => ?_
    have h1 := abs_le.mp (in_cell h i)
    obtain ⟨h3, h4⟩ := hbt i
    have h3' : min (cellFromPoint o bounds.min r i : ℚ) (z i) ≤ b i := by exact_mod_cast h3
    have h4' : (b i : ℚ) ≤ max (cellFromPoint o bounds.min r i : ℚ) (z i) := by exact_mod_cast h4
    have h5 := neg_abs_le (centre q ρ z i - x i)
    have h6 := le_abs_self (centre q ρ z i - x i)
    have h7 := abs_nonneg (centre q ρ z i - x i)
    generalize |centre q ρ z i - x i| = A at *
    unfold centre at *
    rw [abs_le]
    constructor
    · rcases min_le_iff.mp h3' with h7 | h7
      · have := mul_le_mul_of_nonneg_right h7 hp.le; linarith
      · have := mul_le_mul_of_nonneg_right h7 hp.le; linarith
    · rcases le_max_iff.mp h4' with h7 | h7
      · have := mul_le_mul_of_nonneg_right h7 hp.le; linarith
      · have := mul_le_mul_of_nonneg_right h7 hp.le; linarith

/-- The ray from (1, 1/4) to (7, 1/4) on cells of side 1, with a limit of 5: the cell (3, 0) is near. -/
example : ∃ x y q ρ, RayRange 10 (![Fp.lit 1, Fp.lit (1/4)] : Point 2 F32) ![Fp.lit 7, Fp.lit (1/4)]
      ![Fp.lit 0, Fp.lit 0] (Fp.lit 1) x y q ρ ∧ (Fp.lit 5 : F32).Is 5 ∧
    Scalar.lt (lit 0) (lit 0 : F32) = false ∧
    castRay 9 (![Fp.lit 1, Fp.lit (1/4)] : Point 2 F32) ![Fp.lit 7, Fp.lit (1/4)]
      ⟨![Fp.lit 0, Fp.lit 0], ![Fp.lit 9, Fp.lit 9]⟩ (Fp.lit 1) (lit 0) =
        .ok ([![1, 0], ![2, 0], ![3, 0], ![4, 0], ![5, 0], ![6, 0]], some ![7, 0]) ∧
    castRay 9 (![Fp.lit 1, Fp.lit (1/4)] : Point 2 F32) ![Fp.lit 7, Fp.lit (1/4)]
      ⟨![Fp.lit 0, Fp.lit 0], ![Fp.lit 9, Fp.lit 9]⟩ (Fp.lit 1) (lit 5) =
        .ok ([![1, 0], ![2, 0], ![3, 0], ![4, 0], ![5, 0]], none) ∧
    DistLe x (centre q ρ ![3, 0]) (5 / 2) ∧
    5 / 2 + 2 * ρ + rangeTol (10 + 1) ρ ≤ 5 * (1 - 1 / 2 ^ 20) := by
  have h1 : RayRange 10 (![Fp.lit 1, Fp.lit (1/4)] : Point 2 F32) ![Fp.lit 7, Fp.lit (1/4)]
      ![Fp.lit 0, Fp.lit 0] (Fp.lit 1) _ _ _ _ := rayRange_val (by decide +kernel)
  refine ⟨_, _, _, _, h1, by decide +kernel, by decide +kernel, by decide +kernel, by decide +kernel,
    ⟨by norm_num, ?_⟩, ?_⟩
  · unfold distSq
    rw [Fin.sum_univ_two]
    decide +kernel
  · unfold rangeTol
    decide +kernel

end

variable {m m' : GridMap D F32 F32} {cb : CellBounds D} {origin : Point D F32}
  {cloud : PointCloud D F32} {nm : LidarNoiseModel F32} {ord : List (Cell D) → List (Cell D)}
  {M K : ℕ} {x : Fin D → ℚ}

/-- C75: a clear scan whose noise model has the range limit `lam`, with points on both sides of it. The map stores a
box `ncb` of world cells such that
- the cell of a point that is three cells nearer than the limit has got exactly one hit, whatever the other points,
- a cell whose points are all more than five cells beyond the limit has got no hit,
- a cell that the segment from the sensor to a point passes, farther than the tolerance from its border, has got
  exactly one hit or exactly one miss if its centre is four cells nearer than the limit, even if the point itself is
  out of range; a hit if it holds a point in range, a miss if all its points are out of range,
- a cell other than the sensor's whose centre is more than two cells beyond the limit, and whose points are all more
  than five cells beyond it, is unchanged. -/
theorem C75_limited_scan (hD : D = 2 ∨ D = 3) (hP : Placed m cb ρ) (h : ClearScan M K m cb ρ x origin cloud)
    (hδ : scanTol M K m.tileSize ≤ 1 / 2) (ho : IsOrder ord) (hi : Integrates ord nm m origin cloud m') {lam : ℚ}
    (hml : nm.maxRange.Is lam) (hlo : 1 / 2 ^ 60 ≤ lam) (hhi : lam ≤ 2 ^ 60) :
    ∃ ncb, Placed m' ncb ρ ∧
      (∀ p ∈ cloud.points, ∀ (y : Fin D → ℚ) l, (∀ i, (p i).Is (y i)) → DistLe x y l →
        l + 3 * ρ ≤ lam * (1 - 1 / 2 ^ 20) →
        ∃ w v, m'.cellFromPoint p = (fun i => w i - ncb.min i) ∧ InCells w ncb ∧
          (∀ i, |y i - w i * ρ| ≤ (1 / 2 + scanTol M K m.tileSize) * ρ) ∧
          Before m cb w v ∧ valueAt m' ncb w = .ok ((v.add nm.hit).min nm.max)) ∧
      (∀ w, InCells w ncb →
        (∀ p ∈ cloud.points, (m'.cellFromPoint p = fun i => w i - ncb.min i) → ∀ y : Fin D → ℚ,
          (∀ i, (p i).Is (y i)) → ¬ DistLe x y (lam * (1 + 1 / 2 ^ 20) + 5 * ρ)) →
        ∃ v, Before m cb w v ∧
          (valueAt m' ncb w = .ok v ∨ valueAt m' ncb w = .ok ((v.add nm.miss).max nm.min))) ∧
      (∀ p ∈ cloud.points, ∀ y : Fin D → ℚ, (∀ i, (p i).Is (y i)) → ∀ t : ℚ, 0 ≤ t → t ≤ 1 → ∀ w : Cell D,
        (∀ i, |x i + t * (y i - x i) - w i * ρ| < (1 / 2 - scanTol M K m.tileSize) * ρ) →
        ∀ l, DistLe x (fun i => w i * ρ) l → l + 4 * ρ ≤ lam * (1 - 1 / 2 ^ 20) →
        InCells w ncb ∧ ∃ v, Before m cb w v ∧
          (valueAt m' ncb w = .ok ((v.add nm.hit).min nm.max) ∨
            valueAt m' ncb w = .ok ((v.add nm.miss).max nm.min)) ∧
          ((∃ p' ∈ cloud.points, (m'.cellFromPoint p' = fun i => w i - ncb.min i) ∧
              ∃ (y' : Fin D → ℚ) (l' : ℚ), (∀ i, (p' i).Is (y' i)) ∧ DistLe x y' l' ∧
                l' + 3 * ρ ≤ lam * (1 - 1 / 2 ^ 20)) →
            valueAt m' ncb w = .ok ((v.add nm.hit).min nm.max)) ∧
          ((∀ p' ∈ cloud.points, (m'.cellFromPoint p' = fun i => w i - ncb.min i) → ∀ y' : Fin D → ℚ,
              (∀ i, (p' i).Is (y' i)) → ¬ DistLe x y' (lam * (1 + 1 / 2 ^ 20) + 5 * ρ)) →
            valueAt m' ncb w = .ok ((v.add nm.miss).max nm.min))) ∧
      (∀ w, InCells w ncb → (m'.cellFromPoint origin ≠ fun i => w i - ncb.min i) →
        ¬ DistLe x (fun i => w i * ρ) (lam * (1 + 1 / 2 ^ 20) + 2 * ρ) →
        (∀ p ∈ cloud.points, (m'.cellFromPoint p = fun i => w i - ncb.min i) → ∀ y : Fin D → ℚ,
          (∀ i, (p i).Is (y i)) → ¬ DistLe x y (lam * (1 + 1 / 2 ^ 20) + 5 * ρ)) →
        ∃ v, Before m cb w v ∧ valueAt m' ncb w = .ok v) := by
  obtain ⟨ncb, q, free, occ, hPm, hcast, hgr, hval, hqe, hpts⟩ := scan_base hD hP h ho hi
  have hpos := hP.res.pos
  have hM1 : (1 : ℚ) ≤ M := by exact_mod_cast h.M_lo
  have hT1 : (1 : ℚ) ≤ m.tileSize := by exact_mod_cast hP.tile_pos
  have hK0 : (0 : ℚ) ≤ K := by positivity
  have hK2 : (0 : ℚ) ≤ (K : ℚ) ^ 2 := by positivity
  have hδ' := hδ
  unfold scanTol at hδ'
  rw [div_le_iff₀ (by norm_num)] at hδ'
  have hKM : 5 * (2 * (M : ℚ) + m.tileSize + 2) + (K + 2 : ℕ) ^ 2 + 10 * (K + 2 : ℕ) + 23 ≤ 2 ^ 24 := by
    push_cast
    have e0 : ((K : ℚ) + 2) ^ 2 = K ^ 2 + 4 * K + 4 := by ring
    rw [e0]
    norm_num at hδ' ⊢
    linarith
  set δ := scanTol M K m.tileSize with hδdef
  set M' : ℚ := 2 * (M : ℚ) + m.tileSize + 2 with hM'
  have htol : rangeTol (M' + 1) ρ ≤ ρ := by
    have : rangeTol (M' + 1) ρ = (2 * (5 * (M' + 1) + 4) / 2 ^ 24) * ρ := by unfold rangeTol; ring
    rw [this]
    refine mul_le_of_le_one_left hpos.le ?_
    rw [div_le_one (by norm_num)]
    norm_num at hδ' ⊢
    linarith
  have hqe' : ∀ i, |q i - ncb.min i * ρ| ≤ 1 / 2 * ρ := by
    intro i
    refine (hqe i).trans (mul_le_mul_of_nonneg_right ?_ hpos.le)
    rw [div_le_iff₀ (by norm_num)]
    norm_num at hδ' ⊢
    linarith
  -- the centre of a cell in the world
  have hcen : ∀ w : Cell D, DistLe (centre q ρ fun i => w i - ncb.min i) (fun i => w i * ρ) ρ := by
    intro w
    have := distLe_of_coords (D := D) (x := centre q ρ fun i => w i - ncb.min i) (y := fun i => (w i : ℚ) * ρ)
      (η := 1 / 2 * ρ) (by omega) (by positivity) (by
        intro i
        have := hqe' i
        unfold centre
        push_cast
        rw [abs_sub_comm]
        convert this using 2
        ring)
    exact this.mono (by linarith)
  have h00 : Scalar.lt (lit 0) (lit 0 : F32) = false := by decide +kernel
  have hin : ∀ (w : Cell D), InGrid m' (fun i => w i - ncb.min i) → InCells w ncb := by
    intro w h1 i
    have := h1 i
    have := hPm.shape i
    dsimp only at *
    omega
  -- points in range are occupied
  have hocc : ∀ p ∈ cloud.points, ∀ (y : Fin D → ℚ) l, (∀ i, (p i).Is (y i)) → DistLe x y l →
      l + 3 * ρ ≤ lam * (1 - 1 / 2 ^ 20) → m'.cellFromPoint p ∈ occ := by
    intro p hp y l hy hd hl
    obtain ⟨-, y', hrr, -, k3, k4⟩ := hpts p hp
    obtain rfl : y' = y := funext fun i => (hrr.end_ i).unique (hy i)
    obtain ⟨ray, hr⟩ := C68_reached hD hrr k3 k4 hml hhi hd (by linarith)
    exact (C28_occupied hcast _).mpr ⟨p, hp, ray, hr⟩
  -- occupied cells hold a point in range
  have hfar : ∀ c ∈ occ, ∃ p ∈ cloud.points, m'.cellFromPoint p = c ∧ ∃ y, (∀ i, (p i).Is (y i)) ∧
      DistLe x y (lam * (1 + 1 / 2 ^ 20) + 5 * ρ) := by
    intro c hc
    obtain ⟨p, hp, h1, y, h2, h3⟩ := C68_scan_hits hD hml hlo hhi
      (fun p hp => (hpts p hp).2.imp fun y hy => hy.1) hcast c hc
    exact ⟨p, hp, h1.symm, y, h2, h3.mono (by linarith)⟩
  refine ⟨ncb, hPm, ?_, ?_, ?_, ?_⟩
  · intro p hp y l hy hd hl
    obtain ⟨h1, y', hrr, k2, k3, k4⟩ := hpts p hp
    obtain rfl : y' = y := funext fun i => (hrr.end_ i).unique (hy i)
    have e1 : (fun i => (ncb.min i + m'.cellFromPoint p i) - ncb.min i) = m'.cellFromPoint p := by
      funext i; ring
    have hw : InCells (fun i => ncb.min i + m'.cellFromPoint p i) ncb := hin _ (by rw [e1]; exact h1)
    obtain ⟨v, hv, -, h4, -⟩ := hval _ hw
    refine ⟨_, v, e1.symm, hw, fun i => ?_, hv, h4 (by rw [e1]; exact hocc p hp _ l hy hd hl)⟩
    push_cast
    refine (k2 i).trans ?_
    gcongr
    rw [hδdef, scanTol]
    refine div_le_div_of_nonneg_right ?_ (by norm_num)
    linarith
  · intro w hw hno
    obtain ⟨v, hv, h1, -, h3⟩ := hval w hw
    have hnocc : (fun i => w i - ncb.min i) ∉ occ := by
      intro hc
      obtain ⟨p, hp, h4, y, h5, h6⟩ := hfar _ hc
      exact hno p hp h4 y h5 h6
    refine ⟨v, hv, ?_⟩
    by_cases hf : (fun i => w i - ncb.min i) ∈ free
    · exact .inr (h1 hf)
    · exact .inl (h3 hf hnocc)
  · intro p hp y hy t t0 t1 w hw l hd hl
    obtain ⟨-, y', hrr, k2, k3, k4⟩ := hpts p hp
    obtain rfl : y' = y := funext fun i => (hrr.end_ i).unique (hy i)
    obtain ⟨ray0, hray0⟩ := C24_reaches_end hD hrr k3 k4 (ml := lit 0) (by rw [h00]; simp)
    obtain ⟨z, hz, t2⟩ := C57_covers_segment hD hrr hray0 hKM k3 t0 t1
    obtain ⟨ray, res, hr, -⟩ := C24_stays_between hD hrr k3 k4 nm.maxRange
    obtain rfl : w = fun i => ncb.min i + z i := by
      funext i
      have hz' : |x i + t * (y' i - x i) - (ncb.min i + z i) * ρ| ≤ (1 / 2 + δ) * ρ := by
        have h2 := abs_add_le (x i + t * (y' i - x i) - (q i + z i * ρ)) (q i - ncb.min i * ρ)
        have e3 : x i + t * (y' i - x i) - (q i + z i * ρ) + (q i - ncb.min i * ρ)
            = x i + t * (y' i - x i) - (ncb.min i + z i) * ρ := by ring
        rw [e3] at h2
        have e1 : (5 * M' + (K + 2 : ℕ) ^ 2 + 10 * (K + 2 : ℕ) + 23) / 2 ^ 24
            + (3 * (M + m.tileSize + 1) + 2) / 2 ^ 24 ≤ δ := by
          rw [hδdef, scanTol, ← add_div]
          refine div_le_div_of_nonneg_right ?_ (by norm_num)
          push_cast
          nlinarith
        have e1' := mul_le_mul_of_nonneg_right e1 hpos.le
        rw [add_mul] at e1'
        linarith [t2 i, hqe i]
      have a1 := abs_lt.mp (hw i)
      have a2 := abs_le.mp hz'
      have b1 : ((w i : ℚ) - (ncb.min i + z i)) * ρ < 1 * ρ := by linarith
      have b2 : ((ncb.min i + z i : ℚ) - w i) * ρ < 1 * ρ := by linarith
      have c1 := lt_of_mul_lt_mul_right b1 hpos.le
      have c2 := lt_of_mul_lt_mul_right b2 hpos.le
      have d1 : w i - (ncb.min i + z i) < 1 := by exact_mod_cast c1
      have d2 : ncb.min i + z i - w i < 1 := by exact_mod_cast c2
      omega
    have e1 : (fun i => (ncb.min i + z i) - ncb.min i) = z := by funext i; ring
    have hcz := hcen fun i => ncb.min i + z i
    rw [e1] at hcz
    have hkept := C75_near_kept hD hrr hml hhi h00 hray0 hr hz (hd.trans hcz.symm) (by linarith)
    have hmem : z ∈ free ∨ z ∈ occ := by
      by_cases hzo : z ∈ occ
      · exact .inr hzo
      · rcases hkept with h1 | rfl
        · exact .inl ((C28_free hcast z).mpr ⟨⟨p, hp, _, _, hr, h1⟩, hzo⟩)
        · exact .inr ((C28_occupied hcast _).mpr ⟨p, hp, ray, hr⟩)
    have hwn : InCells (fun i => ncb.min i + z i) ncb := hin _ (by rw [e1]; exact hgr z hmem)
    obtain ⟨v, hv, h7, h8, -⟩ := hval _ hwn
    rw [e1] at h7 h8
    refine ⟨hwn, v, hv, hmem.symm.imp h8 h7, ?_, ?_⟩
    · rintro ⟨p', hp', hc, y', l', hy', hd', hl'⟩
      rw [e1] at hc
      exact h8 (hc ▸ hocc p' hp' y' l' hy' hd' hl')
    · intro hno
      refine h7 (hmem.resolve_right fun hzo => ?_)
      obtain ⟨p', hp', h4, y', h5, h6⟩ := hfar _ hzo
      exact hno p' hp' (by rw [e1]; exact h4) y' h5 h6
  · intro w hw hs hd hno
    obtain ⟨v, hv, -, -, h3⟩ := hval w hw
    refine ⟨v, hv, h3 ?_ ?_⟩
    · intro hf
      obtain ⟨⟨p, hp, ray, res, hc, hmm⟩, -⟩ := (C28_free hcast _).mp hf
      obtain ⟨-, y, hrr, -, k3, k4⟩ := hpts p hp
      obtain ⟨ray2, res2, hr2, hb⟩ := C24_stays_between hD hrr k3 k4 nm.maxRange
      obtain ⟨rfl, rfl⟩ := casts_unique hc hr2
      have hM'1 := hrr.M_hi
      rcases C68_free_in_range hD hrr (N := M' + 1) (by linarith) (by norm_num at hM'1 ⊢; linarith) hml hlo hhi hc hmm
        (between_small hrr (hb _ hmm)) with h1 | h1
      · exact hs h1.symm
      · exact hd ((h1.trans (hcen w)).mono (by linarith))
    · intro hc
      obtain ⟨p, hp, h4, y, h5, h6⟩ := hfar _ hc
      exact hno p hp h4 y h5 h6

/-- A clear scan with the point (9/4, 1/2) near and the point (-19, 1/4) far from the sensor at (1/2, 1/2). -/
lemma twoRangeScan_clear : ClearScan 24 24 smallMap CellBounds.empty 1 ![1 / 2, 1 / 2] ![Fp.lit (1 / 2), Fp.lit (1 / 2)]
    (PointCloud.fromPoints [![Fp.lit (9 / 4), Fp.lit (1 / 2)], ![Fp.lit (-19), Fp.lit (1 / 4)]]) := by
  have hT : smallMap.tileSize = 2 := rfl
  have off : ∀ (y : ℚ) (a : ℤ), 2 * (a : ℚ) ≤ y → y < 2 * a + 5 / 4 → OffTileEdge 2 1 y := by
    rintro y a h1 h2 k ⟨h3, h4⟩
    push_cast at h3 h4
    rcases le_or_gt k a with h | h
    · have : (k : ℚ) ≤ a := by exact_mod_cast h
      linarith
    · have : (a : ℚ) + 1 ≤ k := by exact_mod_cast h
      linarith
  have half : ∀ (y : ℚ) (a : ℤ), (a : ℚ) - 1 / 4 ≤ y → y ≤ a + 1 / 4 → ∀ n : ℤ, 1 / 4 ≤ |y - (n + 1 / 2) * 1| := by
    intro y a h1 h2 n
    rcases lt_or_ge n a with h | h
    · have : (n : ℚ) + 1 ≤ a := by exact_mod_cast h
      exact le_trans (by linarith) (le_abs_self _)
    · have : (a : ℚ) ≤ n := by exact_mod_cast h
      exact le_trans (by linarith) (neg_le_abs _)
  have hd : (13 * (24 : ℕ) + 8 * (2 : ℕ) + (24 : ℕ) ^ 2 + 14 * (24 : ℕ) + 80 : ℚ) / 2 ^ 24 * 1 ≤ 1 / 4 := by norm_num
  refine ⟨by norm_num, by norm_num, by norm_num, by norm_num, by decide, by decide +kernel, ?_, ?_, ?_, ?_⟩
  · intro i; fin_cases i <;> norm_num
  · intro i; right; revert i; decide +kernel
  · intro i; rw [hT]; fin_cases i <;> exact .inl (off (1 / 2) 0 (by norm_num) (by norm_num))
  · intro p hp
    rw [C13_points_fromPoints] at hp
    rw [hT]
    rcases List.mem_pair.mp hp with rfl | rfl
    · intro i
      fin_cases i
      · exact ⟨9 / 4, by decide +kernel, by norm_num, .inl (off _ 1 (by norm_num) (by norm_num)), by norm_num,
          .inr ⟨by norm_num, fun n => hd.trans (half _ 2 (by norm_num) (by norm_num) n)⟩⟩
      · exact ⟨1 / 2, by decide +kernel, by norm_num, .inl (off _ 0 (by norm_num) (by norm_num)), by norm_num, .inl rfl⟩
    · intro i
      fin_cases i
      · exact ⟨-19, by decide +kernel, by norm_num, .inl (off _ (-10) (by norm_num) (by norm_num)), by norm_num,
          .inr ⟨by norm_num, fun n => hd.trans (half _ (-19) (by norm_num) (by norm_num) n)⟩⟩
      · exact ⟨1 / 4, by decide +kernel, by norm_num, .inl (off _ 0 (by norm_num) (by norm_num)), by norm_num,
          .inr ⟨by norm_num, fun n => hd.trans (half _ 0 (by norm_num) (by norm_num) n)⟩⟩

/-- The hypotheses hold for that scan and a range limit of 6: the first point is in range, the second is not, the
segment to it passes the world cell (-1, 0), which is in range, and the world cell (-12, 0) is out of range. -/
example : ∃ m', scanTol 24 24 smallMap.tileSize ≤ 1 / 2 ∧
    Integrates id (⟨Fp.lit 1, Fp.lit (-1), Fp.lit (-2), Fp.lit 3, Fp.lit 0, Fp.lit 6⟩ : LidarNoiseModel F32)
      smallMap ![Fp.lit (1 / 2), Fp.lit (1 / 2)]
      (PointCloud.fromPoints [![Fp.lit (9 / 4), Fp.lit (1 / 2)], ![Fp.lit (-19), Fp.lit (1 / 4)]]) m' ∧
    (Fp.lit 6 : F32).Is 6 ∧
    DistLe ![1 / 2, 1 / 2] ![9 / 4, 1 / 2] (7 / 4) ∧ 7 / 4 + 3 * (1 : ℚ) ≤ 6 * (1 - 1 / 2 ^ 20) ∧
    ¬ DistLe ![1 / 2, 1 / 2] ![-19, 1 / 4] (6 * (1 + 1 / 2 ^ 20) + 5 * 1) ∧
    (∀ i, |(![1 / 2, 1 / 2] : Fin 2 → ℚ) i + 1 / 13 * ((![-19, 1 / 4] : Fin 2 → ℚ) i - (![1 / 2, 1 / 2] : Fin 2 → ℚ) i)
      - (![-1, 0] : Cell 2) i * 1| < (1 / 2 - scanTol 24 24 smallMap.tileSize) * 1) ∧
    DistLe ![1 / 2, 1 / 2] (fun i => (![-1, 0] : Cell 2) i * 1) (8 / 5) ∧
    8 / 5 + 4 * (1 : ℚ) ≤ 6 * (1 - 1 / 2 ^ 20) ∧
    ¬ DistLe ![1 / 2, 1 / 2] (fun i => (![-12, 0] : Cell 2) i * 1) (6 * (1 + 1 / 2 ^ 20) + 2 * 1) := by
  obtain ⟨m', hm'⟩ := C44_no_panic_partial (.inl rfl) smallMap_placed twoRangeScan_clear
    (nm := ⟨Fp.lit 1, Fp.lit (-1), Fp.lit (-2), Fp.lit 3, Fp.lit 0, Fp.lit 6⟩) (ord := id) (fun l => .refl l)
  have : smallMap.tileSize = 2 := rfl
  rw [this]
  refine ⟨m', by norm_num [scanTol], hm', F32.lit_int_is (n := 6) (by norm_num), ?_, by norm_num, ?_, ?_, ?_,
    by norm_num, ?_⟩
  · norm_num [DistLe, distSq, Fin.sum_univ_two]
  · norm_num [DistLe, distSq, Fin.sum_univ_two]
  · intro i; fin_cases i <;> norm_num [scanTol, abs_lt]
  · norm_num [DistLe, distSq, Fin.sum_univ_two]
  · norm_num [DistLe, distSq, Fin.sum_univ_two]

end Verif.Props
