import Verif.Props.ScanMarks
import Verif.Props.RaySame

/-!
# C84: what a scan that keeps clear of the corners does to the map
-/

namespace Verif.Props
open Spec Scalar

variable {D : ℕ} {m m' : GridMap D F32 F32} {cb : CellBounds D} {ρ : ℚ} {origin : Point D F32}
  {cloud : PointCloud D F32} {nm : LidarNoiseModel F32} {ord : List (Cell D) → List (Cell D)}
  {M K : ℕ} {x : Fin D → ℚ}

/-- C84: a scan whose segments from the sensor to the points keep clear of the corners of the cells, with all points in
range. The map holds every cell that a segment meets. In it every cell with a point in its closed box has got one hit,
every other cell that a segment meets has got one miss, and every cell that no segment meets is unchanged. -/
theorem C84_scan (hD : D = 2 ∨ D = 3) (hP : Placed m cb ρ) (h : ClearScan M K m cb ρ x origin cloud)
    (hδ : scanTol M K m.tileSize ≤ 1 / 2) (ho : IsOrder ord) (hi : Integrates ord nm m origin cloud m') {lam : ℚ}
    (hml : nm.maxRange.Is lam) (hlo : (2 * K + 8) * ρ ≤ lam) (hhi : lam ≤ 2 ^ 60)
    (hc : ∀ p ∈ cloud.points, ∀ y : Fin D → ℚ, (∀ i, (p i).Is (y i)) →
      ClearSegment (fun _ => 0) x y ρ (scanTol M K m.tileSize * ρ)) :
    ∃ ncb, Placed m' ncb ρ ∧
      (∀ p ∈ cloud.points, ∀ y : Fin D → ℚ, (∀ i, (p i).Is (y i)) → ∀ w, Touches (fun _ => 0) x y ρ 0 w →
        InCells w ncb) ∧
      ∀ w, InCells w ncb → ∃ v, Before m cb w v ∧
        ((∃ p ∈ cloud.points, ∃ y : Fin D → ℚ, (∀ i, (p i).Is (y i)) ∧ ∀ i, |y i - w i * ρ| ≤ ρ / 2) →
          valueAt m' ncb w = .ok ((v.add nm.hit).min nm.max)) ∧
        ((¬ ∃ p ∈ cloud.points, ∃ y : Fin D → ℚ, (∀ i, (p i).Is (y i)) ∧ ∀ i, |y i - w i * ρ| ≤ ρ / 2) →
          (∃ p ∈ cloud.points, ∃ y : Fin D → ℚ, (∀ i, (p i).Is (y i)) ∧ Touches (fun _ => 0) x y ρ 0 w) →
          valueAt m' ncb w = .ok ((v.add nm.miss).max nm.min)) ∧
        ((¬ ∃ p ∈ cloud.points, ∃ y : Fin D → ℚ, (∀ i, (p i).Is (y i)) ∧ Touches (fun _ => 0) x y ρ 0 w) →
          valueAt m' ncb w = .ok v) := by
  obtain ⟨ncb, free, occ, hPm, hcast, hgr, hval, hpts⟩ := scan_spec hD hP h hδ ho hi
  have hpos := hP.res.pos
  set tol := scanTol M K m.tileSize * ρ with htol
  have htol0 : 0 ≤ tol := by
    rw [htol]; unfold scanTol; positivity
  have hocc : ∀ p ∈ cloud.points, m'.cellFromPoint p ∈ occ := by
    intro p hp
    obtain ⟨-, y, -, -, h1, -⟩ := hpts p hp
    obtain ⟨ray, hr⟩ := h1 lam hml hlo hhi
    exact (C28_occupied hcast _).mpr ⟨p, hp, ray, hr⟩
  have hin : ∀ (w : Cell D), InGrid m' (fun i => w i - ncb.min i) → InCells w ncb := by
    intro w h1 i
    have := h1 i
    have := hPm.shape i
    dsimp only at *
    omega
  -- the cell of a point
  have hcell : ∀ p ∈ cloud.points, ∀ y : Fin D → ℚ, (∀ i, (p i).Is (y i)) → ∀ i,
      |y i - (0 + ((ncb.min i + m'.cellFromPoint p i : ℤ) : ℚ) * ρ)| ≤ ρ / 2 + tol := by
    intro p hp y hy i
    obtain ⟨-, y', h2, h3, -⟩ := hpts p hp
    obtain rfl : y' = y := funext fun i => (h2 i).unique (hy i)
    have := h3 i
    push_cast
    rw [zero_add]
    linarith
  have hholds : ∀ w : Cell D, (fun i => w i - ncb.min i) ∈ occ ↔
      ∃ p ∈ cloud.points, ∃ y : Fin D → ℚ, (∀ i, (p i).Is (y i)) ∧ ∀ i, |y i - w i * ρ| ≤ ρ / 2 := by
    intro w
    constructor
    · intro hw
      obtain ⟨p, hp, ray, hr⟩ := (C28_occupied hcast _).mp hw
      obtain ⟨-, y, h2, -, -, ray', h4, -⟩ := hpts p hp
      have h5 := (h4 _ _ hr).2.1 _ rfl
      have hwe : w = fun i => ncb.min i + m'.cellFromPoint p i := by
        funext i
        have := congrFun h5 i
        omega
      refine ⟨p, hp, y, h2, fun i => ?_⟩
      have h6 := clear_inside (hc p hp y h2) hpos htol0 (hcell p hp y h2) i
      rw [zero_add] at h6
      rw [hwe]
      linarith
    · rintro ⟨p, hp, y, h2, h3⟩
      have h4 : w = fun i => ncb.min i + m'.cellFromPoint p i := clear_end (hc p hp y h2) hpos (fun i => by
        rw [zero_add]
        exact (h3 i).trans (by linarith)) (hcell p hp y h2)
      have e1 : (fun i => w i - ncb.min i) = m'.cellFromPoint p := by
        funext i; rw [h4]; ring
      rw [e1]
      exact hocc p hp
  have htouch : ∀ p ∈ cloud.points, ∀ y : Fin D → ℚ, (∀ i, (p i).Is (y i)) → ∀ w,
      Touches (fun _ => 0) x y ρ 0 w → (fun i => w i - ncb.min i) ∈ free ∨ (fun i => w i - ncb.min i) ∈ occ := by
    rintro p hp y hy w ⟨t, t0, t1, ht⟩
    obtain ⟨s, s0, s1, hs⟩ := hc p hp y hy w ⟨t, t0, t1, fun i => (ht i).trans (by linarith)⟩
    obtain ⟨-, y', h2, -, h3, ray, h4, -, h5⟩ := hpts p hp
    obtain rfl : y' = y := funext fun i => (h2 i).unique (hy i)
    obtain ⟨z, hz, hz'⟩ := h5 s s0 s1
    obtain rfl : w = fun i => ncb.min i + z i := by
      funext i
      have a1 := abs_lt.mp (hs i)
      have a2 := abs_le.mp (hz' i)
      unfold lineAt at a1
      have b1 : ((w i : ℚ) - (ncb.min i + z i)) * ρ < 1 * ρ := by linarith
      have b2 : ((ncb.min i + z i : ℚ) - w i) * ρ < 1 * ρ := by linarith
      have c1 := lt_of_mul_lt_mul_right b1 hpos.le
      have c2 := lt_of_mul_lt_mul_right b2 hpos.le
      have d1 : w i - (ncb.min i + z i) < 1 := by exact_mod_cast c1
      have d2 : ncb.min i + z i - w i < 1 := by exact_mod_cast c2
      omega
    have e1 : (fun i => (ncb.min i + z i) - ncb.min i) = z := by funext i; ring
    rw [e1]
    obtain ⟨ray', hr'⟩ := h3 lam hml hlo hhi
    obtain ⟨-, -, h6⟩ := h4 _ _ hr'
    obtain rfl := h6 (by simp)
    by_cases hzo : z ∈ occ
    · exact .inr hzo
    · rcases List.mem_append.mp hz with hz | hz
      · exact .inl ((C28_free hcast z).mpr ⟨⟨p, hp, _, _, hr', hz⟩, hzo⟩)
      · rw [List.mem_singleton] at hz
        exact absurd (hz ▸ hocc p hp) hzo
  have hmet : ∀ w : Cell D, (fun i => w i - ncb.min i) ∈ free ∨ (fun i => w i - ncb.min i) ∈ occ →
      ∃ p ∈ cloud.points, ∃ y : Fin D → ℚ, (∀ i, (p i).Is (y i)) ∧ Touches (fun _ => 0) x y ρ 0 w := by
    intro w hw
    have h1 : ∃ p ∈ cloud.points, ∃ ray res, Casts origin p m'.bounds m'.resolution nm.maxRange ray res ∧
        ((fun i => w i - ncb.min i) ∈ ray ∨ (fun i => w i - ncb.min i) ∈ res) := by
      rcases hw with hw | hw
      · obtain ⟨⟨p, hp, ray, res, h1, h2⟩, -⟩ := (C28_free hcast _).mp hw
        exact ⟨p, hp, ray, res, h1, .inl h2⟩
      · obtain ⟨p, hp, ray, h1⟩ := (C28_occupied hcast _).mp hw
        exact ⟨p, hp, ray, _, h1, .inr rfl⟩
    obtain ⟨p, hp, ray, res, h1, h2⟩ := h1
    obtain ⟨-, y, hy, -, -, ray', h4, h5, -⟩ := hpts p hp
    obtain ⟨k1, k2, -⟩ := h4 _ _ h1
    obtain ⟨t, t0, t1, ht⟩ := h5 (fun i => w i - ncb.min i) (by
      rcases h2 with h2 | h2
      · exact List.mem_append_left _ (k1 _ h2)
      · exact List.mem_append_right _ (List.mem_singleton.mpr (k2 _ h2)))
    obtain ⟨s, s0, s1, hs⟩ := hc p hp y hy w ⟨t, t0, t1, fun i => by
      have := ht i
      push_cast at this
      rw [add_sub_cancel] at this
      unfold lineAt
      rw [zero_add]
      linarith⟩
    exact ⟨p, hp, y, hy, s, s0, s1, fun i => (hs i).le.trans (by linarith)⟩
  refine ⟨ncb, hPm, fun p hp y hy w hw => hin w (hgr _ (htouch p hp y hy w hw)), fun w hw => ?_⟩
  obtain ⟨v, hv, h1, h2, h3⟩ := hval w hw
  refine ⟨v, hv, fun hh => h2 ((hholds w).mpr hh), ?_, fun hno => ?_⟩
  · rintro hno ⟨p, hp, y, hy, ht⟩
    exact h1 ((htouch p hp y hy w ht).resolve_right fun hw => hno ((hholds w).mp hw))
  · exact h3 (fun hf => hno (hmet w (.inl hf))) fun hf => hno (hmet w (.inr hf))

/-- A clear scan: the small map (cells of side 1, tiles of 2), the sensor at (1/4, 1/4), the points (9/4, 1) and
(-3, 1/4). -/
lemma slantScan_clear : ClearScan 8 8 smallMap CellBounds.empty 1 ![1 / 4, 1 / 4] ![Fp.lit (1 / 4), Fp.lit (1 / 4)]
    (PointCloud.fromPoints [![Fp.lit (9 / 4), Fp.lit 1], ![Fp.lit (-3), Fp.lit (1 / 4)]]) := by
  have hT : smallMap.tileSize = 2 := rfl
  have off : ∀ (y : ℚ) (a : ℤ), 2 * (a : ℚ) ≤ y → y < 2 * a + 5 / 4 → OffTileEdge 2 1 y := by
    rintro y a h1 h2 k ⟨h3, h4⟩
    push_cast at h3 h4
    rcases le_or_gt k a with h | h
    · have : (k : ℚ) ≤ a := by exact_mod_cast h
      linarith
    · have : (a : ℚ) + 1 ≤ k := by exact_mod_cast h
      linarith
  have half : ∀ (y : ℚ) (a : ℤ), (a : ℚ) - 1 / 4 ≤ y → y ≤ a + 1 / 4 → ∀ n : ℤ, 1 / 4 ≤ |y - (n + 1 / 2) * 1| := by
    intro y a h1 h2 n
    rcases lt_or_ge n a with h | h
    · have : (n : ℚ) + 1 ≤ a := by exact_mod_cast h
      exact le_trans (by linarith) (le_abs_self _)
    · have : (a : ℚ) ≤ n := by exact_mod_cast h
      exact le_trans (by linarith) (neg_le_abs _)
  have hd : (13 * (8 : ℕ) + 8 * (2 : ℕ) + (8 : ℕ) ^ 2 + 14 * (8 : ℕ) + 80 : ℚ) / 2 ^ 24 * 1 ≤ 1 / 4 := by norm_num
  refine ⟨by norm_num, by norm_num, by norm_num, by norm_num, by decide, by decide +kernel, ?_, ?_, ?_, ?_⟩
  · intro i; fin_cases i <;> norm_num
  · intro i; right; revert i; decide +kernel
  · intro i; rw [hT]; fin_cases i <;> exact .inl (off (1 / 4) 0 (by norm_num) (by norm_num))
  · intro p hp
    rw [C13_points_fromPoints] at hp
    rw [hT]
    rcases List.mem_pair.mp hp with rfl | rfl
    · intro i
      fin_cases i
      · exact ⟨9 / 4, by decide +kernel, by norm_num, .inl (off _ 1 (by norm_num) (by norm_num)), by norm_num,
          .inr ⟨by norm_num, fun n => hd.trans (half _ 2 (by norm_num) (by norm_num) n)⟩⟩
      · exact ⟨1, by decide +kernel, by norm_num, .inl (off _ 0 (by norm_num) (by norm_num)), by norm_num,
          .inr ⟨by norm_num, fun n => hd.trans (half _ 1 (by norm_num) (by norm_num) n)⟩⟩
    · intro i
      fin_cases i
      · exact ⟨-3, by decide +kernel, by norm_num, .inl (off _ (-2) (by norm_num) (by norm_num)), by norm_num,
          .inr ⟨by norm_num, fun n => hd.trans (half _ (-3) (by norm_num) (by norm_num) n)⟩⟩
      · exact ⟨1 / 4, by decide +kernel, by norm_num, .inl (off _ 0 (by norm_num) (by norm_num)), by norm_num,
          .inl rfl⟩

/-- A segment level with the first axis through the middle parts of cells. -/
lemma clear_level {tol : ℚ} (h0 : 0 ≤ tol) (htol : tol ≤ 1 / 100) :
    ClearSegment (fun _ => 0) (![1 / 4, 1 / 4] : Fin 2 → ℚ) ![-3, 1 / 4] 1 tol := by
  rintro w ⟨t, t0, t1, ht⟩
  have hx := abs_le.mp (ht 0)
  have hy := abs_le.mp (ht 1)
  simp only [lineAt, Matrix.cons_val_zero, Matrix.cons_val_one, Matrix.cons_val_fin_one] at hx hy
  have a1 : -4 < w 0 := by
    have : (-4 : ℚ) < w 0 := by linarith
    exact_mod_cast this
  have a2 : w 0 < 1 := by
    have : (w 0 : ℚ) < 1 := by linarith
    exact_mod_cast this
  have a3 : -1 < w 1 := by
    have : (-1 : ℚ) < w 1 := by linarith
    exact_mod_cast this
  have a4 : w 1 < 1 := by
    have : (w 1 : ℚ) < 1 := by linarith
    exact_mod_cast this
  have b2 : (w 1 : ℚ) = 0 := by
    have : w 1 = 0 := by omega
    exact_mod_cast this
  have key : ∀ s : ℚ, 0 ≤ s → s ≤ 1 → |1 / 4 - s * (13 / 4) - w 0| < 1 / 2 - tol →
      Enters (fun _ => 0) (![1 / 4, 1 / 4] : Fin 2 → ℚ) ![-3, 1 / 4] 1 tol w := by
    intro s s0 s1 hs1
    refine ⟨s, s0, s1, fun i => ?_⟩
    fin_cases i
    · simp only [lineAt, Fin.zero_eta, Matrix.cons_val_zero]
      convert hs1 using 2; ring
    · simp only [lineAt, Fin.mk_one, Matrix.cons_val_one, Matrix.cons_val_fin_one, b2]
      rw [abs_lt]; constructor <;> linarith
  have b1 : w 0 = 0 ∨ w 0 = -1 ∨ w 0 = -2 ∨ w 0 = -3 := by omega
  rcases b1 with b1 | b1 | b1 | b1 <;> rw [b1] at key <;> push_cast at key
  · exact key 0 le_rfl zero_le_one (by rw [abs_lt]; constructor <;> linarith)
  · exact key (5 / 13) (by norm_num) (by norm_num) (by rw [abs_lt]; constructor <;> linarith)
  · exact key (9 / 13) (by norm_num) (by norm_num) (by rw [abs_lt]; constructor <;> linarith)
  · exact key 1 (by norm_num) (by norm_num) (by rw [abs_lt]; constructor <;> linarith)

/-- The hypotheses of `C84_scan` for this scan. -/
example : ∃ m', scanTol 8 8 smallMap.tileSize ≤ 1 / 2 ∧
    Integrates id (⟨Fp.lit 1, Fp.lit (-1), Fp.lit (-2), Fp.lit 3, Fp.lit 0, Fp.lit 60⟩ : LidarNoiseModel F32)
      smallMap ![Fp.lit (1 / 4), Fp.lit (1 / 4)]
      (PointCloud.fromPoints [![Fp.lit (9 / 4), Fp.lit 1], ![Fp.lit (-3), Fp.lit (1 / 4)]]) m' ∧
    (Fp.lit 60 : F32).Is 60 ∧ (2 * (8 : ℕ) + 8) * (1 : ℚ) ≤ 60 ∧
    ∀ p ∈ (PointCloud.fromPoints [![Fp.lit (9 / 4), Fp.lit 1], ![Fp.lit (-3), Fp.lit (1 / 4)]] :
        PointCloud 2 F32).points, ∀ y : Fin 2 → ℚ, (∀ i, (p i).Is (y i)) →
      ClearSegment (fun _ => 0) ![1 / 4, 1 / 4] y 1 (scanTol 8 8 smallMap.tileSize * 1) := by
  obtain ⟨m', hm'⟩ := C44_no_panic_partial (.inl rfl) smallMap_placed slantScan_clear
    (nm := ⟨Fp.lit 1, Fp.lit (-1), Fp.lit (-2), Fp.lit 3, Fp.lit 0, Fp.lit 60⟩) (ord := id) (fun l => .refl l)
  have hT : smallMap.tileSize = 2 := rfl
  have h0 : (0 : ℚ) ≤ scanTol 8 8 2 * 1 := by norm_num [scanTol]
  have h1 : scanTol 8 8 2 * 1 ≤ 1 / 100 := by norm_num [scanTol]
  refine ⟨m', by rw [hT]; norm_num [scanTol], hm', F32.lit_int_is (n := 60) (by norm_num), by norm_num, ?_⟩
  intro p hp y hy
  rw [C13_points_fromPoints] at hp
  rw [hT]
  rcases List.mem_pair.mp hp with rfl | rfl
  · have : y = ![9 / 4, 1] := by
      funext i
      refine (hy i).unique ?_
      revert i
      decide +kernel
    rw [this]
    exact clear_example h0 h1
  · have : y = ![-3, 1 / 4] := by
      funext i
      refine (hy i).unique ?_
      revert i
      decide +kernel
    rw [this]
    exact clear_level h0 h1

end Verif.Props
