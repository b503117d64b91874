import Verif.Props.NoPanic
import Verif.Props.RayNear

/-!
# C58: what a scan does to the map
-/

namespace Verif.Props
open Spec Scalar

variable {D : ℕ} {m m' : GridMap D F32 F32} {cb : CellBounds D} {ρ : ℚ} {origin : Point D F32}
  {cloud : PointCloud D F32} {nm : LidarNoiseModel F32} {ord : List (Cell D) → List (Cell D)}
  {M K : ℕ} {x : Fin D → ℚ}

/-- The map after a clear scan, and the conditions on its rays. -/
lemma scan_base (hD : D = 2 ∨ D = 3) (hP : Placed m cb ρ) (h : ClearScan M K m cb ρ x origin cloud)
    (ho : IsOrder ord) (hi : Integrates ord nm m origin cloud m') :
    ∃ ncb q free occ, Placed m' ncb ρ ∧ CastsRays origin cloud m'.bounds m'.resolution nm.maxRange free occ ∧
      (∀ z, z ∈ free ∨ z ∈ occ → InGrid m' z) ∧
      (∀ w, InCells w ncb → ∃ v, Before m cb w v ∧
        ((fun i => w i - ncb.min i) ∈ free → valueAt m' ncb w = .ok ((v.add nm.miss).max nm.min)) ∧
        ((fun i => w i - ncb.min i) ∈ occ → valueAt m' ncb w = .ok ((v.add nm.hit).min nm.max)) ∧
        ((fun i => w i - ncb.min i) ∉ free → (fun i => w i - ncb.min i) ∉ occ → valueAt m' ncb w = .ok v)) ∧
      (∀ i, |q i - ncb.min i * ρ| ≤ (3 * (M + m.tileSize + 1) + 2) / 2 ^ 24 * ρ) ∧
      ∀ p ∈ cloud.points, InGrid m' (m'.cellFromPoint p) ∧
        ∃ y, RayRange (2 * M + m.tileSize + 2) origin p m'.bounds.min m'.resolution x y q ρ ∧
          (∀ i, |y i - (ncb.min i + m'.cellFromPoint p i) * ρ| ≤
            (1 / 2 + (7 * M + 5 * m.tileSize + 11) / 2 ^ 24) * ρ) ∧
          (∀ i, |cellFromPoint p m'.bounds.min m'.resolution i
            - cellFromPoint origin m'.bounds.min m'.resolution i| ≤ (K + 2 : ℕ)) ∧
          (∀ i, y i ≠ x i → |y i - (q i + cellFromPoint p m'.bounds.min m'.resolution i * ρ)| ≤
            (1 / 2 - (5 * (2 * M + m.tileSize + 2) + (K + 2 : ℕ) ^ 2 + 10 * (K + 2 : ℕ) + 23) / 2 ^ 24) * ρ) := by
  obtain ⟨me, ncb, q, h1, hP', hold, hnew, hq, hqe, hsensor, hpts⟩ := clear_scan hD hP h
  obtain ⟨me', free, occ, g1, g2, g3, g4, g5, g6, g7, g8, g9⟩ := integrate_spec ho hi
  obtain rfl : me' = me := by
    have : m.expandBounds cloud.bounds (Fp.lit 0) = .ok me' := g1
    rw [h1] at this
    cases this
    rfl
  have hb : m'.bounds = me'.bounds := by rw [g5]
  have hr : m'.resolution = me'.resolution := by rw [g5]
  have ht : m'.tileSize = me'.tileSize := by rw [g5]
  have hpos := hP.res.pos
  have hPm : Placed m' ncb ρ := by
    refine ⟨?_, ?_, hP'.ordered, ?_, ?_, ?_, ?_, ?_⟩
    · rw [hr]; exact hP'.res
    · rw [hb, hr]; exact hP'.bounds
    · rw [g6]; exact hP'.shape
    · rw [ht]; exact hP'.tile_pos
    · rw [ht]; exact hP'.tile_le
    · rw [ht]; exact hP'.min_range
    · rw [ht]; exact hP'.max_range
  refine ⟨ncb, q, free, occ, hPm, by rw [hb, hr]; exact g2, ?_, ?_, hqe, ?_⟩
  · rintro z hz i
    rw [g6]
    exact hz.elim (fun h2 => g3 z h2 i) fun h2 => g4 z h2 i
  · intro w hw
    have hin : InGrid me' (fun i => w i - ncb.min i) := by
      intro i
      have := hw i
      have := hP'.shape i
      dsimp only
      omega
    have hmc : MachineCell (fun i => w i - ncb.min i) := by
      intro i
      have h2 := hw i
      obtain ⟨h3, h4⟩ := hP'.inRange i
      apply inIsize_of_abs
      rw [abs_le] at h3 h4 ⊢
      dsimp only
      omega
    obtain ⟨v, hv⟩ := (C31_get me' hmc).1 hin
    refine ⟨v, ⟨fun hc => ?_, fun hc => ?_⟩, fun hf => g7 _ hf v hv, fun hoc => g8 _ hoc v hv, fun hf hoc => ?_⟩
    · rw [← (hold w hc).2]; exact hv
    · have := hnew w hw hc
      rw [show valueAt me' ncb w = .ok v from hv] at this
      cases this
      rfl
    · exact (g9 _ hmc hf hoc).trans hv
  · intro p hp
    obtain ⟨k1, y, hrr, k2, k3, k4⟩ := hpts p hp
    have hcell : m'.cellFromPoint p = cellFromPoint p me'.bounds.min me'.resolution := by
      unfold GridMap.cellFromPoint; rw [hb, hr]
    rw [hcell, hb, hr]
    exact ⟨fun i => by rw [g6]; exact k1 i, y, hrr, k2, k3, k4⟩

/-- The map after a clear scan, its rays without the range limit, and the rays with it. -/
lemma scan_spec (hD : D = 2 ∨ D = 3) (hP : Placed m cb ρ) (h : ClearScan M K m cb ρ x origin cloud)
    (hδ : scanTol M K m.tileSize ≤ 1 / 2) (ho : IsOrder ord) (hi : Integrates ord nm m origin cloud m') :
    ∃ ncb free occ, Placed m' ncb ρ ∧ CastsRays origin cloud m'.bounds m'.resolution nm.maxRange free occ ∧
      (∀ z, z ∈ free ∨ z ∈ occ → InGrid m' z) ∧
      (∀ w, InCells w ncb → ∃ v, Before m cb w v ∧
        ((fun i => w i - ncb.min i) ∈ free → valueAt m' ncb w = .ok ((v.add nm.miss).max nm.min)) ∧
        ((fun i => w i - ncb.min i) ∈ occ → valueAt m' ncb w = .ok ((v.add nm.hit).min nm.max)) ∧
        ((fun i => w i - ncb.min i) ∉ free → (fun i => w i - ncb.min i) ∉ occ → valueAt m' ncb w = .ok v)) ∧
      ∀ p ∈ cloud.points, InGrid m' (m'.cellFromPoint p) ∧ ∃ y : Fin D → ℚ, (∀ i, (p i).Is (y i)) ∧
        (∀ i, |y i - (ncb.min i + m'.cellFromPoint p i) * ρ| ≤ (1 / 2 + scanTol M K m.tileSize) * ρ) ∧
        (∀ lam, nm.maxRange.Is lam → (2 * K + 8) * ρ ≤ lam → lam ≤ 2 ^ 60 →
          ∃ ray, Casts origin p m'.bounds m'.resolution nm.maxRange ray (some (m'.cellFromPoint p))) ∧
        ∃ ray : List (Cell D), (∀ ray' res', Casts origin p m'.bounds m'.resolution nm.maxRange ray' res' →
            (∀ z ∈ ray', z ∈ ray) ∧ (∀ z ∈ res', z = m'.cellFromPoint p) ∧ (res' ≠ none → ray' = ray)) ∧
          (∀ z ∈ ray ++ [m'.cellFromPoint p], ∃ t : ℚ, 0 ≤ t ∧ t ≤ 1 ∧
            ∀ i, |x i + t * (y i - x i) - (ncb.min i + z i) * ρ| ≤ (1 / 2 + scanTol M K m.tileSize) * ρ) ∧
          (∀ t : ℚ, 0 ≤ t → t ≤ 1 → ∃ z ∈ ray ++ [m'.cellFromPoint p],
            ∀ i, |x i + t * (y i - x i) - (ncb.min i + z i) * ρ| ≤ (1 / 2 + scanTol M K m.tileSize) * ρ) := by
  obtain ⟨ncb, q, free, occ, hPm, hcast, hgr, hval, hqe, hpts⟩ := scan_base hD hP h ho hi
  have hpos := hP.res.pos
  refine ⟨ncb, free, occ, hPm, hcast, hgr, hval, ?_⟩
  · intro p hp
    obtain ⟨k1, y, hrr, k2, k3, k4⟩ := hpts p hp
    change InGrid m' (cellFromPoint p m'.bounds.min m'.resolution) at k1
    unfold GridMap.cellFromPoint at k2 ⊢
    have hM1 : (1 : ℚ) ≤ M := by exact_mod_cast h.M_lo
    have hT1 : (1 : ℚ) ≤ m.tileSize := by exact_mod_cast hP.tile_pos
    have hK0 : (0 : ℚ) ≤ K := by positivity
    have hK2 : (0 : ℚ) ≤ (K : ℚ) ^ 2 := by positivity
    have hδ' := hδ
    unfold scanTol at hδ'
    rw [div_le_iff₀ (by norm_num)] at hδ'
    have hKM : 5 * (2 * (M : ℚ) + m.tileSize + 2) + (K + 2 : ℕ) ^ 2 + 10 * (K + 2 : ℕ) + 23 ≤ 2 ^ 24 := by
      push_cast
      have e0 : ((K : ℚ) + 2) ^ 2 = K ^ 2 + 4 * K + 4 := by ring
      rw [e0]
      norm_num at hδ' ⊢
      linarith
    have hK12 : K + 2 ≤ 2 ^ 12 := by
      by_contra hc
      have h2 : (4095 : ℚ) ≤ K := by
        have : 4095 ≤ K := by omega
        exact_mod_cast this
      have h3 : (4095 : ℚ) * 4095 ≤ (K : ℚ) ^ 2 := by rw [sq]; gcongr
      norm_num at hδ' h3
      linarith
    set μ : ℚ := (5 * (2 * (M : ℚ) + m.tileSize + 2) + (K + 2 : ℕ) ^ 2 + 10 * (K + 2 : ℕ) + 23) / 2 ^ 24 with hμ
    set δ := scanTol M K m.tileSize with hδdef
    have e1 : μ + (3 * (M + m.tileSize + 1) + 2) / 2 ^ 24 ≤ δ := by
      rw [hμ, hδdef, scanTol, ← add_div]
      refine div_le_div_of_nonneg_right ?_ (by norm_num)
      push_cast
      nlinarith
    have e1' : μ * ρ + (3 * (M + m.tileSize + 1) + 2) / 2 ^ 24 * ρ ≤ δ * ρ := by
      rw [← add_mul]; gcongr
    have e2 : (7 * (M : ℚ) + 5 * m.tileSize + 11) / 2 ^ 24 ≤ δ := by
      rw [hδdef, scanTol]
      refine div_le_div_of_nonneg_right ?_ (by norm_num)
      nlinarith
    have hnear : ∀ (t : ℚ) (z : Cell D), (∀ i, |x i + t * (y i - x i) - (q i + z i * ρ)| ≤ ρ / 2 + μ * ρ) →
        ∀ i, |x i + t * (y i - x i) - (ncb.min i + z i) * ρ| ≤ (1 / 2 + δ) * ρ := by
      intro t z hz i
      have h2 := abs_add_le (x i + t * (y i - x i) - (q i + z i * ρ)) (q i - ncb.min i * ρ)
      have e3 : x i + t * (y i - x i) - (q i + z i * ρ) + (q i - ncb.min i * ρ)
          = x i + t * (y i - x i) - (ncb.min i + z i) * ρ := by ring
      rw [e3] at h2
      linarith [hz i, hqe i]
    obtain ⟨ml0, ray, hray, hcut⟩ : ∃ ml0 ray, Casts origin p m'.bounds m'.resolution ml0 ray
        (some (cellFromPoint p m'.bounds.min m'.resolution)) ∧
        (∀ ray' res', Casts origin p m'.bounds m'.resolution nm.maxRange ray' res' →
            (∀ z ∈ ray', z ∈ ray) ∧ (∀ z ∈ res', z = cellFromPoint p m'.bounds.min m'.resolution) ∧
            (res' ≠ none → ray' = ray)) := by
      have h0 : Scalar.lt (lit 0) (lit 0 : F32) = false := by decide +kernel
      cases hml : (lit 0 <. nm.maxRange) with
      | false =>
        obtain ⟨ray, hray⟩ := C24_reaches_end hD hrr k3 k4 (ml := nm.maxRange) (by rw [hml]; simp)
        refine ⟨_, ray, hray, fun ray' res' hc => ?_⟩
        obtain ⟨rfl, rfl⟩ := casts_unique hc hray
        simp
      | true =>
        obtain ⟨ray, hray⟩ := C24_reaches_end hD hrr k3 k4 (ml := lit 0) (by rw [h0]; simp)
        refine ⟨_, ray, hray, fun ray' res' hc => ?_⟩
        obtain ⟨ray2, e2, h2, hpre, -, h3, -⟩ := C56_limit_cuts h0 hml hray
        obtain ⟨rfl, rfl⟩ := casts_unique hc h2
        refine ⟨fun z hz => hpre.subset hz, ?_⟩
        rcases h3 with ⟨rfl, rfl⟩ | ⟨rfl, -⟩
        · simp
        · simp
    refine ⟨k1, y, hrr.end_, fun i => ?_, ?_, ray, hcut, ?_, ?_⟩
    · refine (k2 i).trans ?_
      gcongr
    · intro lam hml h2 h3
      exact C24_range hD hrr hK12 k3 k4 hml (by push_cast; linarith) h3
    · intro z hz
      obtain ⟨t, t0, t1, t2⟩ := C57_near_segment hD hrr hray hKM k3 hz
      exact ⟨t, t0, t1, hnear t z t2⟩
    · intro t t0 t1
      obtain ⟨z, hz, t2⟩ := C57_covers_segment hD hrr hray hKM k3 t0 t1
      exact ⟨z, hz, hnear t z t2⟩

/-- C58: after a clear scan within the range of the noise model the map stores a box `ncb` of world cells such that
- the map's cell of every point of the cloud has got exactly one hit, and its centre is within half a cell and the
  tolerance of the point,
- every cell that the segment from the sensor to a point passes, farther than the tolerance from its border, has got
  a hit if it is the cell of a point of the cloud, and exactly one miss if not. -/
theorem C58_marks (hD : D = 2 ∨ D = 3) (hP : Placed m cb ρ) (h : ClearScan M K m cb ρ x origin cloud)
    (hδ : scanTol M K m.tileSize ≤ 1 / 2) (ho : IsOrder ord) (hi : Integrates ord nm m origin cloud m') {lam : ℚ}
    (hml : nm.maxRange.Is lam) (hlo : (2 * K + 8) * ρ ≤ lam) (hhi : lam ≤ 2 ^ 60) :
    ∃ ncb, Placed m' ncb ρ ∧
      (∀ p ∈ cloud.points, ∃ w v, m'.cellFromPoint p = (fun i => w i - ncb.min i) ∧ InCells w ncb ∧
        (∀ i y, (p i).Is y → |y - w i * ρ| ≤ (1 / 2 + scanTol M K m.tileSize) * ρ) ∧
        Before m cb w v ∧ valueAt m' ncb w = .ok ((v.add nm.hit).min nm.max)) ∧
      (∀ p ∈ cloud.points, ∀ y : Fin D → ℚ, (∀ i, (p i).Is (y i)) → ∀ t : ℚ, 0 ≤ t → t ≤ 1 → ∀ w : Cell D,
        (∀ i, |x i + t * (y i - x i) - w i * ρ| < (1 / 2 - scanTol M K m.tileSize) * ρ) →
        InCells w ncb ∧ ∃ v, Before m cb w v ∧
          ((∃ p' ∈ cloud.points, m'.cellFromPoint p' = fun i => w i - ncb.min i) →
            valueAt m' ncb w = .ok ((v.add nm.hit).min nm.max)) ∧
          ((¬ ∃ p' ∈ cloud.points, m'.cellFromPoint p' = fun i => w i - ncb.min i) →
            valueAt m' ncb w = .ok ((v.add nm.miss).max nm.min))) := by
  obtain ⟨ncb, free, occ, hPm, hcast, hgr, hval, hpts⟩ := scan_spec hD hP h hδ ho hi
  have hpos := hP.res.pos
  have hocc : ∀ p ∈ cloud.points, m'.cellFromPoint p ∈ occ := by
    intro p hp
    obtain ⟨-, y, -, -, h1, -⟩ := hpts p hp
    obtain ⟨ray, hr⟩ := h1 lam hml hlo hhi
    exact (C28_occupied hcast _).mpr ⟨p, hp, ray, hr⟩
  have hin : ∀ (w : Cell D), InGrid m' (fun i => w i - ncb.min i) → InCells w ncb := by
    intro w h1 i
    have := h1 i
    have := hPm.shape i
    dsimp only at *
    omega
  refine ⟨ncb, hPm, ?_, ?_⟩
  · intro p hp
    obtain ⟨h1, y, h2, h3, -⟩ := hpts p hp
    have e1 : (fun i => (ncb.min i + m'.cellFromPoint p i) - ncb.min i) = m'.cellFromPoint p := by
      funext i; ring
    have hw : InCells (fun i => ncb.min i + m'.cellFromPoint p i) ncb := hin _ (by rw [e1]; exact h1)
    obtain ⟨v, hv, -, h4, -⟩ := hval _ hw
    refine ⟨_, v, e1.symm, hw, ?_, hv, h4 (by rw [e1]; exact hocc p hp)⟩
    intro i y' hy'
    obtain rfl := (h2 i).unique hy'
    push_cast
    exact h3 i
  · intro p hp y hy t t0 t1 w hw
    obtain ⟨-, y', h2, -, h3, ray, h4, -, h5⟩ := hpts p hp
    obtain rfl : y' = y := funext fun i => (h2 i).unique (hy i)
    obtain ⟨z, hz, hz'⟩ := h5 t t0 t1
    -- the cell of the list is the given one
    obtain rfl : w = fun i => ncb.min i + z i := by
      funext i
      have a1 := abs_lt.mp (hw i)
      have a2 := abs_le.mp (hz' i)
      have b1 : ((w i : ℚ) - (ncb.min i + z i)) * ρ < 1 * ρ := by linarith
      have b2 : ((ncb.min i + z i : ℚ) - w i) * ρ < 1 * ρ := by linarith
      have c1 := lt_of_mul_lt_mul_right b1 hpos.le
      have c2 := lt_of_mul_lt_mul_right b2 hpos.le
      have d1 : w i - (ncb.min i + z i) < 1 := by exact_mod_cast c1
      have d2 : ncb.min i + z i - w i < 1 := by exact_mod_cast c2
      omega
    have e1 : (fun i => (ncb.min i + z i) - ncb.min i) = z := by funext i; ring
    obtain ⟨ray', hr'⟩ := h3 lam hml hlo hhi
    obtain ⟨-, -, h6⟩ := h4 _ _ hr'
    obtain rfl := h6 (by simp)
    have hmem : z ∈ free ∨ z ∈ occ := by
      by_cases hzo : z ∈ occ
      · exact .inr hzo
      · rcases List.mem_append.mp hz with hz | hz
        · refine .inl ((C28_free hcast z).mpr ⟨⟨p, hp, _, _, hr', hz⟩, ?_⟩)
          exact hzo
        · rw [List.mem_singleton] at hz
          exact absurd (hz ▸ hocc p hp) hzo
    have hgrid := hgr z hmem
    have hwn : InCells (fun i => ncb.min i + z i) ncb := hin _ (by rw [e1]; exact hgrid)
    obtain ⟨v, hv, h7, h8, -⟩ := hval _ hwn
    rw [e1] at h7 h8
    refine ⟨hwn, v, hv, ?_, ?_⟩
    · rintro ⟨p', hp', hc⟩
      rw [e1] at hc
      exact h8 (hc ▸ hocc p' hp')
    · intro hno
      refine h7 (hmem.resolve_right fun hzo => hno ?_)
      obtain ⟨p', hp', ray2, hr2⟩ := (C28_occupied hcast z).mp hzo
      refine ⟨p', hp', ?_⟩
      rw [e1]
      obtain ⟨-, _, -, -, -, _, k1, -⟩ := hpts p' hp'
      exact ((k1 _ _ hr2).2.1 z rfl).symm

/-- C58, whatever the range limit: a clear scan changes no cell that is farther than the tolerance from all segments
from the sensor to the points. -/
theorem C58_rest_unchanged (hD : D = 2 ∨ D = 3) (hP : Placed m cb ρ) (h : ClearScan M K m cb ρ x origin cloud)
    (hδ : scanTol M K m.tileSize ≤ 1 / 2) (ho : IsOrder ord) (hi : Integrates ord nm m origin cloud m') :
    ∃ ncb, Placed m' ncb ρ ∧ ∀ w, InCells w ncb →
      (∀ p ∈ cloud.points, ∀ y : Fin D → ℚ, (∀ i, (p i).Is (y i)) → ∀ t : ℚ, 0 ≤ t → t ≤ 1 →
        ∃ i, (1 / 2 + scanTol M K m.tileSize) * ρ < |x i + t * (y i - x i) - w i * ρ|) →
      ∃ v, Before m cb w v ∧ valueAt m' ncb w = .ok v := by
  obtain ⟨ncb, free, occ, hPm, hcast, hgr, hval, hpts⟩ := scan_spec hD hP h hδ ho hi
  refine ⟨ncb, hPm, fun w hw hfar => ?_⟩
  obtain ⟨v, hv, -, -, h1⟩ := hval w hw
  have key : ∀ p ∈ cloud.points, ∀ ray' res', Casts origin p m'.bounds m'.resolution nm.maxRange ray' res' →
      (fun i => w i - ncb.min i) ∉ ray' ∧ (fun i => w i - ncb.min i) ∉ res' := by
    intro p hp ray' res' hc
    obtain ⟨-, y, hy, -, -, ray, h2, h3, -⟩ := hpts p hp
    obtain ⟨k1, k2, -⟩ := h2 ray' res' hc
    have hno : (fun i => w i - ncb.min i) ∉ ray ++ [m'.cellFromPoint p] := by
      intro hm
      obtain ⟨t, t0, t1, t2⟩ := h3 _ hm
      obtain ⟨i, hi⟩ := hfar p hp y hy t t0 t1
      have := t2 i
      push_cast at this
      rw [add_sub_cancel] at this
      exact absurd this (not_le.mpr hi)
    rw [List.mem_append, not_or, List.mem_singleton] at hno
    exact ⟨fun h4 => hno.1 (k1 _ h4), fun h4 => hno.2 (k2 _ h4)⟩
  refine ⟨v, hv, h1 ?_ ?_⟩
  · intro hf
    obtain ⟨⟨p, hp, ray', res', hc, hm⟩, -⟩ := (C28_free hcast _).mp hf
    exact (key p hp _ _ hc).1 hm
  · intro hoc
    obtain ⟨p, hp, ray', hc⟩ := (C28_occupied hcast _).mp hoc
    exact (key p hp _ _ hc).2 rfl

/-- The clear scan of the small map, with a noise model of range 60: the hypotheses hold. -/
example : ∃ m', scanTol 8 8 smallMap.tileSize ≤ 1 / 2 ∧
    Integrates id (⟨Fp.lit 1, Fp.lit (-1), Fp.lit (-2), Fp.lit 3, Fp.lit 0, Fp.lit 60⟩ : LidarNoiseModel F32)
      smallMap ![Fp.lit (1 / 2), Fp.lit (1 / 2)]
      (PointCloud.fromPoints [![Fp.lit (9 / 4), Fp.lit (1 / 2)], ![Fp.lit (-3), Fp.lit (1 / 4)]]) m' ∧
    (Fp.lit 60 : F32).Is 60 ∧ (2 * (8 : ℕ) + 8) * (1 : ℚ) ≤ 60 := by
  obtain ⟨m', hm'⟩ := C44_no_panic_partial (.inl rfl) smallMap_placed smallScan_clear
    (nm := ⟨Fp.lit 1, Fp.lit (-1), Fp.lit (-2), Fp.lit 3, Fp.lit 0, Fp.lit 60⟩) (ord := id) (fun l => .refl l)
  refine ⟨m', ?_, hm', F32.lit_int_is (n := 60) (by norm_num), by norm_num⟩
  have : smallMap.tileSize = 2 := rfl
  rw [this]
  norm_num [scanTol]

end Verif.Props
