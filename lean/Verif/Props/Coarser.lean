import Verif.Spec.Coarser
import Verif.Props.Split
import Verif.Props.Geometric

/-!
# C117: a coarser grid
-/

namespace Verif.Props
open Scalar Spec

section
variable {D : ℕ} {ρ : ℚ} {j : ℕ}

private lemma part_axis (hρ : 0 < ρ) {y : ℚ} {W : ℤ} :
    |y - W * ((2 * j + 1) * ρ)| ≤ (2 * j + 1) * ρ / 2 ↔
      ∃ n : ℤ, |n - (2 * j + 1) * W| ≤ j ∧ |y - n * ρ| ≤ ρ / 2 := by
  constructor
  · intro h
    rw [abs_le] at h
    have e1 := Int.floor_le (y / ρ + 1 / 2)
    have e2 := Int.lt_floor_add_one (y / ρ + 1 / 2)
    have e3 : y / ρ * ρ = y := div_mul_cancel₀ _ hρ.ne'
    generalize y / ρ = z at *
    subst e3
    have h1 : -((j : ℚ) + 1 / 2) ≤ z - W * (2 * j + 1) :=
      le_of_mul_le_mul_right (by linarith) hρ
    have h2 : z - W * (2 * j + 1) ≤ (j : ℚ) + 1 / 2 :=
      le_of_mul_le_mul_right (by linarith) hρ
    generalize ⌊z + 1 / 2⌋ = n at *
    have l1 : -(j : ℤ) - 1 < n - (2 * j + 1) * W := by
      have : -(j : ℚ) - 1 < n - (2 * j + 1) * W := by linarith
      exact_mod_cast this
    have l2 : n - (2 * j + 1) * W ≤ (j : ℤ) + 1 := by
      have : (n : ℚ) - (2 * j + 1) * W ≤ (j : ℚ) + 1 := by linarith
      exact_mod_cast this
    have near : ∀ k : ℤ, |z - k| ≤ 1 / 2 → |z * ρ - k * ρ| ≤ ρ / 2 := by
      intro k hk
      rw [← sub_mul, abs_mul, abs_of_pos hρ]
      have := mul_le_mul_of_nonneg_right hk hρ.le
      linarith
    by_cases hn : n - (2 * j + 1) * W = (j : ℤ) + 1
    · refine ⟨n - 1, by rw [abs_le]; constructor <;> omega, near _ ?_⟩
      have hq : (n : ℚ) - (2 * j + 1) * W = (j : ℚ) + 1 := by exact_mod_cast hn
      rw [abs_le]
      push_cast
      constructor <;> linarith
    · refine ⟨n, by rw [abs_le]; constructor <;> omega, near _ ?_⟩
      rw [abs_le]
      constructor <;> linarith
  · rintro ⟨n, h1, h2⟩
    have hq : |(n : ℚ) - (2 * j + 1) * W| ≤ j := by exact_mod_cast h1
    have e : y - W * ((2 * j + 1) * ρ) = (y - n * ρ) + (n - (2 * j + 1) * W) * ρ := by ring
    rw [e]
    refine (abs_add_le _ _).trans ?_
    rw [abs_mul, abs_of_pos hρ]
    have := mul_le_mul_of_nonneg_right hq hρ.le
    linarith

/-- A large cell is made of its small cells. -/
lemma in_parts (hρ : 0 < ρ) {y : Fin D → ℚ} {W : Cell D} :
    (∀ i, |y i - W i * ((2 * j + 1) * ρ)| ≤ (2 * j + 1) * ρ / 2) ↔
      ∃ w, PartOfCell j W w ∧ ∀ i, |y i - w i * ρ| ≤ ρ / 2 := by
  constructor
  · intro h
    choose w h1 h2 using fun i => (part_axis hρ).mp (h i)
    exact ⟨w, h1, h2⟩
  · rintro ⟨w, h1, h2⟩ i
    exact (part_axis hρ).mpr ⟨w i, h1 i, h2 i⟩

/-- C117, by geometry: a scan hits a large cell exactly if it hits one of the small cells in it, and tells nothing about
it exactly if it tells nothing about any of them. -/
theorem C117_geometry (hρ : 0 < ρ) (x : Fin D → ℚ) (pts : List (Fin D → ℚ)) (W : Cell D) :
    (geoSeen ((2 * j + 1) * ρ) x pts W = .hit ↔ ∃ w, PartOfCell j W w ∧ geoSeen ρ x pts w = .hit) ∧
    (geoSeen ((2 * j + 1) * ρ) x pts W = .nothing ↔ ∀ w, PartOfCell j W w → geoSeen ρ x pts w = .nothing) ∧
    (geoSeen ((2 * j + 1) * ρ) x pts W = .miss ↔
      (∃ w, PartOfCell j W w ∧ geoSeen ρ x pts w = .miss) ∧ ∀ w, PartOfCell j W w → geoSeen ρ x pts w ≠ .hit) := by
  have hitIff : ∀ (r : ℚ) (w : Cell D), geoSeen r x pts w = .hit ↔ ∃ y ∈ pts, ∀ i, |y i - w i * r| ≤ r / 2 := by
    intro r w
    unfold geoSeen
    split_ifs with h1 h2
    · exact ⟨fun _ => h1, fun _ => rfl⟩
    · exact ⟨nofun, fun h => absurd h h1⟩
    · exact ⟨nofun, fun h => absurd h h1⟩
  have someIff : ∀ (r : ℚ) (w : Cell D), geoSeen r x pts w ≠ .nothing ↔
      ∃ y ∈ pts, ∃ t : ℚ, 0 ≤ t ∧ t ≤ 1 ∧ ∀ i, |x i + t * (y i - x i) - w i * r| ≤ r / 2 := by
    intro r w
    unfold geoSeen
    split_ifs with h1 h2
    · obtain ⟨y, hy, h⟩ := h1
      exact ⟨fun _ => ⟨y, hy, 1, zero_le_one, le_rfl, fun i => by
        rw [show x i + 1 * (y i - x i) = y i by ring]; exact h i⟩, fun _ => nofun⟩
    · exact ⟨fun _ => h2, fun _ => nofun⟩
    · exact ⟨fun h => absurd rfl h, fun h => absurd h h2⟩
  have hit : geoSeen ((2 * j + 1) * ρ) x pts W = .hit ↔ ∃ w, PartOfCell j W w ∧ geoSeen ρ x pts w = .hit := by
    rw [hitIff]
    constructor
    · rintro ⟨y, hy, h⟩
      obtain ⟨w, h1, h2⟩ := (in_parts hρ).mp h
      exact ⟨w, h1, (hitIff _ _).mpr ⟨y, hy, h2⟩⟩
    · rintro ⟨w, h1, h2⟩
      obtain ⟨y, hy, h⟩ := (hitIff _ _).mp h2
      exact ⟨y, hy, (in_parts hρ).mpr ⟨w, h1, h⟩⟩
  have some : geoSeen ((2 * j + 1) * ρ) x pts W ≠ .nothing ↔ ∃ w, PartOfCell j W w ∧ geoSeen ρ x pts w ≠ .nothing := by
    rw [someIff]
    constructor
    · rintro ⟨y, hy, t, t0, t1, h⟩
      obtain ⟨w, h1, h2⟩ := (in_parts (y := fun i => x i + t * (y i - x i)) hρ).mp h
      exact ⟨w, h1, (someIff _ _).mpr ⟨y, hy, t, t0, t1, h2⟩⟩
    · rintro ⟨w, h1, h2⟩
      obtain ⟨y, hy, t, t0, t1, h⟩ := (someIff _ _).mp h2
      exact ⟨y, hy, t, t0, t1, (in_parts (y := fun i => x i + t * (y i - x i)) hρ).mpr ⟨w, h1, h⟩⟩
  refine ⟨hit, ?_, ?_⟩
  · constructor
    · intro h w hw
      by_contra hn
      exact some.mpr ⟨w, hw, hn⟩ h
    · intro h
      by_contra hn
      obtain ⟨w, hw, hx⟩ := some.mp hn
      exact hx (h w hw)
  · constructor
    · intro h
      have nh : ∀ w, PartOfCell j W w → geoSeen ρ x pts w ≠ .hit := fun w hw hh =>
        Seen.noConfusion (h.symm.trans (hit.mpr ⟨w, hw, hh⟩))
      obtain ⟨w, hw, hs⟩ := some.mp (by rw [h]; nofun)
      refine ⟨⟨w, hw, ?_⟩, nh⟩
      cases e : geoSeen ρ x pts w
      · exact absurd e (nh w hw)
      · rfl
      · exact absurd e hs
    · rintro ⟨⟨w, hw, hm⟩, nh⟩
      have h1 := some.mpr ⟨w, hw, by rw [hm]; nofun⟩
      cases e : geoSeen ((2 * j + 1) * ρ) x pts W
      · obtain ⟨w', hw', hh⟩ := hit.mp e
        exact absurd hh (nh w' hw')
      · rfl
      · exact absurd e h1

/-- C117, in f32: the same for what the program makes of a scan that keeps clear of the corners of the cells of both
grids, in two maps, one of which has cells of `2j + 1` times the side. -/
theorem C117_scan {N K N' K' : ℕ} {m m' : GridMap D F32 F32} {cb cb' : CellBounds D} {ml ml' : F32}
    {origin : Point D F32} {cloud : PointCloud D F32} {x : Fin D → ℚ} {pts : List (Fin D → ℚ)} (hD : D = 2 ∨ D = 3)
    (hP : Placed m cb ρ) (hP' : Placed m' cb' ((2 * j + 1) * ρ)) (hc : ∀ i, |cb.min i| ≤ N) (hc' : ∀ i, |cb'.min i| ≤ N')
    (h : ClearRays N K ρ ml origin cloud x pts) (h' : ClearRays N' K' ((2 * j + 1) * ρ) ml' origin cloud x pts)
    (W : Cell D) :
    (seen origin cloud m'.bounds m'.resolution ml' (localCell m' W) = .hit ↔
      ∃ w, PartOfCell j W w ∧ seen origin cloud m.bounds m.resolution ml (localCell m w) = .hit) ∧
    (seen origin cloud m'.bounds m'.resolution ml' (localCell m' W) = .nothing ↔
      ∀ w, PartOfCell j W w → seen origin cloud m.bounds m.resolution ml (localCell m w) = .nothing) := by
  simp only [C88_scan hD hP hc h, C88_scan hD hP' hc' h']
  have := C117_geometry (j := j) hP.res.pos x pts W
  exact ⟨this.1, this.2.1⟩

variable {nm : LidarNoiseModel F32}

private lemma fold_coarser {W w : Cell D} (hρ : 0 < ρ) (hw : PartOfCell j W w) (hh : FLe (Fp.lit 0) nm.hit)
    (hmi : FLe nm.miss (Fp.lit 0)) (hfin : FiniteSteps nm) {scans : List ((Fin D → ℚ) × List (Fin D → ℚ))} {v v' : F32}
    (hv : InLimits nm v) (hv' : InLimits nm v') :
    ((∀ s ∈ scans, geoSeen ((2 * j + 1) * ρ) s.1 s.2 W = .miss → geoSeen ρ s.1 s.2 w = .miss) → FLe v v' →
      FLe (geoFold nm ρ scans w v) (geoFold nm ((2 * j + 1) * ρ) scans W v')) ∧
    ((∀ s ∈ scans, geoSeen ((2 * j + 1) * ρ) s.1 s.2 W = .hit → geoSeen ρ s.1 s.2 w = .hit) → FLe v' v →
      FLe (geoFold nm ((2 * j + 1) * ρ) scans W v') (geoFold nm ρ scans w v)) := by
  have hmono : ∀ s, ∀ {v v' : F32}, FLe v v' → FLe (Seen.apply nm v s) (Seen.apply nm v' s) := fun s v v' hvv =>
    C109_step ⟨Fp.FLe_refl hh.2.1, Fp.FLe_refl hmi.1, Fp.FLe_refl hv.2.2.1, Fp.FLe_refl hv.1.1, rfl⟩ hfin hfin s hvv
  unfold geoFold
  induction scans generalizing v v' with
  | nil => exact ⟨fun _ h => h, fun _ h => h⟩
  | cons s l ih =>
    obtain ⟨g1, g2, g3⟩ := C117_geometry (j := j) hρ s.1 s.2 W
    obtain ⟨i1, i2⟩ := ih (C37_update hh hmi hv (geoSeen ρ s.1 s.2 w))
      (C37_update hh hmi hv' (geoSeen ((2 * j + 1) * ρ) s.1 s.2 W))
    rw [List.foldl_cons, List.foldl_cons]
    constructor
    · intro hm hle
      refine i1 (fun s hs => hm s (List.mem_cons_of_mem _ hs)) ?_
      have hm := hm s List.mem_cons_self
      cases e : geoSeen ((2 * j + 1) * ρ) s.1 s.2 W
      · have up := Fp.FLe_trans hle ((C42_direction hv').1 hh)
        cases e' : geoSeen ρ s.1 s.2 w
        · exact hmono .hit hle
        · exact Fp.FLe_trans ((C42_direction hv).2 hmi) up
        · exact up
      · rw [hm e]
        exact hmono .miss hle
      · rw [g2.mp e w hw]
        exact hle
    · intro hm hle
      refine i2 (fun s hs => hm s (List.mem_cons_of_mem _ hs)) ?_
      have hm := hm s List.mem_cons_self
      cases e : geoSeen ((2 * j + 1) * ρ) s.1 s.2 W
      · rw [hm e]
        exact hmono .hit hle
      · have dn := Fp.FLe_trans ((C42_direction hv').2 hmi) hle
        cases e' : geoSeen ρ s.1 s.2 w
        · exact Fp.FLe_trans dn ((C42_direction hv).1 hh)
        · exact hmono .miss hle
        · exact dn
      · rw [g2.mp e w hw]
        exact hle

/-- C117, for maps: the same clear scans played into a map and into one with cells of `2j + 1` times the side, with a
noise model whose hits count up and whose misses count down. Let `w` be one of the small cells of which the large cell
`W` is made. If no scan looks through `W` past `w`, then the value of `W` is at least that of `w`; if no scan hits `W`
beside `w`, it is at most that of `w`; if both, the two values are the same, bit by bit. A cell that is not stored counts
as zero. -/
theorem C117_playback {M N K M' N' K' : ℕ} {m₀ m m₀' m' : GridMap D F32 F32} (hD : D = 2 ∨ D = 3)
    (h0 : Placed m₀ CellBounds.empty ρ) (h0' : Placed m₀' CellBounds.empty ((2 * j + 1) * ρ))
    (hh : FLe (Fp.lit 0) nm.hit) (hmi : FLe nm.miss (Fp.lit 0)) (hfin : FiniteSteps nm) (hz : InLimits nm (Fp.lit 0))
    (hM1 : 1 ≤ M) (hN : N = M + m₀.tileSize + 1) (hN18 : N ≤ 2 ^ 18) (hM1' : 1 ≤ M')
    (hN' : N' = M' + m₀'.tileSize + 1) (hN18' : N' ≤ 2 ^ 18) {hist hist'}
    {scans : List ((Fin D → ℚ) × List (Fin D → ℚ))}
    (hcl : ∀ e ∈ hist, WithinCells M ρ e.2.2) (hcl' : ∀ e ∈ hist', WithinCells M' ((2 * j + 1) * ρ) e.2.2)
    (hs : List.Forall₂ (fun e s => ClearRays N K ρ nm.maxRange e.2.1 e.2.2 s.1 s.2) hist scans)
    (hs' : List.Forall₂ (fun e s => ClearRays N' K' ((2 * j + 1) * ρ) nm.maxRange e.2.1 e.2.2 s.1 s.2) hist' scans)
    (h : Playback nm m₀ hist m) (h' : Playback nm m₀' hist' m') :
    ∃ cb cb', Placed m cb ρ ∧ Placed m' cb' ((2 * j + 1) * ρ) ∧ ∀ W w, PartOfCell j W w →
      ∃ v v', Before m cb w v ∧ Before m' cb' W v' ∧
      ((∀ s ∈ scans, geoSeen ((2 * j + 1) * ρ) s.1 s.2 W = .miss → geoSeen ρ s.1 s.2 w = .miss) → FLe v v') ∧
      ((∀ s ∈ scans, geoSeen ((2 * j + 1) * ρ) s.1 s.2 W = .hit → geoSeen ρ s.1 s.2 w = .hit) → FLe v' v) ∧
      ((∀ s ∈ scans, (geoSeen ((2 * j + 1) * ρ) s.1 s.2 W = .miss → geoSeen ρ s.1 s.2 w = .miss) ∧
        (geoSeen ((2 * j + 1) * ρ) s.1 s.2 W = .hit → geoSeen ρ s.1 s.2 w = .hit)) → v' = v) := by
  obtain ⟨cb, p1, p2⟩ := C88_playback hD h0 hM1 hN hN18 hcl hs h
  obtain ⟨cb', q1, q2⟩ := C88_playback hD h0' hM1' hN' hN18' hcl' hs' h'
  refine ⟨cb, cb', p1, q1, fun W w hw => ⟨_, _, p2 w, q2 W, ?_, ?_, ?_⟩⟩
  · exact fun hm => (fold_coarser h0.res.pos hw hh hmi hfin hz hz).1 hm (Fp.FLe_refl hz.2.1)
  · exact fun hm => (fold_coarser h0.res.pos hw hh hmi hfin hz hz).2 hm (Fp.FLe_refl hz.2.1)
  · intro hb
    have hm : ∀ s ∈ scans, geoSeen ((2 * j + 1) * ρ) s.1 s.2 W = geoSeen ρ s.1 s.2 w := by
      intro s hs
      obtain ⟨b1, b2⟩ := hb s hs
      cases e : geoSeen ((2 * j + 1) * ρ) s.1 s.2 W
      · exact (b2 e).symm
      · exact (b1 e).symm
      · exact ((C117_geometry h0.res.pos s.1 s.2 W).2.1.mp e w hw).symm
    have key : ∀ (l : List ((Fin D → ℚ) × List (Fin D → ℚ))) (v : F32), (∀ s ∈ l, s ∈ scans) →
        geoFold nm ((2 * j + 1) * ρ) l W v = geoFold nm ρ l w v := by
      intro l
      unfold geoFold
      induction l with
      | nil => intro v _; rfl
      | cons s l ih =>
        intro v hl
        rw [List.foldl_cons, List.foldl_cons, hm s (hl s List.mem_cons_self)]
        exact ih _ fun s hs => hl s (List.mem_cons_of_mem _ hs)
    exact key scans _ fun _ h => h

/-- C117, on the screen of a coarser map: a large cell above a threshold of at least zero holds a point of some scan, in
one of its small cells. -/
theorem C117_drawn {M N K : ℕ} {m₀ m : GridMap D F32 F32} (hD : D = 2 ∨ D = 3) (hρ : 0 < ρ)
    (h0 : Placed m₀ CellBounds.empty ((2 * j + 1) * ρ)) (hmi : FLe nm.miss (Fp.lit 0))
    (hh : FLe (Fp.lit 0) nm.hit) (hz : InLimits nm (Fp.lit 0)) (hth : FLe (Fp.lit 0) nm.threshold)
    (hM1 : 1 ≤ M) (hN : N = M + m₀.tileSize + 1) (hN18 : N ≤ 2 ^ 18) {hist}
    {scans : List ((Fin D → ℚ) × List (Fin D → ℚ))} (hcl : ∀ e ∈ hist, WithinCells M ((2 * j + 1) * ρ) e.2.2)
    (hs : List.Forall₂ (fun e s => ClearRays N K ((2 * j + 1) * ρ) nm.maxRange e.2.1 e.2.2 s.1 s.2) hist scans)
    (h : Playback nm m₀ hist m) :
    ∃ cb, Placed m cb ((2 * j + 1) * ρ) ∧ ∀ W v, Before m cb W v → nm.threshold.lt v = true →
      ∃ s ∈ scans, ∃ w, PartOfCell j W w ∧ geoSeen ρ s.1 s.2 w = .hit := by
  obtain ⟨cb, p1, p2⟩ := C88_playback hD h0 hM1 hN hN18 hcl hs h
  refine ⟨cb, p1, fun W v hv hlt => ?_⟩
  have e : v = geoFold nm ((2 * j + 1) * ρ) scans W (Fp.lit 0) := by
    by_cases hw : InCells W cb
    · exact Except.ok.inj (((hv.1 hw).symm).trans ((p2 W).1 hw))
    · rw [hv.2 hw, (p2 W).2 hw]
  by_contra hno
  have hn : Seen.hit ∉ scans.map fun s => geoSeen ((2 * j + 1) * ρ) s.1 s.2 W := by
    intro hm
    obtain ⟨s, hs, hx⟩ := List.mem_map.mp hm
    exact hno ⟨s, hs, (C117_geometry hρ s.1 s.2 W).1.mp hx⟩
  have h1 := (fold_misses hh hmi hn hz).1
  rw [List.foldl_map] at h1
  have h2 : FLe v nm.threshold := by rw [e]; exact Fp.FLe_trans h1 hth
  rw [Fp.not_lt_of_FLe h2] at hlt
  cases hlt
end

/-! ## Examples, and what a coarser grid loses -/

/-- `smallMap` with resolution 3. -/
def coarseMap : GridMap 2 F32 F32 := { smallMap with resolution := Fp.lit 3 }

lemma coarseMap_placed : Placed coarseMap CellBounds.empty 3 := by
  refine ⟨⟨by decide +kernel, by norm_num, by norm_num⟩, ?_, by decide, by decide, by decide, by decide,
    by decide, by decide⟩
  ext i
  all_goals (revert i; decide +kernel)

/-- A scan with an obstacle at (3, 1), and one that sees past it to (6, 1/4). -/
def obstacleScan : Point 2 F32 × PointCloud 2 F32 :=
  (![Fp.lit 0, Fp.lit 0], PointCloud.fromPoints [![Fp.lit 3, Fp.lit 1]])
def pastScan : Point 2 F32 × PointCloud 2 F32 :=
  (![Fp.lit 0, Fp.lit 0], PointCloud.fromPoints [![Fp.lit 6, Fp.lit (1 / 4)]])

/-- C117: a coarser grid can lose an obstacle. The cell (3, 1) of side 1 is part of the cell (1, 0) of side 3. In the map
with cells of side 1 it is occupied after both scans, since the second does not pass it; the large cell is not, since the
second scan passes it beside the obstacle. -/
theorem C117_lost : PartOfCell 1 (![1, 0] : Cell 2) ![3, 1] ∧ ∃ m1 m2 m1' m2' : GridMap 2 F32 F32,
    Playback smallNM smallMap [(m1, obstacleScan), (m2, pastScan)] m2 ∧
    Playback smallNM coarseMap [(m1', obstacleScan), (m2', pastScan)] m2' ∧
    localCell m2 ![3, 1] = ![3, 1] ∧ localCell m2' ![1, 0] = ![1, 0] ∧
    smallNM.occupied m2 ![3, 1] = .ok true ∧ smallNM.occupied m2' ![1, 0] = .ok false := by
  refine ⟨by unfold PartOfCell; decide, ?_⟩
  have h : (do
      let m1 ← smallNM.integratePointCloud id 20 smallMap obstacleScan.1 obstacleScan.2
      let m2 ← smallNM.integratePointCloud id 20 m1 pastScan.1 pastScan.2
      let m1' ← smallNM.integratePointCloud id 20 coarseMap obstacleScan.1 obstacleScan.2
      let m2' ← smallNM.integratePointCloud id 20 m1' pastScan.1 pastScan.2
      let o ← smallNM.occupied m2 ![3, 1]
      let o' ← smallNM.occupied m2' ![1, 0]
      if localCell m2 ![3, 1] = ![3, 1] ∧ localCell m2' ![1, 0] = ![1, 0] ∧ o = true ∧ o' = false then return ()
        else .error .fuel) = Except.ok () := by decide +kernel
  simp only [M.bind_eq_ok] at h
  obtain ⟨m1, h1, m2, h2, m1', h1', m2', h2', o, ho, o', ho', h⟩ := h
  have hid : IsOrder (id : List (Cell 2) → List (Cell 2)) := fun l => .refl l
  split_ifs at h with hc
  · obtain ⟨c1, c2, rfl, rfl⟩ := hc
    exact ⟨m1, m2, m1', m2', .scan (hist := [_]) (.scan .start hid ⟨20, h1⟩) hid ⟨20, h2⟩,
      .scan (hist := [_]) (.scan .start hid ⟨20, h1'⟩) hid ⟨20, h2'⟩, c1, c2, ho, ho'⟩

/-- The segment of `clearScan` among cells of side 3: it passes the cells (0, 0) and (1, 0). -/
lemma clear_coarse {tol : ℚ} (htol : tol ≤ 1 / 100) :
    ClearSegment (fun _ => 0) (![1 / 4, 1 / 4] : Fin 2 → ℚ) ![9 / 4, 1] 3 tol := by
  rintro w ⟨t, t0, t1, ht⟩
  have hx := abs_le.mp (ht 0)
  have hy := abs_le.mp (ht 1)
  simp only [lineAt, Matrix.cons_val_zero, Matrix.cons_val_one] at hx hy
  have a1 : -1 < w 0 := by
    have : (-1 : ℚ) < w 0 := by linarith
    exact_mod_cast this
  have a2 : w 0 < 2 := by
    have : (w 0 : ℚ) < 2 := by linarith
    exact_mod_cast this
  have a3 : -1 < w 1 := by
    have : (-1 : ℚ) < w 1 := by linarith
    exact_mod_cast this
  have a4 : w 1 < 1 := by
    have : (w 1 : ℚ) < 1 := by linarith
    exact_mod_cast this
  have key : ∀ s : ℚ, 0 ≤ s → s ≤ 1 → |1 / 4 + s * 2 - w 0 * 3| < 3 / 2 - tol →
      |1 / 4 + s * (3 / 4) - w 1 * 3| < 3 / 2 - tol →
      Enters (fun _ => 0) (![1 / 4, 1 / 4] : Fin 2 → ℚ) ![9 / 4, 1] 3 tol w := by
    intro s s0 s1 hs1 hs2
    refine ⟨s, s0, s1, fun i => ?_⟩
    fin_cases i
    · simp only [lineAt, Fin.zero_eta, Matrix.cons_val_zero]
      convert hs1 using 2; ring
    · simp only [lineAt, Fin.mk_one, Matrix.cons_val_one, Matrix.cons_val_fin_one]
      convert hs2 using 2; ring
  have b1 : w 0 = 0 ∨ w 0 = 1 := by omega
  have b2 : w 1 = 0 := by omega
  rw [b2] at hy key
  rcases b1 with b1 | b1 <;> rw [b1] at hx key <;> push_cast at hx hy key
  · exact key 0 le_rfl zero_le_one (by rw [abs_lt]; constructor <;> linarith) (by rw [abs_lt]; constructor <;> linarith)
  · exact key 1 zero_le_one le_rfl (by rw [abs_lt]; constructor <;> linarith) (by rw [abs_lt]; constructor <;> linarith)

lemma coarse_clear : ClearRays 7 2 3 smallNM.maxRange clearScan.1 clearScan.2 ![1 / 4, 1 / 4] [![9 / 4, 1]] := by
  refine ⟨?_, ?_, ?_⟩
  · rw [clearScan, C13_points_fromPoints]
    refine .cons ⟨by norm_num, by norm_num, by norm_num, by norm_num, by decide +kernel, ?_, by decide +kernel, ?_, ?_, ?_⟩
      .nil
    · intro i; fin_cases i <;> norm_num [abs_of_pos]
    · intro i; fin_cases i <;> norm_num [abs_of_pos]
    · intro i; fin_cases i <;> norm_num [abs_of_pos]
    · intro i; right; fin_cases i <;> norm_num [abs_of_pos]
  · intro y hy
    rw [List.mem_singleton] at hy
    subst hy
    exact clear_coarse (by norm_num [rayTol])
  · intro y hy
    rw [List.mem_singleton] at hy
    subst hy
    exact .inr ⟨60, 3, by decide +kernel, by norm_num, ⟨by norm_num, by decide +kernel⟩, by norm_num⟩

lemma coarse_within : WithinCells 4 3 clearScan.2 := by
  intro p hp
  rw [clearScan, C13_points_fromPoints, List.mem_singleton] at hp
  subst hp
  intro i
  refine ⟨![9 / 4, 1] i, ?_, ?_⟩ <;> revert i <;> decide +kernel

/-- The hypotheses of C117 hold for `clearScan`, played into maps with cells of side 1 and 3. In the second the cell
(1, 0) is then above the threshold, since its part (2, 1) was hit. -/
example : ∃ m m' : GridMap 2 F32 F32, Playback smallNM smallMap [(m, clearScan)] m ∧
    Playback smallNM coarseMap [(m', clearScan)] m' ∧ PartOfCell 1 (![1, 0] : Cell 2) ![2, 1] ∧
    (∃ cb cb' v v', Placed m cb 1 ∧ Placed m' cb' 3 ∧ Before m cb ![2, 1] v ∧ Before m' cb' ![1, 0] v' ∧ v' = v) ∧
    (∃ cb, Placed m' cb 3 ∧ ∀ W v, Before m' cb W v → smallNM.threshold.lt v = true →
      ∃ s ∈ [((![1 / 4, 1 / 4], [![9 / 4, 1]]) : (Fin 2 → ℚ) × List (Fin 2 → ℚ))], ∃ w, PartOfCell 1 W w ∧
        geoSeen 1 s.1 s.2 w = .hit) := by
  have h1 : (do
      let _ ← smallNM.integratePointCloud id 20 smallMap clearScan.1 clearScan.2
      let _ ← smallNM.integratePointCloud id 20 coarseMap clearScan.1 clearScan.2
      return ()) = Except.ok () := by decide +kernel
  have hid : IsOrder (id : List (Cell 2) → List (Cell 2)) := fun l => .refl l
  simp only [M.bind_eq_ok] at h1
  obtain ⟨m, e1, m', e2, -⟩ := h1
  have hp : Playback smallNM smallMap [(m, clearScan)] m := .scan .start hid ⟨20, e1⟩
  have hp' : Playback smallNM coarseMap [(m', clearScan)] m' := .scan .start hid ⟨20, e2⟩
  have hpart : PartOfCell 1 (![1, 0] : Cell 2) ![2, 1] := by unfold PartOfCell; decide
  have e3 : (2 * ((1 : ℕ) : ℚ) + 1) * 1 = 3 := by norm_num
  have hh : FLe (Fp.lit 0) smallNM.hit := by decide +kernel
  have hmi : FLe smallNM.miss (Fp.lit 0) := by decide +kernel
  have hz : InLimits smallNM (Fp.lit 0) := ⟨by decide +kernel, by decide +kernel⟩
  have hg : geoSeen 1 ![1 / 4, 1 / 4] [![9 / 4, 1]] (![2, 1] : Cell 2) = .hit := by
    unfold geoSeen
    rw [if_pos]
    exact ⟨_, List.mem_singleton_self _, by decide +kernel⟩
  refine ⟨m, m', hp, hp', hpart, ?_, ?_⟩
  · obtain ⟨cb, cb', q1, q2, q3⟩ := C117_playback (j := 1) (ρ := 1) (nm := smallNM) (M := 4) (N := 7) (K := 2) (M' := 4)
      (N' := 7) (K' := 2) (.inl rfl) smallMap_placed (by rw [e3]; exact coarseMap_placed) hh hmi smallNM_steps hz
      (by norm_num) rfl (by norm_num) (by norm_num) rfl (by norm_num) (hist := [(m, clearScan)])
      (hist' := [(m', clearScan)]) (scans := [(![1 / 4, 1 / 4], [![9 / 4, 1]])])
      (fun e he => by rw [List.mem_singleton.mp he]; exact one_within)
      (fun e he => by rw [List.mem_singleton.mp he, e3]; exact coarse_within) (.cons one_clear .nil)
      (.cons (by rw [e3]; exact coarse_clear) .nil) hp hp'
    obtain ⟨v, v', b1, b2, -, -, b5⟩ := q3 ![1, 0] ![2, 1] hpart
    rw [e3] at q2
    refine ⟨cb, cb', v, v', q1, q2, b1, b2, b5 fun s hs => ?_⟩
    rw [List.mem_singleton.mp hs]
    refine ⟨fun hm => ?_, fun _ => hg⟩
    rw [(C117_geometry (j := 1) (ρ := 1) (by norm_num) _ _ _).1.mpr ⟨_, hpart, hg⟩] at hm
    cases hm
  · have := C117_drawn (j := 1) (ρ := 1) (nm := smallNM) (M := 4) (N := 7) (K := 2) (.inl rfl) one_pos
      (by rw [e3]; exact coarseMap_placed) hmi hh hz (by decide +kernel) (by norm_num) rfl (by norm_num)
      (hist := [(m', clearScan)]) (scans := [(![1 / 4, 1 / 4], [![9 / 4, 1]])])
      (fun e he => by rw [List.mem_singleton.mp he, e3]; exact coarse_within)
      (.cons (by rw [e3]; exact coarse_clear) .nil) hp'
    rw [e3] at this
    exact this

/-- The hypotheses of `C117_scan`, for the two maps without cells: the scan hits the cell (1, 0) of side 3. -/
example : seen clearScan.1 clearScan.2 coarseMap.bounds coarseMap.resolution smallNM.maxRange
    (localCell coarseMap ![1, 0]) = .hit := by
  have e3 : (2 * ((1 : ℕ) : ℚ) + 1) * 1 = 3 := by norm_num
  refine (C117_scan (j := 1) (ρ := 1) (m := smallMap) (cb := CellBounds.empty) (cb' := CellBounds.empty) (.inl rfl)
    smallMap_placed (by rw [e3]; exact coarseMap_placed) (fun i => by norm_num [CellBounds.empty])
    (fun i => by norm_num [CellBounds.empty]) one_clear (by rw [e3]; exact coarse_clear) ![1, 0]).1.mpr ⟨![2, 1], ?_, ?_⟩
  · unfold PartOfCell
    decide
  · rw [C88_scan (.inl rfl) smallMap_placed (fun i => by norm_num [CellBounds.empty]) one_clear]
    unfold geoSeen
    rw [if_pos]
    exact ⟨_, List.mem_singleton_self _, by decide +kernel⟩

end Verif.Props
