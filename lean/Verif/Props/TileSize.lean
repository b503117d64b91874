import Verif.Props.Coarser

/-!
# C119: the tile size
-/

namespace Verif.Props
open Scalar Spec Viz

section
variable {D : ℕ} {ρ : ℚ} {nm nm' : LidarNoiseModel F32} {m₀ m₀' m m' : GridMap D F32 F32} {cb : CellBounds D}

/-- C119: the same scans into a map and into one whose tiles are made of whole tiles of the first, both starting from
the same box, with any sensors and noise models. The second map is the first rounded out to its larger tiles, and not a
tile more. -/
theorem C119_extent (hD : D ≤ 3) (hP : Placed m₀ cb ρ) (hP' : Placed m₀' cb ρ) (hres : m₀'.resolution = m₀.resolution)
    (ht : m₀.tileSize ∣ m₀'.tileSize) {scans scans' : List (Point D F32 × PointCloud D F32)}
    (hc : ∀ s ∈ scans, CloudInRange s.2 ρ) (hsame : scans'.map Prod.snd = scans.map Prod.snd) (hne : scans ≠ [])
    (h : Scans nm m₀ scans m) (h' : Scans nm' m₀' scans' m') :
    ∃ cb1 cb2, Placed m cb1 ρ ∧ Placed m' cb2 ρ ∧ CellSub cb1 cb2 ∧ Aligned m₀'.tileSize cb2 ∧
      ∀ s, Aligned m₀'.tileSize s → CellSub cb1 s → CellSub cb2 s := by
  have hc' : ∀ s ∈ scans', CloudInRange s.2 ρ := by
    intro s hs
    have : s.2 ∈ scans.map Prod.snd := hsame ▸ List.mem_map_of_mem hs
    obtain ⟨s0, h0, e⟩ := List.mem_map.mp this
    exact e ▸ hc s0 h0
  have hne' : scans' ≠ [] := by
    rintro rfl
    exact hne (List.map_eq_nil_iff.mp hsame.symm)
  obtain ⟨cb1, p1, -, -, p4⟩ := boxes_scans hD hP hc hne h
  obtain ⟨cb2, q1, -, -, q4⟩ := boxes_scans hD hP' hc' hne' h'
  rw [hsame, hres] at q4
  have hal : ∀ {s : CellBounds D}, Aligned m₀'.tileSize s → Aligned m₀.tileSize s := fun hs i =>
    ⟨(Int.natCast_dvd_natCast.mpr ht).trans (hs i).1, (Int.natCast_dvd_natCast.mpr ht).trans (hs i).2⟩
  have trans : ∀ {a b c : CellBounds D}, CellSub a b → CellSub b c → CellSub a c := fun h1 h2 i =>
    ⟨(h2 i).1.trans (h1 i).1, (h1 i).2.trans (h2 i).2⟩
  exact ⟨cb1, cb2, p1, q1, p4.least cb2 (hal q4.tiles) q4.covers q4.old, q4.tiles, fun s hs hsub =>
    q4.least s hs (fun c hcm => trans (p4.covers c hcm) hsub) fun hb => trans (p4.old hb) hsub⟩

/-- C119: the same clear scans played into two maps without cells that differ in the tile size. Every world cell has the
same value in both, bit by bit, a cell that is not stored counting as zero. -/
theorem C119_values {M N K N' K' : ℕ} (hD : D = 2 ∨ D = 3) (h0 : Placed m₀ CellBounds.empty ρ)
    (h0' : Placed m₀' CellBounds.empty ρ) (hM1 : 1 ≤ M) (hN : N = M + m₀.tileSize + 1) (hN18 : N ≤ 2 ^ 18)
    (hN' : N' = M + m₀'.tileSize + 1) (hN18' : N' ≤ 2 ^ 18) {hist hist'}
    {scans : List ((Fin D → ℚ) × List (Fin D → ℚ))}
    (hcl : ∀ e ∈ hist, WithinCells M ρ e.2.2) (hsame : hist'.map Prod.snd = hist.map Prod.snd)
    (hs : List.Forall₂ (fun e s => ClearRays N K ρ nm.maxRange e.2.1 e.2.2 s.1 s.2) hist scans)
    (hs' : List.Forall₂ (fun e s => ClearRays N' K' ρ nm.maxRange e.2.1 e.2.2 s.1 s.2) hist scans)
    (h : Playback nm m₀ hist m) (h' : Playback nm m₀' hist' m') :
    ∃ cb cb', Placed m cb ρ ∧ Placed m' cb' ρ ∧ ∀ w, ∃ v, Before m cb w v ∧ Before m' cb' w v := by
  have hcl' : ∀ e ∈ hist', WithinCells M ρ e.2.2 := by
    intro e he
    have : e.2 ∈ hist.map Prod.snd := hsame ▸ List.mem_map_of_mem he
    obtain ⟨e0, h1, e1⟩ := List.mem_map.mp this
    exact e1 ▸ hcl e0 h1
  have hs2 : List.Forall₂ (fun e s => ClearRays N' K' ρ nm.maxRange e.2.1 e.2.2 s.1 s.2) hist' scans := by
    have h1 : List.Forall₂ (fun (e : Point D F32 × PointCloud D F32) s =>
        ClearRays N' K' ρ nm.maxRange e.1 e.2 s.1 s.2) (hist.map Prod.snd) scans := List.forall₂_map_left_iff.mpr hs'
    rw [← hsame] at h1
    exact List.forall₂_map_left_iff.mp h1
  obtain ⟨cb, p1, p2⟩ := C88_playback hD h0 hM1 hN hN18 hcl hs h
  obtain ⟨cb', q1, q2⟩ := C88_playback hD h0' hM1 hN' hN18' hcl' hs2 h'
  exact ⟨cb, cb', p1, q1, fun w => ⟨_, p2 w, q2 w⟩⟩
end

section
variable {D n N K N' K' : ℕ} {ρ : ℚ} {nm : LidarNoiseModel F32} {m₀ m₀' : GridMap D F32 F32}
  {recs : ℕ → Point D F32 × PointCloud D F32} {scans : ℕ → (Fin D → ℚ) × List (Fin D → ℚ)}
  {ord ord' : ℕ → List (Cell D) → List (Cell D)}

/-- C119, on the screen: two visualizers play the same clear recordings, with maps that differ in the tile size. If in
neither a recording reaches below the tiles of the first, then after equally many scans a world cell is drawn in the one
exactly if it is drawn in the other. -/
theorem C119_screen {M : ℕ} (hD : D = 2 ∨ D = 3) (hn : 0 < n) (h0 : Placed m₀ CellBounds.empty ρ)
    (h0' : Placed m₀' CellBounds.empty ρ) (ht0 : m₀.changedCells = []) (ht0' : m₀'.changedCells = [])
    (hth : FLe (Fp.lit 0) nm.threshold) (ho : ∀ r, IsOrder (ord r)) (ho' : ∀ r, IsOrder (ord' r)) (hM1 : 1 ≤ M)
    (hN : N = M + m₀.tileSize + 1) (hN18 : N ≤ 2 ^ 18) (hN' : N' = M + m₀'.tileSize + 1) (hN18' : N' ≤ 2 ^ 18)
    (hcl : ∀ r, WithinCells M ρ (recs r).2)
    (hs : ∀ r < n, ClearRays N K ρ nm.maxRange (recs r).1 (recs r).2 (scans r).1 (scans r).2)
    (hs' : ∀ r < n, ClearRays N' K' ρ nm.maxRange (recs r).1 (recs r).2 (scans r).1 (scans r).2) {k k' : Fin D → ℤ}
    (hk : LowestFirst m₀.tileSize ρ recs k) (hk' : LowestFirst m₀'.tileSize ρ recs k')
    {s s' : State (GridMap D F32 F32) (Verif.Cell D) (Point D F32)} (hr : Reach (occOps nm recs ord) n m₀ s)
    (hr' : Reach (occOps nm recs ord') n m₀' s') (hm : s.main = .clearFlag ∨ s.main = .spawn)
    (hm' : s'.main = .clearFlag ∨ s'.main = .spawn) (hlen : s'.workers.length = s.workers.length) (w : Verif.Cell D)
    (hw : MachineCell (localCell s.map w)) (hw' : MachineCell (localCell s'.map w)) :
    s.tracked (localCell s.map w) = none ↔ s'.tracked (localCell s'.map w) = none := by
  obtain ⟨a1, a2⟩ := C88_screen hD hn h0 ht0 hth ho hM1 hN hN18 hcl hs hk hr hm w hw
  obtain ⟨b1, b2⟩ := C88_screen hD hn h0' ht0' hth ho' hM1 hN' hN18' hcl hs' hk' hr' hm' w hw'
  rw [hlen] at b1 b2
  by_cases hv : nm.threshold.lt (geoFold nm ρ (cyclic scans n s.workers.length) w (Fp.lit 0)) = true
  · obtain ⟨p, h1, -⟩ := a2 hv
    obtain ⟨q, h2, -⟩ := b2 hv
    rw [h1, h2]
    exact ⟨nofun, nofun⟩
  · rw [a1 hv, b1 hv]
end

/-! ## Examples, and scans that are not clear -/

/-- `smallMap` with tiles of another side. -/
def tileMap (t : ℕ) : GridMap 2 F32 F32 := { smallMap with tileSize := t }

lemma tileMap_placed {t : ℕ} (h : 1 ≤ t) (h' : t ≤ 2 ^ 17) : Placed (tileMap t) CellBounds.empty 1 :=
  { smallMap_placed with
    tile_pos := h, tile_le := h', min_range := fun _ => .inl (by decide +revert)
    max_range := fun _ => .inl (by decide +revert) }

/-- Points at -1 and just below 1/2, by the border of the cells 0 and 1. -/
def borderScan : Point 2 F32 × PointCloud 2 F32 :=
  (![Fp.lit 0, Fp.lit 0], PointCloud.fromPoints [![Fp.lit (-1), Fp.lit 0], ![Fp.lit (1 / 2 - 1 / 2 ^ 23), Fp.lit 0]])

/-- C119, for scans that are not clear the tile size matters: with tiles of side 1 the cell (0, 0) is occupied after this scan, since
a point lies in it; with tiles of side 4 the lower corner of the map is farther away, the point is rounded into the cell
(1, 0), and the cell (0, 0) is free. -/
theorem C119_border_refuted : ∃ m m' : GridMap 2 F32 F32, Playback smallNM (tileMap 1) [(m, borderScan)] m ∧
    Playback smallNM (tileMap 4) [(m', borderScan)] m' ∧
    smallNM.occupied m (localCell m ![0, 0]) = .ok true ∧ smallNM.occupied m' (localCell m' ![0, 0]) = .ok false ∧
    smallNM.occupied m' (localCell m' ![1, 0]) = .ok true := by
  have h : (do
      let m ← smallNM.integratePointCloud id 20 (tileMap 1) borderScan.1 borderScan.2
      let m' ← smallNM.integratePointCloud id 20 (tileMap 4) borderScan.1 borderScan.2
      let o ← smallNM.occupied m (localCell m ![0, 0])
      let o' ← smallNM.occupied m' (localCell m' ![0, 0])
      let o'' ← smallNM.occupied m' (localCell m' ![1, 0])
      if o = true ∧ o' = false ∧ o'' = true then return () else .error .fuel) = Except.ok () := by decide +kernel
  simp only [M.bind_eq_ok] at h
  obtain ⟨m, h1, m', h2, o, ho, o', ho', o'', ho'', h⟩ := h
  have hid : IsOrder (id : List (Cell 2) → List (Cell 2)) := fun l => .refl l
  split_ifs at h with hc
  · obtain ⟨rfl, rfl, rfl⟩ := hc
    exact ⟨m, m', .scan .start hid ⟨20, h1⟩, .scan .start hid ⟨20, h2⟩, ho, ho', ho''⟩

lemma tile_clear : ClearRays 9 2 1 smallNM.maxRange clearScan.1 clearScan.2 ![1 / 4, 1 / 4] [![9 / 4, 1]] := by
  refine ⟨?_, ?_, ?_⟩
  · rw [clearScan, C13_points_fromPoints]
    refine .cons ⟨by norm_num, by norm_num, by norm_num, by norm_num, by decide +kernel, ?_, by decide +kernel, ?_, ?_, ?_⟩
      .nil
    · intro i; fin_cases i <;> norm_num [abs_of_pos]
    · intro i; fin_cases i <;> norm_num [abs_of_pos]
    · intro i; fin_cases i <;> norm_num [abs_of_pos]
    · intro i; right; fin_cases i <;> norm_num [abs_of_pos]
  · intro y hy
    rw [List.mem_singleton] at hy
    subst hy
    exact clear_example (by norm_num [rayTol]) (by norm_num [rayTol])
  · intro y hy
    rw [List.mem_singleton] at hy
    subst hy
    exact .inr ⟨60, 3, by decide +kernel, by norm_num, ⟨by norm_num, by decide +kernel⟩, by norm_num⟩

lemma tile_lowest (t : ℕ) : LowestFirst (tileMap t).tileSize 1 (fun _ => clearScan) (fun _ => 0) := by
  refine ⟨by simp, fun r p hp i => ?_, fun _ => .inl rfl⟩
  rw [clearScan, C13_points_fromPoints, List.mem_singleton] at hp
  subst hp
  refine ⟨![9 / 4, 1] i, ?_, ?_⟩
  · revert i; decide +kernel
  · have : (0 : ℚ) ≤ (![9 / 4, 1] : Fin 2 → ℚ) i := by revert i; decide +kernel
    simpa using this

/-- The hypotheses of `C119_extent` and `C119_values` hold for `clearScan`, played into maps with tiles of side 2 and 4;
the second map is larger. -/
example : ∃ m m' : GridMap 2 F32 F32, Playback smallNM (tileMap 2) [(m, clearScan)] m ∧
    Playback smallNM (tileMap 4) [(m', clearScan)] m' ∧ m.data.shape ≠ m'.data.shape ∧
    (∃ cb1 cb2, Placed m cb1 1 ∧ Placed m' cb2 1 ∧ CellSub cb1 cb2 ∧ Aligned 4 cb2) ∧
    ∃ cb cb', Placed m cb 1 ∧ Placed m' cb' 1 ∧ ∀ w, ∃ v, Before m cb w v ∧ Before m' cb' w v := by
  have h : (do
      let m ← smallNM.integratePointCloud id 20 (tileMap 2) clearScan.1 clearScan.2
      let m' ← smallNM.integratePointCloud id 20 (tileMap 4) clearScan.1 clearScan.2
      if m.data.shape ≠ m'.data.shape then return () else .error .fuel) = Except.ok () := by decide +kernel
  simp only [M.bind_eq_ok] at h
  obtain ⟨m, h1, m', h2, h⟩ := h
  have hid : IsOrder (id : List (Cell 2) → List (Cell 2)) := fun l => .refl l
  split_ifs at h with hc
  · have hp : Playback smallNM (tileMap 2) [(m, clearScan)] m := .scan .start hid ⟨20, h1⟩
    have hp' : Playback smallNM (tileMap 4) [(m', clearScan)] m' := .scan .start hid ⟨20, h2⟩
    have hP2 := tileMap_placed (t := 2) (by norm_num) (by norm_num)
    have hP4 := tileMap_placed (t := 4) (by norm_num) (by norm_num)
    refine ⟨m, m', hp, hp', hc, ?_, ?_⟩
    · obtain ⟨cb1, cb2, q1, q2, q3, q4, -⟩ := C119_extent (by norm_num) hP2 hP4 rfl (by decide) (scans := [clearScan])
        (scans' := [clearScan]) (fun s hs => by
          rw [List.mem_singleton.mp hs]
          intro p hp i
          obtain ⟨y, a1, a2⟩ := one_within p hp i
          exact ⟨y, a1, a2.trans (by norm_num)⟩) rfl (by simp)
        (.step hid ⟨20, h1⟩ (.done _)) (.step hid ⟨20, h2⟩ (.done _))
      exact ⟨cb1, cb2, q1, q2, q3, q4⟩
    · exact C119_values (M := 4) (N := 7) (K := 2) (N' := 9) (K' := 2) (.inl rfl) hP2 hP4 (by norm_num) rfl (by norm_num)
        rfl (by norm_num) (hist := [(m, clearScan)]) (hist' := [(m', clearScan)])
        (scans := [(![1 / 4, 1 / 4], [![9 / 4, 1]])]) (fun e he => by rw [List.mem_singleton.mp he]; exact one_within) rfl
        (.cons one_clear .nil) (.cons tile_clear .nil) hp hp'

/-- The hypotheses of `C119_screen` on the recordings hold for `clearScan`, with tiles of side 2 and 4. -/
example {s s' : State (GridMap 2 F32 F32) (Cell 2) (Point 2 F32)}
    (hr : Reach (occOps smallNM (fun _ => clearScan) fun _ => id) 1 (tileMap 2) s)
    (hr' : Reach (occOps smallNM (fun _ => clearScan) fun _ => id) 1 (tileMap 4) s')
    (hm : s.main = .clearFlag ∨ s.main = .spawn) (hm' : s'.main = .clearFlag ∨ s'.main = .spawn)
    (hlen : s'.workers.length = s.workers.length) (w : Cell 2) (hw : MachineCell (localCell s.map w))
    (hw' : MachineCell (localCell s'.map w)) :
    s.tracked (localCell s.map w) = none ↔ s'.tracked (localCell s'.map w) = none :=
  C119_screen (M := 4) (N := 7) (K := 2) (N' := 9) (K' := 2) (scans := fun _ => (![1 / 4, 1 / 4], [![9 / 4, 1]])) (.inl rfl)
    one_pos (tileMap_placed (by norm_num) (by norm_num)) (tileMap_placed (by norm_num) (by norm_num)) rfl rfl
    (by decide +kernel) (fun _ l => .refl l) (fun _ l => .refl l) (by norm_num) rfl (by norm_num) rfl (by norm_num)
    (fun _ => one_within) (fun _ _ => one_clear) (fun _ _ => tile_clear) (tile_lowest 2) (tile_lowest 4) hr hr' hm hm' hlen
    w hw hw'

end Verif.Props
