import Verif.Spec.Lowest
import Verif.Props.NoPanic
import Verif.Props.Playback

/-!
# C55 and C69: recordings of which the first reaches lowest
-/

namespace Verif.Props
open Spec Scalar Viz

variable {D : ℕ} {ρ : ℚ} {nm : LidarNoiseModel F32} {recs : ℕ → Point D F32 × PointCloud D F32}
  {ord : ℕ → List (Verif.Cell D) → List (Verif.Cell D)} {n : ℕ} {m₀ : GridMap D F32 F32} {k : Fin D → ℤ}

/-- The lower corner of a request is not rounded below a cell border. -/
lemma cell_le_discMin {r v : F32} {x : ℚ} {c : ℤ} (hr : Res r ρ) (hv : v.Is x) (hx : |x| ≤ 2 ^ 18 * ρ)
    (hc : |c| ≤ 2 ^ 20) (h : c * ρ ≤ x) : c ≤ cellOf r (Bounds.discMin r v) := by
  have hpos := hr.pos
  obtain ⟨h1, h2, -⟩ := floor_ceil_range hr hx
  have hq : |x / ρ| ≤ 2 ^ 18 := by rw [abs_div, abs_of_pos hpos, div_le_iff₀ hpos]; exact hx
  have hd := hv.div hr.1 hpos.ne' (F32.noOvf (hq.trans (by norm_num)))
  have hcx : (c : ℚ) ≤ x / ρ := by rw [le_div_iff₀ hpos]; exact h
  unfold Bounds.discMin
  dsimp only
  by_cases he : relativeEq (Scalar.div v r) (Scalar.round (Scalar.div v r)) = true
  · rw [if_pos he]
    obtain ⟨d, g1, g2⟩ := cellCoord_is (M := 2 ^ 18) hr F32.zero_is hv (by rw [sub_zero]; exact hx) (by norm_num)
      (by norm_num)
    rw [sub_zero] at g2
    have g3 : cellOf r v = roundAway d := g1
    rw [g3]
    have g4 : roundAway ((c : ℚ) - 1 / 4) = c := Fp.roundAway_eq_of_lt (by
      rw [sub_sub_cancel_left, abs_neg]; norm_num [abs_of_pos])
    rw [← g4]
    refine Fp.roundAway_mono ?_
    have := (abs_le.mp g2).1
    norm_num at this
    linarith
  · rw [if_neg he]
    have h4 : cellOf r ((v.div r).floor.mul r) = ⌊b32.rnd (x / ρ)⌋ := cellOf_scaled hr h2 hd.floor
    change _ ≤ cellOf r ((v.div r).floor.mul r)
    rw [h4, Int.le_floor]
    exact Fmt.le_rnd_of_rep (Fmt.rep_int (f := b32) (hc.trans (by simp [b32]))) hcx

/-- One integration: where the lower corner goes. -/
lemma lowest_step (hD : D ≤ 3) {m me : GridMap D F32 F32} {cb : CellBounds D} {cloud : PointCloud D F32}
    (hP : Placed m cb ρ) (hc : CloudInRange cloud ρ) (hk : ∀ i, k i ≤ 0)
    (habove : ∀ p ∈ cloud.points, ∀ i, ∃ y, (p i).Is y ∧ k i * m.tileSize * ρ ≤ y)
    (hcb : cb ≠ CellBounds.empty → ∀ i, cb.min i = k i * m.tileSize)
    (hfirst : cb = CellBounds.empty → ∀ i, k i = 0 ∨
      ∃ p ∈ cloud.points, ∃ y, (p i).Is y ∧ y < ((k i + 1) * m.tileSize - 1 / 8) * ρ)
    (he : m.expandBounds cloud.bounds (Fp.lit 0) = .ok me) :
    ∃ ncb, Placed me ncb ρ ∧ ∀ i, ncb.min i = k i * m.tileSize := by
  have hpos := hP.res.pos
  have hT1 := hP.tile_pos
  have hT2 := hP.tile_le
  have hreq := request_of_cloud hpos hc
  obtain ⟨me', ncb, h1, h0, hP', -, -⟩ := expand_spec hD hP hreq (Fp.lit 0 : F32)
  rw [he] at h1
  cases h1
  obtain ⟨ncb', h0', hal, hdc, hcbs, hleast, hrange⟩ := newCellBounds_spec hP hreq
  rw [h0] at h0'
  cases h0'
  refine ⟨ncb, hP', ?_⟩
  have hlow : ∀ i, ∃ x, (cloud.bounds.min i).Is x ∧ |x| ≤ 2 ^ 18 * ρ ∧ k i * m.tileSize * ρ ≤ x := fun i =>
    (cloud_bounds_pred cloud i (fun v => ∃ x, v.Is x ∧ |x| ≤ 2 ^ 18 * ρ ∧ k i * m.tileSize * ρ ≤ x)
      ⟨0, F32.zero_is, by rw [abs_zero]; positivity, by
        have h1 : (k i : ℚ) ≤ 0 := by exact_mod_cast hk i
        have h2 : (0 : ℚ) ≤ m.tileSize * ρ := by positivity
        rw [mul_assoc]
        exact mul_nonpos_of_nonpos_of_nonneg h1 h2⟩ fun p hp => by
        obtain ⟨x, e1, e2⟩ := hc p hp i
        obtain ⟨y, e3, e4⟩ := habove p hp i
        obtain rfl := e1.unique e3
        exact ⟨x, e1, e2, e4⟩).1
  have hkr : ∀ i, |k i * m.tileSize| ≤ 2 ^ 20 ∨ k i * m.tileSize ≤ -(2 ^ 20) := by
    intro i
    have : k i * (m.tileSize : ℤ) ≤ 0 := mul_nonpos_of_nonpos_of_nonneg (hk i) (by positivity)
    by_cases h : k i * (m.tileSize : ℤ) ≤ -(2 ^ 20)
    · exact .inr h
    · left; rw [abs_le]; omega
  have hge : ∀ i, k i * m.tileSize ≤ (discCells m.resolution cloud.bounds).min i := by
    intro i
    obtain ⟨x, e1, e2, e3⟩ := hlow i
    rcases hkr i with h | h
    · exact cell_le_discMin hP.res e1 e2 h (by push_cast; exact e3)
    · have := abs_le.mp (discCells_range hP.res hreq i).1
      omega
  have hsub := hleast ⟨fun i => k i * m.tileSize, fun _ => m.tileSize * 2 ^ 20⟩
    (fun i => ⟨dvd_mul_left _ _, dvd_mul_right _ _⟩)
    (fun i => ⟨hge i, by
      have h4 := (discCells_range hP.res hreq i).2.1
      have : (1 : ℤ) ≤ m.tileSize := by exact_mod_cast hT1
      rw [abs_le] at h4
      dsimp only
      omega⟩)
    (fun hne i => by
      have h5 := (abs_le.mp (hP.inRange i).2).2
      have : (1 : ℤ) ≤ m.tileSize := by exact_mod_cast hT1
      exact ⟨(hcb hne i).ge, by dsimp only; omega⟩)
  intro i
  refine le_antisymm ?_ (hsub i).1
  by_cases hne : cb = CellBounds.empty
  · have hlt : (discCells m.resolution cloud.bounds).min i < (k i + 1) * m.tileSize := by
      obtain ⟨x, e1, e2, -⟩ := hlow i
      have hx : x < ((k i + 1) * m.tileSize - 1 / 8) * ρ := by
        rcases hfirst hne i with h | ⟨p, hp, y, hy, hlt⟩
        · have h3 := (C14_bounds_contain cloud i).1
          have h4 : x ≤ 0 := (Fp.FLe_is e1 F32.zero_is).mp h3
          refine lt_of_le_of_lt h4 ?_
          rw [h]
          have : (1 : ℚ) ≤ m.tileSize := by exact_mod_cast hT1
          refine mul_pos ?_ hpos
          push_cast
          linarith
        · have h3 := ((C14_bounds_contain cloud i).2.2 p hp (Fp.notNaN_is hy)).1
          exact lt_of_le_of_lt ((Fp.FLe_is e1 hy).mp h3) hlt
      have h4 := lt_of_le_of_lt (cellOf_discMin_le hP.res e1 e2) hx
      have h5 := lt_of_mul_lt_mul_right h4 hpos.le
      have h6 : (cellOf m.resolution (Bounds.discMin m.resolution (cloud.bounds.min i)) : ℚ)
        < (((k i + 1) * m.tileSize : ℤ) : ℚ) := by push_cast; linarith
      exact_mod_cast h6
    have h1 := (hdc i).1
    obtain ⟨a, ha⟩ := (hal i).1
    have h2 := (hsub i).1
    have hT : (0 : ℤ) < m.tileSize := by exact_mod_cast hT1
    rw [ha] at h1 h2 ⊢
    have h3 : (m.tileSize : ℤ) * a < (k i + 1) * m.tileSize := lt_of_le_of_lt h1 hlt
    rw [mul_comm] at h3
    have h4 := lt_of_mul_lt_mul_right h3 hT.le
    rw [mul_comm]
    exact mul_le_mul_of_nonneg_right (by omega) hT.le
  · rw [← hcb hne i]
    exact (hcbs hne i).1

/-- The lower corner of the maps of a playback. -/
lemma lowest_playback (hD : D ≤ 3) (h0 : Placed m₀ CellBounds.empty ρ) (hk : LowestFirst m₀.tileSize ρ recs k)
    {m : GridMap D F32 F32} {hist} (hc : ∀ e ∈ hist, CloudInRange e.2.2 ρ) (hin : ∀ e ∈ hist, ∃ r, e.2 = recs r)
    (hfirst : ∀ e, hist.head? = some e → e.2 = recs 0) (h : Playback nm m₀ hist m) :
    ∃ cb, Placed m cb ρ ∧ m.resolution = m₀.resolution ∧ m.tileSize = m₀.tileSize ∧
      (hist = [] → cb = CellBounds.empty) ∧ (hist ≠ [] → ∀ i, cb.min i = k i * m₀.tileSize) := by
  induction h with
  | start => exact ⟨_, h0, rfl, rfl, fun _ => rfl, fun h => absurd rfl h⟩
  | @scan hist m m1 ord origin cloud _ ho hi ih =>
    obtain ⟨cb, p1, p2, p3, p4, p5⟩ := ih (fun e he => hc e (List.mem_append_left _ he))
      (fun e he => hin e (List.mem_append_left _ he)) (fun e he => hfirst e (by
        cases hist with
        | nil => cases he
        | cons a l => exact he))
    obtain ⟨me, free, occ, e1, -, -, -, -, e6, e7, e8, -, e10⟩ := C38_integrate ho hi
    have hl : (m1, origin, cloud) ∈ hist ++ [(m1, origin, cloud)] := List.mem_append_right _ (List.mem_singleton_self _)
    obtain ⟨r, hr⟩ := hin _ hl
    simp only at hr
    obtain ⟨q1, q2, -⟩ := C36_expandBounds e1
    obtain ⟨ncb, g1, g2⟩ := lowest_step hD p1 (hc _ hl) hk.origin (by
      intro p hp
      have := hk.above r p (by rw [← hr]; exact hp)
      rw [p3]; exact this) (by
      intro hne
      rw [p3]
      exact p5 fun h => hne (p4 h)) (by
      intro hem i
      rw [p3]
      by_cases hh : hist = []
      · have := hk.reached i
        rw [← hfirst (m1, origin, cloud) (by rw [hh]; rfl)] at this
        exact this
      · left
        have := p5 hh i
        rw [hem] at this
        simp only [CellBounds.empty] at this
        have hT := h0.tile_pos
        rcases mul_eq_zero.mp this.symm with h | h
        · exact h
        · omega) e1
    refine ⟨ncb, placed_of_shape g1 e7 e6 e8 e10, by rw [e7, q1, p2], by rw [e8, q2, p3], fun h => by simp at h,
      fun _ => by rw [← p3]; exact g2⟩
  | marks _ hg ih =>
    obtain ⟨cb, p1, p2, p3, p4, p5⟩ := ih hc hin hfirst
    obtain ⟨g1, g2, g3, g4⟩ := hg
    exact ⟨cb, placed_of_shape p1 g3 g2 g4 (by rw [g1]), by rw [g3, p2], by rw [g4, p3], p4, p5⟩

/-- If the first recording reaches lowest, the lower corner of a map that has cells stays where it is. -/
lemma lowest_fix (hD : D ≤ 3) (hn : 0 < n) (h0 : Placed m₀ CellBounds.empty ρ) (ho : ∀ r, IsOrder (ord r)) (hD0 : 0 < D)
    (hc : ∀ r, CloudInRange (recs r).2 ρ) (hk : LowestFirst m₀.tileSize ρ recs k) :
    ∀ (s : State (GridMap D F32 F32) (Verif.Cell D) (Point D F32)) (j r : ℕ) m',
      Reach (occOps nm recs ord) n m₀ s → s.workers[j]? = some (WorkerPc.integrate, r) →
      (occOps nm recs ord).integrate r s.map = .ret m' →
      m'.bounds.min = s.map.bounds.min ∨ ∀ c, ¬ InGrid s.map c := by
  intro s j r m' hr hw hi
  obtain ⟨hist, p1, p2, -⟩ := C69_playback hn ho hr
  have hin : ∀ e ∈ hist, ∃ r, e.2 = recs r := by
    intro e he
    have : e.2 ∈ hist.map (·.2) := List.mem_map_of_mem he
    rw [p2] at this
    obtain ⟨k, -, hk⟩ := List.mem_map.mp this
    exact ⟨_, hk.symm⟩
  have hcr : ∀ e ∈ hist, CloudInRange e.2.2 ρ := fun e he => by
    obtain ⟨r, hr⟩ := hin e he
    rw [hr]; exact hc r
  have hfirst : ∀ e, hist.head? = some e → e.2 = recs 0 := by
    intro e he
    have h1 : (hist.map (·.2)).head? = some e.2 := by rw [List.head?_map, he]; rfl
    rw [p2] at h1
    have hl : 0 < hist.length := by cases hist with
      | nil => cases he
      | cons a l => simp
    unfold cyclic at h1
    obtain ⟨l, hl⟩ : ∃ l, hist.length = l + 1 := ⟨hist.length - 1, by omega⟩
    rw [hl, List.range_succ_eq_map] at h1
    simp only [List.map_cons, List.head?_cons, Option.some.injEq, Nat.zero_mod] at h1
    exact h1.symm
  obtain ⟨cb, q1, q2, q3, q4, q5⟩ := lowest_playback hD h0 hk hcr hin hfirst p1
  by_cases hh : hist = []
  · right
    intro c hg
    have h1 := hg ⟨0, hD0⟩
    have := q1.shape ⟨0, hD0⟩
    rw [q4 hh] at this
    simp only [CellBounds.empty] at this
    omega
  · left
    have p1' : Playback nm m₀ hist (s.map.setTrackChanges true) := .marks p1 ⟨rfl, rfl, rfl, rfl⟩
    have p1'' := Playback.scan p1' (ho r) (occOps_ret hi)
    obtain ⟨cb', q1', q2', -, -, q5'⟩ := lowest_playback hD h0 hk (hist := hist ++ [(m', recs r)])
      (by
        intro e he
        rcases List.mem_append.mp he with he | he
        · exact hcr e he
        · rw [List.mem_singleton.mp he]; exact hc r)
      (by
        intro e he
        rcases List.mem_append.mp he with he | he
        · exact hin e he
        · rw [List.mem_singleton.mp he]; exact ⟨r, rfl⟩)
      (fun e he => hfirst e (by
        cases hist with
        | nil => exact absurd rfl hh
        | cons a l => exact he)) p1''
    have e : cb'.min = cb.min := by
      funext i
      rw [q5' (by simp) i, q5 hh i]
    rw [q1'.bounds, q1.bounds, q2', q2]
    unfold Bounds.fromCellBounds
    rw [e]

/-- C55 holds if the first recording reaches lowest, up to whole tiles. -/
theorem C55_lowest_first (hD : D ≤ 3) (hn : 0 < n) (h0 : Placed m₀ CellBounds.empty ρ) (ht0 : m₀.changedCells = [])
    (hth : FLe (Fp.lit 0) nm.threshold) (ho : ∀ r, IsOrder (ord r)) (hD0 : 0 < D)
    (hc : ∀ r, CloudInRange (recs r).2 ρ) (hk : LowestFirst m₀.tileSize ρ recs k)
    {s : State (GridMap D F32 F32) (Verif.Cell D) (Point D F32)} (hr : Reach (occOps nm recs ord) n m₀ s)
    (hm : s.main = .clearFlag ∨ s.main = .spawn) :
    ∀ c, MachineCell c → s.tracked c =
      if nm.occupied s.map c = .ok true then some (s.map.pointFromCell c) else none :=
  C55_occupancy_map hD h0 ht0 hth ho hD0 hc (lowest_fix hD hn h0 ho hD0 hc hk) hr hm

/-- Its hypotheses hold for the recordings of `C55_reindex_refuted` in the opposite order: the sensor sees first
(-5/2, 1/2), then (5/2, 1/2). The lowest tiles are number -2 and number 0. -/
example : Placed smallMap CellBounds.empty 1 ∧ FLe (Fp.lit 0) smallNM.threshold ∧
    (∀ r : ℕ, CloudInRange (smallRecs (if r = 0 then 1 else 0)).2 1) ∧
    LowestFirst smallMap.tileSize 1 (fun r => smallRecs (if r = 0 then 1 else 0)) ![-2, 0] := by
  refine ⟨smallMap_placed, by decide +kernel, fun _ => small_inRange _, ⟨by decide, fun r p hp i => ?_, fun i => ?_⟩⟩
  · by_cases hr : r = 0
    · simp only [hr, if_true] at hp
      rw [smallRecs, C13_points_fromPoints, List.mem_singleton] at hp
      subst hp
      refine ⟨![-5 / 2, 1 / 2] i, ?_, ?_⟩ <;> revert i <;> decide +kernel
    · simp only [hr, if_false] at hp
      rw [smallRecs, C13_points_fromPoints, List.mem_singleton] at hp
      subst hp
      refine ⟨![5 / 2, 1 / 2] i, ?_, ?_⟩ <;> revert i <;> decide +kernel
  · fin_cases i
    · right
      refine ⟨![Fp.lit (-5 / 2), Fp.lit (1 / 2)], ?_, -5 / 2, by decide +kernel, by decide +kernel⟩
      rw [smallRecs, C13_points_fromPoints, List.mem_singleton]
      rfl
    · exact .inl rfl

end Verif.Props
