import Verif.Model.VizMap
import Verif.Props.VizRuns
import Verif.Props.History

/-!
# C55: the visualizer with the crate's occupancy map
-/

namespace Verif.Props
open Viz Spec

variable {D : ℕ} {nm : LidarNoiseModel F32} {recs : ℕ → Point D F32 × PointCloud D F32}
  {ord : ℕ → List (Cell D) → List (Cell D)} {n : ℕ} {m₀ : GridMap D F32 F32} {ρ : ℚ}

lemma occOps_ret {m m' : GridMap D F32 F32} {r : ℕ}
    (h : (occOps nm recs ord).integrate r m = .ret m') :
    Integrates (ord r) nm (m.setTrackChanges true) (recs r).1 (recs r).2 m' := by
  simp only [occOps] at h
  split_ifs at h with h1
  injection h with h
  rw [← h]
  exact h1.choose_spec

/-- Maps reached by the visualizer stay placed. -/
lemma viz_placed (hD : D ≤ 3) (h0 : Placed m₀ CellBounds.empty ρ) (ho : ∀ r, IsOrder (ord r))
    (hc : ∀ r, CloudInRange (recs r).2 ρ) {s : State (GridMap D F32 F32) (Cell D) (Point D F32)}
    (hr : Reach (occOps nm recs ord) n m₀ s) : ∃ cb, Placed s.map cb ρ := by
  induction hr with
  | init => exact ⟨_, h0⟩
  | step s s' _ hs ih =>
    obtain ⟨cb, hP⟩ := ih
    cases hs
    case wIntegrate k r m h1 h2 =>
      obtain ⟨cb', h3, -⟩ := C41_step hD (placed_of_shape (m' := s.map.setTrackChanges true) hP rfl rfl rfl rfl)
        (hc r) (ho r) (occOps_ret h2)
      exact ⟨cb', h3⟩
    case wReset k r h1 => exact ⟨cb, placed_of_shape hP rfl rfl rfl rfl⟩
    all_goals exact ⟨cb, hP⟩

lemma occ_true_iff {m : GridMap D F32 F32} {c : Cell D} :
    (occOps nm recs ord).occupied m c = some true ↔ ∃ v, m.get c = .ok v ∧ nm.threshold.lt v = true := by
  simp only [occOps, LidarNoiseModel.occupied]
  cases h : m.get c with
  | error e => simp [Bind.bind, Except.bind, Except.toOption]
  | ok v =>
    simp only [Bind.bind, Except.bind, Except.toOption, Option.some.injEq, Except.ok.injEq,
      exists_eq_left']
    rfl

/-- An integration that does not move the lower corner of a map that has cells records every cell whose occupancy it
changes, and moves no points. -/
lemma fixed_sound (hD : D ≤ 3) (hth : FLe (Fp.lit 0) nm.threshold) (ho : ∀ r, IsOrder (ord r))
    (hc : ∀ r, CloudInRange (recs r).2 ρ) {s : State (GridMap D F32 F32) (Cell D) (Point D F32)} {cb : CellBounds D}
    (hP : Placed s.map cb ρ) {r : ℕ} {m' : GridMap D F32 F32} (hi : (occOps nm recs ord).integrate r s.map = .ret m')
    (hfix : m'.bounds.min = s.map.bounds.min ∨ ∀ c, ¬ InGrid s.map c)
    (hch : (occOps nm recs ord).changed s.map = []) :
    (∀ c, MachineCell c → c ∉ (occOps nm recs ord).changed m' →
      ((occOps nm recs ord).occupied m' c = some true ↔ (occOps nm recs ord).occupied s.map c = some true)) ∧
    ∀ c, MachineCell c → (occOps nm recs ord).occupied s.map c = some true →
      (occOps nm recs ord).point m' c = (occOps nm recs ord).point s.map c := by
  have hlt0 : nm.threshold.lt (Fp.lit 0) = false := Fp.not_lt_of_FLe hth
  have hP1 : Placed (s.map.setTrackChanges true) cb ρ := placed_of_shape hP rfl rfl rfl rfl
  have hI := occOps_ret hi
  obtain ⟨me, free, occ, e1, e2, e3, e4, e5, e6, e7, e8, e9, e10⟩ := C38_integrate (ho r) hI
  obtain ⟨me', free', occ', new, f1, f2, f3, f4, f5, f6⟩ := C40_tracked (ho r) hI rfl
  rw [e1] at f1
  cases f1
  obtain ⟨me', ncb, g1, -, g2, g3, g4⟩ := expand_spec hD hP1 (request_of_cloud hP.res.pos (hc r))
    (Fp.lit 0 : F32)
  rw [e1] at g1
  cases g1
  have hnew : ∀ c, c ∈ (occOps nm recs ord).changed m' ↔ c ∈ new := by
    intro c
    change c ∈ m'.changedCells ↔ _
    rw [f3]
    change c ∈ s.map.changedCells ++ new ↔ _
    have : s.map.changedCells = [] := hch
    rw [this, List.nil_append]
  have hget : ∀ c, MachineCell c → c ∉ (occOps nm recs ord).changed m' → m'.get c = me.get c := by
    intro c hcm hcn
    by_contra hne
    exact hcn ((hnew c).mpr (f6 c hcm hne))
  -- values of the expanded map, when the corner stays or there was no cell
  have hmin : (∀ c, ¬ InGrid s.map c) ∨ ncb.min = cb.min := by
    rcases hfix with h | h
    · right
      have h3 : me.bounds.min = s.map.bounds.min := by rw [← e6, h]
      obtain ⟨q1, -⟩ := C36_expandBounds e1
      funext i
      have hz : |(0 : ℚ)| ≤ 2 ^ 20 * ρ := by rw [abs_zero]; have := hP.res.pos; positivity
      have k1 := roundTrip_coord hP.res F32.zero_is (g2.inRange i).1 hz
      have k2 := roundTrip_coord hP.res F32.zero_is (hP.inRange i).1 hz
      have k3 : me.bounds.min i = pointCoordFromCellCoord (ncb.min i) (Fp.lit 0) s.map.resolution := by
        rw [g2.bounds, q1]; rfl
      have k4 : s.map.bounds.min i = pointCoordFromCellCoord (cb.min i) (Fp.lit 0) s.map.resolution := by
        rw [hP.bounds]; rfl
      rw [← k1, ← k2, ← k3, ← k4, h3]
    · exact .inl h
  have hval : ∀ c, MachineCell c → ((∃ v, me.get c = .ok v ∧ nm.threshold.lt v = true) ↔
      ∃ v, s.map.get c = .ok v ∧ nm.threshold.lt v = true) := by
    intro c hcm
    -- a cell of the expanded map that is new holds zero
    by_cases hg : InGrid s.map c
    · have hcb : ncb.min = cb.min := hmin.resolve_left fun h => h c hg
      have hw' : InCells (fun i => c i + cb.min i) cb := by
        rw [inCells_iff hP]
        intro i
        have := hg i
        simpa using this
      have := (g3 _ hw').2
      unfold valueAt at this
      simp only [hcb, add_sub_cancel_right] at this
      have e : (s.map.setTrackChanges true).get c = s.map.get c := rfl
      rw [← e, this]
    · have hl : ¬ ∃ v, s.map.get c = .ok v ∧ nm.threshold.lt v = true := by
        rintro ⟨v, hv, -⟩
        rw [(C31_get s.map hcm).2 hg] at hv; cases hv
      refine iff_of_false ?_ hl
      rintro ⟨v, hv, hlt⟩
      by_cases hg' : InGrid me c
      · have h1 : InCells (fun i => c i + ncb.min i) ncb := by
          rw [inCells_iff g2]
          intro i
          have := hg' i
          simpa using this
        have h2 : ¬ InCells (fun i => c i + ncb.min i) cb := by
          rw [inCells_iff hP]
          intro h
          rcases hmin with h3 | h3
          · exact h3 _ h
          · apply hg
            intro i
            have := h i
            simpa [h3] using this
        have := g4 _ h1 h2
        unfold valueAt at this
        simp only [add_sub_cancel_right] at this
        rw [hv] at this
        cases this
        rw [hlt0] at hlt
        cases hlt
      · rw [(C31_get me hcm).2 hg'] at hv; cases hv
  refine ⟨fun c hcm hcn => ?_, fun c hcm hoc => ?_⟩
  · rw [occ_true_iff, occ_true_iff, hget c hcm hcn]
    exact hval c hcm
  · rcases hfix with h | h
    · obtain ⟨q1, -⟩ := C36_expandBounds e1
      simp only [occOps, GridMap.pointFromCell]
      rw [h, e7, q1]
      rfl
    · exfalso
      rw [occ_true_iff] at hoc
      obtain ⟨v, hv, -⟩ := hoc
      rw [(C31_get s.map hcm).2 (h c)] at hv; cases hv

/-- C55 for the crate's map, starting from a map without cells (such as `default()`), with clouds in the
working range and threshold probability at least one half: as long as no integration moves the lower
corner of a map that has cells (which would re-index the grid), whenever the renderer has processed a
batch, a cell is drawn exactly if the map reports it occupied, at the point the map gives for it. -/
theorem C55_occupancy_map (hD : D ≤ 3) (h0 : Placed m₀ CellBounds.empty ρ) (ht0 : m₀.changedCells = [])
    (hth : FLe (Fp.lit 0) nm.threshold) (ho : ∀ r, IsOrder (ord r)) (hD0 : 0 < D)
    (hc : ∀ r, CloudInRange (recs r).2 ρ)
    (hfix : ∀ (s : State (GridMap D F32 F32) (Cell D) (Point D F32)) (k r : ℕ) m',
      Reach (occOps nm recs ord) n m₀ s → s.workers[k]? = some (WorkerPc.integrate, r) →
      (occOps nm recs ord).integrate r s.map = .ret m' →
      m'.bounds.min = s.map.bounds.min ∨ ∀ c, ¬ InGrid s.map c)
    {s : State (GridMap D F32 F32) (Cell D) (Point D F32)} (hr : Reach (occOps nm recs ord) n m₀ s)
    (hm : s.main = .clearFlag ∨ s.main = .spawn) :
    ∀ c, MachineCell c → s.tracked c =
      if nm.occupied s.map c = .ok true then some (s.map.pointFromCell c) else none := by
  have hS : Sound (occOps nm recs ord) n m₀ MachineCell := by
    refine ⟨⟨ht0, fun c hcm => ?_⟩, fun m => ⟨rfl, fun c => ⟨rfl, rfl⟩⟩, ?_⟩
    · rw [Ne, occ_true_iff]
      rintro ⟨v, hv, -⟩
      by_cases hg : InGrid m₀ c
      · have h1 := hg ⟨0, hD0⟩
        have := h0.shape ⟨0, hD0⟩
        simp only [CellBounds.empty] at this
        omega
      · rw [(C31_get m₀ hcm).2 hg] at hv; cases hv
    · intro s k r m' hs hw hi hch
      obtain ⟨cb, hP⟩ := viz_placed hD h0 ho hc hs
      exact fixed_sound hD hth ho hc hP hi (hfix s k r m' hs hw hi) hch
  have hM := C55_mirrors hS hr hm
  intro c hcm
  rw [hM c hcm]
  have : (occOps nm recs ord).occupied s.map c = some true ↔ nm.occupied s.map c = .ok true := by
    simp only [occOps]
    cases nm.occupied s.map c <;> simp [Except.toOption]
  simp only [this]
  rfl

end Verif.Props
