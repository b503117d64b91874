import Verif.Spec.Measured
import Verif.Props.Cost
import Verif.Props.Geometric

/-!
# C92: everything drawn has been measured
-/

namespace Verif.Props
open Spec Scalar Viz

section
variable {Map Cell Pt : Type} [DecidableEq Cell] {ops : MapOps Map Cell Pt} {n : ℕ} {m₀ : Map}

lemma steps_workers {s s' : State Map Cell Pt} (h : Relation.ReflTransGen (Step ops n) s s') :
    s.workers.length ≤ s'.workers.length := by
  induction h with
  | refl => exact le_rfl
  | tail _ hs ih =>
    refine ih.trans ?_
    cases hs <;> simp [setW]

/-- C92: a point is drawn for a cell only if the map, when the renderer processed an earlier batch, reported that cell
occupied and gave that point for it. -/
theorem C92_drawn {s : State Map Cell Pt} (h : Reach ops n m₀ s) {c : Cell} {p : Pt} (hc : s.tracked c = some p) :
    ∃ s0, Reach ops n m₀ s0 ∧ Relation.ReflTransGen (Step ops n) s0 s ∧ s0.main = .process ∧ c ∈ s0.cells ∧
      ops.occupied s0.map c = some true ∧ ops.point s0.map c = p := by
  induction h with
  | init => simp [Viz.init] at hc
  | step s s' hr hs ih =>
    have keep : s.tracked c = some p → ∃ s0, Reach ops n m₀ s0 ∧ Relation.ReflTransGen (Step ops n) s0 s' ∧
        s0.main = .process ∧ c ∈ s0.cells ∧ ops.occupied s0.map c = some true ∧ ops.point s0.map c = p := fun h => by
      obtain ⟨s0, h1, h2, h3⟩ := ih h
      exact ⟨s0, h1, h2.tail hs, h3⟩
    cases hs
    case process t h1 h2 =>
      rcases processCells_by_set (ops := ops) (m := s.map) s.cells s.tracked with ⟨-, h3⟩ | ⟨-, h3⟩
      · rw [h3] at h2; cases h2
      · rw [h3] at h2
        cases h2
        dsimp only at hc
        split_ifs at hc with h4 h5 h6
        · exact keep hc
        · exact ⟨s, hr, .single (.process s _ h1 h3), h1, h4, h5, Option.some.inj hc⟩
        · exact keep hc
    all_goals exact keep hc

end

section
variable {D : ℕ} {m : GridMap D F32 F32} {ρ : ℚ} {M N T n : ℕ} {nm : LidarNoiseModel F32}
  {recs : ℕ → Point D F32 × PointCloud D F32} {m₀ : GridMap D F32 F32}

lemma SmallMap.range (h : SmallMap M T ρ m) : ∃ cb, Placed m cb ρ ∧
    ∀ i, |cb.min i| ≤ (M + T + 1 : ℕ) ∧ |cb.max i| ≤ (M + T + 1 : ℕ) := by
  obtain ⟨cb, hP, -, hcb⟩ := h
  refine ⟨cb, hP, fun i => ?_⟩
  rcases hcb with rfl | hcb
  · simp [CellBounds.empty]
    positivity
  · obtain ⟨h2, h3⟩ := hcb i
    have h4 : ((M + T + 1) / T : ℕ) * T ≤ M + T + 1 := Nat.div_mul_le_self _ _
    have h5 : (((M + T + 1) / T : ℕ) : ℤ) * T ≤ (M + T + 1 : ℕ) := by exact_mod_cast h4
    have h6 := hP.ordered i
    rw [neg_mul] at h2
    constructor <;> rw [abs_le] <;> omega

lemma playback_small (hD : D ≤ 3) (h0 : SmallMap M T ρ m₀) (hM1 : 1 ≤ M) (hM : M ≤ 2 ^ 18) {hist}
    (hcl : ∀ e ∈ hist, WithinCells M ρ e.2.2) (h : Playback nm m₀ hist m) :
    SmallMap M T ρ m ∧ ∀ e ∈ hist, SmallMap M T ρ e.1 := by
  induction h with
  | start => exact ⟨h0, by simp⟩
  | scan _ ho hi ih =>
    obtain ⟨p1, p2⟩ := ih fun s hs => hcl s (List.mem_append_left _ hs)
    have p3 := smallMap_integrate hD p1 hM1 hM (hcl _ (List.mem_append_right _ (List.mem_singleton_self _))) ho hi
    refine ⟨p3, fun e he => ?_⟩
    rcases List.mem_append.mp he with he | he
    · exact p2 e he
    · rw [List.mem_singleton.mp he]
      exact p3
  | marks _ hg ih =>
    obtain ⟨⟨cb, q1, q2, q3⟩, p2⟩ := ih hcl
    refine ⟨⟨cb, ?_, ?_, q3⟩, p2⟩
    · exact placed_of_shape q1 hg.2.2.1 hg.2.1 hg.2.2.2 (by rw [hg.1])
    · exact hg.2.2.2.trans q2

/-- A cell that was never hit is not above the threshold. -/
lemma foldSeen_unhit (hmi : FLe nm.miss (Fp.lit 0)) (hl : InLimits nm (Fp.lit 0)) (hth : FLe (Fp.lit 0) nm.threshold)
    {hist : List (GridMap D F32 F32 × Point D F32 × PointCloud D F32)} {w : Cell D}
    (h : ∀ e ∈ hist, seen e.2.1 e.2.2 e.1.bounds e.1.resolution nm.maxRange (localCell e.1 w) ≠ .hit) :
    nm.threshold.lt (foldSeen nm hist w (Fp.lit 0)) = false := by
  have key : ∀ (hist : List (GridMap D F32 F32 × Point D F32 × PointCloud D F32)) v,
      (∀ e ∈ hist, seen e.2.1 e.2.2 e.1.bounds e.1.resolution nm.maxRange (localCell e.1 w) ≠ .hit) →
      InLimits nm v → FLe v (Fp.lit 0) → FLe (foldSeen nm hist w v) (Fp.lit 0) := by
    intro hist
    induction hist with
    | nil => exact fun v _ _ h => h
    | cons e hist ih =>
      intro v h h1 h2
      refine ih _ (fun e he => h e (List.mem_cons_of_mem _ he)) ?_ ?_
      all_goals
        dsimp only
        cases hs : seen e.2.1 e.2.2 e.1.bounds e.1.resolution nm.maxRange (localCell e.1 w)
      · exact absurd hs (h e List.mem_cons_self)
      · exact (miss_bounds hmi h1).1
      · exact h1
      · exact absurd hs (h e List.mem_cons_self)
      · exact Fp.FLe_trans (miss_bounds hmi h1).2 h2
      · exact h2
  exact Fp.not_lt_of_FLe (Fp.FLe_trans (key hist _ h hl (by decide +kernel)) hth)

/-- Where the point of a stored cell is. -/
lemma small_point (hN1 : 1 ≤ N) (hN18 : N ≤ 2 ^ 18) {cb : CellBounds D} (hP : Placed m cb ρ)
    (hb : ∀ i, |cb.min i| ≤ (N : ℤ) ∧ |cb.max i| ≤ (N : ℤ)) {w : Cell D} (hin : InCells w cb) (i : Fin D) :
    ∃ a, (m.pointFromCell (localCell m w) i).Is a ∧ |a - w i * ρ| ≤ (9 * N + 4) / 2 ^ 24 * ρ := by
  have hpos := hP.res.pos
  obtain ⟨h1, h2⟩ := hin i
  obtain ⟨r1, r2⟩ := hb i
  have hNq : (N : ℚ) ≤ 2 ^ 18 := by exact_mod_cast hN18
  have hN2 : (1 : ℚ) ≤ N := by exact_mod_cast hN1
  have c1 : |((cb.min i : ℤ) : ℚ)| ≤ N := by exact_mod_cast r1
  obtain ⟨e1, e2⟩ := pointCoord_is (c := cb.min i) (N := N) hP.res F32.zero_is c1
    (by rw [abs_zero]; positivity) (hNq.trans (by norm_num)) hN2
  rw [add_zero] at e2
  have e3 : |cellPoint (cb.min i) 0 ρ| ≤ (2 * N) * ρ := by
    have h5 := abs_sub_abs_le_abs_sub (cellPoint (cb.min i) 0 ρ) (cb.min i * ρ)
    have h6 : |(cb.min i : ℚ) * ρ| ≤ N * ρ := by rw [abs_mul, abs_of_pos hpos]; gcongr
    have h7 : (3 * N + 2 : ℚ) / 2 ^ 24 * ρ ≤ N * ρ := by
      gcongr
      rw [div_le_iff₀ (by norm_num)]
      linarith
    linarith
  have hloc : localCell m w i = w i - cb.min i := by rw [local_eq hP]
  have c2 : |((localCell m w i : ℤ) : ℚ)| ≤ 2 * N := by
    have : |localCell m w i| ≤ 2 * N := by
      rw [hloc]
      rw [abs_le] at r1 r2 ⊢
      constructor <;> omega
    exact_mod_cast this
  obtain ⟨e4, e5⟩ := pointCoord_is (c := localCell m w i) (N := 2 * N) (o := m.bounds.min i) hP.res
    (by rw [hP.bounds]; exact e1) c2 e3 (by linarith) (by linarith)
  refine ⟨_, e4, ?_⟩
  rw [hloc] at e5 ⊢
  push_cast at e5
  have e6 := abs_sub_le (cellPoint (w i - cb.min i) (cellPoint (cb.min i) 0 ρ) ρ)
    (((w i : ℚ) - cb.min i) * ρ + cellPoint (cb.min i) 0 ρ) (w i * ρ)
  have e7 : ((w i : ℚ) - cb.min i) * ρ + cellPoint (cb.min i) 0 ρ - w i * ρ = cellPoint (cb.min i) 0 ρ - cb.min i * ρ := by
    ring
  rw [e7] at e6
  refine e6.trans ((add_le_add e5 e2).trans (le_of_eq ?_))
  ring

lemma small_measured (hMN : M + 1 ≤ N) (hN18 : N ≤ 2 ^ 18) {cb : CellBounds D} (hP : Placed m cb ρ)
    (hb : ∀ i, |cb.min i| ≤ (N : ℤ)) {y : Point D F32} (hy : ∀ i, ∃ b, (y i).Is b ∧ |b| ≤ M * ρ) {w : Cell D}
    (h : cellFromPoint y m.bounds.min m.resolution = localCell m w) (i : Fin D) :
    ∃ b, (y i).Is b ∧ |b - w i * ρ| ≤ (1 / 2 + (7 * N + 4) / 2 ^ 24) * ρ := by
  have hpos := hP.res.pos
  have hNq : (N : ℚ) ≤ 2 ^ 18 := by exact_mod_cast hN18
  have hMNq : (M + 1 : ℚ) ≤ N := by exact_mod_cast hMN
  have hM0 : (0 : ℚ) ≤ M := by positivity
  have c1 : |((cb.min i : ℤ) : ℚ)| ≤ N := by exact_mod_cast hb i
  obtain ⟨e1, e2⟩ := pointCoord_is (c := cb.min i) (N := N) hP.res F32.zero_is c1
    (by rw [abs_zero]; positivity) (hNq.trans (by norm_num)) (by linarith)
  rw [add_zero] at e2
  obtain ⟨b, hb1, hb2⟩ := hy i
  have hq : (m.bounds.min i).Is (cellPoint (cb.min i) 0 ρ) := by rw [hP.bounds]; exact e1
  have h7 : (3 * N + 2 : ℚ) / 2 ^ 24 * ρ ≤ 1 * ρ := by
    gcongr
    rw [div_le_iff₀ (by norm_num)]
    linarith
  have e3 : |b - cellPoint (cb.min i) 0 ρ| ≤ (2 * N) * ρ := by
    have h5 := abs_sub_abs_le_abs_sub (cellPoint (cb.min i) 0 ρ) (cb.min i * ρ)
    have h6 : |(cb.min i : ℚ) * ρ| ≤ N * ρ := by rw [abs_mul, abs_of_pos hpos]; gcongr
    have h8 := abs_sub b (cellPoint (cb.min i) 0 ρ)
    have h9 : (M + 1 : ℚ) * ρ ≤ N * ρ := by gcongr
    linarith
  obtain ⟨d, hd, e4⟩ := cellCoord_is hP.res hq hb1 e3 (by linarith) (by linarith)
  have hw : roundAway d = w i - cb.min i := by
    rw [← hd]
    have := congrFun h i
    rw [local_eq hP] at this
    exact this
  have e5 := Fp.roundAway_err d
  rw [hw] at e5
  push_cast at e5
  refine ⟨b, hb1, ?_⟩
  have e6 := abs_sub_le ((w i : ℚ) - cb.min i) d ((b - cellPoint (cb.min i) 0 ρ) / ρ)
  have e7 : |((w i : ℚ) - cb.min i) - (b - cellPoint (cb.min i) 0 ρ) / ρ| * ρ ≤
      (1 / 2 + (4 * N + 2) / 2 ^ 24) * ρ := by
    gcongr
    refine e6.trans (add_le_add e5 (e4.trans (le_of_eq (by ring))))
  rw [← abs_of_pos hpos, ← abs_mul, abs_of_pos hpos, sub_mul, div_mul_cancel₀ _ hpos.ne'] at e7
  have e8 := abs_sub (cellPoint (cb.min i) 0 ρ - cb.min i * ρ)
    (((w i : ℚ) - cb.min i) * ρ - (b - cellPoint (cb.min i) 0 ρ))
  have e9 : (cellPoint (cb.min i) 0 ρ - cb.min i * ρ) -
    (((w i : ℚ) - cb.min i) * ρ - (b - cellPoint (cb.min i) 0 ρ)) = b - w i * ρ := by ring
  rw [e9] at e8
  refine e8.trans ((add_le_add e2 e7).trans (le_of_eq ?_))
  ring

/-- C92: at every moment of every run, every point that the visualizer draws has been measured: it is within half a cell,
up to rounding, of a point of a scan played before. No scan has to be clear, and the map may grow in any direction. -/
theorem C92_measured (hD : D ≤ 3) (hD0 : 0 < D) (hn : 0 < n) {ord : ℕ → List (Cell D) → List (Cell D)}
    (ho : ∀ r, IsOrder (ord r)) (h0 : Placed m₀ CellBounds.empty ρ) (ht0 : m₀.changedCells = []) (hM1 : 1 ≤ M)
    (hN : N = M + m₀.tileSize + 1) (hN18 : N ≤ 2 ^ 18) (hcl : ∀ r, WithinCells M ρ (recs r).2)
    (hmi : FLe nm.miss (Fp.lit 0)) (hl : InLimits nm (Fp.lit 0)) (hth : FLe (Fp.lit 0) nm.threshold)
    {s : State (GridMap D F32 F32) (Cell D) (Point D F32)} (hr : Reach (occOps nm recs ord) n m₀ s)
    {c : Cell D} {p : Point D F32} (hc : s.tracked c = some p) :
    Measured ((1 / 2 + (16 * N + 8) / 2 ^ 24) * ρ) recs n s.workers.length p := by
  have hM : M ≤ 2 ^ 18 := by omega
  have hpos := h0.res.pos
  have hcr : ∀ r, CloudInRange (recs r).2 ρ := by
    intro r p hp i
    obtain ⟨y, h1, h2⟩ := hcl r p hp i
    have : (M : ℚ) ≤ 262144 := by exact_mod_cast hM
    exact ⟨y, h1, h2.trans (by norm_num; gcongr)⟩
  obtain ⟨s0, h1, h2, -, h4, h5, rfl⟩ := C92_drawn hr hc
  have hw := steps_workers h2
  obtain ⟨a1, -, a3, -⟩ := stored_small hD ho h0 ht0 hM1 hM hN hcl h1
  obtain ⟨hist, cb', p1, p2, p3, -, -, p6, p7⟩ := C69_map hD hn h0 ho hcr hD0 h1
  have hmem : ∀ e ∈ hist, ∃ j < hist.length, e.2 = recs (j % n) := by
    intro e he
    have : e.2 ∈ hist.map (·.2) := List.mem_map_of_mem he
    rw [p2] at this
    obtain ⟨k, h1, h2⟩ := List.mem_map.mp this
    exact ⟨k, List.mem_range.mp h1, h2.symm⟩
  obtain ⟨-, hsm⟩ := playback_small hD (T := m₀.tileSize) ⟨_, h0, rfl, .inl rfl⟩ hM1 hM
    (fun e he => by obtain ⟨j, -, hj⟩ := hmem e he; rw [hj]; exact hcl _) p1
  obtain ⟨cb, hP, hb⟩ := a1.range
  obtain rfl : cb' = cb := by rw [← p6.cells, hP.cells]
  rw [← hN] at hb
  have hc2 := a3.2 c h4
  have hmc : MachineCell c := fun i => by
    have := hc2 i
    unfold InIsize isizeMin isizeMax
    constructor <;> omega
  have hocc : nm.occupied s0.map c = .ok true := by
    change (nm.occupied s0.map c).toOption = some true at h5
    cases h : nm.occupied s0.map c <;> rw [h] at h5 <;> simp [Except.toOption] at h5
    rw [h5]
  have hin : InGrid s0.map c := by
    by_contra hno
    unfold LidarNoiseModel.occupied at hocc
    rw [(C31_get s0.map hmc).2 hno] at hocc
    cases hocc
  have hcw : c = localCell s0.map (fun i => c i + cb'.min i) := by
    rw [local_eq hP]
    funext i
    simp
  have hiw : InCells (fun i => c i + cb'.min i) cb' := (inCells_iff hP _).mpr (by simpa using hin)
  have hval := p7 _ hiw
  have hlt : nm.threshold.lt (foldSeen nm hist (fun i => c i + cb'.min i) (Fp.lit 0)) = true := by
    unfold valueAt at hval
    unfold LidarNoiseModel.occupied at hocc
    simp only [add_sub_cancel_right] at hval
    rw [hval] at hocc
    exact Except.ok.inj hocc
  have hhit : ∃ e ∈ hist, seen e.2.1 e.2.2 e.1.bounds e.1.resolution nm.maxRange
      (localCell e.1 fun i => c i + cb'.min i) = .hit := by
    by_contra hno
    push Not at hno
    rw [foldSeen_unhit hmi hl hth hno] at hlt
    cases hlt
  obtain ⟨e, he, hse⟩ := hhit
  obtain ⟨j, hj, hej⟩ := hmem e he
  have hy : ∃ y ∈ e.2.2.points, cellFromPoint y e.1.bounds.min e.1.resolution =
      localCell e.1 fun i => c i + cb'.min i := by
    unfold seen at hse
    split_ifs at hse with h7
    obtain ⟨y, hy, ray, hca⟩ := h7
    exact ⟨y, hy, ((Option.some.inj ((C18_end_not_in_ray hca).2.2.resolve_left (by simp))).symm)⟩
  obtain ⟨y, hy, hyc⟩ := hy
  obtain ⟨cbe, hPe, hbe⟩ := (hsm e he).range
  rw [← hN] at hbe
  refine ⟨j, by omega, y, by rw [← hej]; exact hy, fun i => ?_⟩
  obtain ⟨b, hb1, hb2⟩ := small_measured (M := M) (by omega) hN18 hPe (fun i => (hbe i).1)
    (fun i => by have := hcl (j % n) y (by rw [← hej]; exact hy) i; exact this) hyc i
  obtain ⟨a, ha1, ha2⟩ := small_point (by omega) hN18 hP hb hiw i
  rw [← hcw] at ha1
  refine ⟨a, b, ha1, hb1, ?_⟩
  have := abs_sub_le a ((c i + cb'.min i : ℤ) * ρ) b
  rw [abs_sub_comm ((c i + cb'.min i : ℤ) * ρ) b] at this
  refine this.trans ((add_le_add ha2 hb2).trans (le_of_eq ?_))
  ring

/-- C92, for the flag as it is and any hash orders: whatever the threads do, and however the grid grows, every point that
is drawn lies within little more than half a cell, on each axis, of a measured point of a scan already started. -/
theorem C92_any (hD : D ≤ 3) (hD0 : 0 < D) (hn : 0 < n) (h0 : Placed m₀ CellBounds.empty ρ) (ht0 : m₀.changedCells = [])
    (hM1 : 1 ≤ M) (hN : N = M + m₀.tileSize + 1) (hN18 : N ≤ 2 ^ 18) (hcl : ∀ r, WithinCells M ρ (recs r).2)
    (hmi : FLe nm.miss (Fp.lit 0)) (hl : InLimits nm (Fp.lit 0)) (hth : FLe (Fp.lit 0) nm.threshold)
    {w : WState (GridMap D F32 F32) (Cell D) (Point D F32)} (hr : AnyWReach nm recs n m₀ w)
    {c : Cell D} {p : Point D F32} (hc : w.prog.tracked c = some p) :
    Measured ((1 / 2 + (16 * N + 8) / 2 ^ 24) * ρ) recs n w.prog.workers.length p := by
  have ho : ∀ r : ℕ, IsOrder ((fun _ l => l : ℕ → List (Cell D) → List (Cell D)) r) := fun _ l => .refl l
  obtain ⟨s, h1, h2⟩ := C90_reach ho hr
  have e : w.prog.tracked = s.tracked := h2.tracked
  have e' : w.prog.workers = s.workers := h2.workers
  rw [e] at hc
  rw [e']
  exact C92_measured hD hD0 hn ho h0 ht0 hM1 hN hN18 hcl hmi hl hth h1 hc

lemma small_within (r : ℕ) : WithinCells 3 1 (smallRecs r).2 := by
  intro p hp
  rw [smallRecs, C13_points_fromPoints, List.mem_singleton] at hp
  subst hp
  intro i
  by_cases hr : r = 0
  · subst hr
    refine ⟨![5 / 2, 1 / 2] i, ?_, ?_⟩ <;> revert i <;> decide +kernel
  · simp only [hr, if_false]
    refine ⟨![-5 / 2, 1 / 2] i, ?_, ?_⟩ <;> revert i <;> decide +kernel

/-- The two small recordings, the second of which makes the grid grow downwards: after both have been integrated a point
is drawn under a key that now means another cell, and `C92_measured` still says that a measured point is there. -/
example : ∃ (s : State (GridMap 2 F32 F32) (Cell 2) (Point 2 F32)) (c : Cell 2) (p : Point 2 F32),
    Reach (occOps smallNM smallRecs fun _ => id) 2 smallMap s ∧ s.workers.length = 2 ∧ s.tracked c = some p ∧
    s.map.pointFromCell c ≠ p ∧ Measured ((1 / 2 + (16 * 6 + 8) / 2 ^ 24) * 1) smallRecs 2 2 p := by
  have h : (do
      let m1 ← smallNM.integratePointCloud id 20 (smallMap.setTrackChanges true) (smallRecs 0).1 (smallRecs 0).2
      let m1' := m1.clearChangedCells.setTrackChanges false
      let m2 ← smallNM.integratePointCloud id 20 (m1'.setTrackChanges true) (smallRecs 1).1 (smallRecs 1).2
      let b1 ← m1.changedCells.mapM (smallNM.occupied m1')
      let b ← smallNM.occupied m1' ![3, 1]
      if b = true ∧ ![3, 1] ∈ m1.changedCells ∧ (m2.pointFromCell ![3, 1] 0).eq (m1.pointFromCell ![3, 1] 0) = false ∧
          (m1.pointFromCell ![3, 1] 0).eq (m1.pointFromCell ![3, 1] 0) = true then Except.ok ()
      else .error .fuel) = .ok () := by decide +kernel
  rw [Verif.M.bind_eq_ok] at h
  obtain ⟨m1, h1, h⟩ := h
  simp only at h
  rw [Verif.M.bind_eq_ok] at h
  obtain ⟨m2, h2, h⟩ := h
  rw [Verif.M.bind_eq_ok] at h
  obtain ⟨b1, h3, h⟩ := h
  rw [Verif.M.bind_eq_ok] at h
  obtain ⟨b, h5, h⟩ := h
  split_ifs at h with h6
  obtain ⟨rfl, h6, h7, h7'⟩ := h6
  have r0 : Reach (occOps smallNM smallRecs fun _ => id) 2 smallMap
      (idle smallMap [] (fun _ => none) [] 0) := Reach.init
  have r1 := reach_cycle r0 rfl (by decide) (occOps_integrate ⟨20, h1⟩)
  obtain ⟨t1, p1, -⟩ := processCells_other (fun _ => none) h3
  have r2 := reach_cycle r1 p1 (by decide) (occOps_integrate ⟨20, h2⟩)
  have ht : t1 ![3, 1] = some (m1.pointFromCell ![3, 1]) := by
    rcases processCells_by_set (ops := occOps smallNM smallRecs fun _ => id)
      (m := m1.clearChangedCells.setTrackChanges false) m1.changedCells (fun _ => none) with ⟨-, h8⟩ | ⟨-, h8⟩
    · exact absurd (h8.symm.trans p1) (by simp)
    · have e : (smallNM.occupied (m1.clearChangedCells.setTrackChanges false) ![3, 1]).toOption = some true := by
        rw [h5]; rfl
      have h9 := congrArg (· ![3, 1]) (Option.some.inj (h8.symm.trans p1))
      simp only [if_pos h6] at h9
      exact ((if_pos e).symm.trans h9).symm
  refine ⟨_, _, _, r2, rfl, ht, fun h8 => ?_, ?_⟩
  · have h9 : m2.pointFromCell ![3, 1] = m1.pointFromCell ![3, 1] := h8
    rw [h9, h7'] at h7
    cases h7
  · exact C92_measured (M := 3) (N := 6) (by norm_num) (by norm_num) (by norm_num) (fun _ _ => List.Perm.refl _) smallMap_placed rfl
      (by norm_num) rfl (by norm_num) small_within (by decide +kernel) (by unfold InLimits; decide +kernel)
      (by decide +kernel) r2 ht

end

section
open Kitti Viz
variable [T : Trig F32] [Lb : Libm F32]

/-- C92, from the bytes of the files: no assumption on how the rays run, only that the points are not too far away. Every
point drawn is within little more than half a cell of a point of a file already played, moved by the pose that its text
file says, up to the error `ε` of reading and moving; and the map, the changed cells and the table of points never hold
more than `(2N)³` entries. -/
theorem C92_folder (hl : TestedLn) (hT : AccurateTrig T) {cos : F64 → F64} {radPerDeg : F64} {cast : F64 → F32}
    (he : AccurateEnv (parsingEnv cos radPerDeg cast (Quat.fromEuler (F := F32))))
    {w₁ w₂ : ℕ} {ext ext' : List (Fin 256)} {idx : List ℕ} {po pv : List (List (Fin 256))}
    (ho : IndexFolder w₁ ext idx po) (hv : IndexFolder w₂ ext' idx pv)
    {oxtBytes cloudBytes : List (Fin 256) → List (BitVec 8)} {place : ℕ → Place} {roll pitch yaw : ℕ → ℚ} {L S ε : ℝ}
    (htext : ∀ i ∈ idx, ∃ text, oxtBytes (indexName w₁ ext i) = utf8 text ∧ (place i).Ok ∧
      Says text (place i) (roll i) (pitch i) (yaw i))
    (hang : ∀ i ∈ idx, |roll i| ≤ 4 ∧ |pitch i| ≤ 4 ∧ |yaw i| ≤ 4)
    (hcloud : ∀ i ∈ idx, 16 ∣ (cloudBytes (indexName w₂ ext' i)).length ∧
      ∀ j < (cloudBytes (indexName w₂ ext' i)).length / 16, ∀ n : Fin 3,
        (f32OfBits (wordAt (cloudBytes (indexName w₂ ext' i)) (16 * j + 4 * n.val))).isFin = true ∧
        |((f32OfBits (wordAt (cloudBytes (indexName w₂ ext' i)) (16 * j + 4 * n.val))).val : ℝ)| ≤ L)
    {i0 : ℕ} (hi0 : idx[0]? = some i0) (hS : ∀ i ∈ idx, ∀ n, |(place i).offset (place i0) n| ≤ S)
    (hL1 : 1 ≤ L) (hL2 : L ≤ 2 ^ 100) (hε : ε = (1130 * L + 2 * S) / 2 ^ 24 + 1 / 2 ^ 18)
    {X : ℕ → Fin 3 → ℝ} (hX : ∀ i, X i = (place i).offset (place i0)) {pts : ℕ → List (Fin 3 → ℝ)}
    (hpts : ∀ i, pts i = movedPoints (roll i) (pitch i) (yaw i) (X i) (cloudBytes (indexName w₂ ext' i)))
    {M N : ℕ} (hM1 : 1 ≤ M) (hN : N = M + 101) (hN18 : N ≤ 2 ^ 18)
    {ρ : ℚ} (hρ : ρ = (Fp.lit 0.1 : F32).val) (hB : ∀ i ∈ idx, ∀ Y ∈ pts i, ∀ n, |Y n| + ε ≤ M * ρ)
    {o : OccupancyGridMap 3 F32} (hdef : OccupancyGridMap.default_ = .ok o) :
    ∃ rs, main (parsingEnv cos radPerDeg cast Quat.fromEuler) (some (some (byteFolder po pv oxtBytes cloudBytes))) =
        .ok (.window rs) ∧ rs.clouds.length = idx.length ∧
      ∀ w, AnyWReach o.noiseModel rs.get rs.clouds.length o.gridMap w →
        StoresAtMost ((2 * N) ^ 3) w.prog ∧
        ∀ c p, w.prog.tracked c = some p → ∃ j < w.prog.workers.length, ∃ i, idx[j % idx.length]? = some i ∧
          ∃ Y ∈ pts i, ∀ n, ∃ a, (p n).Is a ∧ |(a : ℝ) - Y n| ≤ (1 / 2 + (16 * N + 8) / 2 ^ 24) * ρ + ε := by
  obtain ⟨rs, hmain, hlen, hε0, hnone, hnear⟩ := folder_scans hT he ho hv htext hang hcloud hi0 hS hL1 hL2 hε hX hpts
  refine ⟨rs, hmain, hlen, fun w hr => ?_⟩
  have hidx : 0 < idx.length := (List.getElem?_eq_some_iff.mp hi0).1
  have hcl : ∀ r, WithinCells M ρ (rs.get r).2 := by
    intro r p hp n
    by_cases hr : r < idx.length
    · have hk : idx[r]? = some idx[r] := List.getElem?_eq_getElem hr
      obtain ⟨Y, hY, hn⟩ := forall₂_left (hnear r _ hk).2 hp
      obtain ⟨q, hq, hd⟩ := hn n
      have h1 := hB _ (List.mem_of_getElem? hk) Y hY n
      have h2 := abs_sub_abs_le_abs_sub (q : ℝ) (Y n)
      have h3 : |(q : ℝ)| ≤ M * ρ := by linarith
      exact ⟨q, hq, by exact_mod_cast h3⟩
    · rw [hnone r (by omega)] at hp
      cases hp
  obtain ⟨m0, rfl, e2, e3, e4⟩ := default_start hl hρ hdef
  rw [hlen] at hr
  have hN' : N = M + m0.tileSize + 1 := by rw [e3]; omega
  refine ⟨(C91_memory (by norm_num) e2 e4 hM1 (by omega) hN' hcl hr).1, fun c p hc => ?_⟩
  obtain ⟨j, hj, y, hy, hd⟩ := C92_any (by norm_num) (by norm_num) hidx e2 e4 hM1 hN' hN18 hcl
    (nm := defaultNM) (by decide +kernel) (by unfold InLimits; decide +kernel) (by decide +kernel) hr hc
  have hk : idx[j % idx.length]? = some (idx[j % idx.length]'(Nat.mod_lt _ hidx)) :=
    List.getElem?_eq_getElem (Nat.mod_lt _ hidx)
  obtain ⟨Y, hY, hn⟩ := forall₂_left (hnear _ _ hk).2 hy
  refine ⟨j, hj, _, hk, Y, hY, fun n => ?_⟩
  obtain ⟨a, b, ha, hb, hab⟩ := hd n
  obtain ⟨q, hq, hq'⟩ := hn n
  obtain rfl : b = q := hb.unique hq
  refine ⟨a, ha, ?_⟩
  have h1 : |(a : ℝ) - b| ≤ (1 / 2 + (16 * N + 8) / 2 ^ 24) * ρ := by
    rw [← Rat.cast_le (K := ℝ)] at hab
    push_cast at hab
    exact hab
  exact (abs_sub_le _ (b : ℝ) _).trans (add_le_add h1 hq')

end

section
open Kitti

/-- A folder with one recording: the window opens, there is a fair run with a relaxed flag, and in it at some moment nine
scans have been played and a point is drawn; it is less than 6 cm from one of the two points of the file. -/
example : ∃ (rs : _) (τ : _) (o : OccupancyGridMap 3 F32),
    main (parsingEnv someEnv.cos someEnv.radPerDeg someEnv.cast (@Quat.fromEuler F32 _ someTrig))
      (some (some (byteFolder [indexName 10 (ascii ".txt") 0] [indexName 10 (ascii ".bin") 0]
        (fun _ => utf8 "49 8.4 116.4 0 0 0".toList) fun _ => nearPoints))) = .ok (.window rs) ∧
    @OccupancyGridMap.default_ F32 _ 3 testedLibm = .ok o ∧
    AnyWExecution o.noiseModel rs.get rs.clouds.length o.gridMap τ ∧ AnyWFair o.noiseModel rs.get rs.clouds.length τ ∧
    ∃ i c p, (τ i).prog.workers.length = 9 ∧ (τ i).prog.tracked c = some p ∧
      ∃ Y ∈ nearRealPts, ∀ n, ∃ a, (p n).Is a ∧ |(a : ℝ) - Y n| ≤ 6 / 100 := by
  let _ := someTrig
  let _ := testedLibm
  have hl : TestedLn := by constructor <;> decide +kernel
  have hok : (⟨49, 42 / 5, 582 / 5⟩ : Place).Ok := ⟨by norm_num, by norm_num [abs_le], by norm_num [abs_le]⟩
  have hoff : (⟨49, 42 / 5, 582 / 5⟩ : Place).offset ⟨49, 42 / 5, 582 / 5⟩ = ![0, 0, 0] := by
    funext n; fin_cases n <;> simp [Place.offset]
  have hdef : ∃ o : OccupancyGridMap 3 F32, OccupancyGridMap.default_ = .ok o := by
    obtain ⟨m0, e1, -⟩ := new_empty_placed (D := 3) (ρ := 13421773 / 2 ^ 27) (r := (Fp.lit 0.1 : F32)) (by norm_num)
      (by refine ⟨by decide +kernel, ?_, ?_⟩ <;> norm_num) (t := 100) (by norm_num) (by norm_num) (Fp.lit 0 : F32)
    refine ⟨⟨m0, defaultNM⟩, ((C42_default_model hl).2.1 _).mpr ?_⟩
    unfold OccupancyGridMap.new
    rw [Verif.M.bind_eq_ok]
    exact ⟨m0, e1, rfl⟩
  obtain ⟨o, ho⟩ := hdef
  have htext : ∀ i ∈ [0], ∃ text, utf8 "49 8.4 116.4 0 0 0".toList = utf8 text ∧ (⟨49, 42 / 5, 582 / 5⟩ : Place).Ok ∧
      Says text ⟨49, 42 / 5, 582 / 5⟩ 0 0 0 := fun i _ =>
    ⟨_, rfl, hok, "49".toList, "8.4".toList, "116.4".toList, "0".toList, "0".toList, "0".toList, [],
      fields_iff.mpr (by decide +kernel), by decide +kernel, by decide +kernel, by decide +kernel, by decide +kernel,
      by decide +kernel, by decide +kernel⟩
  have hcloud : ∀ i ∈ [0], 16 ∣ nearPoints.length ∧ ∀ j < nearPoints.length / 16, ∀ n : Fin 3,
      (f32OfBits (wordAt nearPoints (16 * j + 4 * n.val))).isFin = true ∧
      |((f32OfBits (wordAt nearPoints (16 * j + 4 * n.val))).val : ℝ)| ≤ 1 := by
    have key : ∀ j < nearPoints.length / 16, ∀ n : Fin 3, (f32OfBits (wordAt nearPoints (16 * j + 4 * n.val))).isFin =
        true ∧ |(f32OfBits (wordAt nearPoints (16 * j + 4 * n.val))).val| ≤ 1 := by decide +kernel
    exact fun i _ => ⟨by decide, fun j hj n => ⟨(key j hj n).1, by exact_mod_cast (key j hj n).2⟩⟩
  have hε : (1130 / 2 ^ 24 + 1 / 2 ^ 18 : ℝ) = (1130 * 1 + 2 * 0) / 2 ^ 24 + 1 / 2 ^ 18 := by norm_num
  have hT := someTrig_accurate
  have he := C76_accurate (euler := Quat.fromEuler (F := F32)) someEnv_accurate.cos someEnv_accurate.radPerDeg
    someEnv_accurate.cast
  obtain ⟨rs, h1, hlen, h2, h3⟩ := C90_folder (w₁ := 10) (w₂ := 10) (ext := ascii ".txt") (ext' := ascii ".bin") hl hT he
    (idx := [0]) (po := [indexName 10 (ascii ".txt") 0]) (pv := [indexName 10 (ascii ".bin") 0])
    (oxtBytes := fun _ => utf8 "49 8.4 116.4 0 0 0".toList) (cloudBytes := fun _ => nearPoints)
    (place := fun _ => ⟨49, 42 / 5, 582 / 5⟩) (roll := fun _ => 0) (pitch := fun _ => 0) (yaw := fun _ => 0)
    (X := fun _ => ![0, 0, 0]) (pts := fun _ => nearRealPts)
    ⟨by simp, by decide, by simp⟩ ⟨by simp, by decide, by simp⟩ htext (by simp) hcloud (i0 := 0) rfl
    (fun i _ n => by simp only [hoff]; fin_cases n <;> simp) (by norm_num) (by norm_num) hε (fun _ => hoff.symm)
    (fun _ => nearPoints_moved.symm) (M := 30) (by norm_num) rfl (by norm_num) (K := 30)
    side_val.symm (fun _ _ => by push_cast; exact nearReal_alive)
    (fun _ _ => by push_cast; exact nearReal_rays) ho (fun _ => rfl)
  obtain ⟨τ, h4, h5⟩ := anyWFair_exists fun w hw => (h2 w hw).2.1
  obtain ⟨-, h6⟩ := h3 (fun _ => -1) (by push_cast; exact nearReal_lowest)
  obtain ⟨i, h7, h8⟩ := h6 τ h4 h5 9
  obtain ⟨rs', h1', -, h9⟩ := C92_folder (w₁ := 10) (w₂ := 10) (ext := ascii ".txt") (ext' := ascii ".bin") hl hT he
    (idx := [0]) (po := [indexName 10 (ascii ".txt") 0]) (pv := [indexName 10 (ascii ".bin") 0])
    (oxtBytes := fun _ => utf8 "49 8.4 116.4 0 0 0".toList) (cloudBytes := fun _ => nearPoints)
    (place := fun _ => ⟨49, 42 / 5, 582 / 5⟩) (roll := fun _ => 0) (pitch := fun _ => 0) (yaw := fun _ => 0)
    (X := fun _ => ![0, 0, 0]) (pts := fun _ => nearRealPts)
    ⟨by simp, by decide, by simp⟩ ⟨by simp, by decide, by simp⟩ htext (by simp) hcloud (i0 := 0) rfl
    (fun i _ n => by simp only [hoff]; fin_cases n <;> simp) (by norm_num) (by norm_num) hε (fun _ => hoff.symm)
    (fun _ => nearPoints_moved.symm) (M := 30) (by norm_num) rfl (by norm_num)
    side_val.symm (fun _ _ Y hY n => by
      have := (nearReal_alive.points Y hY n).1
      push_cast
      exact this) ho
  obtain rfl : rs = rs' := by simpa using h1.symm.trans h1'
  have e := ho
  obtain ⟨m0, rfl, -⟩ := default_start hl side_val.symm e
  obtain ⟨p, hp, -⟩ := (h8 ![4, 2, 1] (by decide)).2 (by
      simp only [geoFoldReal, List.foldl_map, near_hit]
      decide +kernel)
  obtain ⟨j, -, k, -, Y, hY, hd⟩ := (h9 _ (anyW_reach h4 i)).2 _ _ hp
  refine ⟨rs, τ, _, h1, ho, h4, h5, i, _, p, h7, hp, Y, hY, fun n => ?_⟩
  obtain ⟨a, ha, hd⟩ := hd n
  exact ⟨a, ha, hd.trans (by push_cast; norm_num)⟩

end

end Verif.Props
