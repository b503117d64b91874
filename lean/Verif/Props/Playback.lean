import Verif.Spec.Playback
import Verif.Props.VizMap
import Verif.Props.VizWitness
import Verif.Props.VizMain

/-!
# C69: from the recordings to the map and to the screen
-/

namespace Verif.Props
open Viz Spec

variable {D : ℕ} {nm : LidarNoiseModel F32} {recs : ℕ → Point D F32 × PointCloud D F32}
  {ord : ℕ → List (Verif.Cell D) → List (Verif.Cell D)} {n : ℕ} {m₀ : GridMap D F32 F32} {ρ : ℚ}

/-- How many integrations have been carried out, against the number of workers started. -/
structure Carried (k : ℕ) (s : State (GridMap D F32 F32) (Verif.Cell D) (Point D F32)) : Prop where
  le : k ≤ s.workers.length
  ge : s.workers.length ≤ k + 1
  before : ∀ (j : ℕ) pc r, s.workers[j]? = some (pc, r) → pc = .lockMap ∨ pc = .integrate → s.workers.length = k + 1
  after : ∀ (j : ℕ) pc r, s.workers[j]? = some (pc, r) → j + 1 = s.workers.length →
    pc ≠ .lockMap → pc ≠ .integrate → pc ≠ .dead → s.workers.length = k
  none : s.workers.length = 0 → k = 0

lemma Carried.same {k : ℕ} {s s' : State (GridMap D F32 F32) (Verif.Cell D) (Point D F32)} (h : Carried k s)
    (hw : s'.workers = s.workers) : Carried k s' := by
  obtain ⟨h1, h2, h3, h4, h5⟩ := h
  constructor <;> rw [hw] <;> assumption

lemma Carried.set {k : ℕ} {s s' : State (GridMap D F32 F32) (Verif.Cell D) (Point D F32)} (h : Carried k s)
    {i r : ℕ} {pc pc' : WorkerPc} (h1 : s.workers[i]? = some (pc, r))
    (hw : s'.workers = s.workers.set i (pc', r))
    (hok : pc' = .dead ∨ (pc = .lockMap ∧ pc' = .integrate) ∨
      (pc ≠ .lockMap ∧ pc ≠ .integrate ∧ pc ≠ .dead ∧ pc' ≠ .lockMap ∧ pc' ≠ .integrate)) : Carried k s' := by
  have hi := lt_of_getW h1
  have hl : s'.workers.length = s.workers.length := by rw [hw, List.length_set]
  have hget : ∀ (j : ℕ) (p : WorkerPc) (r' : ℕ), s'.workers[j]? = some (p, r') →
      j = i ∧ p = pc' ∨ s.workers[j]? = some (p, r') := by
    intro j p r' hj
    rw [hw, List.getElem?_set] at hj
    split_ifs at hj with h2
    · simp only [Option.some.injEq, Prod.mk.injEq] at hj
      exact .inl ⟨h2.symm, hj.1.symm⟩
    · exact .inr hj
  refine ⟨hl ▸ h.le, hl ▸ h.ge, fun j p r' hj hp => ?_, fun j p r' hj h3 h4 h5 h6 => ?_, hl ▸ h.none⟩
  · rw [hl]
    rcases hget j p r' hj with ⟨rfl, rfl⟩ | h2
    · rcases hok with rfl | ⟨rfl, -⟩ | ⟨-, -, -, h7, h8⟩
      · simp at hp
      · exact h.before _ _ _ h1 (.inl rfl)
      · exact absurd hp (by tauto)
    · exact h.before _ _ _ h2 hp
  · rw [hl] at h3 ⊢
    rcases hget j p r' hj with ⟨rfl, rfl⟩ | h2
    · rcases hok with rfl | ⟨-, rfl⟩ | ⟨h7, h8, h9, -, -⟩
      · exact absurd rfl h6
      · exact absurd rfl h5
      · exact h.after _ _ _ h1 h3 h7 h8 h9
    · exact h.after _ _ _ h2 h3 h4 h5 h6

/-- The scans carried out, with their number. -/
lemma playback_carried (hn : 0 < n) (ho : ∀ r, IsOrder (ord r))
    {s : State (GridMap D F32 F32) (Verif.Cell D) (Point D F32)} (hr : Reach (occOps nm recs ord) n m₀ s) :
    ∃ hist, Playback nm m₀ hist s.map ∧ hist.map (·.2) = cyclic recs n hist.length ∧ Carried hist.length s := by
  induction hr with
  | init => exact ⟨[], .start, rfl, by constructor <;> simp [Viz.init]⟩
  | step s s' hr hs ih =>
    obtain ⟨hist, p1, p2, p3⟩ := ih
    have hinv := Reach.inv hr
    have hinv' := Reach.inv (.step s s' hr hs)
    have hcyc := C54_cyclic hr hn
    cases hs
    case wIntegrate k r m h1 h2 =>
      have hlen : s.workers.length = hist.length + 1 := p3.before k _ r h1 (.inr rfl)
      have hk : k + 1 = s.workers.length := (hinv.busy k _ r h1 (by simp [Busy])).2.2
      have hrk : r = hist.length % n := by rw [hcyc.2.2 k _ r h1]; congr 1; omega
      refine ⟨hist ++ [(m, (recs r).1, (recs r).2)],
        .scan (.marks (m' := s.map.setTrackChanges true) p1 ⟨rfl, rfl, rfl, rfl⟩) (ho r) (occOps_ret h2), ?_, ?_⟩
      · simp only [List.map_append, p2, cyclic, List.length_append, List.length_singleton, List.range_succ,
          List.map_cons, List.map_nil, hrk]
      · constructor
        · simp [setW, hlen]
        · simp [setW, hlen]
        · intro j pc r' hj hpc
          exfalso
          by_cases hjk : j = k
          · subst hjk
            simp [setW, lt_of_getW h1] at hj
            rcases hpc with rfl | rfl <;> simp at hj
          · have hj' : s.workers[j]? = some (pc, r') := by
              simpa [setW, List.getElem?_set, Ne.symm hjk] using hj
            have := lt_of_getW hj'
            rcases hinv.old j pc r' hj' (by omega) with rfl | rfl <;> simp at hpc
        · intro j pc r' hj h3 h4 h5 h6
          simp [setW, hlen]
        · intro h0
          simp [setW] at h0
          rw [h0] at hlen
          simp at hlen
    case spawn h1 h2 =>
      refine ⟨hist, p1, p2, ?_⟩
      have hlen : s.workers.length = hist.length := by
        rcases Nat.eq_zero_or_pos s.workers.length with h0 | hpos
        · rw [h0, p3.none h0]
        · have hlast : s.workers[s.workers.length - 1]? = some s.workers[s.workers.length - 1] :=
            List.getElem?_eq_getElem (by omega)
          have := hinv'.old (s.workers.length - 1) _ _ (by
            simp only
            rw [List.getElem?_append_left (by omega)]
            exact hlast) (by simp; omega)
          refine p3.after _ _ _ hlast (by omega) ?_ ?_ ?_ <;> rcases this with h | h <;> rw [h] <;> decide
      constructor
      · simp [hlen]
      · simp [hlen]
      · intro j pc r _ _
        simp [hlen]
      · intro j pc r hj h3 h4
        exfalso
        simp only [List.length_append, List.length_singleton] at h3
        have hj' : j = s.workers.length := by omega
        subst hj'
        simp at hj
        exact h4 hj.1.symm
      · simp
    case wReset k r h1 =>
      exact ⟨hist, .marks p1 ⟨rfl, rfl, rfl, rfl⟩, p2, p3.set h1 rfl (by simp)⟩
    case wLockMap k r h1 h2 h3 => exact ⟨hist, p1, p2, p3.set h1 rfl (by simp)⟩
    case wLockMapPoisoned k r h1 h2 h3 => exact ⟨hist, p1, p2, p3.set h1 rfl (by simp)⟩
    case wIntegratePanic k r h1 h2 => exact ⟨hist, p1, p2, p3.set h1 rfl (by simp)⟩
    case wLockCells k r h1 h2 h3 => exact ⟨hist, p1, p2, p3.set h1 rfl (by simp)⟩
    case wLockCellsPoisoned k r h1 h2 h3 => exact ⟨hist, p1, p2, p3.set h1 rfl (by simp)⟩
    case wCopy k r h1 => exact ⟨hist, p1, p2, p3.set h1 rfl (by simp)⟩
    case wSetFlag k r h1 => exact ⟨hist, p1, p2, p3.set h1 rfl (by simp)⟩
    case wUnlock k r h1 => exact ⟨hist, p1, p2, p3.set h1 rfl (by simp)⟩
    all_goals exact ⟨hist, p1, p2, p3.same rfl⟩

/-- C69: at every moment of every run, the map is what integrating the recordings in turn, starting again after
the last, has made of the map at the start. All integrations started are carried out before the next is started. -/
theorem C69_playback (hn : 0 < n) (ho : ∀ r, IsOrder (ord r))
    {s : State (GridMap D F32 F32) (Verif.Cell D) (Point D F32)} (hr : Reach (occOps nm recs ord) n m₀ s) :
    ∃ hist, Playback nm m₀ hist s.map ∧ hist.map (·.2) = cyclic recs n hist.length ∧
      hist.length ≤ s.workers.length ∧ s.workers.length ≤ hist.length + 1 ∧
      (s.main = .clearFlag ∨ s.main = .spawn → hist.length = s.workers.length) := by
  obtain ⟨hist, p1, p2, p3⟩ := playback_carried hn ho hr
  refine ⟨hist, p1, p2, p3.le, p3.ge, fun hm => ?_⟩
  have hinv := Reach.inv hr
  rcases Nat.eq_zero_or_pos s.workers.length with h0 | hpos
  · rw [h0, p3.none h0]
  · obtain ⟨⟨pc, r⟩, hlast⟩ : ∃ x, s.workers[s.workers.length - 1]? = some x :=
      ⟨_, List.getElem?_eq_getElem (by omega)⟩
    refine (p3.after _ pc r hlast (by omega) ?_ ?_ ?_).symm
    · rintro rfl
      have := (hinv.busy _ _ _ hlast (by simp [Busy])).1
      simp [this] at hm
    · rintro rfl
      have := (hinv.busy _ _ _ hlast (by simp [Busy])).1
      simp [this] at hm
    · rintro rfl
      have := (hinv.deadW _ _ hlast).1
      simp [this] at hm

/-- C69: the values after a playback. -/
theorem C69_values (hD : D ≤ 3) {cb : CellBounds D} (hP : Placed m₀ cb ρ) {m : GridMap D F32 F32} {hist}
    (hc : ∀ s ∈ hist, CloudInRange s.2.2 ρ) (h : Playback nm m₀ hist m) :
    ∃ cb', Placed m cb' ρ ∧ ∀ w, worldValue m cb' w = (worldValue m₀ cb w).map (foldSeen nm hist w) := by
  induction h with
  | start => exact ⟨cb, hP, fun w => by cases worldValue m₀ cb w <;> rfl⟩
  | scan _ ho hi ih =>
    obtain ⟨cb1, p1, p2⟩ := ih fun s hs => hc s (List.mem_append_left _ hs)
    obtain ⟨cb2, q1, -, q3⟩ := C41_step hD p1 (hc _ (List.mem_append_right _ (List.mem_singleton_self _))) ho hi
    refine ⟨cb2, q1, fun w => ?_⟩
    rw [q3 w, p2 w]
    cases worldValue m₀ cb w with
    | error e => rfl
    | ok v => simp only [Except.map, foldSeen, List.foldl_append, List.foldl_cons, List.foldl_nil]
  | marks _ hg ih =>
    obtain ⟨cb1, p1, p2⟩ := ih hc
    obtain ⟨g1, g2, g3, g4⟩ := hg
    refine ⟨cb1, placed_of_shape p1 g3 g2 g4 (by rw [g1]), fun w => ?_⟩
    rw [← p2 w]
    unfold worldValue valueAt GridMap.get
    rw [g1]

/-- C69, for the visualizer: at every moment of every run from a map without cells, every stored cell has the value
that the scans played so far, in turn, make of zero. -/
theorem C69_map (hD : D ≤ 3) (hn : 0 < n) (h0 : Placed m₀ CellBounds.empty ρ) (ho : ∀ r, IsOrder (ord r))
    (hc : ∀ r, CloudInRange (recs r).2 ρ) {s : State (GridMap D F32 F32) (Verif.Cell D) (Point D F32)}
    (hD0 : 0 < D) (hr : Reach (occOps nm recs ord) n m₀ s) :
    ∃ hist cb, Playback nm m₀ hist s.map ∧ hist.map (·.2) = cyclic recs n hist.length ∧
      hist.length ≤ s.workers.length ∧ s.workers.length ≤ hist.length + 1 ∧
      (s.main = .clearFlag ∨ s.main = .spawn → hist.length = s.workers.length) ∧
      Placed s.map cb ρ ∧ ∀ w, InCells w cb → valueAt s.map cb w = .ok (foldSeen nm hist w (Fp.lit 0)) := by
  obtain ⟨hist, p1, p2, p3, p4, p5⟩ := C69_playback hn ho hr
  have hmem : ∀ x ∈ hist, CloudInRange x.2.2 ρ := by
    intro x hx
    have : x.2 ∈ hist.map (·.2) := List.mem_map_of_mem hx
    rw [p2] at this
    obtain ⟨k, -, hk⟩ := List.mem_map.mp this
    rw [← hk]
    exact hc _
  obtain ⟨cb, q1, q2⟩ := C69_values hD h0 hmem p1
  refine ⟨hist, cb, p1, p2, p3, p4, p5, q1, fun w hw => ?_⟩
  have := q2 w
  rw [show worldValue s.map cb w = valueAt s.map cb w from if_pos hw] at this
  rw [this]
  have : worldValue m₀ CellBounds.empty w = .ok (Fp.lit 0) := by
    refine if_neg fun h => ?_
    have := h ⟨0, hD0⟩
    simp only [CellBounds.empty] at this
    omega
  rw [this]
  rfl

/-- C69, on the screen: as long as no integration moves the lower corner of a map that has cells (`C55_reindex_refuted`
shows what happens otherwise), whenever the renderer has processed a batch, a stored cell is drawn exactly if all the
scans started so far, in turn, have taken its value from zero to above the threshold. -/
theorem C69_screen (hD : D ≤ 3) (hn : 0 < n) (h0 : Placed m₀ CellBounds.empty ρ) (ht0 : m₀.changedCells = [])
    (hth : FLe (Fp.lit 0) nm.threshold) (ho : ∀ r, IsOrder (ord r)) (hD0 : 0 < D)
    (hc : ∀ r, CloudInRange (recs r).2 ρ)
    (hfix : ∀ (s : State (GridMap D F32 F32) (Verif.Cell D) (Point D F32)) (k r : ℕ) m',
      Reach (occOps nm recs ord) n m₀ s → s.workers[k]? = some (WorkerPc.integrate, r) →
      (occOps nm recs ord).integrate r s.map = .ret m' →
      m'.bounds.min = s.map.bounds.min ∨ ∀ c, ¬ InGrid s.map c)
    {s : State (GridMap D F32 F32) (Verif.Cell D) (Point D F32)} (hr : Reach (occOps nm recs ord) n m₀ s)
    (hm : s.main = .clearFlag ∨ s.main = .spawn) :
    ∃ hist cb, Playback nm m₀ hist s.map ∧ hist.map (·.2) = cyclic recs n s.workers.length ∧
      Placed s.map cb ρ ∧ ∀ w, InCells w cb → s.tracked (localCell s.map w) =
        if nm.threshold.lt (foldSeen nm hist w (Fp.lit 0)) = true
        then some (s.map.pointFromCell (localCell s.map w)) else none := by
  obtain ⟨hist, cb, p1, p2, -, -, p5, p6, p7⟩ := C69_map hD hn h0 ho hc hD0 hr
  refine ⟨hist, cb, p1, by rw [p2, p5 hm], p6, fun w hw => ?_⟩
  have hloc : localCell s.map w = fun i => w i - cb.min i := by
    unfold localCell; rw [p6.cells]
  have hcell : MachineCell (localCell s.map w) := by
    rw [hloc]
    intro i
    have h1 := ((inCells_iff p6 w).mp hw) i
    have h2 := s.map.data.shape_le i
    change isizeMin ≤ w i - cb.min i ∧ w i - cb.min i ≤ isizeMax
    simp only at h1
    unfold isizeMin
    omega
  rw [C55_occupancy_map hD h0 ht0 hth ho hD0 hc hfix hr hm _ hcell]
  have hv : s.map.get (localCell s.map w) = .ok (foldSeen nm hist w (Fp.lit 0)) := by
    rw [hloc]; exact p7 w hw
  refine if_congr ?_ rfl rfl
  simp only [LidarNoiseModel.occupied, hv, M.bind_ok]
  exact ⟨fun h => by injection h, fun h => congrArg Except.ok h⟩

/-- The hypotheses of `C69_playback` and `C69_map` hold for the two small recordings, with a run after which the map
reports a cell occupied, so that scans have been played. -/
example : ∃ s : State (GridMap 2 F32 F32) (Verif.Cell 2) (Point 2 F32),
    Reach (occOps smallNM smallRecs fun _ => id) 2 smallMap s ∧ (s.main = .clearFlag ∨ s.main = .spawn) ∧
    Placed smallMap CellBounds.empty 1 ∧ (∀ r, CloudInRange (smallRecs r).2 1) ∧
    (∀ r : ℕ, IsOrder ((fun _ => id : ℕ → List (Verif.Cell 2) → List (Verif.Cell 2)) r)) ∧
    smallNM.occupied s.map ![7, 1] = .ok true := by
  obtain ⟨s, h1, h2, h3, -⟩ := C55_reindex_refuted
  exact ⟨s, h1, .inl h2, smallMap_placed, small_inRange, fun _ _ => List.Perm.refl _, h3⟩

/-- The hypotheses of `C69_screen` hold for a sensor that repeats the first small recording. -/
example : Placed smallMap CellBounds.empty 1 ∧ smallMap.changedCells = [] ∧ FLe (Fp.lit 0) smallNM.threshold ∧
    (∀ r : ℕ, CloudInRange ((fun _ => smallRecs 0) r).2 1) ∧
    ∀ (s : State (GridMap 2 F32 F32) (Verif.Cell 2) (Point 2 F32)) (k r : ℕ) m',
      Reach (occOps smallNM (fun _ => smallRecs 0) fun _ => id) 2 smallMap s →
      s.workers[k]? = some (WorkerPc.integrate, r) →
      (occOps smallNM (fun _ => smallRecs 0) fun _ => id).integrate r s.map = .ret m' →
      m'.bounds.min = s.map.bounds.min ∨ ∀ c, ¬ InGrid s.map c :=
  ⟨smallMap_placed, rfl, by decide +kernel, fun _ => small_inRange 0,
    extent_fix (by norm_num) smallMap_placed (fun _ _ => List.Perm.refl _) (by norm_num) (fun _ => small_inRange 0)
      fun _ => rfl⟩

section
open Kitti
variable {P : Type} [LinearOrder P] {env : OxtEnv F64 F32 (Quat F32)} {d : Folder P} {po pv so sv : List P}

/-- C69, from the folder: if the program opens its window on a folder, then at every moment of every run the map is
made, from zero, by the files of the folder in the order of their names, over and over: scan number `j` has the
sensor at the pose of the file number `j mod n` of the one subfolder, and the points of file number `j mod n` of the
other, transformed by that pose. -/
theorem C69_folder {nm : LidarNoiseModel F32} {ord : ℕ → List (Verif.Cell 3) → List (Verif.Cell 3)}
    {m₀ : GridMap 3 F32 F32} (hso : SortedListing so po) (hsv : SortedListing sv pv)
    (h1 : d.oxts = .ok (po.map .ok)) (h2 : d.velodyne = .ok (pv.map .ok)) {rs : Recordings}
    (h : main env (some (some d)) = .ok (.window rs)) (hn : 0 < po.length)
    (h0 : Placed m₀ CellBounds.empty ρ) (ho : ∀ r, IsOrder (ord r))
    (hc : ∀ r < po.length, CloudInRange (rs.get r).2 ρ)
    {s : State (GridMap 3 F32 F32) (Verif.Cell 3) (Point 3 F32)}
    (hr : Reach (occOps nm rs.get ord) rs.clouds.length m₀ s) :
    ∃ hist cb, Playback nm m₀ hist s.map ∧ hist.length ≤ s.workers.length ∧ s.workers.length ≤ hist.length + 1 ∧
      (∀ (j : ℕ) m1 origin cloud, hist[j]? = some (m1, origin, cloud) →
        ∃ p q text fix rot bytes pose, so[j % po.length]? = some p ∧ sv[j % po.length]? = some q ∧
          d.oxtFile p = .ok text ∧ Record env text fix rot ∧ pose.rotation = rot ∧
          rs.poses[j % po.length]? = some pose ∧ d.velodyneFile q = .ok bytes ∧
          origin = pose.translation ∧ cloud.points = fileCloud bytes pose) ∧
      Placed s.map cb ρ ∧ ∀ w, InCells w cb → valueAt s.map cb w = .ok (foldSeen nm hist w (Fp.lit 0)) := by
  obtain ⟨-, l2, hrec⟩ := C60_recordings hso hsv h1 h2 h
  have hlen : po.length = pv.length := ((C60_window_iff (env := env) h1 h2).1.mp ⟨rs, h⟩).2.2
  have hc' : ∀ r, CloudInRange (rs.get r).2 ρ := by
    intro r
    by_cases hr : r < po.length
    · exact hc r hr
    · intro p hp
      have : rs.clouds[r]? = none := List.getElem?_eq_none (by omega)
      simp only [Recordings.get, this, Option.getD_none, C13_points_fromPoints] at hp
      cases hp
  rw [l2] at hr
  obtain ⟨hist, cb, p1, p2, p3, p4, -, p6, p7⟩ := C69_map (by norm_num) hn h0 ho hc' (by norm_num) hr
  refine ⟨hist, cb, p1, p3, p4, fun j m1 origin cloud hj => ?_, p6, p7⟩
  have e : rs.get (j % po.length) = (origin, cloud) := by
    have a : (hist.map (·.2))[j]? = some (origin, cloud) := by rw [List.getElem?_map, hj]; rfl
    rw [p2] at a
    have hjl : j < hist.length := by
      by_contra hc
      rw [List.getElem?_eq_none (by omega)] at hj
      cases hj
    simpa [cyclic, hjl] using a
  have hmod := Nat.mod_lt j hn
  obtain ⟨p, hp⟩ : ∃ p, so[j % po.length]? = some p :=
    ⟨_, List.getElem?_eq_getElem (by rw [hso.1.length_eq]; exact hmod)⟩
  obtain ⟨q, hq⟩ : ∃ q, sv[j % po.length]? = some q :=
    ⟨_, List.getElem?_eq_getElem (by rw [hsv.1.length_eq]; omega)⟩
  obtain ⟨text, fix, rot, -, -, -, -, bytes, pose, a1, a2, -, -, -, a6, -, a8, a9, -, a11, a12⟩ := hrec _ p q hp hq
  refine ⟨p, q, text, fix, rot, bytes, pose, hp, hq, a1, a2, a9, a8, a6, ?_, ?_⟩
  · rw [← a11, e]
  · rw [← a12, e]

lemma odd_points (t : F32) (ht : t = Fp.lit 0 ∨ t = Fp.lit 1) :
    (fileCloud (List.replicate 16 0) ⟨fun _ => t, ⟨Fp.lit 1, Fp.lit 0, Fp.lit 0, Fp.lit 0⟩⟩).map
      (fun p => [p 0, p 1, p 2]) = [[t, t, t]] := by
  rcases ht with rfl | rfl
  · decide +kernel
  · decide +kernel

/-- The hypotheses of `C69_folder` hold for the folder of C60, with one point in each cloud. -/
example : ∃ (rs : Recordings) (m₀ : GridMap 3 F32 F32), main oneEnv (some (some oddFolder)) = .ok (.window rs) ∧
    SortedListing [1, 2] [2, 1] ∧ SortedListing [2, 3] [2, 3] ∧ Placed m₀ CellBounds.empty 1 ∧
    ∀ r < 2, (rs.get r).2.points ≠ [] ∧ CloudInRange (rs.get r).2 1 := by
  obtain ⟨rs, h, h1, h2, -⟩ := C60_names_not_checked
  obtain ⟨m₀, -, hP⟩ := new_empty_placed (D := 3) (by norm_num) (r := Fp.lit 1) (ρ := 1)
    ⟨by decide +kernel, by norm_num, by norm_num⟩ (t := 4) (by norm_num) (by norm_num) (Fp.lit 0 : F32)
  refine ⟨rs, m₀, h, h1, h2, hP, fun r hr => ?_⟩
  obtain ⟨-, -, hrec⟩ := C60_recordings (env := oneEnv) (d := oddFolder) h1 h2 rfl rfl h
  have key : ∃ t : F32, (t = Fp.lit 0 ∨ t = Fp.lit 1) ∧
      (rs.get r).2.points.map (fun p => [p 0, p 1, p 2]) = [[t, t, t]] := by
    obtain ⟨p, q, hp, hq⟩ : ∃ p q, ([1, 2] : List ℕ)[r]? = some p ∧ ([2, 3] : List ℕ)[r]? = some q := by
      match r, hr with
      | 0, _ => exact ⟨_, _, rfl, rfl⟩
      | 1, _ => exact ⟨_, _, rfl, rfl⟩
    obtain ⟨text, fix, rot, -, -, fix0, -, bytes, pose, -, a2, -, -, -, a6, -, -, a9, a10, -, a12⟩ := hrec r p q hp hq
    cases a6
    obtain ⟨_, _, _, _, _, _, _, _, _, _, -, -, -, -, -, -, -, e⟩ := a2
    rw [a12]
    obtain ⟨tr, ro⟩ := pose
    simp only at a9 a10
    rw [a9, e]
    have : ∃ t : F32, (t = Fp.lit 0 ∨ t = Fp.lit 1) ∧ tr = fun _ => t := by
      rw [a10]
      split_ifs
      · exact ⟨_, .inl rfl, rfl⟩
      · exact ⟨_, .inr rfl, funext fun i => by fin_cases i <;> rfl⟩
    obtain ⟨t, ht, rfl⟩ := this
    exact ⟨t, ht, odd_points t ht⟩
  obtain ⟨t, ht, hk⟩ := key
  refine ⟨fun h => (by rw [h] at hk; cases hk), fun p hp i => ?_⟩
  have hm := List.mem_map_of_mem (f := fun p : Point 3 F32 => [p 0, p 1, p 2]) hp
  rw [hk, List.mem_singleton] at hm
  simp only [List.cons.injEq, and_true] at hm
  have hi : p i = t := by
    fin_cases i
    · exact hm.1
    · exact hm.2.1
    · exact hm.2.2
  rw [hi]
  rcases ht with rfl | rfl
  · exact ⟨0, by decide +kernel, by norm_num⟩
  · exact ⟨1, by decide +kernel, by norm_num⟩

end

end Verif.Props
