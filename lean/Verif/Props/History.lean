import Verif.Props.Limits

/-!
# C41: the map is the fold of the observations of each world cell
-/

namespace Verif.Props
open Spec

variable {D : ℕ} {nm : LidarNoiseModel F32} {m m' : GridMap D F32 F32} {cb : CellBounds D} {ρ : ℚ}
  {origin : Point D F32} {cloud : PointCloud D F32} {ord : List (Cell D) → List (Cell D)}

/-- The bounds of an in-range cloud are an in-range request. -/
lemma request_of_cloud (hρ : 0 < ρ) (hc : CloudInRange cloud ρ) : Request cloud.bounds ρ := by
  have key : ∀ (ps : List (Point D F32)) (b : Bounds D F32) (i : Fin D) (P : F32 → Prop),
      P (b.min i) → P (b.max i) → (∀ p ∈ ps, P (p i)) →
      P ((ps.foldl PointCloud.boundsStep b).min i) ∧ P ((ps.foldl PointCloud.boundsStep b).max i) := by
    intro ps
    induction ps with
    | nil => intro b i P h1 h2 _; exact ⟨h1, h2⟩
    | cons p ps ih =>
      intro b i P h1 h2 h3
      have hp := h3 p List.mem_cons_self
      refine ih (PointCloud.boundsStep b p) i P ?_ ?_ fun q hq => h3 q (List.mem_cons_of_mem _ hq)
      · unfold PointCloud.boundsStep; dsimp only; split_ifs <;> assumption
      · unfold PointCloud.boundsStep; dsimp only; split_ifs <;> assumption
  intro i
  have hz : ∃ x, (Fp.lit 0 : F32).Is x ∧ |x| ≤ 2 ^ 18 * ρ :=
    ⟨0, F32.zero_is, by rw [abs_zero]; positivity⟩
  obtain ⟨⟨x, hx, hx'⟩, ⟨y, hy, hy'⟩⟩ := key cloud.points Bounds.empty i
    (fun v => ∃ x, v.Is x ∧ |x| ≤ 2 ^ 18 * ρ) hz hz fun p hp => hc p hp i
  exact ⟨x, y, hx, hy, (Fp.FLe_is hx hy).mp ((C14_bounds_ordered cloud).1 i), hx', hy'⟩

/-- A new map over empty bounds stores the empty box. -/
lemma new_empty_placed {A : Type} (hD : D ≤ 3) {r : F32} (hr : Res r ρ) {t : ℕ} (ht : 1 ≤ t)
    (ht' : t ≤ 2 ^ 17) (v : A) :
    ∃ m : GridMap D F32 A, GridMap.new r Bounds.empty t v = .ok m ∧ Placed m CellBounds.empty ρ := by
  have e : Bounds.fromCellBounds CellBounds.empty r = (Bounds.empty : Bounds D F32) := by
    have hpos := hr.pos
    obtain ⟨nz, h1, h2, rfl⟩ := hr.1
    have hnz : nz = false := by
      rw [Bool.eq_false_iff]; intro h; exact hpos.ne' (h2 h)
    have hz : pointCoordFromCellCoord 0 (Fp.lit 0) (Fp.fin ρ nz h1 h2 : F32) = Fp.lit 0 := by
      subst hnz
      change ((Fp.ofInt 0 : F32).mul (Fp.fin ρ false h1 h2)).add (Fp.lit 0) = Fp.lit 0
      have e0 : (Fp.ofInt 0 : F32) = Fp.lit 0 := by decide +kernel
      have e1 : (Fp.lit 0 : F32) = .fin 0 false Fmt.rep_zero (by simp) := by decide +kernel
      have e2 : (Fp.lit 0 : F32).mul (Fp.fin ρ false h1 h2) = Fp.lit 0 := by
        conv_lhs => rw [e1]
        simp only [Fp.mul, zero_mul, Fp.lit]
        congr 1
        simp [Fp.sgn, hpos.le]
      rw [e0, e2]
      decide +kernel
    ext i
    · exact hz
    · exact hz
  obtain ⟨m, h1, h2, -⟩ := C32_new_placed hD hr CellBounds.empty ht ht' (fun _ => le_rfl)
    (fun _ => by simp [CellBounds.empty]) v
  rw [e] at h1
  exact ⟨m, h1, h2⟩

lemma placed_of_shape {A : Type} {m m' : GridMap D F32 A} (hP : Placed m cb ρ)
    (h1 : m'.resolution = m.resolution)
    (h2 : m'.bounds = m.bounds) (h3 : m'.tileSize = m.tileSize) (h4 : m'.data.shape = m.data.shape) :
    Placed m' cb ρ := by
  obtain ⟨p1, p2, p3, p4, p5, p6, p7, p8⟩ := hP
  refine ⟨by rw [h1]; exact p1, by rw [h1, h2]; exact p2, p3, by rw [h4]; exact p4,
    by rw [h3]; exact p5, by rw [h3]; exact p6, by rw [h3]; exact p7, by rw [h3]; exact p8⟩

lemma seen_eq {F : Type} [Scalar F] {o : Point D F} {cloud : PointCloud D F} {b : Bounds D F}
    {r ml : F} {free occ}
    (h : CastsRays o cloud b r ml free occ) (c : Cell D) :
    (c ∈ occ → seen o cloud b r ml c = .hit) ∧ (c ∈ free → seen o cloud b r ml c = .miss) ∧
    (c ∉ free → c ∉ occ → seen o cloud b r ml c = .nothing) := by
  have h1 := C28_occupied h c
  have h2 := C28_free h c
  unfold seen
  refine ⟨fun hc => if_pos (h1.mp hc), fun hc => ?_, fun hf ho => ?_⟩
  · obtain ⟨h3, h4⟩ := h2.mp hc
    rw [if_neg fun h' => h4 (h1.mpr h'), if_pos h3]
  · rw [if_neg fun h' => ho (h1.mpr h'), if_neg fun h' => hf (h2.mpr ⟨h', ho⟩)]

/-- The value of a world cell: what the map stores, or the default for a cell not stored. -/
def worldValue (m : GridMap D F32 F32) (cb : CellBounds D) (w : Cell D) : M F32 :=
  if InCells w cb then valueAt m cb w else .ok (Fp.lit 0)

lemma inCells_iff {A : Type} {m : GridMap D F32 A} (hP : Placed m cb ρ) (w : Cell D) :
    InCells w cb ↔ InGrid m fun i => w i - cb.min i := by
  refine forall_congr' fun i => ?_
  have := hP.shape i
  change _ ↔ 0 ≤ w i - cb.min i ∧ w i - cb.min i < _
  omega

/-- C41, one step: the map stays placed, grows, and the value of every world cell is updated according to
what the scan tells about it. -/
theorem C41_step (hD : D ≤ 3) (hP : Placed m cb ρ) (hc : CloudInRange cloud ρ) (ho : IsOrder ord)
    (h : Integrates ord nm m origin cloud m') :
    ∃ cb', Placed m' cb' ρ ∧ (∀ w, InCells w cb → InCells w cb') ∧
      ∀ w, worldValue m' cb' w = (worldValue m cb w).map fun v =>
        Seen.apply nm v (seen origin cloud m'.bounds m'.resolution nm.maxRange (localCell m' w)) := by
  obtain ⟨me, free, occ, h1, h2, h3, h4, h5, h6, h7, h8, h9, h10⟩ := C38_integrate ho h
  obtain ⟨me', ncb, e1, -, e2, e3, e4⟩ := expand_spec hD hP (request_of_cloud hP.res.pos hc)
    (Fp.lit 0 : F32)
  rw [h1] at e1
  cases e1
  have hP' : Placed m' ncb ρ := placed_of_shape e2 h7 h6 h8 h10
  obtain ⟨k1, k2⟩ := castsRays_machine h2
  refine ⟨ncb, hP', fun w hw => (e3 w hw).1, fun w => ?_⟩
  have hloc : localCell m' w = fun i => w i - ncb.min i := by
    unfold localCell; rw [hP'.cells]
  rw [h6, h7, hloc]
  obtain ⟨s1, s2, s3⟩ := seen_eq h2 fun i => w i - ncb.min i
  -- the expanded map holds the value of the world cell
  have hexp : ∀ w, InCells w ncb → valueAt me ncb w = worldValue m cb w := by
    intro w hw
    unfold worldValue
    split_ifs with hwc
    · exact (e3 w hwc).2
    · exact e4 w hw hwc
  by_cases hw : InCells w ncb
  · have hmc : MachineCell fun i => w i - ncb.min i := by
      intro i
      have h1 := ((inCells_iff e2 w).mp hw) i
      have h2 := me.data.shape_le i
      change isizeMin ≤ w i - ncb.min i ∧ w i - ncb.min i ≤ isizeMax
      simp only at h1
      unfold isizeMin
      omega
    have hl : worldValue m' ncb w = valueAt m' ncb w := if_pos hw
    rw [hl, ← hexp w hw]
    by_cases hcf : (fun i => w i - ncb.min i) ∈ free
    · obtain ⟨v, hv, hv'⟩ := h3 _ hcf
      unfold valueAt
      rw [hv, hv', s2 hcf]; rfl
    · by_cases hco : (fun i => w i - ncb.min i) ∈ occ
      · obtain ⟨v, hv, hv'⟩ := h4 _ hco
        unfold valueAt
        rw [hv, hv', s1 hco]; rfl
      · unfold valueAt
        rw [h5 _ hmc hcf hco, s3 hcf hco]
        cases me.get fun i => w i - ncb.min i <;> rfl
  · have hl : worldValue m' ncb w = .ok (Fp.lit 0) := if_neg hw
    have hr : worldValue m cb w = .ok (Fp.lit 0) := if_neg fun h => hw (e3 w h).1
    have hng : ¬ InGrid me fun i => w i - ncb.min i := fun h => hw ((inCells_iff e2 w).mpr h)
    have hgrid : ∀ c v, MachineCell c → me.get c = .ok v → InGrid me c := by
      intro c v hcm hv
      by_contra hn
      rw [(C31_get me hcm).2 hn] at hv; cases hv
    rw [hl, hr, s3]
    · rfl
    · intro hcf
      obtain ⟨v, hv, -⟩ := h3 _ hcf
      exact hng (hgrid _ v (k1 _ hcf) hv)
    · intro hco
      obtain ⟨v, hv, -⟩ := h4 _ hco
      exact hng (hgrid _ v (k2 _ hco) hv)

/-- C41: after any sequence of integrations of in-range clouds that did not panic, the value of every world
cell is its starting value, updated once for each scan, in order, by what the scan told about the cell. -/
theorem C41_history (hD : D ≤ 3) (hP : Placed m cb ρ) {hist} (hc : ∀ s ∈ hist, CloudInRange s.2.2 ρ)
    (h : History nm m hist m') :
    ∃ cb', Placed m' cb' ρ ∧ ∀ w, worldValue m' cb' w = (worldValue m cb w).map fun v =>
      hist.foldl (fun v s => Seen.apply nm v
        (seen s.2.1 s.2.2 s.1.bounds s.1.resolution nm.maxRange (localCell s.1 w))) v := by
  induction h generalizing cb with
  | done m => exact ⟨cb, hP, fun w => by cases worldValue m cb w <;> rfl⟩
  | step ho h1 _ ih =>
    obtain ⟨cb1, p1, -, p3⟩ := C41_step hD hP (hc _ List.mem_cons_self) ho h1
    obtain ⟨cb2, q1, q2⟩ := ih p1 fun s hs => hc s (List.mem_cons_of_mem _ hs)
    refine ⟨cb2, q1, fun w => ?_⟩
    rw [q2 w, p3 w]
    cases worldValue _ cb w <;> rfl

/-- C41: starting from a new occupancy map, the value stored for a world cell is the fold, from zero, of
what the scans told about it. -/
theorem C41_from_new (hD0 : 0 < D) (hD : D ≤ 3) {r : F32} {t : ℕ} {o : OccupancyGridMap D F32} (hr : Res r ρ)
    (ht : 1 ≤ t) (ht' : t ≤ 2 ^ 17) (ho : OccupancyGridMap.new nm r t = .ok o) {hist}
    (hc : ∀ s ∈ hist, CloudInRange s.2.2 ρ) (h : History nm o.gridMap hist m') :
    ∃ cb', Placed m' cb' ρ ∧ ∀ w, InCells w cb' → valueAt m' cb' w = .ok
      (hist.foldl (fun v s => Seen.apply nm v
        (seen s.2.1 s.2.2 s.1.bounds s.1.resolution nm.maxRange (localCell s.1 w))) (Fp.lit 0)) := by
  obtain ⟨m0, h1, h2⟩ := new_empty_placed hD hr ht ht' (Fp.lit 0 : F32)
  unfold OccupancyGridMap.new at ho
  rw [M.bind_eq_ok] at ho
  obtain ⟨g, hg, ho⟩ := ho
  cases ho
  have e : GridMap.new r Bounds.empty t (Fp.lit 0 : F32) = .ok g := hg
  rw [h1] at e
  cases e
  obtain ⟨cb', p1, p2⟩ := C41_history hD h2 hc h
  refine ⟨cb', p1, fun w hw => ?_⟩
  have := p2 w
  unfold worldValue at this
  rw [if_pos hw] at this
  rw [this]
  split_ifs with hin
  · have := hin ⟨0, hD0⟩
    simp only [CellBounds.empty] at this
    omega
  · rfl

/-- A scan that can be integrated into a new map (tiles of 4 × 4 cells of size 1). -/
example : ∃ (o : OccupancyGridMap 2 F32) (m1 : GridMap 2 F32 F32),
    OccupancyGridMap.new defaultNM (Fp.lit 1) 4 = .ok o ∧
    History defaultNM o.gridMap [(m1, ![Fp.lit 0, Fp.lit 1],
      PointCloud.fromPoints [![Fp.lit 2, Fp.lit 1], ![Fp.lit 1, Fp.lit (-2)]])] m1 := by
  have h : (do
      let o : OccupancyGridMap 2 F32 ← OccupancyGridMap.new defaultNM (Fp.lit 1) 4
      let _ ← defaultNM.integratePointCloud id 10 o.gridMap ![Fp.lit 0, Fp.lit 1]
        (PointCloud.fromPoints [![Fp.lit 2, Fp.lit 1], ![Fp.lit 1, Fp.lit (-2)]])
      return ()) = Except.ok () := by decide +kernel
  rw [M.bind_eq_ok] at h
  obtain ⟨o, h1, h⟩ := h
  rw [M.bind_eq_ok] at h
  obtain ⟨m1, h2, -⟩ := h
  exact ⟨o, m1, h1, .step (fun l => .refl l) ⟨10, h2⟩ (.done m1)⟩

/-- Its points are in range, as is the resolution. -/
example : Res (Fp.lit 1 : F32) 1 ∧ CloudInRange (PointCloud.fromPoints [![Fp.lit 2, Fp.lit 1],
    ![Fp.lit 1, Fp.lit (-2)]] : PointCloud 2 F32) 1 := by
  refine ⟨⟨by decide +kernel, by norm_num, by norm_num⟩, ?_⟩
  intro p hp
  rw [C13_points_fromPoints] at hp
  intro i
  rcases List.mem_cons.mp hp with rfl | hp
  · refine ⟨![2, 1] i, ?_, ?_⟩ <;> revert i <;> decide +kernel
  · rw [List.mem_singleton] at hp
    subst hp
    refine ⟨![1, -2] i, ?_, ?_⟩ <;> revert i <;> decide +kernel

end Verif.Props
