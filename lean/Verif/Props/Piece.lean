import Verif.Spec.Piece
import Verif.Props.CastRays
import Verif.Props.OccMap
import Verif.Props.Order

/-!
# C121: what has been seen is one piece
-/

namespace Verif.Props
open Scalar Spec

section
variable {D : ℕ}

lemma adjacent_symm {a b : Cell D} (h : Adjacent a b) : Adjacent b a := by
  obtain ⟨i, h1, h2⟩ := h
  exact ⟨i, by rw [abs_sub_comm]; exact h1, fun j hj => (h2 j hj).symm⟩

lemma linked_symm {S : Set (Cell D)} {a b : Cell D} (h : LinkedIn S a b) : LinkedIn S b a := by
  induction h with
  | refl => exact .refl
  | tail _ h ih => exact .head ⟨h.2.1, h.1, adjacent_symm h.2.2⟩ ih

lemma linked_mono {S T : Set (Cell D)} (hST : S ⊆ T) {a b : Cell D} (h : LinkedIn S a b) : LinkedIn T a b := by
  induction h with
  | refl => exact .refl
  | tail _ h ih => exact .tail ih ⟨hST h.1, hST h.2.1, h.2.2⟩

lemma onePiece_of {S : Set (Cell D)} {o : Cell D} (h : ∀ c ∈ S, LinkedIn S o c) : OnePiece S := fun a ha b hb =>
  (linked_symm (h a ha)).trans (h b hb)

lemma onePiece_union {S T : Set (Cell D)} (hS : OnePiece S) (hT : OnePiece T) {x : Cell D} (h1 : x ∈ S) (h2 : x ∈ T) :
    OnePiece (S ∪ T) := onePiece_of (o := x) fun c hc => by
  rcases hc with hc | hc
  · exact linked_mono Set.subset_union_left (hS x h1 c hc)
  · exact linked_mono Set.subset_union_right (hT x h2 c hc)

lemma linked_chain {S : Set (Cell D)} {l : List (Cell D)} (hne : l ≠ []) (hl : List.IsChain Adjacent l)
    (hS : ∀ c ∈ l, c ∈ S) : ∀ c ∈ l, LinkedIn S (l.head hne) c := by
  induction l with
  | nil => exact absurd rfl hne
  | cons a l ih =>
    intro c hc
    rcases List.mem_cons.mp hc with rfl | hc
    · exact .refl
    · have hl0 : l ≠ [] := List.ne_nil_of_mem hc
      have h1 := ih hl0 hl.tail (fun c hc => hS c (List.mem_cons_of_mem _ hc)) c hc
      refine .head ⟨hS a List.mem_cons_self, hS _ (List.mem_cons_of_mem _ (List.head_mem hl0)), ?_⟩ h1
      cases l with
      | nil => exact absurd rfl hl0
      | cons b l => exact (List.isChain_cons_cons.mp hl).1
end

section
variable {F : Type} [Scalar F] {D : ℕ} {origin end_ : Point D F} {bounds : Bounds D F} {res ml : F} {ray : List (Cell D)}
  {e : Option (Cell D)} {cloud : PointCloud D F} {free occ : List (Cell D)}

lemma mem_told {c : Cell D} : c ∈ told origin cloud bounds res ml ↔
    ∃ p ∈ cloud.points, ∃ ray e, Casts origin p bounds res ml ray e ∧ (c ∈ ray ∨ e = some c) := by
  show seen _ _ _ _ _ _ ≠ _ ↔ _
  unfold seen
  split_ifs with h1 h2
  · obtain ⟨p, hp, ray, hc⟩ := h1
    exact ⟨fun _ => ⟨p, hp, ray, _, hc, .inr rfl⟩, fun _ => nofun⟩
  · obtain ⟨p, hp, ray, e, hc, hm⟩ := h2
    exact ⟨fun _ => ⟨p, hp, ray, e, hc, .inl hm⟩, fun _ => nofun⟩
  · refine ⟨fun h => absurd rfl h, ?_⟩
    rintro ⟨p, hp, ray, e, hc, hm | rfl⟩
    · exact absurd ⟨p, hp, ray, e, hc, hm⟩ h2
    · exact absurd ⟨p, hp, ray, hc⟩ h1

variable [ScalarLaws F]

/-- C121, one ray: its cells, with that of the end if reported, are linked to the cell of the sensor, which is one of
them. -/
theorem C121_ray (h : Casts origin end_ bounds res ml ray e) {S : Set (Cell D)} (hS : ∀ c, c ∈ ray ∨ e = some c → c ∈ S) :
    cellFromPoint origin bounds.min res ∈ S ∧
      ∀ c, c ∈ ray ∨ e = some c → LinkedIn S (cellFromPoint origin bounds.min res) c := by
  by_cases hne : ray = []
  · subst hne
    obtain ⟨h1, h2⟩ := C16_empty_ray h
    rw [← h1] at h2
    refine ⟨hS _ (.inr h2), fun c hc => ?_⟩
    rcases hc with hc | hc
    · cases hc
    · rw [h2] at hc
      cases hc
      exact .refl
  · obtain ⟨h1, h2, h3⟩ := C17_connected h hne
    have hk := linked_chain hne h2 fun c hc => hS c (.inl hc)
    rw [h1] at hk
    refine ⟨h1 ▸ hS _ (.inl (List.head_mem hne)), fun c hc => ?_⟩
    rcases hc with hc | hc
    · exact hk c hc
    · exact .tail (hk _ (List.getLast_mem hne)) ⟨hS _ (.inl (List.getLast_mem hne)), hS c (.inr hc), h3 c hc⟩

/-- C121, one scan: the cells about which it tells something are one piece; if there are any, the cell of the sensor is
among them. -/
theorem C121_scan : OnePiece (told origin cloud bounds res ml) ∧
    ((told origin cloud bounds res ml).Nonempty →
      cellFromPoint origin bounds.min res ∈ told origin cloud bounds res ml) := by
  constructor
  · refine onePiece_of (o := cellFromPoint origin bounds.min res) fun c hc => ?_
    obtain ⟨p, hp, ray, e, hr, hm⟩ := mem_told.mp hc
    exact (C121_ray hr fun c hc => mem_told.mpr ⟨p, hp, ray, e, hr, hc⟩).2 c hm
  · rintro ⟨c, hc⟩
    obtain ⟨p, hp, ray, e, hr, -⟩ := mem_told.mp hc
    exact (C121_ray hr fun c hc => mem_told.mpr ⟨p, hp, ray, e, hr, hc⟩).1

/-- C121 for the two sets that `cast_rays` returns: together they are one piece. -/
theorem C121_cast_rays (h : CastsRays origin cloud bounds res ml free occ) : OnePiece {c | c ∈ free ∨ c ∈ occ} := by
  have : {c | c ∈ free ∨ c ∈ occ} = told origin cloud bounds res ml := by
    ext c
    show c ∈ free ∨ c ∈ occ ↔ _
    rw [mem_told, C28_free h, C28_occupied h]
    constructor
    · rintro (⟨⟨p, hp, ray, e, hr, hm⟩, -⟩ | ⟨p, hp, ray, hr⟩)
      · exact ⟨p, hp, ray, e, hr, .inl hm⟩
      · exact ⟨p, hp, ray, _, hr, .inr rfl⟩
    · rintro ⟨p, hp, ray, e, hr, hm⟩
      by_cases ho : ∃ p ∈ cloud.points, ∃ ray, Casts origin p bounds res ml ray (some c)
      · exact .inr ho
      · rcases hm with hm | rfl
        · exact .inl ⟨⟨p, hp, ray, e, hr, hm⟩, ho⟩
        · exact absurd ⟨p, hp, ray, hr⟩ ho
  rw [this]
  exact C121_scan.1

variable {nm : LidarNoiseModel F} {hist : List (OccupancyGridMap D F × Point D F × PointCloud D F)}

omit [ScalarLaws F] in
/-- A set of world cells is one piece if the indices of its cells in a map are. -/
lemma onePiece_world {m : GridMap D F F} {S : Set (Cell D)} (h : OnePiece S) : OnePiece {w | localCell m w ∈ S} := by
  have back : ∀ c, localCell m (fun i => c i + (CellBounds.fromBounds m.bounds m.resolution).min i) = c := fun c => by
    funext i
    exact add_sub_cancel_right _ _
  have back' : ∀ w, (fun i => localCell m w i + (CellBounds.fromBounds m.bounds m.resolution).min i) = w := fun w => by
    funext i
    exact sub_add_cancel _ _
  intro a ha b hb
  have := h _ ha _ hb
  have h2 := this.lift (p := fun a b => a ∈ {w | localCell m w ∈ S} ∧ b ∈ {w | localCell m w ∈ S} ∧ Adjacent a b)
    (fun c i => c i + (CellBounds.fromBounds m.bounds m.resolution).min i) fun x y hxy => by
      refine ⟨by show localCell _ _ ∈ S; rw [back]; exact hxy.1, by show localCell _ _ ∈ S; rw [back]; exact hxy.2.1, ?_⟩
      obtain ⟨i, h1, h2⟩ := hxy.2.2
      exact ⟨i, by rw [add_sub_add_right_eq_sub]; exact h1, fun j hj => congrArg (· + _) (h2 j hj)⟩
  have h3 : LinkedIn {w | localCell m w ∈ S}
      (fun i => localCell m a i + (CellBounds.fromBounds m.bounds m.resolution).min i)
      (fun i => localCell m b i + (CellBounds.fromBounds m.bounds m.resolution).min i) := h2
  rwa [back', back'] at h3

omit [ScalarLaws F] in
lemma toldWorld_append {e : OccupancyGridMap D F × Point D F × PointCloud D F} : toldWorld nm (hist ++ [e]) =
    toldWorld nm hist ∪ {w | localCell e.1.gridMap w ∈ told e.2.1 e.2.2 e.1.gridMap.bounds e.1.gridMap.resolution nm.maxRange} := by
  ext w
  constructor
  · rintro ⟨e', he, hw⟩
    rcases List.mem_append.mp he with he | he
    · exact .inl ⟨e', he, hw⟩
    · rw [List.mem_singleton.mp he] at hw
      exact .inr hw
  · rintro (⟨e', he, hw⟩ | hw)
    · exact ⟨e', List.mem_append_left _ he, hw⟩
    · exact ⟨e, List.mem_append_right _ (List.mem_singleton_self _), hw⟩

/-- C121, a drive: if each scan but the first is taken from a cell about which an earlier one told something, then the
world cells about which any scan told something are one piece. -/
theorem C121_drive (h : KnownSensors nm hist) : OnePiece (toldWorld nm hist) := by
  induction hist using List.reverseRecOn with
  | nil =>
    rintro a ⟨e, he, -⟩
    cases he
  | append_singleton hist e ih =>
    have h1 : KnownSensors nm hist := fun before e' after he hb =>
      h before e' (after ++ [e]) (by rw [he]; simp) hb
    have h2 : OnePiece {w | localCell e.1.gridMap w ∈ told e.2.1 e.2.2 e.1.gridMap.bounds e.1.gridMap.resolution nm.maxRange} :=
      onePiece_world C121_scan.1
    rw [toldWorld_append]
    by_cases hh : hist = []
    · subst hh
      have : toldWorld nm ([] : List (OccupancyGridMap D F × Point D F × PointCloud D F)) = ∅ := by
        ext w
        refine ⟨?_, nofun⟩
        rintro ⟨e, he, -⟩
        cases he
      rw [this, Set.empty_union]
      exact h2
    · obtain ⟨w, hw, hs⟩ := h hist e [] rfl hh
      by_cases hn : (told e.2.1 e.2.2 e.1.gridMap.bounds e.1.gridMap.resolution nm.maxRange).Nonempty
      · refine onePiece_union (ih h1) h2 hw ?_
        show localCell e.1.gridMap w ∈ told _ _ _ _ _
        rw [show localCell e.1.gridMap w = _ from hs]
        exact C121_scan.2 hn
      · have : {w | localCell e.1.gridMap w ∈ told e.2.1 e.2.2 e.1.gridMap.bounds e.1.gridMap.resolution nm.maxRange} = ∅ := by
          ext w
          exact ⟨fun hw => hn ⟨_, hw⟩, nofun⟩
        rw [this, Set.union_empty]
        exact ih h1
end

section
variable {D : ℕ} {nm : LidarNoiseModel F32} {o o' : OccupancyGridMap D F32} {ρ : ℚ} {r : F32} {t : ℕ}

lemma occFold_nothing {hist : List (OccupancyGridMap D F32 × Point D F32 × PointCloud D F32)} {w : Cell D} {u : F32}
    (h : ∀ e ∈ hist, seen e.2.1 e.2.2 e.1.gridMap.bounds e.1.gridMap.resolution nm.maxRange
      (localCell e.1.gridMap w) = .nothing) : occFold nm hist w u = u := by
  induction hist with
  | nil => rfl
  | cons e hist ih =>
    have := ih fun e' he => h e' (List.mem_cons_of_mem _ he)
    unfold occFold at this ⊢
    rw [List.foldl_cons, h e List.mem_cons_self]
    exact this

/-- C121 for an occupancy map after such a drive: any two cells whose values are not zero are linked by cells about which
some scan told something. -/
theorem C121_map (hD0 : 0 < D) (hD : D ≤ 3) (hr : Res r ρ) (ht : 1 ≤ t) (ht' : t ≤ 2 ^ 17)
    (ho : OccupancyGridMap.new nm r t = .ok o) {hist} (hc : ∀ s ∈ hist, CloudInRange s.2.2 ρ) (h : OccRuns o hist o')
    (hk : KnownSensors nm hist) :
    ∃ cb, Placed o'.gridMap cb ρ ∧ ∀ w w' v v', InCells w cb → InCells w' cb →
      o'.get (fun i => w i - cb.min i) = .ok v → o'.get (fun i => w' i - cb.min i) = .ok v' → v ≠ Fp.lit 0 →
      v' ≠ Fp.lit 0 → LinkedIn (toldWorld nm hist) w w' := by
  obtain ⟨-, cb, hP, hv, -⟩ := C41_occupancy_map hD0 hD hr ht ht' ho hc h
  have key : ∀ w v, InCells w cb → o'.get (fun i => w i - cb.min i) = .ok v → v ≠ Fp.lit 0 → w ∈ toldWorld nm hist := by
    intro w v hw hg hne
    rw [(hv w hw).1] at hg
    by_contra hn
    apply hne
    rw [← Except.ok.inj hg]
    have none : ∀ e ∈ hist, seen e.2.1 e.2.2 e.1.gridMap.bounds e.1.gridMap.resolution nm.maxRange (localCell e.1.gridMap w) = .nothing :=
      fun e he => by
        by_contra hx
        exact hn ⟨e, he, hx⟩
    exact occFold_nothing none
  exact ⟨cb, hP, fun w w' v v' a1 a2 a3 a4 a5 a6 => C121_drive hk _ (key w v a1 a3 a5) _ (key w' v' a2 a4 a6)⟩

/-- C121: the free cells alone need not be one piece. One ray ends in a cell through which another goes on. -/
theorem C121_free_refuted : ∃ (origin : Point 2 F32) (cloud : PointCloud 2 F32) (bounds : Bounds 2 F32) (res ml : F32)
    (free occ : List (Cell 2)), CastsRays origin cloud bounds res ml free occ ∧ ¬ OnePiece {c | c ∈ free} := by
  refine ⟨![Fp.lit 0, Fp.lit 0], PointCloud.fromPoints [![Fp.lit 3, Fp.lit 0], ![Fp.lit 1, Fp.lit 0]],
    ⟨![Fp.lit 0, Fp.lit 0], ![Fp.lit 9, Fp.lit 9]⟩, Fp.lit 1, Fp.lit 60, [![0, 0], ![2, 0]], [![3, 0], ![1, 0]],
    ⟨10, by decide +kernel⟩, fun h => ?_⟩
  have h1 := h ![0, 0] (by simp) ![2, 0] (by simp)
  rcases h1.cases_head with h1 | ⟨c, ⟨-, hc, i, hi, -⟩, -⟩
  · exact absurd h1 (by decide)
  · rcases (by simpa using hc : c = ![0, 0] ∨ c = ![2, 0]) with rfl | rfl <;> revert hi <;> revert i <;> decide

/-- A second scan after `scanB`, from the cell (1, 0) through which that one looked. -/
def scanOn : Point 2 F32 × PointCloud 2 F32 := (![Fp.lit 1, Fp.lit 0], PointCloud.fromPoints [![Fp.lit 1, Fp.lit 3]])

/-- The hypotheses of `C121_ray`, `C121_scan` and `C121_cast_rays`: two rays with five cells in all. -/
example : ∃ ray e free occ, Casts (F := F32) scanB.1 ![Fp.lit 2, Fp.lit 0] ⟨![Fp.lit 0, Fp.lit 0], ![Fp.lit 4, Fp.lit 4]⟩
      (Fp.lit 1) (Fp.lit 60) ray e ∧ ray.length = 2 ∧
    CastsRays (F := F32) scanB.1 (PointCloud.fromPoints [![Fp.lit 2, Fp.lit 0], ![Fp.lit 0, Fp.lit 2]])
      ⟨![Fp.lit 0, Fp.lit 0], ![Fp.lit 4, Fp.lit 4]⟩ (Fp.lit 1) (Fp.lit 60) free occ ∧
    free.length = 3 ∧ occ.length = 2 ∧ OnePiece {c | c ∈ free ∨ c ∈ occ} := by
  have h : (do
      let r ← castRay (F := F32) 10 scanB.1 ![Fp.lit 2, Fp.lit 0] ⟨![Fp.lit 0, Fp.lit 0], ![Fp.lit 4, Fp.lit 4]⟩ (Fp.lit 1)
        (Fp.lit 60)
      let s ← castRays (F := F32) 10 scanB.1 (PointCloud.fromPoints [![Fp.lit 2, Fp.lit 0], ![Fp.lit 0, Fp.lit 2]])
        ⟨![Fp.lit 0, Fp.lit 0], ![Fp.lit 4, Fp.lit 4]⟩ (Fp.lit 1) (Fp.lit 60)
      if r.1.length = 2 ∧ s.1.length = 3 ∧ s.2.length = 2 then return () else .error .fuel) = Except.ok () := by
    decide +kernel
  simp only [M.bind_eq_ok] at h
  obtain ⟨⟨ray, e⟩, h1, ⟨free, occ⟩, h2, h⟩ := h
  split_ifs at h with hb
  · have h3 : CastsRays _ _ _ _ _ free occ := ⟨10, h2⟩
    exact ⟨ray, e, free, occ, ⟨10, h1⟩, hb.1, h3, hb.2.1, hb.2.2, C121_cast_rays h3⟩

/-- The hypotheses of `C121_drive` and `C121_map`: `scanB` and then `scanOn`; the cells (2, 0) and (1, 3), which the one
and the other hit, are linked. -/
example : ∃ o o1 o2, OccupancyGridMap.new defaultNM (Fp.lit 1) 4 = .ok o ∧
    OccRuns o [(o1, scanB), (o2, scanOn)] o2 ∧ KnownSensors defaultNM [(o1, scanB), (o2, scanOn)] ∧
    LinkedIn (toldWorld defaultNM [(o1, scanB), (o2, scanOn)]) ![2, 0] ![1, 3] := by
  have h : (do
      let o : OccupancyGridMap 2 F32 ← OccupancyGridMap.new defaultNM (Fp.lit 1) 4
      let o1 ← o.integratePointCloud id 10 scanB.1 scanB.2
      let o2 ← o1.integratePointCloud id 10 scanOn.1 scanOn.2
      let r ← castRay 10 scanB.1 ![Fp.lit 2, Fp.lit 0] o1.gridMap.bounds o1.gridMap.resolution defaultNM.maxRange
      let v ← o2.get (localCell o2.gridMap ![2, 0])
      let v' ← o2.get (localCell o2.gridMap ![1, 3])
      if localCell o1.gridMap ![1, 0] ∈ r.1 ∧
          localCell o2.gridMap ![1, 0] = cellFromPoint scanOn.1 o2.gridMap.bounds.min o2.gridMap.resolution ∧
          v ≠ Fp.lit 0 ∧ v' ≠ Fp.lit 0 ∧
          InCells ![2, 0] (CellBounds.fromBounds o2.gridMap.bounds o2.gridMap.resolution) ∧
          InCells ![1, 3] (CellBounds.fromBounds o2.gridMap.bounds o2.gridMap.resolution)
        then return () else .error .fuel) = Except.ok () := by decide +kernel
  simp only [M.bind_eq_ok] at h
  obtain ⟨o, h1, o1, h2, o2, h3, ⟨ray, e⟩, h4, v, h5, v', h6, h⟩ := h
  split_ifs at h with hb
  · have hid : IsOrder (id : List (Cell 2) → List (Cell 2)) := fun l => .refl l
    have hr : OccRuns o [(o1, scanB), (o2, scanOn)] o2 := .step hid h2 (.step hid h3 (.done _))
    have hk : KnownSensors defaultNM [(o1, scanB), (o2, scanOn)] := by
      intro before x after he hne
      match before, hne with
      | [a], _ =>
        simp only [List.cons_append, List.nil_append, List.cons.injEq] at he
        obtain ⟨rfl, rfl, -⟩ := he
        refine ⟨![1, 0], ⟨_, List.mem_singleton_self _, mem_told.mpr ⟨![Fp.lit 2, Fp.lit 0], ?_, ray, e, ⟨10, h4⟩, .inl hb.1⟩⟩,
          hb.2.1⟩
        show _ ∈ (PointCloud.fromPoints _).points
        rw [C13_points_fromPoints]
        exact List.mem_singleton_self _
      | a :: b :: l, _ =>
        exfalso
        have := congrArg List.length he
        simp at this
    have hc : ∀ s ∈ [(o1, scanB), (o2, scanOn)], CloudInRange s.2.2 1 := by
      intro s hs
      rcases List.mem_cons.mp hs with rfl | hs
      · exact scansAB_range scanB (by simp)
      · rw [List.mem_singleton.mp hs]
        intro p hp i
        rw [scanOn, C13_points_fromPoints, List.mem_singleton] at hp
        subst hp
        refine ⟨![1, 3] i, ?_, ?_⟩ <;> revert i <;> decide +kernel
    obtain ⟨cb, hP, hl⟩ := C121_map (by norm_num) (by norm_num) ⟨by decide +kernel, by norm_num, by norm_num⟩ (by norm_num)
      (by norm_num) h1 hc hr hk
    have hcb := hP.cells
    subst hcb
    exact ⟨o, o1, o2, h1, hr, hk, hl _ _ v v' hb.2.2.2.2.1 hb.2.2.2.2.2 h5 h6 hb.2.2.1 hb.2.2.2.1⟩

/-- A second scan after `scanB`, from a cell of which that one told nothing. -/
def scanFar : Point 2 F32 × PointCloud 2 F32 := (![Fp.lit 20, Fp.lit 20], PointCloud.fromPoints [![Fp.lit 21, Fp.lit 20]])

/-- C121: the condition on the sensors is needed. Two scans, the second from a place that the first did not see, leave
two pieces. -/
theorem C121_jump_refuted : ∃ o o1 o2 : OccupancyGridMap 2 F32, OccupancyGridMap.new defaultNM (Fp.lit 1) 4 = .ok o ∧
    OccRuns o [(o1, scanB), (o2, scanFar)] o2 ∧ ¬ OnePiece (toldWorld defaultNM [(o1, scanB), (o2, scanFar)]) := by
  have h : (do
      let o : OccupancyGridMap 2 F32 ← OccupancyGridMap.new defaultNM (Fp.lit 1) 4
      let o1 ← o.integratePointCloud id 10 scanB.1 scanB.2
      let o2 ← o1.integratePointCloud id 10 scanFar.1 scanFar.2
      let r ← castRay 10 scanB.1 ![Fp.lit 2, Fp.lit 0] o1.gridMap.bounds o1.gridMap.resolution defaultNM.maxRange
      let r' ← castRay 10 scanFar.1 ![Fp.lit 21, Fp.lit 20] o2.gridMap.bounds o2.gridMap.resolution defaultNM.maxRange
      if localCell o1.gridMap ![0, 0] ∈ r.1 ∧ localCell o2.gridMap ![20, 20] ∈ r'.1 ∧
          (∀ c ∈ r.1 ++ r.2.toList, c 0 + (CellBounds.fromBounds o1.gridMap.bounds o1.gridMap.resolution).min 0 ≤ 2) ∧
          (∀ c ∈ r'.1 ++ r'.2.toList,
            20 ≤ c 0 + (CellBounds.fromBounds o2.gridMap.bounds o2.gridMap.resolution).min 0)
        then return () else .error .fuel) = Except.ok () := by decide +kernel
  simp only [M.bind_eq_ok] at h
  obtain ⟨o, h1, o1, h2, o2, h3, ⟨ray, e⟩, h4, ⟨ray', e'⟩, h5, h⟩ := h
  split_ifs at h with hb
  · obtain ⟨b1, b2, b3, b4⟩ := hb
    have hid : IsOrder (id : List (Cell 2) → List (Cell 2)) := fun l => .refl l
    refine ⟨o, o1, o2, h1, .step hid h2 (.step hid h3 (.done _)), fun hp => ?_⟩
    have pB : ∀ p, p ∈ scanB.2.points ↔ p = ![Fp.lit 2, Fp.lit 0] := fun p => by
      rw [scanB, C13_points_fromPoints, List.mem_singleton]
    have pF : ∀ p, p ∈ scanFar.2.points ↔ p = ![Fp.lit 21, Fp.lit 20] := fun p => by
      rw [scanFar, C13_points_fromPoints, List.mem_singleton]
    have side : ∀ w ∈ toldWorld defaultNM [(o1, scanB), (o2, scanFar)], w 0 ≤ 2 ∨ 20 ≤ w 0 := by
      rintro w ⟨x, hx, hw⟩
      rcases List.mem_cons.mp hx with rfl | hx
      · obtain ⟨p, hq, r, f, hc, hm⟩ := mem_told.mp hw
        rw [(pB p).mp hq] at hc
        obtain ⟨rfl, rfl⟩ := casts_unique hc ⟨10, h4⟩
        have := b3 _ (List.mem_append.mpr (hm.imp id fun hm => by rw [hm]; simp))
        exact .inl (by unfold localCell at this; simpa using this)
      · rw [List.mem_singleton.mp hx] at hw
        obtain ⟨p, hq, r, f, hc, hm⟩ := mem_told.mp hw
        rw [(pF p).mp hq] at hc
        obtain ⟨rfl, rfl⟩ := casts_unique hc ⟨10, h5⟩
        have := b4 _ (List.mem_append.mpr (hm.imp id fun hm => by rw [hm]; simp))
        exact .inr (by unfold localCell at this; simpa using this)
    have stay : ∀ w, LinkedIn (toldWorld defaultNM [(o1, scanB), (o2, scanFar)]) ![0, 0] w → w 0 ≤ 2 := by
      intro w hl
      induction hl with
      | refl => decide
      | @tail a b _ hs ih =>
        obtain ⟨i, hi, hj⟩ := hs.2.2
        rcases side b hs.2.1 with hk | hk
        · exact hk
        · by_cases h0 : i = 0
          · subst h0
            have := abs_le.mp hi.le
            omega
          · have := hj 0 (Ne.symm h0)
            omega
    have hfar := stay ![20, 20] (hp _ ⟨_, List.mem_cons_self, mem_told.mpr ⟨_, (pB _).mpr rfl, ray, e, ⟨10, h4⟩, .inl b1⟩⟩ _
      ⟨(o2, scanFar), by simp, mem_told.mpr ⟨_, (pF _).mpr rfl, ray', e', ⟨10, h5⟩, .inl b2⟩⟩)
    exact absurd hfar (by decide)

end

end Verif.Props
