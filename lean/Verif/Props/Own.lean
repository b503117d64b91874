import Verif.Spec.Own
import Verif.Props.Piece
import Verif.Props.Recent

/-!
# C122: the sensor's own cell
-/

namespace Verif.Props
open Scalar Spec

section
variable {F : Type} [Scalar F] [ScalarLaws F] {D : ℕ} {origin : Point D F} {bounds : Bounds D F} {res ml : F}
  {cloud : PointCloud D F} {free occ : List (Cell D)}

/-- C122, `cast_rays`: the cell of the sensor is occupied exactly if a point is in it, however many rays start in it; else
it is free as soon as there is a point. -/
theorem C122_cast_rays (h : CastsRays origin cloud bounds res ml free occ) :
    (cellFromPoint origin bounds.min res ∈ occ ↔
      ∃ p ∈ cloud.points, cellFromPoint p bounds.min res = cellFromPoint origin bounds.min res) ∧
    (cellFromPoint origin bounds.min res ∈ free ↔ cloud.points ≠ [] ∧
      ∀ p ∈ cloud.points, cellFromPoint p bounds.min res ≠ cellFromPoint origin bounds.min res) := by
  have back := C28_returns_iff.mp ⟨free, occ, h⟩
  have first : cellFromPoint origin bounds.min res ∈ occ ↔
      ∃ p ∈ cloud.points, cellFromPoint p bounds.min res = cellFromPoint origin bounds.min res := by
    rw [C28_occupied h]
    constructor
    · rintro ⟨p, hp, ray, hr⟩
      rcases (C18_end_not_in_ray hr).2.2 with h1 | h1
      · cases h1
      · exact ⟨p, hp, (Option.some.inj h1).symm⟩
    · rintro ⟨p, hp, hc⟩
      obtain ⟨ray, e, hr⟩ := back p hp
      have hne : ray = [] := by
        by_contra hne
        have h1 := (C17_connected hr hne).1
        apply (C18_end_not_in_ray hr).1
        rw [hc, ← h1]
        exact List.head_mem hne
      subst hne
      obtain ⟨h1, h2⟩ := C16_empty_ray hr
      exact ⟨p, hp, [], by rw [h1, ← h2]; exact hr⟩
  refine ⟨first, ?_⟩
  rw [C28_free h, first]
  constructor
  · rintro ⟨⟨p, hp, -⟩, h2⟩
    exact ⟨List.ne_nil_of_mem hp, fun q hq hc => h2 ⟨q, hq, hc⟩⟩
  · rintro ⟨hne, hn⟩
    refine ⟨?_, fun ⟨q, hq, hc⟩ => hn q hq hc⟩
    obtain ⟨p, hp⟩ := List.exists_mem_of_ne_nil _ hne
    obtain ⟨ray, e, hr⟩ := back p hp
    have hr0 : ray ≠ [] := by
      rintro rfl
      exact hn p hp (C16_empty_ray hr).1.symm
    exact ⟨p, hp, ray, e, hr, by rw [← (C17_connected hr hr0).1]; exact List.head_mem hr0⟩

omit [ScalarLaws F] in
lemma seen_of_castsRays (h : CastsRays origin cloud bounds res ml free occ) (c : Cell D) :
    (c ∈ occ → seen origin cloud bounds res ml c = .hit) ∧ (c ∈ free → seen origin cloud bounds res ml c = .miss) := by
  constructor
  · intro hc
    exact if_pos ((C28_occupied h c).mp hc)
  · intro hc
    obtain ⟨h1, h2⟩ := (C28_free h c).mp hc
    unfold seen
    rw [if_neg (fun hx => h2 ((C28_occupied h c).mpr hx)), if_pos h1]
end

section
variable {D : ℕ} {nm : LidarNoiseModel F32} {o o' : OccupancyGridMap D F32} {w : Cell D}

lemma occRuns_casts {hist} (h : OccRuns o hist o') : ∀ e ∈ hist, ∃ free occ,
    CastsRays e.2.1 e.2.2 e.1.gridMap.bounds e.1.gridMap.resolution o.noiseModel.maxRange free occ := by
  induction h with
  | done o => exact fun e he => absurd he List.not_mem_nil
  | @step o o1 o' ord fuel origin cloud rest ho h1 _ ih =>
    obtain ⟨e1, e2⟩ := ((C38_occupancy_map o ord fuel origin cloud).1 o1).mp h1
    rw [e1] at ih
    intro e he
    rcases List.mem_cons.mp he with rfl | he
    · obtain ⟨me, free, occ, -, k1, -, -, -, k2, k3, -⟩ := C38_integrate ho ⟨fuel, e2⟩
      exact ⟨free, occ, by rw [k2, k3]; exact k1⟩
    · exact ih e he

/-- C122: what the scans of a run tell about the cell from which they are taken. -/
theorem C122_told {hist} (h : OccRuns o hist o') : ∀ e ∈ hist,
    (LeavesFree e w → seen e.2.1 e.2.2 e.1.gridMap.bounds e.1.gridMap.resolution o.noiseModel.maxRange
      (localCell e.1.gridMap w) = .miss) ∧
    (HitsItself e w → seen e.2.1 e.2.2 e.1.gridMap.bounds e.1.gridMap.resolution o.noiseModel.maxRange
      (localCell e.1.gridMap w) = .hit) := by
  intro e he
  obtain ⟨free, occ, hc⟩ := occRuns_casts h e he
  constructor
  · rintro ⟨h1, h2, h3⟩
    have h1' : localCell e.1.gridMap w = _ := h1
    rw [h1'] at h3 ⊢
    exact (seen_of_castsRays hc _).2 ((C122_cast_rays hc).2.mpr ⟨h2, h3⟩)
  · rintro ⟨h1, h2⟩
    have h1' : localCell e.1.gridMap w = _ := h1
    rw [h1'] at h2 ⊢
    exact (seen_of_castsRays hc _).1 ((C122_cast_rays hc).1.mpr h2)

lemma foldl_const_apply {α : Type} {l : List α} {f : α → Seen} {s : Seen} (h : ∀ e ∈ l, f e = s) (v : F32) :
    l.foldl (fun v e => Seen.apply nm v (f e)) v = (fun v => Seen.apply nm v s)^[l.length] v := by
  induction l generalizing v with
  | nil => rfl
  | cons a l ih =>
    rw [List.foldl_cons, h a List.mem_cons_self, ih fun e he => h e (List.mem_cons_of_mem _ he)]
    rfl

/-- The last scan of a run could write the cells it tells something about. -/
lemma occRuns_last {hist e} (h : OccRuns o (hist ++ [e]) o') :
    e.1 = o' ∧ ∃ free occ, CastsRays e.2.1 e.2.2 o'.gridMap.bounds o'.gridMap.resolution o.noiseModel.maxRange free occ ∧
      ∀ c, c ∈ free ∨ c ∈ occ → MachineCell c ∧ ∃ v, o'.gridMap.get c = .ok v := by
  induction hist generalizing o with
  | nil =>
    cases h with
    | @step _ o1 _ ord fuel origin cloud _ ho h1 h2 =>
      cases h2
      obtain ⟨e1, e2⟩ := ((C38_occupancy_map o ord fuel origin cloud).1 o').mp h1
      obtain ⟨me, free, occ, -, k1, kf, ko, -, k2, k3, -⟩ := C38_integrate ho ⟨fuel, e2⟩
      obtain ⟨m1, m2⟩ := castsRays_machine k1
      refine ⟨rfl, free, occ, by rw [k2, k3]; exact k1, fun c hc => ?_⟩
      rcases hc with hc | hc
      · obtain ⟨v, -, hv⟩ := kf c hc
        exact ⟨m1 c hc, _, hv⟩
      · obtain ⟨v, -, hv⟩ := ko c hc
        exact ⟨m2 c hc, _, hv⟩
  | cons a hist ih =>
    cases h with
    | @step _ o1 _ ord fuel origin cloud _ ho h1 h2 =>
      obtain ⟨e1, -⟩ := ((C38_occupancy_map o ord fuel origin cloud).1 o1).mp h1
      have := ih h2
      rwa [e1] at this

/-- C122: a cell from which the last scan was taken, if that has a point, is in the map. -/
theorem C122_inside (hD0 : 0 < D) (hD : D ≤ 3) {r : F32} {ρ : ℚ} {t : ℕ} (hr : Res r ρ) (ht : 1 ≤ t) (ht' : t ≤ 2 ^ 17)
    (ho : OccupancyGridMap.new nm r t = .ok o) {hist e} (hc : ∀ s ∈ hist ++ [e], CloudInRange s.2.2 ρ)
    (h : OccRuns o (hist ++ [e]) o') {cb : CellBounds D} (hP : Placed o'.gridMap cb ρ) (hw : SensorCell e w)
    (hne : e.2.2.points ≠ []) : InCells w cb := by
  obtain ⟨-, cb', hP', -, hv⟩ := C41_occupancy_map hD0 hD hr ht ht' ho hc h
  have hcb := hP.cells
  rw [hP'.cells] at hcb
  subst hcb
  obtain ⟨he, free, occ, hk, hget⟩ := occRuns_last h
  have hloc : (fun i => w i - cb'.min i) = cellFromPoint e.2.1 o'.gridMap.bounds.min o'.gridMap.resolution := by
    have h1 : localCell e.1.gridMap w = _ := hw
    rw [he] at h1
    rw [← h1]
    funext i
    show _ = w i - (CellBounds.fromBounds o'.gridMap.bounds o'.gridMap.resolution).min i
    rw [hP.cells]
  have hmem : cellFromPoint e.2.1 o'.gridMap.bounds.min o'.gridMap.resolution ∈ free ∨
      cellFromPoint e.2.1 o'.gridMap.bounds.min o'.gridMap.resolution ∈ occ := by
    by_cases hx : ∃ p ∈ e.2.2.points, cellFromPoint p o'.gridMap.bounds.min o'.gridMap.resolution =
        cellFromPoint e.2.1 o'.gridMap.bounds.min o'.gridMap.resolution
    · exact .inr ((C122_cast_rays hk).1.mpr hx)
    · exact .inl ((C122_cast_rays hk).2.mpr ⟨hne, fun p hp hq => hx ⟨p, hp, hq⟩⟩)
  obtain ⟨hm, v, hg⟩ := hget _ hmem
  by_contra hn
  have hbad := (hv w (by rw [hloc]; exact hm) hn).1
  rw [hloc] at hbad
  have hg' : o'.get (cellFromPoint e.2.1 o'.gridMap.bounds.min o'.gridMap.resolution) = .ok v := hg
  rw [hg'] at hbad
  cases hbad

/-- C122 on a map with any noise model: scans taken from a cell, without a point in it, change its value by one miss each,
and such with a point in it by one hit each, whatever else they see. -/
theorem C122_map (hD0 : 0 < D) (hD : D ≤ 3) {r : F32} {ρ : ℚ} {t : ℕ} (hr : Res r ρ) (ht : 1 ≤ t) (ht' : t ≤ 2 ^ 17)
    (ho : OccupancyGridMap.new nm r t = .ok o) {before last} (hc : ∀ s ∈ before ++ last, CloudInRange s.2.2 ρ)
    (h : OccRuns o (before ++ last) o') :
    ∃ cb, Placed o'.gridMap cb ρ ∧ ∀ w, last ≠ [] →
      ((∀ e ∈ last, LeavesFree e w) → o'.get (fun i => w i - cb.min i) =
        .ok ((fun v => (v.add nm.miss).max nm.min)^[last.length] (occFold nm before w (Fp.lit 0)))) ∧
      ((∀ e ∈ last, HitsItself e w) → o'.get (fun i => w i - cb.min i) =
        .ok ((fun v => (v.add nm.hit).min nm.max)^[last.length] (occFold nm before w (Fp.lit 0)))) := by
  obtain ⟨hnm', cb, hP, hv, -⟩ := C41_occupancy_map hD0 hD hr ht ht' ho hc h
  have hnm : o.noiseModel = nm := by rw [← (occRuns_history h).1, hnm']
  have htold := fun w => C122_told (w := w) h
  rw [hnm] at htold
  have split : ∀ w, occFold nm (before ++ last) w (Fp.lit 0) = occFold nm last w (occFold nm before w (Fp.lit 0)) :=
    fun w => List.foldl_append
  have inside : ∀ w, last ≠ [] → (∀ e ∈ last, SensorCell e w ∧ e.2.2.points ≠ []) → InCells w cb := by
    intro w hne hall
    rcases List.eq_nil_or_concat last with hl | ⟨l, e, hl⟩
    · exact absurd hl hne
    · subst hl
      obtain ⟨k1, k2⟩ := hall e (by simp)
      rw [List.concat_eq_append, ← List.append_assoc] at h hc
      exact C122_inside hD0 hD hr ht ht' ho hc h hP k1 k2
  refine ⟨cb, hP, fun w hne => ⟨fun hall => ?_, fun hall => ?_⟩⟩
  · rw [(hv w (inside w hne fun e he => ⟨(hall e he).1, (hall e he).2.1⟩)).1, split]
    exact congrArg _ (foldl_const_apply (s := .miss)
      (fun e he => (htold w e (List.mem_append_right _ he)).1 (hall e he)) _)
  · rw [(hv w (inside w hne fun e he => ⟨(hall e he).1, List.ne_nil_of_mem (hall e he).2.choose_spec.1⟩)).1, split]
    exact congrArg _ (foldl_const_apply (s := .hit)
      (fun e he => (htold w e (List.mem_append_right _ he)).2 (hall e he)) _)

/-- C122 for the crate's default map, whatever came before: if the last 9 scans were taken from a cell and have no point
in it, it is not occupied; if the last 3 were taken from it and have a point in it each, it is occupied. -/
theorem C122_default [Libm F32] (hl : TestedLn) (hD0 : 0 < D) (hD : D ≤ 3) (ho : OccupancyGridMap.default_ = .ok o)
    {before last} (hc : ∀ s ∈ before ++ last, CloudInRange s.2.2 (Fp.lit 0.1 : F32).val)
    (h : OccRuns o (before ++ last) o') :
    ∃ cb, Placed o'.gridMap cb (Fp.lit 0.1 : F32).val ∧ ∀ w,
      (last.length = 9 → (∀ e ∈ last, LeavesFree e w) → o'.occupied (fun i => w i - cb.min i) = .ok false) ∧
      (last.length = 3 → (∀ e ∈ last, HitsItself e w) → o'.occupied (fun i => w i - cb.min i) = .ok true) := by
  obtain ⟨cb, hP, hv⟩ := C71_default hl hD0 hD ho hc h
  have hnm : o.noiseModel = defaultNM := by
    obtain ⟨o2, k1, k2, -⟩ := (C42_default_model hl).2.2 hD0 hD
    rw [ho] at k1
    cases k1
    exact k2
  have htold := fun w => C122_told (w := w) h
  rw [hnm] at htold
  have suffix : ∀ (w : Cell D) (s : Seen), s.tells = true →
      (∀ e ∈ last, seen e.2.1 e.2.2 e.1.gridMap.bounds e.1.gridMap.resolution defaultNM.maxRange
        (localCell e.1.gridMap w) = s) →
      List.replicate last.length s <:+ (observations defaultNM (before ++ last) w).filter Seen.tells := by
    intro w s hs hall
    have h1 : observations defaultNM last w = List.replicate last.length s := by
      unfold observations
      rw [List.map_congr_left hall, List.map_const']
    have h2 : observations defaultNM (before ++ last) w = observations defaultNM before w ++ observations defaultNM last w :=
      List.map_append
    have h3 : (List.replicate last.length s).filter Seen.tells = List.replicate last.length s :=
      List.filter_eq_self.mpr fun a ha => by rw [List.eq_of_mem_replicate ha]; exact hs
    rw [h2, List.filter_append, h1, h3]
    exact List.suffix_append _ _
  have hr : Res (Fp.lit 0.1 : F32) (Fp.lit 0.1 : F32).val := by
    refine ⟨by decide +kernel, ?_, ?_⟩ <;> decide +kernel
  have inside : ∀ w, last ≠ [] → (∀ e ∈ last, SensorCell e w ∧ e.2.2.points ≠ []) → InCells w cb := by
    intro w hne hall
    rcases List.eq_nil_or_concat last with hl' | ⟨l, e, hl'⟩
    · exact absurd hl' hne
    · subst hl'
      obtain ⟨k1, k2⟩ := hall e (by simp)
      rw [List.concat_eq_append, ← List.append_assoc] at h hc
      exact C122_inside hD0 hD hr (t := 100) (by norm_num) (by norm_num) (((C42_default_model hl).2.1 o).mp ho) hc h hP k1 k2
  have some_ : ∀ n, last.length = n + 1 → last ≠ [] := fun n hn h0 => by rw [h0] at hn; cases hn
  refine ⟨cb, hP, fun w => ⟨fun h9 hall => ?_, fun h3 hall => ?_⟩⟩
  · have := suffix w .miss rfl fun e he => (htold w e (List.mem_append_right _ he)).1 (hall e he)
    rw [h9] at this
    exact (hv w (inside w (some_ 8 h9) fun e he => ⟨(hall e he).1, (hall e he).2.1⟩) _ rfl).2.1 this
  · have := suffix w .hit rfl fun e he => (htold w e (List.mem_append_right _ he)).2 (hall e he)
    rw [h3] at this
    exact (hv w (inside w (some_ 2 h3) fun e he =>
      ⟨(hall e he).1, List.ne_nil_of_mem (hall e he).2.choose_spec.1⟩) _ rfl).1 this

/-- The hypotheses of `C122_cast_rays`: a sensor with a point in its own cell, and without. -/
example : CastsRays (![Fp.lit 0, Fp.lit 0] : Point 2 F32) (PointCloud.fromPoints [![Fp.lit 2, Fp.lit 0], ![Fp.lit (1 / 4), Fp.lit 0]])
      ⟨![Fp.lit 0, Fp.lit 0], ![Fp.lit 9, Fp.lit 9]⟩ (Fp.lit 1) (Fp.lit 60) [![1, 0]] [![2, 0], ![0, 0]] ∧
    CastsRays (![Fp.lit 0, Fp.lit 0] : Point 2 F32) (PointCloud.fromPoints [![Fp.lit 2, Fp.lit 0]])
      ⟨![Fp.lit 0, Fp.lit 0], ![Fp.lit 9, Fp.lit 9]⟩ (Fp.lit 1) (Fp.lit 60) [![0, 0], ![1, 0]] [![2, 0]] :=
  ⟨⟨4, by decide +kernel⟩, ⟨4, by decide +kernel⟩⟩

/-- A scan from the cell (0, 0) that hits its own cell. -/
def scanOwn : Point 2 F32 × PointCloud 2 F32 :=
  (![Fp.lit 0, Fp.lit 0], PointCloud.fromPoints [![Fp.lit (1 / 4), Fp.lit 0], ![Fp.lit 1, Fp.lit 0]])

/-- The hypotheses of `C122_told`: `scanB` leaves the cell (0, 0) free, `scanOwn` hits it. -/
example : ∃ o o1 o2 : OccupancyGridMap 2 F32, OccupancyGridMap.new defaultNM (Fp.lit 1) 4 = .ok o ∧
    OccRuns o [(o1, scanB), (o2, scanOwn)] o2 ∧ LeavesFree (o1, scanB) ![0, 0] ∧ HitsItself (o2, scanOwn) ![0, 0] := by
  have h : (do
      let o : OccupancyGridMap 2 F32 ← OccupancyGridMap.new defaultNM (Fp.lit 1) 4
      let o1 ← o.integratePointCloud id 10 scanB.1 scanB.2
      let o2 ← o1.integratePointCloud id 10 scanOwn.1 scanOwn.2
      if localCell o1.gridMap ![0, 0] = cellFromPoint scanB.1 o1.gridMap.bounds.min o1.gridMap.resolution ∧
          localCell o2.gridMap ![0, 0] = cellFromPoint scanOwn.1 o2.gridMap.bounds.min o2.gridMap.resolution ∧
          cellFromPoint ![Fp.lit 2, Fp.lit 0] o1.gridMap.bounds.min o1.gridMap.resolution ≠ localCell o1.gridMap ![0, 0] ∧
          cellFromPoint ![Fp.lit (1 / 4), Fp.lit 0] o2.gridMap.bounds.min o2.gridMap.resolution =
            localCell o2.gridMap ![0, 0]
        then return () else .error .fuel) = Except.ok () := by decide +kernel
  simp only [M.bind_eq_ok] at h
  obtain ⟨o, h1, o1, h2, o2, h3, h⟩ := h
  split_ifs at h with hb
  · have hid : IsOrder (id : List (Cell 2) → List (Cell 2)) := fun l => .refl l
    have pB : scanB.2.points = [![Fp.lit 2, Fp.lit 0]] := C13_points_fromPoints _
    have pO : scanOwn.2.points = [![Fp.lit (1 / 4), Fp.lit 0], ![Fp.lit 1, Fp.lit 0]] := C13_points_fromPoints _
    refine ⟨o, o1, o2, h1, .step hid h2 (.step hid h3 (.done _)), ⟨hb.1, ?_, fun p hp => ?_⟩, hb.2.1, ![Fp.lit (1 / 4), Fp.lit 0],
      ?_, hb.2.2.2⟩
    · show scanB.2.points ≠ []
      rw [pB]
      exact List.cons_ne_nil _ _
    · have hp' : p ∈ scanB.2.points := hp
      rw [pB, List.mem_singleton] at hp'
      rw [hp']
      exact hb.2.2.1
    · show _ ∈ scanOwn.2.points
      rw [pO]
      exact List.mem_cons_self

/-- A scan with a point one centimetre before the sensor. -/
def scanDust : Point 2 F32 × PointCloud 2 F32 :=
  (![Fp.lit 0, Fp.lit 0], PointCloud.fromPoints [![Fp.lit 0.01, Fp.lit 0], ![Fp.lit 0.3, Fp.lit 0]])

/-- The hypotheses of `C122_map` and `C122_default`: three times `scanDust` in the crate's default map; the sensor's own
cell is occupied. -/
example : ∃ (_ : Libm F32) (o o1 o2 o3 : OccupancyGridMap 2 F32), TestedLn ∧ OccupancyGridMap.default_ = .ok o ∧
    OccRuns o [(o1, scanDust), (o2, scanDust), (o3, scanDust)] o3 ∧
    (∀ e ∈ [(o1, scanDust), (o2, scanDust), (o3, scanDust)], HitsItself e ![0, 0]) ∧
    (∀ s ∈ [(o1, scanDust), (o2, scanDust), (o3, scanDust)], CloudInRange s.2.2 (Fp.lit 0.1 : F32).val) ∧
    o3.occupied (localCell o3.gridMap ![0, 0]) = .ok true := by
  let L := testedLibm
  have hl : TestedLn := by constructor <;> decide +kernel
  have h : (do
      let o : OccupancyGridMap 2 F32 ← OccupancyGridMap.new defaultNM (Fp.lit 0.1) 100
      let o1 ← o.integratePointCloud id 10 scanDust.1 scanDust.2
      let o2 ← o1.integratePointCloud id 10 scanDust.1 scanDust.2
      let o3 ← o2.integratePointCloud id 10 scanDust.1 scanDust.2
      if ∀ m ∈ [o1, o2, o3],
          localCell m.gridMap ![0, 0] = cellFromPoint scanDust.1 m.gridMap.bounds.min m.gridMap.resolution ∧
          cellFromPoint ![Fp.lit 0.01, Fp.lit 0] m.gridMap.bounds.min m.gridMap.resolution = localCell m.gridMap ![0, 0]
        then return () else .error .fuel) = Except.ok () := by decide +kernel
  simp only [M.bind_eq_ok] at h
  obtain ⟨o, h1, o1, h2, o2, h3, o3, h4, h⟩ := h
  split_ifs at h with hb
  · have hid : IsOrder (id : List (Cell 2) → List (Cell 2)) := fun l => .refl l
    have hd : OccupancyGridMap.default_ = .ok o := ((C42_default_model hl).2.1 o).mpr h1
    have hr : OccRuns o ([] ++ [(o1, scanDust), (o2, scanDust), (o3, scanDust)]) o3 :=
      .step hid h2 (.step hid h3 (.step hid h4 (.done _)))
    have pD : scanDust.2.points = [![Fp.lit 0.01, Fp.lit 0], ![Fp.lit 0.3, Fp.lit 0]] := C13_points_fromPoints _
    have hh : ∀ e ∈ [(o1, scanDust), (o2, scanDust), (o3, scanDust)], HitsItself e ![0, 0] := by
      intro e he
      have hm : e.1 ∈ [o1, o2, o3] ∧ e.2 = scanDust := by
        rcases (by simpa using he : e = (o1, scanDust) ∨ e = (o2, scanDust) ∨ e = (o3, scanDust)) with rfl | rfl | rfl <;> simp
      obtain ⟨m, sc⟩ := e
      obtain ⟨hm, rfl⟩ := hm
      obtain ⟨k1, k2⟩ := hb m hm
      exact ⟨k1, _, by show _ ∈ scanDust.2.points; rw [pD]; exact List.mem_cons_self, k2⟩
    have hc : ∀ s ∈ [] ++ [(o1, scanDust), (o2, scanDust), (o3, scanDust)],
        CloudInRange s.2.2 (Fp.lit 0.1 : F32).val := by
      intro s hs p hp i
      have hm : s.2 = scanDust := by
        rcases (by simpa using hs : s = (o1, scanDust) ∨ s = (o2, scanDust) ∨ s = (o3, scanDust)) with rfl | rfl | rfl <;> rfl
      rw [hm, pD] at hp
      refine ⟨(p i).val, ?_, ?_⟩ <;> revert i <;> revert p <;> decide +kernel
    obtain ⟨cb, hP, hv⟩ := C122_default hl (by norm_num) (by norm_num) hd hc hr
    have hcb := hP.cells
    subst hcb
    exact ⟨L, o, o1, o2, o3, hl, hd, hr, hh, hc, (hv _).2 rfl hh⟩
end

end Verif.Props
