import Verif.Spec.Split
import Verif.Props.Order
import Verif.Props.Higher

/-!
# C115: a scan in parts
-/

namespace Verif.Props
open Scalar Spec

section
variable {F : Type} [Scalar F] {D : ℕ} {origin : Point D F} {cloud : PointCloud D F} {parts : List (PointCloud D F)}
  {bounds : Bounds D F} {r ml : F}

/-- C115, one scan in any arithmetic: what a scan tells about a cell is what its parts tell together. -/
theorem C115_seen (h : PartsOf parts cloud) (c : Cell D) :
    seen origin cloud bounds r ml c = together (parts.map fun a => seen origin a bounds r ml c) := by
  have hhit : (∃ p ∈ cloud.points, ∃ ray, Casts origin p bounds r ml ray (some c)) ↔
      Seen.hit ∈ parts.map fun a => seen origin a bounds r ml c := by
    rw [List.mem_map]
    constructor
    · rintro ⟨p, hp, x⟩
      obtain ⟨a, ha, hpa⟩ := (h p).mp hp
      exact ⟨a, ha, if_pos ⟨p, hpa, x⟩⟩
    · rintro ⟨a, ha, e⟩
      unfold seen at e
      split_ifs at e with h1
      obtain ⟨p, hpa, x⟩ := h1
      exact ⟨p, (h p).mpr ⟨a, ha, hpa⟩, x⟩
  have hmiss : Seen.hit ∉ (parts.map fun a => seen origin a bounds r ml c) →
      ((∃ p ∈ cloud.points, ∃ ray e, Casts origin p bounds r ml ray e ∧ c ∈ ray) ↔
      Seen.miss ∈ parts.map fun a => seen origin a bounds r ml c) := by
    intro hn
    rw [List.mem_map]
    constructor
    · rintro ⟨p, hp, x⟩
      obtain ⟨a, ha, hpa⟩ := (h p).mp hp
      refine ⟨a, ha, ?_⟩
      have h1 : ¬ ∃ p ∈ a.points, ∃ ray, Casts origin p bounds r ml ray (some c) := fun h1 =>
        hn (List.mem_map.mpr ⟨a, ha, if_pos h1⟩)
      unfold seen
      rw [if_neg h1, if_pos ⟨p, hpa, x⟩]
    · rintro ⟨a, ha, e⟩
      unfold seen at e
      split_ifs at e with h1 h2
      obtain ⟨p, hpa, x⟩ := h2
      exact ⟨p, (h p).mpr ⟨a, ha, hpa⟩, x⟩
  unfold together
  conv_lhs => unfold seen
  exact told_congr hhit hmiss
end

section
variable {f : Fmt} {D : ℕ} {nm : LidarNoiseModel (Fp f)} {m m' m1 m2 : GridMap D (Fp f) (Fp f)}
  {ord : List (Cell D) → List (Cell D)} {origin : Point D (Fp f)} {cloud : PointCloud D (Fp f)}
  {parts : List (PointCloud D (Fp f))}

/-- C115: a scan that fits can be taken in one piece exactly if it can be taken in parts that fit, whatever the hash
orders. -/
theorem C115_returns_iff (h : PartsOf parts cloud) (hf : Fits m cloud) (hfp : ∀ a ∈ parts, Fits m a)
    (ho : IsOrder ord) :
    (∃ m1, Integrates ord nm m origin cloud m1) ↔ ∃ m2, Scans nm m (parts.map fun a => (origin, a)) m2 := by
  have hone : ∀ {c : PointCloud D (Fp f)} {ord : List (Cell D) → List (Cell D)} {n : GridMap D (Fp f) (Fp f)},
      Fits m c → IsOrder ord → n.bounds = m.bounds → n.resolution = m.resolution → n.tileSize = m.tileSize →
      n.data.shape = m.data.shape → ((∃ m1, Integrates ord nm n origin c m1) ↔
      ∀ p ∈ c.points, ∃ ray e, Casts origin p m.bounds m.resolution nm.maxRange ray e ∧
        ∀ z ∈ ray ++ e.toList, InGrid m z) := by
    intro c ord n hf ho hb hr ht hs
    rw [C38_returns_iff ho]
    constructor
    · rintro ⟨me, free, occ, h1, h2, h3, h4⟩ p hp
      rw [show n.expandBounds c.bounds (Fp.lit 0) = .ok n from hf n hb hr ht] at h1
      cases h1
      rw [hb, hr] at h2
      obtain ⟨ray, e, hc⟩ := C28_returns_iff.mp ⟨free, occ, h2⟩ p hp
      refine ⟨ray, e, hc, fun z hz => (inGrid_congr hs z).mp ?_⟩
      by_cases hocc : z ∈ occ
      · exact h4 z hocc
      rcases List.mem_append.mp hz with hz | hz
      · exact h3 z ((C28_free h2 z).mpr ⟨⟨p, hp, ray, e, hc, hz⟩, hocc⟩)
      · rw [Option.mem_toList] at hz
        cases hz
        exact absurd ((C28_occupied h2 z).mpr ⟨p, hp, ray, hc⟩) hocc
    · intro hall
      obtain ⟨free, occ, h2⟩ := C28_returns_iff.mpr fun p hp =>
        let ⟨ray, e, hc, _⟩ := hall p hp; ⟨ray, e, hc⟩
      refine ⟨n, free, occ, hf n hb hr ht, by rw [hb, hr]; exact h2, fun z hz => ?_, fun z hz => ?_⟩
      · obtain ⟨⟨p, hp, ray, e, hc, hm⟩, -⟩ := (C28_free h2 z).mp hz
        obtain ⟨ray', e', hc', hg⟩ := hall p hp
        obtain ⟨rfl, rfl⟩ := casts_unique hc hc'
        exact (inGrid_congr hs z).mpr (hg z (List.mem_append_left _ hm))
      · obtain ⟨p, hp, ray, hc⟩ := (C28_occupied h2 z).mp hz
        obtain ⟨ray', e', hc', hg⟩ := hall p hp
        obtain ⟨rfl, rfl⟩ := casts_unique hc hc'
        exact (inGrid_congr hs z).mpr (hg z (by simp))
  rw [hone hf ho rfl rfl rfl rfl]
  have hparts : ∀ (l : List (PointCloud D (Fp f))) (n : GridMap D (Fp f) (Fp f)), (∀ a ∈ l, Fits m a) →
      n.bounds = m.bounds → n.resolution = m.resolution → n.tileSize = m.tileSize → n.data.shape = m.data.shape →
      ((∃ m2, Scans nm n (l.map fun a => (origin, a)) m2) ↔ ∀ a ∈ l, ∀ p ∈ a.points, ∃ ray e,
        Casts origin p m.bounds m.resolution nm.maxRange ray e ∧ ∀ z ∈ ray ++ e.toList, InGrid m z) := by
    intro l
    induction l with
    | nil =>
      intro n _ _ _ _ _
      exact ⟨fun _ a ha => absurd ha List.not_mem_nil, fun _ => ⟨n, .done n⟩⟩
    | cons a l ih =>
      intro n hf hb hr ht hs
      have hfa := hf a List.mem_cons_self
      rw [List.forall_mem_cons, List.map_cons]
      constructor
      · rintro ⟨m2, hm2⟩
        cases hm2 with
        | @step _ n1 _ ord1 _ _ ho1 hi hrest =>
          obtain ⟨p1, p2, p3, p4, -⟩ := fits_step (s := (origin, a)) (fits_congr hb hr ht hfa) ho1 hi
          exact ⟨(hone hfa ho1 hb hr ht hs).mp ⟨_, hi⟩,
            (ih n1 (fun a ha => hf a (List.mem_cons_of_mem _ ha)) (p1.trans hb) (p2.trans hr) (p3.trans ht)
              (p4.trans hs)).mp ⟨_, hrest⟩⟩
      · rintro ⟨h1, h2⟩
        obtain ⟨n1, hi⟩ := (hone hfa ho hb hr ht hs).mpr h1
        obtain ⟨p1, p2, p3, p4, -⟩ := fits_step (s := (origin, a)) (fits_congr hb hr ht hfa) ho hi
        obtain ⟨m2, hm2⟩ := (ih n1 (fun a ha => hf a (List.mem_cons_of_mem _ ha)) (p1.trans hb) (p2.trans hr)
          (p3.trans ht) (p4.trans hs)).mpr h2
        exact ⟨m2, .step ho hi hm2⟩
  rw [hparts parts m hfp rfl rfl rfl rfl]
  exact ⟨fun hx a ha p hp => hx p ((h p).mpr ⟨a, ha, hp⟩), fun hx p hp => by
    obtain ⟨a, ha, hpa⟩ := (h p).mp hp
    exact hx a ha p hpa⟩

/-- The observations without the empty ones. -/
lemma fold_nothing {l : List Seen} (h : ∀ s ∈ l, s = .nothing) (v : Fp f) : l.foldl (Seen.apply nm) v = v := by
  induction l generalizing v with
  | nil => rfl
  | cons s l ih =>
    rw [List.foldl_cons, h s List.mem_cons_self]
    exact ih (fun s hs => h s (List.mem_cons_of_mem _ hs)) v

lemma together_nothing {l : List Seen} (h : ∀ s ∈ l, s = .nothing) : together l = .nothing := by
  unfold together
  rw [if_neg fun h1 => Seen.noConfusion (h _ h1), if_neg fun h1 => Seen.noConfusion (h _ h1)]

lemma together_cons_nothing {l : List Seen} : together (.nothing :: l) = together l := by
  have e : ∀ s, s ≠ Seen.nothing → (s ∈ Seen.nothing :: l ↔ s ∈ l) := fun s hs =>
    ⟨fun hm => (List.mem_cons.mp hm).resolve_left hs, List.mem_cons_of_mem _⟩
  unfold together
  exact told_congr (e _ nofun) fun _ => e _ nofun

lemma fold_single {l : List Seen} (h : l.Pairwise fun a b => ¬ (a ≠ .nothing ∧ b ≠ .nothing)) (v : Fp f) :
    l.foldl (Seen.apply nm) v = (together l).apply nm v := by
  induction l with
  | nil => rw [together_nothing (by simp)]; rfl
  | cons s l ih =>
    rw [List.pairwise_cons] at h
    by_cases hs : s = .nothing
    · subst hs
      rw [together_cons_nothing, ← ih h.2]
      rfl
    · have hl : ∀ t ∈ l, t = .nothing := fun t ht => by
        by_contra hne
        exact h.1 t ht ⟨hs, hne⟩
      rw [List.foldl_cons, fold_nothing hl]
      have hn : ∀ s, s ≠ Seen.nothing → s ∉ l := fun s hs hm => hs (hl s hm)
      cases s
      · unfold together; simp
      · unfold together; simp [hn .hit (by simp)]
      · exact absurd rfl hs

/-- Hits only: at least as high as one of them. -/
lemma fold_hits (hh : FLe (Fp.lit 0) nm.hit) (hmi : FLe nm.miss (Fp.lit 0)) {l : List Seen} (h : Seen.miss ∉ l) {v : Fp f}
    (hv : InLimits nm v) :
    FLe v (l.foldl (Seen.apply nm) v) ∧ FLe ((together l).apply nm v) (l.foldl (Seen.apply nm) v) := by
  induction l generalizing v with
  | nil =>
    have := Fp.FLe_refl hv.2.1
    rw [together_nothing (by simp)]
    exact ⟨this, this⟩
  | cons s l ih =>
    have hl : Seen.miss ∉ l := fun hm => h (List.mem_cons_of_mem _ hm)
    rw [List.foldl_cons]
    cases s
    · obtain ⟨i1, -⟩ := ih hl (C37_update hh hmi hv .hit)
      have e : together (.hit :: l) = .hit := by unfold together; simp
      rw [e]
      exact ⟨Fp.FLe_trans ((C42_direction hv).1 hh) i1, i1⟩
    · exact absurd List.mem_cons_self h
    · rw [together_cons_nothing]
      exact ih hl hv

lemma fold_misses (hh : FLe (Fp.lit 0) nm.hit) (hmi : FLe nm.miss (Fp.lit 0)) {l : List Seen} (h : Seen.hit ∉ l)
    {v : Fp f} (hv : InLimits nm v) :
    FLe (l.foldl (Seen.apply nm) v) v ∧ FLe (l.foldl (Seen.apply nm) v) ((together l).apply nm v) := by
  induction l generalizing v with
  | nil =>
    have := Fp.FLe_refl hv.2.1
    rw [together_nothing (by simp)]
    exact ⟨this, this⟩
  | cons s l ih =>
    have hl : Seen.hit ∉ l := fun hm => h (List.mem_cons_of_mem _ hm)
    rw [List.foldl_cons]
    cases s
    · exact absurd List.mem_cons_self h
    · obtain ⟨i1, -⟩ := ih hl (C37_update hh hmi hv .miss)
      have e : together (.miss :: l) = .miss := by unfold together; simp [hl]
      rw [e]
      exact ⟨Fp.FLe_trans i1 ((C42_direction hv).2 hmi), i1⟩
    · rw [together_cons_nothing]
      exact ih hl hv

lemma fold_one_hit (hh : FLe (Fp.lit 0) nm.hit) (hmi : FLe nm.miss (Fp.lit 0)) (hfin : FiniteSteps nm) {l : List Seen}
    (h : l.Pairwise fun a b => ¬ (a = .hit ∧ b = .hit)) {v : Fp f} (hv : InLimits nm v) :
    FLe (l.foldl (Seen.apply nm) v) ((together l).apply nm v) := by
  have hmono : ∀ s, ∀ {v v' : Fp f}, FLe v v' → FLe (Seen.apply nm v s) (Seen.apply nm v' s) := fun s v v' hvv =>
    C109_step ⟨Fp.FLe_refl hh.2.1, Fp.FLe_refl hmi.1, Fp.FLe_refl hv.2.2.1, Fp.FLe_refl hv.1.1, rfl⟩ hfin hfin s hvv
  by_cases hm : Seen.hit ∈ l
  · have e : together l = .hit := by unfold together; rw [if_pos hm]
    rw [e]
    clear e
    induction l generalizing v with
    | nil => cases hm
    | cons s l ih =>
      rw [List.pairwise_cons] at h
      rw [List.foldl_cons]
      by_cases hs : s = .hit
      · subst hs
        exact (fold_misses hh hmi (fun hx => h.1 _ hx ⟨rfl, rfl⟩) (C37_update hh hmi hv .hit)).1
      · have hml : Seen.hit ∈ l := by
          rcases List.mem_cons.mp hm with hx | hx
          · exact absurd hx.symm hs
          · exact hx
        have hle : FLe (s.apply nm v) v := by
          cases s
          · exact absurd rfl hs
          · exact (C42_direction hv).2 hmi
          · exact Fp.FLe_refl hv.2.1
        exact Fp.FLe_trans (ih h.2 (C37_update hh hmi hv s) hml) (hmono .hit hle)
  · exact (fold_misses hh hmi hm hv).2

/-- C115: a scan that fits, taken in one piece and in parts that fit. The bounds are the same, and a cell about which at
most one part tells something has the same value, bit by bit. -/
theorem C115_same (h : PartsOf parts cloud) (hf : Fits m cloud) (hfp : ∀ a ∈ parts, Fits m a) (ho : IsOrder ord)
    (h1 : Integrates ord nm m origin cloud m1) (h2 : Scans nm m (parts.map fun a => (origin, a)) m2) :
    m2.bounds = m1.bounds ∧ m2.resolution = m1.resolution ∧ m2.data.shape = m1.data.shape ∧
    ∀ c, MachineCell c →
      AtMostOne (fun a => seen origin a m.bounds m.resolution nm.maxRange c ≠ .nothing) parts →
      m2.get c = m1.get c := by
  obtain ⟨p1, p2, p3, p4, p5⟩ := fits_step (s := (origin, cloud)) hf ho h1
  obtain ⟨q1, q2, q3, q4, q5⟩ := C67_values (fun s hs => by
    obtain ⟨a, ha, rfl⟩ := List.mem_map.mp hs
    exact hfp a ha) h2
  refine ⟨q1.trans p1.symm, q2.trans p2.symm, q4.trans p4.symm, fun c hc hone => ?_⟩
  rw [p5 c hc, q5 c hc, C115_seen h c]
  congr 1
  funext v
  rw [List.foldl_map, ← fold_single, List.foldl_map]
  rw [List.pairwise_map]
  exact hone

/-- C115, the other cells, for a map within the limits of a noise model whose hits count up and whose misses count down:
a cell that at most one part hits has, after the parts, at most the value it has after the scan in one piece; a cell that
no part misses has at least that value. -/
theorem C115_other (hh : FLe (Fp.lit 0) nm.hit) (hmi : FLe nm.miss (Fp.lit 0)) (hfin : FiniteSteps nm)
    (hm : MapInLimits nm m) (h : PartsOf parts cloud) (hf : Fits m cloud) (hfp : ∀ a ∈ parts, Fits m a)
    (ho : IsOrder ord) (h1 : Integrates ord nm m origin cloud m1)
    (h2 : Scans nm m (parts.map fun a => (origin, a)) m2) {c : Cell D} (hc : MachineCell c) (hg : InGrid m c) :
    ∃ v1 v2, m1.get c = .ok v1 ∧ m2.get c = .ok v2 ∧
    (AtMostOne (fun a => seen origin a m.bounds m.resolution nm.maxRange c = .hit) parts → FLe v2 v1) ∧
    ((∀ a ∈ parts, seen origin a m.bounds m.resolution nm.maxRange c ≠ .miss) → FLe v1 v2) := by
  obtain ⟨-, -, -, -, p5⟩ := fits_step (s := (origin, cloud)) hf ho h1
  obtain ⟨-, -, -, -, q5⟩ := C67_values (fun s hs => by
    obtain ⟨a, ha, rfl⟩ := List.mem_map.mp hs
    exact hfp a ha) h2
  obtain ⟨v, hv⟩ := (C31_get m hc).1 hg
  have e2 := q5 c hc
  have e1 := p5 c hc
  rw [hv] at e1 e2
  rw [C115_seen h c] at e1
  rw [Except.map, List.foldl_map] at e2
  have hl := hm c v hv
  refine ⟨_, _, e1, e2, fun hx => ?_, fun hx => ?_⟩
  · have := fold_one_hit hh hmi hfin (l := parts.map fun a => seen origin a m.bounds m.resolution nm.maxRange c)
      (by rw [List.pairwise_map]; exact hx) hl
    rwa [List.foldl_map] at this
  · have := (fold_hits hh hmi (l := parts.map fun a => seen origin a m.bounds m.resolution nm.maxRange c) (by
      rw [List.mem_map]
      rintro ⟨a, ha, e⟩
      exact hx a ha e) hl).2
    rwa [List.foldl_map] at this
end

/-- The points of `scanA` and `scanB` in one cloud. -/
def scanAB : PointCloud 2 F32 := PointCloud.fromPoints [![Fp.lit 1, Fp.lit 0], ![Fp.lit 2, Fp.lit 0]]

lemma scanAB_parts : PartsOf [scanA.2, scanB.2] scanAB := by
  intro p
  rw [scanAB, scanA, scanB, C13_points_fromPoints]
  simp only [List.mem_cons, List.not_mem_nil, or_false, exists_eq_or_imp, exists_eq_left, C13_points_fromPoints]

lemma scanAB_range : ∀ s ∈ [scanA, scanB, (scanA.1, scanAB)], CloudInRange s.2 1 := by
  intro s hs
  rcases List.mem_cons.mp hs with rfl | hs
  · exact scansAB_range _ List.mem_cons_self
  rcases List.mem_cons.mp hs with rfl | hs
  · exact scansAB_range _ (List.mem_cons_of_mem _ List.mem_cons_self)
  rw [List.mem_singleton.mp hs]
  intro p hp i
  obtain ⟨a, ha, hpa⟩ := (scanAB_parts p).mp hp
  rcases List.mem_cons.mp ha with rfl | ha
  · exact scansAB_range _ List.mem_cons_self p hpa i
  · rw [List.mem_singleton.mp ha] at hpa
    exact scansAB_range _ (List.mem_cons_of_mem _ List.mem_cons_self) p hpa i

/-- C115: the parts are not the same as the scan in one piece where one part hits a cell and another looks through it. A
whole map, all hypotheses of `C115_same` and `C115_other` true: in one piece the obstacle at (1, 0) is occupied; in
parts the ray to the farther point erases it. -/
theorem C115_mixed_refuted : ∃ (m m1 m2 : GridMap 2 F32 F32), PartsOf [scanA.2, scanB.2] scanAB ∧
    FLe (Fp.lit 0) narrowNM.hit ∧ FLe narrowNM.miss (Fp.lit 0) ∧ FiniteSteps narrowNM ∧ MapInLimits narrowNM m ∧
    Fits m scanAB ∧ (∀ a ∈ [scanA.2, scanB.2], Fits m a) ∧ Integrates id narrowNM m scanA.1 scanAB m1 ∧
    Scans narrowNM m ([scanA.2, scanB.2].map fun a => (scanA.1, a)) m2 ∧ InGrid m ![1, 0] ∧
    narrowNM.occupied m1 ![1, 0] = .ok true ∧ narrowNM.occupied m2 ![1, 0] = .ok false := by
  have hr : Res (Fp.lit 1 : F32) 1 := ⟨by decide +kernel, by norm_num, by norm_num⟩
  obtain ⟨m, hm, hP⟩ := new_empty_placed (D := 2) (by norm_num) hr (t := 4) (by norm_num) (by norm_num) (Fp.lit 0 : F32)
  have h : (do
      let m : GridMap 2 F32 F32 ← GridMap.new (Fp.lit 1) Bounds.empty 4 (Fp.lit 0)
      let a ← narrowNM.integratePointCloud id 10 m scanA.1 scanA.2
      let b ← narrowNM.integratePointCloud id 10 a scanB.1 scanB.2
      let c ← narrowNM.integratePointCloud id 10 b scanA.1 scanAB
      let m1 ← narrowNM.integratePointCloud id 10 c scanA.1 scanAB
      let a2 ← narrowNM.integratePointCloud id 10 c scanA.1 scanA.2
      let m2 ← narrowNM.integratePointCloud id 10 a2 scanA.1 scanB.2
      let _ ← c.get ![1, 0]
      let o1 ← narrowNM.occupied m1 ![1, 0]
      let o2 ← narrowNM.occupied m2 ![1, 0]
      if o1 = true ∧ o2 = false then return () else .error .fuel) = Except.ok () := by decide +kernel
  rw [hm, M.bind_ok] at h
  simp only [M.bind_eq_ok] at h
  obtain ⟨a, ha, b, hb, c, hc, m1, hm1, a2, ha2, m2, hm2, v, hv, o1, ho1, o2, ho2, h⟩ := h
  have hid : IsOrder (id : List (Cell 2) → List (Cell 2)) := fun l => .refl l
  have hS : Scans narrowNM m [scanA, scanB, (scanA.1, scanAB)] c :=
    .step hid ⟨10, ha⟩ (.step hid ⟨10, hb⟩ (.step hid ⟨10, hc⟩ (.done _)))
  have hfit := C67_then_fits (by norm_num) hP scanAB_range hS
  have hl : MapInLimits narrowNM c := by
    have hon : OccupancyGridMap.new narrowNM (Fp.lit 1) 4 = .ok ⟨m, narrowNM⟩ := by
      unfold OccupancyGridMap.new
      rw [show GridMap.new (Fp.lit 1) Bounds.empty 4 narrowNM.defaultCellValue = .ok m from hm]
      rfl
    exact C37_from_new (by decide +kernel) (by decide +kernel) (by unfold InLimits; decide +kernel) hon
      (.step hid ⟨10, ha⟩ (.step hid ⟨10, hb⟩ (.step hid ⟨10, hc⟩ (.done _))))
  have hno : o1 = true ∧ o2 = false := by
    by_contra hcon
    rw [if_neg hcon] at h
    cases h
  refine ⟨c, m1, m2, scanAB_parts, by decide +kernel, by decide +kernel,
    ⟨⟨1, by decide +kernel⟩, -1, by decide +kernel⟩, hl, hfit (scanA.1, scanAB) (by simp), ?_, ⟨10, hm1⟩,
    .step hid ⟨10, ha2⟩ (.step hid ⟨10, hm2⟩ (.done _)), ?_, hno.1 ▸ ho1, hno.2 ▸ ho2⟩
  · intro a ha
    rcases List.mem_cons.mp ha with rfl | ha
    · exact hfit scanA (by simp)
    · rw [List.mem_singleton.mp ha]
      exact hfit scanB (by simp)
  · by_contra hn
    rw [(C31_get c (by unfold MachineCell; decide)).2 hn] at hv
    cases hv

/-- Both sides of `C115_returns_iff` and the hypotheses of `C115_same` and `C115_other`: that case. -/
example : ∃ (m m1 m2 : GridMap 2 F32 F32), (∃ m2, Scans narrowNM m ([scanA.2, scanB.2].map fun a => (scanA.1, a)) m2) ∧
    m2.bounds = m1.bounds ∧ ∃ v1 v2, m1.get ![1, 0] = .ok v1 ∧ m2.get ![1, 0] = .ok v2 := by
  obtain ⟨m, m1, m2, h1, h2, h3, h4, h5, h6, h7, h8, h9, h10, -, -⟩ := C115_mixed_refuted
  have hid : IsOrder (id : List (Cell 2) → List (Cell 2)) := fun l => .refl l
  obtain ⟨v1, v2, e1, e2, -⟩ := C115_other h2 h3 h4 h5 h1 h6 h7 hid h8 h9 (c := ![1, 0])
    (by unfold MachineCell; decide) h10
  exact ⟨m, m1, m2, (C115_returns_iff h1 h6 h7 hid).mp ⟨m1, h8⟩, (C115_same h1 h6 h7 hid h8 h9).1, v1, v2, e1, e2⟩

/-- Two parts of which only the second tells something about a cell. -/
example {bounds : Bounds 2 F32} {r ml : F32} {c : Cell 2} (a : PointCloud 2 F32) :
    AtMostOne (fun a => seen scanA.1 a bounds r ml c ≠ .nothing) [PointCloud.fromPoints [], a] := by
  refine List.pairwise_pair.mpr fun h => h.1 ?_
  unfold seen
  rw [C13_points_fromPoints]
  simp

example (c : Cell 2) (bounds : Bounds 2 F32) (r ml : F32) : seen scanA.1 scanAB bounds r ml c =
    together ([scanA.2, scanB.2].map fun a => seen scanA.1 a bounds r ml c) := C115_seen scanAB_parts c

end Verif.Props
