import Verif.Props.Noise

/-!
# C37, C42, C43, C45: stored values, occupancy, parameters
-/

namespace Verif.Props
open Spec

variable {F A : Type} {D : ℕ} {f : Fmt}

/-! ## Adding and the order -/

lemma FLe_add_nonneg {v h : Fp f} (hv : v.isNaN = false) (hh : FLe (Fp.lit 0) h)
    (hn : (v.add h).isNaN = false) : FLe v (v.add h) := by
  rcases Fp.FLe_cases hh with ⟨p, q, hp, hq, hpq⟩ | ⟨h0, -⟩ | ⟨rfl, -⟩
  · have : p = 0 := hp.unique (Fp.ofRat_is_rep Fmt.rep_zero)
    subst this
    obtain ⟨nz, h1, h2, rfl⟩ := hq
    rcases v with _ | s | ⟨r, nz', h3, h4⟩
    · simp [Fp.isNaN] at hv
    · exact Fp.FLe_refl rfl
    · have h5 : FLe (Fp.fin r nz' h3 h4) (Fp.ofRat false r : Fp f) :=
        (Fp.FLe_is ⟨_, _, _, rfl⟩ (Fp.ofRat_is_rep h3)).mpr le_rfl
      exact Fp.FLe_trans h5 (Fp.FLe_ofRat (by linarith))
  · exfalso
    obtain ⟨_, _, _, e⟩ : (Fp.lit 0 : Fp f).Is 0 := Fp.ofRat_is_rep Fmt.rep_zero
    rw [h0] at e; cases e
  · rcases v with _ | (_ | _) | ⟨r, nz', h3, h4⟩
    · simp [Fp.isNaN] at hv
    · exact Fp.FLe_refl rfl
    · simp [Fp.add, Fp.isNaN] at hn
    · exact Fp.FLe_pos_inf rfl

lemma FLe_add_nonpos {v h : Fp f} (hv : v.isNaN = false) (hh : FLe h (Fp.lit 0))
    (hn : (v.add h).isNaN = false) : FLe (v.add h) v := by
  rcases Fp.FLe_cases hh with ⟨p, q, hp, hq, hpq⟩ | ⟨rfl, -⟩ | ⟨h0, -⟩
  · have : q = 0 := hq.unique (Fp.ofRat_is_rep Fmt.rep_zero)
    subst this
    obtain ⟨nz, h1, h2, rfl⟩ := hp
    rcases v with _ | s | ⟨r, nz', h3, h4⟩
    · simp [Fp.isNaN] at hv
    · exact Fp.FLe_refl rfl
    · have h5 : FLe (Fp.ofRat false r : Fp f) (Fp.fin r nz' h3 h4) :=
        (Fp.FLe_is (Fp.ofRat_is_rep h3) ⟨_, _, _, rfl⟩).mpr le_rfl
      exact Fp.FLe_trans (Fp.FLe_ofRat (by linarith)) h5
  · rcases v with _ | (_ | _) | ⟨r, nz', h3, h4⟩
    · simp [Fp.isNaN] at hv
    · simp [Fp.add, Fp.isNaN] at hn
    · exact Fp.FLe_refl rfl
    · exact Fp.FLe_neg_inf rfl
  · exfalso
    obtain ⟨_, _, _, e⟩ : (Fp.lit 0 : Fp f).Is 0 := Fp.ofRat_is_rep Fmt.rep_zero
    rw [h0] at e; cases e

/-! ## C37 -/

variable {nm : LidarNoiseModel (Fp f)} {m m' : GridMap D (Fp f) (Fp f)} {origin : Point D (Fp f)}
  {cloud : PointCloud D (Fp f)} {ord : List (Cell D) → List (Cell D)} {v : Fp f}

lemma hit_bounds (hh : FLe (Fp.lit 0) nm.hit) (hv : InLimits nm v) :
    InLimits nm (nm.hitValue v) ∧ FLe v (nm.hitValue v) := by
  obtain ⟨h1, h2⟩ := hv
  have h3 : FLe nm.min nm.max := Fp.FLe_trans h1 h2
  change InLimits nm ((v.add nm.hit).min nm.max) ∧ FLe v ((v.add nm.hit).min nm.max)
  cases hn : (v.add nm.hit).isNaN
  · have h4 := FLe_add_nonneg h1.2.1 hh hn
    exact ⟨⟨Fp.le_min (Fp.FLe_trans h1 h4) h3, Fp.min_le_right hn h2.2.1⟩, Fp.le_min h4 h2⟩
  · rw [Fp.min_nan_left hn]
    exact ⟨⟨h3, Fp.FLe_refl h2.2.1⟩, h2⟩

lemma miss_bounds (hh : FLe nm.miss (Fp.lit 0)) (hv : InLimits nm v) :
    InLimits nm (nm.missValue v) ∧ FLe (nm.missValue v) v := by
  obtain ⟨h1, h2⟩ := hv
  have h3 : FLe nm.min nm.max := Fp.FLe_trans h1 h2
  change InLimits nm ((v.add nm.miss).max nm.min) ∧ FLe ((v.add nm.miss).max nm.min) v
  cases hn : (v.add nm.miss).isNaN
  · have h4 := FLe_add_nonpos h1.2.1 hh hn
    exact ⟨⟨Fp.le_max_right hn h1.1, Fp.max_le (Fp.FLe_trans h4 h2) h3⟩, Fp.max_le h4 h1⟩
  · rw [Fp.max_nan_left hn]
    exact ⟨⟨Fp.FLe_refl h1.1, h3⟩, h1⟩

/-- C37: one clamped hit or miss leaves an in-range value in range, whatever f32 values are involved
(infinite ones included). -/
theorem C37_update (hh : FLe (Fp.lit 0) nm.hit) (hm : FLe nm.miss (Fp.lit 0)) (hv : InLimits nm v)
    (s : Seen) : InLimits nm (s.apply nm v) := by
  cases s with
  | hit => exact (hit_bounds hh hv).1
  | miss => exact (miss_bounds hm hv).1
  | nothing => exact hv

lemma mapInLimits_iff : MapInLimits nm m ↔ ∀ v ∈ m.data.data, InLimits nm v := by
  constructor
  · intro h v hv
    obtain ⟨ix, hix⟩ := NdArray.mem_data_iff.mp hv
    apply h (fun i => (ix i : ℤ)) v
    unfold GridMap.get
    rw [← hix]; congr 1
  · intro h c v hv
    exact h v (NdArray.mem_data_iff.mpr ⟨_, hv⟩)

/-- Expanding brings no values but the old ones and the default. -/
lemma expand_values {m m' : GridMap D (Fp f) A} {b : Bounds D (Fp f)} {d : A}
    (h : m.expandBounds b d = .ok m') : ∀ v ∈ m'.data.data, v = d ∨ v ∈ m.data.data := by
  have hnew : ∀ {r : Fp f} {b : Bounds D (Fp f)} {a : NdArray D A}, ndarrayWithBounds r b d = .ok a →
      ∀ v ∈ a.data, v = d := by
    intro r b a ha v hv
    obtain ⟨ix, hix⟩ := NdArray.mem_data_iff.mp hv
    have hs : InShape a.shape ix := by
      by_contra hn
      rw [NdArray.get_panic hn] at hix; cases hix
    rw [(ndarrayWithBounds_get ha).2 ix hs] at hix
    cases hix; rfl
  intro v hv
  unfold GridMap.expandBounds at h
  rw [M.bind_eq_ok] at h
  obtain ⟨ncb, -, h⟩ := h
  dsimp only at h
  by_cases h1 : ncb = CellBounds.fromBounds m.bounds m.resolution
  · rw [if_pos h1] at h
    cases h; exact .inr hv
  · rw [if_neg h1, M.bind_eq_ok] at h
    obtain ⟨a, ha, h⟩ := h
    by_cases h2 : m.bounds.beq Bounds.empty = true
    · rw [if_pos h2, M.bind_ok] at h
      cases h; exact .inl (hnew ha v hv)
    · rw [if_neg h2, M.bind_eq_ok] at h
      obtain ⟨a', ha', h⟩ := h
      cases h
      unfold GridMap.copyOld at ha'
      rw [M.bind_eq_ok] at ha'
      obtain ⟨off, -, ha'⟩ := ha'
      rw [M.bind_eq_ok] at ha'
      obtain ⟨sz, -, ha'⟩ := ha'
      split_ifs at ha'
      rw [M.bind_eq_ok] at ha'
      obtain ⟨stop, -, ha'⟩ := ha'
      rcases NdArray.mem_sliceAssign ha' hv with h3 | h3
      · exact .inl (hnew ha v h3)
      · exact .inr h3

lemma foldUpd_limits {g : Fp f → Fp f} (hg : ∀ v, InLimits nm v → InLimits nm (g v))
    {l : List (Cell D)} {m m' : GridMap D (Fp f) (Fp f)} (hm : MapInLimits nm m)
    (h : l.foldlM (upd g) m = .ok m') : MapInLimits nm m' := by
  induction l generalizing m with
  | nil => cases h; exact hm
  | cons a l ih =>
    rw [List.foldlM_cons, M.bind_eq_ok] at h
    obtain ⟨m1, h1, h2⟩ := h
    refine ih ?_ h2
    unfold upd at h1
    rw [M.bind_eq_ok] at h1
    obtain ⟨v, hv, hs⟩ := h1
    obtain ⟨d, hd, rfl⟩ := set_data hs
    rw [mapInLimits_iff] at hm ⊢
    intro w hw
    rcases NdArray.mem_set hd hw with rfl | hw
    · exact hg v (hm v (NdArray.mem_data_iff.mpr ⟨_, hv⟩))
    · exact hm w hw

/-- C37: one integration keeps every stored value in range. Nothing is assumed about cloud, origin,
bounds or hash order. -/
theorem C37_integrate (hh : FLe (Fp.lit 0) nm.hit) (hmi : FLe nm.miss (Fp.lit 0))
    (h0 : InLimits nm (Fp.lit 0)) (hm : MapInLimits nm m)
    (h : Integrates ord nm m origin cloud m') : MapInLimits nm m' := by
  obtain ⟨fuel, h⟩ := h
  rw [integrate_unfold, M.bind_eq_ok] at h
  obtain ⟨me, h1, h⟩ := h
  rw [M.bind_eq_ok] at h
  obtain ⟨⟨free, occ⟩, h2, h⟩ := h
  rw [M.bind_eq_ok] at h
  obtain ⟨m1, h3, h⟩ := h
  rw [M.bind_eq_ok] at h
  obtain ⟨m2, h4, h⟩ := h
  injection h with h
  have hme : MapInLimits nm me := by
    rw [mapInLimits_iff] at hm ⊢
    intro v hv
    rcases expand_values h1 v hv with rfl | hv
    · exact h0
    · exact hm v hv
  have hm1 := foldUpd_limits (fun v hv => (miss_bounds hmi hv).1) hme h3
  have hm2 := foldUpd_limits (fun v hv => (hit_bounds hh hv).1) hm1 h4
  rw [← h]
  split_ifs
  · exact hm2
  · exact hm2

/-- C37: after any sequence of integrations, with any hash orders, every stored value is in range. -/
theorem C37_history (hh : FLe (Fp.lit 0) nm.hit) (hmi : FLe nm.miss (Fp.lit 0))
    (h0 : InLimits nm (Fp.lit 0)) {hist} (hm : MapInLimits nm m) (h : History nm m hist m') :
    MapInLimits nm m' := by
  induction h with
  | done => exact hm
  | step _ h1 _ ih => exact ih (C37_integrate hh hmi h0 hm h1)

/-- C37: in particular starting from a new map. -/
theorem C37_from_new {r : Fp f} {t : ℕ} {o : OccupancyGridMap D (Fp f)} (hh : FLe (Fp.lit 0) nm.hit)
    (hmi : FLe nm.miss (Fp.lit 0)) (h0 : InLimits nm (Fp.lit 0)) {hist}
    (ho : OccupancyGridMap.new nm r t = .ok o) (h : History nm o.gridMap hist m') :
    MapInLimits nm m' := by
  refine C37_history hh hmi h0 ?_ h
  unfold OccupancyGridMap.new GridMap.new at ho
  rw [M.bind_eq_ok] at ho
  obtain ⟨g, hg, ho⟩ := ho
  cases ho
  rw [M.bind_eq_ok] at hg
  obtain ⟨d, hd, hg⟩ := hg
  cases hg
  rw [mapInLimits_iff]
  intro v hv
  obtain ⟨ix, hix⟩ := NdArray.mem_data_iff.mp hv
  have hs : InShape d.shape ix := by
    by_contra hn
    rw [NdArray.get_panic hn] at hix; cases hix
  rw [(ndarrayWithBounds_get hd).2 ix hs] at hix
  cases hix; exact h0

/-- The default noise model with the four log-odds the crate's own tests state (`src/math.rs:36-40`). -/
def defaultNM : LidarNoiseModel F32 :=
  ⟨Fp.lit 0.84729785, Fp.lit (-0.40546516), Fp.lit (-2.000028), Fp.lit 3.5110312, Fp.lit 0, Fp.lit 60⟩

example : FLe (Fp.lit 0) defaultNM.hit ∧ FLe defaultNM.miss (Fp.lit 0) ∧
    InLimits defaultNM (Fp.lit 0) := by unfold InLimits; decide +kernel

/-- C37 needs `hit ≥ 0`: with a hit probability below one half, a hit can push a value below the minimum,
since only the upper limit is enforced on hits. -/
theorem C37_hit_negative : ∃ (nm : LidarNoiseModel F32) (v : F32), InLimits nm v ∧
    FLe nm.miss (Fp.lit 0) ∧ ¬ InLimits nm (Seen.apply nm v .hit) := by
  refine ⟨⟨Fp.lit (-3), Fp.lit (-1), Fp.lit (-2), Fp.lit 3, Fp.lit 0, Fp.lit 60⟩, Fp.lit 0, ?_, ?_, ?_⟩
  · unfold InLimits; decide +kernel
  · decide +kernel
  · rintro ⟨h, -⟩
    have : ¬ FLe (Fp.lit (-2) : F32) ((Fp.add (Fp.lit 0) (Fp.lit (-3))).min (Fp.lit 3)) := by
      decide +kernel
    exact this h

/-! ## C42 -/

/-- C42: a hit never lowers an in-range value, a miss never raises one. -/
theorem C42_direction (hv : InLimits nm v) :
    (FLe (Fp.lit 0) nm.hit → FLe v (Seen.apply nm v .hit)) ∧
    (FLe nm.miss (Fp.lit 0) → FLe (Seen.apply nm v .miss) v) :=
  ⟨fun h => (hit_bounds h hv).2, fun h => (miss_bounds h hv).2⟩

/-- C42: a hit never makes an occupied cell free and a miss never makes a free cell occupied. -/
theorem C42_occupied (hv : InLimits nm v) :
    (FLe (Fp.lit 0) nm.hit → nm.threshold.lt v = true →
      nm.threshold.lt (Seen.apply nm v .hit) = true) ∧
    (FLe nm.miss (Fp.lit 0) → nm.threshold.lt v = false →
      nm.threshold.lt (Seen.apply nm v .miss) = false) := by
  constructor
  · intro hh ho
    have h1 := (hit_bounds hh hv).2
    obtain ⟨a, b, c⟩ := Fp.lt_iff.mp ho
    exact Fp.lt_iff.mpr ⟨a, h1.2.1, lt_of_lt_of_le c h1.2.2⟩
  · intro hh ho
    have h1 := (miss_bounds hh hv).2
    rw [Bool.eq_false_iff] at ho ⊢
    intro h2
    obtain ⟨a, b, c⟩ := Fp.lt_iff.mp h2
    exact ho (Fp.lt_iff.mpr ⟨a, h1.2.1, lt_of_lt_of_le c h1.2.2⟩)

/-- C42: the same through a map: after an integration of a cloud, a cell that was occupied in the expanded
map and was hit, is occupied; a cell that was free and was missed, is free. -/
theorem C42_integrate (hh : FLe (Fp.lit 0) nm.hit) (hmi : FLe nm.miss (Fp.lit 0))
    (h0 : InLimits nm (Fp.lit 0)) (hm : MapInLimits nm m) (ho : IsOrder ord)
    (h : Integrates ord nm m origin cloud m') :
    ∃ me free occ, m.expandBounds cloud.bounds (Fp.lit 0) = .ok me ∧
      CastsRays origin cloud me.bounds me.resolution nm.maxRange free occ ∧
      (∀ c ∈ occ, nm.occupied me c = .ok true → nm.occupied m' c = .ok true) ∧
      (∀ c ∈ free, nm.occupied me c = .ok false → nm.occupied m' c = .ok false) ∧
      ∀ c, MachineCell c → c ∉ free → c ∉ occ → nm.occupied m' c = nm.occupied me c := by
  obtain ⟨me, free, occ, h1, h2, h3, h4, h5, -⟩ := C38_integrate ho h
  have hme : MapInLimits nm me := by
    rw [mapInLimits_iff] at hm ⊢
    intro v hv
    rcases expand_values h1 v hv with rfl | hv
    · exact h0
    · exact hm v hv
  refine ⟨me, free, occ, h1, h2, fun c hc hoc => ?_, fun c hc hoc => ?_, fun c hc hf hoc => ?_⟩
  · obtain ⟨v, hv, hv'⟩ := h4 c hc
    unfold LidarNoiseModel.occupied at hoc ⊢
    rw [hv, M.bind_ok] at hoc
    rw [hv', M.bind_ok]
    injection hoc with hoc
    exact congrArg _ ((C42_occupied (hme c v hv)).1 hh hoc)
  · obtain ⟨v, hv, hv'⟩ := h3 c hc
    unfold LidarNoiseModel.occupied at hoc ⊢
    rw [hv, M.bind_ok] at hoc
    rw [hv', M.bind_ok]
    injection hoc with hoc
    exact congrArg _ ((C42_occupied (hme c v hv)).2 hmi hoc)
  · unfold LidarNoiseModel.occupied
    rw [h5 c hc hf hoc]

/-- Hits and misses are monotone in the old value. -/
lemma hit_mono {w : Fp f} {q : ℚ} (hq : nm.hit.Is q) (hm : nm.max.isNaN = false) (h : FLe v w) :
    FLe (nm.hitValue v) (nm.hitValue w) := by
  have h1 := Fp.add_mono_right hq h
  exact Fp.le_min (Fp.FLe_trans (Fp.min_le_left h1.1 hm) h1) (Fp.min_le_right h1.1 hm)

lemma miss_mono {w : Fp f} {q : ℚ} (hq : nm.miss.Is q) (hm : nm.min.isNaN = false) (h : FLe v w) :
    FLe (nm.missValue v) (nm.missValue w) := by
  have h1 := Fp.add_mono_right hq h
  exact Fp.max_le (Fp.FLe_trans h1 (Fp.le_max_left h1.2.1 hm)) (Fp.le_max_right h1.2.1 hm)

lemma iterate_mono {g : Fp f → Fp f} (hg : ∀ {v w}, FLe v w → FLe (g v) (g w)) {v w : Fp f} (n : ℕ)
    (h : FLe v w) : FLe (g^[n] v) (g^[n] w) := by
  induction n generalizing v w with
  | zero => exact h
  | succ n ih => exact ih (hg h)

/-- C42: with the default model seven hits in a row bring any in-range value to the maximum, and from
the minimum six do not; fourteen misses bring any in-range value to the minimum, and from the maximum
thirteen do not. -/
theorem C42_default_saturates {v : F32} (hv : InLimits defaultNM v) :
    ((fun v => Seen.apply defaultNM v .hit)^[7] v).Is defaultNM.max.val ∧
    ((fun v => Seen.apply defaultNM v .miss)^[14] v).Is defaultNM.min.val ∧
    ¬ ((fun v => Seen.apply defaultNM v .hit)^[6] defaultNM.min).Is defaultNM.max.val ∧
    ¬ ((fun v => Seen.apply defaultNM v .miss)^[13] defaultNM.max).Is defaultNM.min.val := by
  obtain ⟨h1, h2⟩ := hv
  have e1 : (defaultNM.hitValue^[7] defaultNM.min).Is defaultNM.max.val := by decide +kernel
  have e2 : (defaultNM.hitValue^[7] defaultNM.max).Is defaultNM.max.val := by decide +kernel
  have e3 : (defaultNM.missValue^[14] defaultNM.min).Is defaultNM.min.val := by decide +kernel
  have e4 : (defaultNM.missValue^[14] defaultNM.max).Is defaultNM.min.val := by decide +kernel
  have mh : ∀ {v w}, FLe v w → FLe (defaultNM.hitValue v) (defaultNM.hitValue w) :=
    fun h => hit_mono (q := defaultNM.hit.val) (by decide +kernel) (by decide +kernel) h
  have mm : ∀ {v w}, FLe v w → FLe (defaultNM.missValue v) (defaultNM.missValue w) :=
    fun h => miss_mono (q := defaultNM.miss.val) (by decide +kernel) (by decide +kernel) h
  have sandwich : ∀ {a x b : F32} {q : ℚ}, a.Is q → b.Is q → FLe a x → FLe x b → x.Is q := by
    intro a x b q ha hb h1 h2
    refine Fp.is_of_key h1.2.1 (le_antisymm ?_ ?_)
    · rw [← Fp.key_is hb]; exact h2.2.2
    · rw [← Fp.key_is ha]; exact h1.2.2
  refine ⟨sandwich e1 e2 (iterate_mono mh 7 h1) (iterate_mono mh 7 h2),
    sandwich e3 e4 (iterate_mono mm 14 h1) (iterate_mono mm 14 h2), ?_, ?_⟩
  · have : ¬ (defaultNM.hitValue^[6] defaultNM.min).Is defaultNM.max.val := by decide +kernel
    exact this
  · have : ¬ (defaultNM.missValue^[13] defaultNM.max).Is defaultNM.min.val := by decide +kernel
    exact this

example : InLimits defaultNM (Fp.lit 1) := by unfold InLimits; decide +kernel

/-! ## C43 -/

/-- C43: for a cell of the grid `occupied` answers whether the stored value is above the threshold (in
particular "no" when either is NaN); for any other cell it panics. -/
theorem C43_occupied {c : Cell D} (hc : MachineCell c) :
    (∀ v, m.get c = .ok v → ∃ b, nm.occupied m c = .ok b ∧
      (b = true ↔ nm.threshold.isNaN = false ∧ v.isNaN = false ∧ nm.threshold.key < v.key)) ∧
    (¬ InGrid m c → nm.occupied m c = .error (.panic .index)) := by
  constructor
  · intro v hv
    refine ⟨nm.threshold.lt v, ?_, Fp.lt_iff⟩
    unfold LidarNoiseModel.occupied
    rw [hv]; rfl
  · intro hg
    unfold LidarNoiseModel.occupied
    rw [(C31_get m hc).2 hg]; rfl

/-- C43: with threshold log-odds zero (probability one half) or more, a cell that was never observed is
not occupied: in a map fresh from `new` no cell is. -/
theorem C43_unknown {r : Fp f} {b : Bounds D (Fp f)} {t : ℕ} (hth : FLe (Fp.lit 0) nm.threshold)
    (h : GridMap.new r b t nm.defaultCellValue = .ok m) {c : Cell D} (hc : MachineCell c)
    (hg : InGrid m c) : nm.occupied m c = .ok false := by
  unfold LidarNoiseModel.occupied
  rw [((C30_new h).2.2.2.2.2 c hc).1 hg]
  exact congrArg _ (Fp.not_lt_of_FLe hth)

/-- The default threshold is one half; its log-odds are `ln(0.5 / (1 - 0.5)) = ln 1`. -/
example [Libm F32] : logoddsFromProbability (Fp.lit 0.5 : F32) = Libm.ln (Fp.lit 1) := by
  unfold logoddsFromProbability
  congr 1
  decide +kernel

/-! ## C45 -/

/-- C45: `new` returns exactly if all five probabilities lie in [0, 1] (so are not NaN), then with their
log-odds and the range unchanged; otherwise it panics with a failed assertion. -/
theorem C45_new [Libm (Fp f)] (hit miss mn mx th range : Fp f) :
    ((∀ p ∈ [hit, miss, mn, mx, th], FLe (Fp.lit 0) p ∧ FLe p (Fp.lit 1)) →
      LidarNoiseModel.new hit miss mn mx th range = .ok ⟨logoddsFromProbability hit,
        logoddsFromProbability miss, logoddsFromProbability mn, logoddsFromProbability mx,
        logoddsFromProbability th, range⟩) ∧
    (¬ (∀ p ∈ [hit, miss, mn, mx, th], FLe (Fp.lit 0) p ∧ FLe p (Fp.lit 1)) →
      LidarNoiseModel.new hit miss mn mx th range = .error (.panic .assertion)) := by
  have hp : ∀ p : Fp f, LidarNoiseModel.probOk p = true ↔ FLe (Fp.lit 0) p ∧ FLe p (Fp.lit 1) := by
    intro p
    unfold LidarNoiseModel.probOk
    rw [Bool.and_eq_true]
    exact and_congr Fp.le_iff_FLe Fp.le_iff_FLe
  have hc : (LidarNoiseModel.probOk hit && LidarNoiseModel.probOk miss && LidarNoiseModel.probOk mn &&
      LidarNoiseModel.probOk mx && LidarNoiseModel.probOk th) = true ↔
      ∀ p ∈ [hit, miss, mn, mx, th], FLe (Fp.lit 0) p ∧ FLe p (Fp.lit 1) := by
    simp only [Bool.and_eq_true, hp, List.mem_cons, List.not_mem_nil, or_false, forall_eq_or_imp,
      forall_eq]
    tauto
  constructor
  · intro h
    unfold LidarNoiseModel.new
    rw [if_pos (hc.mpr h)]
  · intro h
    unfold LidarNoiseModel.new
    rw [if_neg fun h' => h (hc.mp h')]

/-- The default parameters pass; a NaN does not. -/
example : (∀ p ∈ ([Fp.lit 0.7, Fp.lit 0.4, Fp.lit 0.1192, Fp.lit 0.971, Fp.lit 0.5] : List F32),
    FLe (Fp.lit 0) p ∧ FLe p (Fp.lit 1)) ∧ ¬ FLe (.nan : F32) (Fp.lit 1) := by decide +kernel

end Verif.Props
