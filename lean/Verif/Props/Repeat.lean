import Verif.Props.History
import Verif.Spec.Repeat

/-!
# C66: repeating a scan
-/

namespace Verif.Props
open Spec

variable {D : ℕ} {nm : LidarNoiseModel F32} {m m' : GridMap D F32 F32} {cb : CellBounds D} {ρ : ℚ}
  {origin : Point D F32} {cloud : PointCloud D F32} {ord : List (Cell D) → List (Cell D)}

/-- The map right after a scan does not grow when it is expanded by the same scan. -/
lemma expand_again (hD : D ≤ 3) (hP : Placed m cb ρ) (hc : CloudInRange cloud ρ) (ho : IsOrder ord)
    (h : Integrates ord nm m origin cloud m') :
    (∃ cb', Placed m' cb' ρ) ∧ m'.expandBounds cloud.bounds (Fp.lit 0) = .ok m' := by
  obtain ⟨me, free, occ, h1, h2, h3, h4, h5, h6, h7, h8, h9, h10⟩ := C38_integrate ho h
  have hreq := request_of_cloud hP.res.pos hc
  obtain ⟨me', ncb, e1, e0, e2, -, -⟩ := expand_spec hD hP hreq (Fp.lit 0 : F32)
  rw [h1] at e1
  cases e1
  obtain ⟨ncb', h0', a1, a2, -, -, -⟩ := newCellBounds_spec hP hreq
  rw [e0] at h0'
  cases h0'
  have hP' : Placed m' ncb ρ := placed_of_shape e2 h7 h6 h8 h10
  obtain ⟨hres, ht, -⟩ := C36_expandBounds h1
  refine ⟨⟨ncb, hP'⟩, C35_covered hP' hreq _ (by rw [h8, ht]; exact a1) fun b' hb' => ?_⟩
  rw [h7, hres, discretized_eq hP.res hreq] at hb'
  cases hb'
  rw [h7, hres, fromBounds_eq _ hP.res.1 hP.res.pos]
  exact a2

/-- C66: a scan that was integrated can be integrated again: the second time does not panic and does not move or
grow the map. -/
theorem C66_again (hD : D ≤ 3) (hP : Placed m cb ρ) (hc : CloudInRange cloud ρ) (ho : IsOrder ord)
    (h : Integrates ord nm m origin cloud m') {ord' : List (Cell D) → List (Cell D)} (ho' : IsOrder ord') :
    ∃ m'', Integrates ord' nm m' origin cloud m'' ∧ m''.bounds = m'.bounds ∧ m''.data.shape = m'.data.shape := by
  obtain ⟨-, hexp⟩ := expand_again hD hP hc ho h
  obtain ⟨me, free, occ, h1, h2, h3, h4, h5, h6, -⟩ := integrate_spec ho h
  have hb : m'.bounds = me.bounds := by rw [h5]
  have hr : m'.resolution = me.resolution := by rw [h5]
  obtain ⟨m'', h''⟩ := (C38_returns_iff (nm := nm) (origin := origin) ho').mpr ⟨m', free, occ, hexp,
    by rw [hb, hr]; exact h2, fun c hc => (inGrid_congr h6 c).mpr (h3 c hc),
    fun c hc => (inGrid_congr h6 c).mpr (h4 c hc)⟩
  refine ⟨m'', h'', ?_⟩
  obtain ⟨me', free', occ', g1, -, -, -, g5, g6, -⟩ := integrate_spec ho' h''
  rw [show m'.expandBounds cloud.bounds (Scalar.lit 0) = .ok m' from hexp] at g1
  cases g1
  exact ⟨by rw [g5], g6⟩

/-- C66: and so it can be repeated for ever. -/
theorem C66_for_ever (hD : D ≤ 3) (hP : Placed m cb ρ) (hc : CloudInRange cloud ρ) (ho : IsOrder ord)
    (h : Integrates ord nm m origin cloud m') (n : ℕ) :
    ∃ m'', Repeats nm origin cloud (n + 1) m m'' ∧ m''.bounds = m'.bounds ∧ m''.data.shape = m'.data.shape := by
  have key : ∀ n, ∃ m0 m'' cb0, Repeats nm origin cloud n m m0 ∧ Placed m0 cb0 ρ ∧
      Integrates ord nm m0 origin cloud m'' ∧ m''.bounds = m'.bounds ∧ m''.data.shape = m'.data.shape := by
    intro n
    induction n with
    | zero => exact ⟨m, m', cb, .zero m, hP, h, rfl, rfl⟩
    | succ n ih =>
      obtain ⟨m0, m'', cb0, i1, i2, i3, i4, i5⟩ := ih
      obtain ⟨m3, j1, j2, j3⟩ := C66_again hD i2 hc ho i3 ho
      obtain ⟨⟨cb1, hP1⟩, -⟩ := expand_again hD i2 hc ho i3
      exact ⟨m'', m3, cb1, .succ i1 ho i3, hP1, j1, j2.trans i4, j3.trans i5⟩
  obtain ⟨m0, m'', cb0, i1, -, i3, i4⟩ := key n
  exact ⟨m'', .succ i1 ho i3, i4⟩

/-- C66: the value of every world cell after `n + 1` repetitions is what `n + 1` identical observations make of
it. -/
theorem C66_values (hD : D ≤ 3) (hP : Placed m cb ρ) (hc : CloudInRange cloud ρ) {n : ℕ}
    (h : Repeats nm origin cloud (n + 1) m m') :
    ∃ cb', Placed m' cb' ρ ∧ ∀ w, worldValue m' cb' w = (worldValue m cb w).map
      (fun v => Seen.apply nm v (seen origin cloud m'.bounds m'.resolution nm.maxRange (localCell m' w)))^[n + 1] := by
  have key : ∀ {n m'}, Repeats nm origin cloud (n + 1) m m' → (∃ cb', Placed m' cb' ρ ∧
      ∀ w, worldValue m' cb' w = (worldValue m cb w).map
        (fun v => Seen.apply nm v (seen origin cloud m'.bounds m'.resolution nm.maxRange (localCell m' w)))^[n + 1]) ∧
      m'.expandBounds cloud.bounds (Fp.lit 0) = .ok m' := by
    intro n
    induction n with
    | zero =>
      intro m' h
      cases h with
      | succ h0 ho hi =>
        cases h0
        obtain ⟨cb', p1, -, p3⟩ := C41_step hD hP hc ho hi
        exact ⟨⟨cb', p1, p3⟩, (expand_again hD hP hc ho hi).2⟩
    | succ n ih =>
      intro m' h
      cases h with
      | succ h0 ho hi =>
        rename_i m1 ord
        obtain ⟨⟨cb1, p1, p2⟩, p3⟩ := ih h0
        obtain ⟨cb', q1, -, q3⟩ := C41_step hD p1 hc ho hi
        obtain ⟨me, free, occ, g1, -, -, -, g5, g6, -⟩ := integrate_spec ho hi
        rw [show m1.expandBounds cloud.bounds (Scalar.lit 0) = .ok m1 from p3] at g1
        cases g1
        refine ⟨⟨cb', q1, fun w => ?_⟩, (expand_again hD p1 hc ho hi).2⟩
        have hcb : localCell m' w = localCell m1 w := by
          unfold localCell
          rw [g5]
        rw [q3 w, p2 w, hcb, show m'.bounds = m1.bounds by rw [g5],
          show m'.resolution = m1.resolution by rw [g5]]
        cases worldValue m cb w with
        | error => rfl
        | ok v => simp only [Except.map, Function.iterate_succ', Function.comp]
  exact (key h).1

lemma worldValue_inLimits (hm : MapInLimits nm m) (h0 : InLimits nm (Fp.lit 0)) {w : Cell D} {v : F32}
    (h : worldValue m cb w = .ok v) : InLimits nm v := by
  unfold worldValue at h
  split_ifs at h
  · exact hm _ _ h
  · cases h; exact h0

lemma is_of_between {a x b : F32} {q : ℚ} (ha : a.Is q) (hb : b.Is q) (h1 : FLe a x) (h2 : FLe x b) : x.Is q := by
  refine Fp.is_of_key h1.2.1 (le_antisymm ?_ ?_)
  · rw [← Fp.key_is hb]; exact h2.2.2
  · rw [← Fp.key_is ha]; exact h1.2.2

/-- C66: repetition converges. If `n + 1` hits take the minimum to the maximum and `n + 1` misses the maximum to
the minimum, then after `n + 1` repetitions every cell in which a point was seen is at the maximum, every other cell
that a ray passed is at the minimum, and all cells not seen are as before. -/
theorem C66_converges (hD : D ≤ 3) (hP : Placed m cb ρ) (hc : CloudInRange cloud ρ) {n : ℕ} {hit miss lo hi : ℚ}
    (h1 : nm.hit.Is hit) (h2 : nm.miss.Is miss) (h3 : nm.min.Is lo) (h4 : nm.max.Is hi)
    (h5 : ((fun v => Seen.apply nm v .hit)^[n + 1] nm.min).Is hi)
    (h6 : ((fun v => Seen.apply nm v .miss)^[n + 1] nm.max).Is lo)
    (hm : MapInLimits nm m) (h0 : InLimits nm (Fp.lit 0)) (h : Repeats nm origin cloud (n + 1) m m') :
    ∃ cb', Placed m' cb' ρ ∧ ∀ w, InCells w cb' →
      match seen origin cloud m'.bounds m'.resolution nm.maxRange (localCell m' w) with
      | .hit => ∃ v, valueAt m' cb' w = .ok v ∧ v.Is hi
      | .miss => ∃ v, valueAt m' cb' w = .ok v ∧ v.Is lo
      | .nothing => valueAt m' cb' w = worldValue m cb w := by
  obtain ⟨cb', p1, p2⟩ := C66_values hD hP hc h
  refine ⟨cb', p1, fun w hw => ?_⟩
  have hv : ∃ v, valueAt m' cb' w = .ok v := by
    refine (C31_get m' ?_).1 ((inCells_iff p1 w).mp hw)
    intro i
    have h1 := ((inCells_iff p1 w).mp hw) i
    have h2 := m'.data.shape_le i
    change isizeMin ≤ w i - cb'.min i ∧ w i - cb'.min i ≤ isizeMax
    simp only at h1
    unfold isizeMin
    omega
  obtain ⟨v, hv⟩ := hv
  have hw' := p2 w
  rw [show worldValue m' cb' w = valueAt m' cb' w from if_pos hw, hv] at hw'
  cases hs : seen origin cloud m'.bounds m'.resolution nm.maxRange (localCell m' w) with
  | nothing =>
    rw [hs] at hw'
    dsimp only
    rw [hv, hw']
    cases worldValue m cb w with
    | error e => rfl
    | ok u =>
      have : ∀ k, (fun v => Seen.apply nm v Seen.nothing)^[k] u = u := by
        intro k
        induction k with
        | zero => rfl
        | succ k ih => rw [Function.iterate_succ_apply', ih]; rfl
      simp only [Except.map, this]
  | hit =>
    refine ⟨v, hv, ?_⟩
    rw [hs] at hw'
    cases hu : worldValue m cb w with
    | error e => rw [hu] at hw'; cases hw'
    | ok u =>
      rw [hu] at hw'
      injection hw' with hw'
      have hl := worldValue_inLimits hm h0 hu
      have a := iterate_mono (g := nm.hitValue) (fun h => hit_mono h1 (Fp.notNaN_is h4) h) (n + 1) hl.1
      have b : FLe (nm.hitValue^[n + 1] u) nm.max := by
        rw [Function.iterate_succ_apply']
        refine Fp.min_le_right ?_ (Fp.notNaN_is h4)
        exact (Fp.add_mono_right h1 (iterate_mono (g := nm.hitValue) (fun h => hit_mono h1 (Fp.notNaN_is h4) h) n
          hl.1)).2.1
      rw [hw']
      exact is_of_between h5 h4 a b
  | miss =>
    refine ⟨v, hv, ?_⟩
    rw [hs] at hw'
    cases hu : worldValue m cb w with
    | error e => rw [hu] at hw'; cases hw'
    | ok u =>
      rw [hu] at hw'
      injection hw' with hw'
      have hl := worldValue_inLimits hm h0 hu
      have a := iterate_mono (g := nm.missValue) (fun h => miss_mono h2 (Fp.notNaN_is h3) h) (n + 1) hl.2
      have b : FLe nm.min (nm.missValue^[n + 1] u) := by
        rw [Function.iterate_succ_apply']
        refine Fp.le_max_right ?_ (Fp.notNaN_is h3)
        exact (Fp.add_mono_right h2 (iterate_mono (g := nm.missValue) (fun h => miss_mono h2 (Fp.notNaN_is h3) h) n
          hl.1)).2.1
      rw [hw']
      exact is_of_between h3 h6 b a

lemma eq_of_is {x y : F32} {q : ℚ} (hx : x.Is q) (hy : y.Is q) (h0 : q ≠ 0) : x = y := by
  obtain ⟨a, h1, h2, rfl⟩ := hx
  obtain ⟨b, h3, h4, rfl⟩ := hy
  have ea : a = false := by cases a; · rfl
                            · exact absurd (h2 rfl) h0
  have eb : b = false := by cases b; · rfl
                            · exact absurd (h4 rfl) h0
  subst ea eb
  rfl

/-- C66: then nothing changes any more: one more repetition leaves every stored value bit by bit as it is. -/
theorem C66_fixpoint (hD : D ≤ 3) (hP : Placed m cb ρ) (hc : CloudInRange cloud ρ) {n : ℕ} {hit miss lo hi : ℚ}
    (h1 : nm.hit.Is hit) (h2 : nm.miss.Is miss) (h3 : nm.min.Is lo) (h4 : nm.max.Is hi)
    (h5 : ((fun v => Seen.apply nm v .hit)^[n + 1] nm.min).Is hi)
    (h6 : ((fun v => Seen.apply nm v .miss)^[n + 1] nm.max).Is lo) (hh : 0 ≤ hit) (hmi : miss ≤ 0)
    (hlo : lo ≠ 0) (hhi : hi ≠ 0) (hlh : lo ≤ hi)
    (hm : MapInLimits nm m) (h0 : InLimits nm (Fp.lit 0)) (h : Repeats nm origin cloud (n + 1) m m')
    (ho : IsOrder ord) {m'' : GridMap D F32 F32} (hn : Integrates ord nm m' origin cloud m'') :
    m''.data = m'.data ∧ m''.bounds = m'.bounds := by
  obtain ⟨cb', p1, p2⟩ := C66_converges hD hP hc h1 h2 h3 h4 h5 h6 hm h0 h
  have hexp : m'.expandBounds cloud.bounds (Fp.lit 0) = .ok m' := by
    cases h with
    | succ g1 go gi =>
      rename_i m1 o1
      cases n with
      | zero => cases g1; exact (expand_again hD hP hc go gi).2
      | succ n =>
        obtain ⟨cb1, q1, -⟩ := C66_values hD hP hc g1
        exact (expand_again hD q1 hc go gi).2
  obtain ⟨me, free, occ, g1, g2, g3, g4, g5, g6, g7, g8, g9⟩ := integrate_spec ho hn
  rw [show m'.expandBounds cloud.bounds (Scalar.lit 0) = .ok m' from hexp] at g1
  cases g1
  obtain ⟨k1, k2⟩ := castsRays_machine g2
  have hz : (Fp.lit 0 : F32).Is 0 := F32.zero_is
  have fh : FLe (Fp.lit 0) nm.hit := (Fp.FLe_is hz h1).mpr hh
  have fm : FLe nm.miss (Fp.lit 0) := (Fp.FLe_is h2 hz).mpr hmi
  refine ⟨map_ext g6 fun c hcm => ?_, by rw [g5]⟩
  have hloc : localCell m' (fun i => c i + cb'.min i) = c := by
    unfold localCell
    rw [p1.cells]
    funext i
    ring
  have hval : valueAt m' cb' (fun i => c i + cb'.min i) = m'.get c := by
    unfold valueAt
    congr 1
    funext i
    ring
  have hin : InGrid m' c → InCells (fun i => c i + cb'.min i) cb' := by
    intro hg
    rw [inCells_iff p1]
    have : (fun i => c i + cb'.min i - cb'.min i) = c := by funext i; ring
    rw [this]
    exact hg
  obtain ⟨s1, s2, -⟩ := seen_eq g2 c
  by_cases hf : c ∈ free
  · have := p2 _ (hin (g3 c hf))
    rw [hloc, s2 hf] at this
    obtain ⟨v, hv, hvl⟩ := this
    rw [hval] at hv
    rw [g7 c hf v hv, hv]
    have hlim : InLimits nm v := ⟨(Fp.FLe_is h3 hvl).mpr le_rfl, (Fp.FLe_is hvl h4).mpr hlh⟩
    obtain ⟨b1, b2⟩ := miss_bounds fm hlim
    exact congrArg _ (eq_of_is (is_of_between h3 hvl b1.1 b2) hvl hlo)
  · by_cases hoc : c ∈ occ
    · have := p2 _ (hin (g4 c hoc))
      rw [hloc, s1 hoc] at this
      obtain ⟨v, hv, hvl⟩ := this
      rw [hval] at hv
      rw [g8 c hoc v hv, hv]
      have hlim : InLimits nm v := ⟨(Fp.FLe_is h3 hvl).mpr hlh, (Fp.FLe_is hvl h4).mpr le_rfl⟩
      obtain ⟨b1, b2⟩ := hit_bounds fh hlim
      exact congrArg _ (eq_of_is (is_of_between hvl h4 b2 b1.2) hvl hhi)
    · exact g9 c hcm hf hoc

/-- The default model meets the conditions with 14 repetitions. -/
lemma default_conditions : defaultNM.hit.Is defaultNM.hit.val ∧ defaultNM.miss.Is defaultNM.miss.val ∧
    defaultNM.min.Is defaultNM.min.val ∧ defaultNM.max.Is defaultNM.max.val ∧
    ((fun v => Seen.apply defaultNM v .hit)^[13 + 1] defaultNM.min).Is defaultNM.max.val ∧
    ((fun v => Seen.apply defaultNM v .miss)^[13 + 1] defaultNM.max).Is defaultNM.min.val ∧
    0 ≤ defaultNM.hit.val ∧ defaultNM.miss.val ≤ 0 ∧ defaultNM.min.val ≠ 0 ∧ defaultNM.max.val ≠ 0 ∧
    defaultNM.min.val ≤ defaultNM.max.val := by
  have e1 : (defaultNM.hitValue^[13 + 1] defaultNM.min).Is defaultNM.max.val := by decide +kernel
  have e2 : (defaultNM.missValue^[13 + 1] defaultNM.max).Is defaultNM.min.val := by decide +kernel
  exact ⟨by decide +kernel, by decide +kernel, by decide +kernel, by decide +kernel, e1, e2, by decide +kernel,
    by decide +kernel, by decide +kernel, by decide +kernel, by decide +kernel⟩

/-- C66: with the default model the map is settled after 14 repetitions of a scan. -/
theorem C66_default (hD : D ≤ 3) (hP : Placed m cb ρ) (hc : CloudInRange cloud ρ) (hm : MapInLimits defaultNM m)
    (h : Repeats defaultNM origin cloud 14 m m') (ho : IsOrder ord) {m'' : GridMap D F32 F32}
    (hn : Integrates ord defaultNM m' origin cloud m'') : m''.data = m'.data ∧ m''.bounds = m'.bounds := by
  obtain ⟨h1, h2, h3, h4, h5, h6, h7, h8, h9, h10, h11⟩ := default_conditions
  exact C66_fixpoint hD hP hc h1 h2 h3 h4 h5 h6 h7 h8 h9 h10 h11 hm (by unfold InLimits; decide +kernel) h ho hn

/-- A scan that can be repeated 14 times on a new map. -/
example : ∃ (m m' : GridMap 2 F32 F32), Placed m CellBounds.empty 1 ∧ MapInLimits defaultNM m ∧
    Repeats defaultNM (![Fp.lit 0, Fp.lit 1] : Point 2 F32)
      (PointCloud.fromPoints [![Fp.lit 2, Fp.lit 1], ![Fp.lit 1, Fp.lit (-2)]]) 14 m m' := by
  have hr : Res (Fp.lit 1 : F32) 1 := ⟨by decide +kernel, by norm_num, by norm_num⟩
  obtain ⟨m, hm, hP⟩ := new_empty_placed (D := 2) (by norm_num) hr (t := 4) (by norm_num) (by norm_num) (Fp.lit 0 : F32)
  have h : (do
      let m : GridMap 2 F32 F32 ← GridMap.new (Fp.lit 1) Bounds.empty 4 (Fp.lit 0)
      let _ ← defaultNM.integratePointCloud id 10 m ![Fp.lit 0, Fp.lit 1]
        (PointCloud.fromPoints [![Fp.lit 2, Fp.lit 1], ![Fp.lit 1, Fp.lit (-2)]])
      return ()) = Except.ok () := by decide +kernel
  rw [hm, M.bind_ok, M.bind_eq_ok] at h
  obtain ⟨m1, h2, -⟩ := h
  have hc : CloudInRange (PointCloud.fromPoints [![Fp.lit 2, Fp.lit 1], ![Fp.lit 1, Fp.lit (-2)]] : PointCloud 2 F32) 1 := by
    intro p hp
    rw [C13_points_fromPoints] at hp
    intro i
    rcases List.mem_cons.mp hp with rfl | hp
    · refine ⟨![2, 1] i, ?_, ?_⟩ <;> revert i <;> decide +kernel
    · rw [List.mem_singleton] at hp
      subst hp
      refine ⟨![1, -2] i, ?_, ?_⟩ <;> revert i <;> decide +kernel
  obtain ⟨m', h', -⟩ := C66_for_ever (by norm_num) hP hc (fun l => .refl l) ⟨10, h2⟩ 13
  refine ⟨m, m', hP, ?_, h'⟩
  have ho : OccupancyGridMap.new (D := 2) defaultNM (Fp.lit 1) 4 = .ok ⟨m, defaultNM⟩ := by
    unfold OccupancyGridMap.new
    exact congrArg (fun x => x >>= fun g => pure (⟨g, defaultNM⟩ : OccupancyGridMap 2 F32)) hm
  exact C37_from_new (by decide +kernel) (by decide +kernel) (by unfold InLimits; decide +kernel) ho (.done m)

end Verif.Props
