import Verif.Props.NoPanic

/-!
# C44: which scans panic
-/

namespace Verif.Props
open Spec Scalar

variable {D : ℕ} {nm : LidarNoiseModel F32} {m : GridMap D F32 F32} {cb : CellBounds D} {ρ : ℚ}
  {origin : Point D F32} {cloud : PointCloud D F32} {ord : List (Cell D) → List (Cell D)}
  {r : F32} {x : Fin D → ℚ} {M K : ℕ}

/-! ## Ray casting does not index -/

lemma noIndex_bind {α β : Type} {a : Verif.M α} {f : α → Verif.M β} (h1 : a ≠ .error (.panic .index))
    (h2 : ∀ x, f x ≠ .error (.panic .index)) : (a >>= f) ≠ .error (.panic .index) := by
  cases a with
  | error e =>
    intro h
    have h3 : e = .panic .index := by injection h
    exact h1 (by rw [h3])
  | ok x => exact h2 x

lemma isz_noIndex (z : ℤ) : isz z ≠ .error (.panic .index) := by
  unfold isz
  split_ifs <;> simp

lemma castLoop_noIndex (c : RayCtx D F32) (n : ℕ) (cell : Cell D) (t : Point D F32) :
    castLoop c n cell t ≠ .error (.panic .index) := by
  induction n generalizing cell t with
  | zero => simp [castLoop]
  | succ n ih =>
    unfold castLoop
    cases selDim t with
    | none => simp
    | some d =>
      dsimp only
      refine noIndex_bind (isz_noIndex _) fun z => ?_
      split_ifs
      · simp
      · simp
      · exact noIndex_bind (ih _ _) fun _ => by simp

lemma castRay_noIndex (n : ℕ) (o e : Point D F32) (b : Bounds D F32) (r ml : F32) :
    castRay n o e b r ml ≠ .error (.panic .index) := by
  unfold castRay
  dsimp only
  split_ifs
  · simp
  · exact noIndex_bind (castLoop_noIndex _ _ _ _) fun _ => by simp
  · simp

lemma castRays_noIndex (n : ℕ) (o : Point D F32) (cloud : PointCloud D F32) (b : Bounds D F32) (r ml : F32) :
    castRays n o cloud b r ml ≠ .error (.panic .index) := by
  unfold castRays
  refine noIndex_bind ?_ fun _ => by simp
  generalize (([], []) : List (Cell D) × List (Cell D)) = acc
  induction cloud.points generalizing acc with
  | nil => simp
  | cons p ps ih =>
    rw [List.foldlM_cons]
    exact noIndex_bind (noIndex_bind (castRay_noIndex _ _ _ _ _ _) fun _ => by simp) fun _ => ih _

/-- A call that panics on an index does not return, whatever the fuel. -/
lemma integrate_panics_not_ok {n1 n2 : ℕ} {m' me : GridMap D F32 F32}
    (h0 : m.expandBounds cloud.bounds (Fp.lit 0) = .ok me)
    (h1 : nm.integratePointCloud ord n1 m origin cloud = .error (.panic .index))
    (h2 : nm.integratePointCloud ord n2 m origin cloud = .ok m') : False := by
  rw [integrate_unfold, show m.expandBounds cloud.bounds (Scalar.lit 0) = .ok me from h0, M.bind_ok] at h1 h2
  cases hc : castRays n1 origin cloud me.bounds me.resolution nm.maxRange with
  | error e =>
    rw [hc] at h1
    have h3 : e = .panic .index := by injection h1
    exact castRays_noIndex _ _ _ _ _ _ (hc.trans (by rw [h3]))
  | ok a =>
    have h3 := h2
    rw [M.bind_eq_ok] at h3
    obtain ⟨b, hb, -⟩ := h3
    have c1 := castRays_mono hc n2
    have c2 := castRays_mono hb n1
    rw [Nat.add_comm, c2] at c1
    injection c1 with c1
    subst c1
    rw [hc] at h1
    rw [hb] at h2
    rw [M.bind_ok] at h1 h2
    rw [h1] at h2
    cases h2

/-! ## The characterisation -/

/-- For a scan in the working range all the rays reach their ends. -/
lemma rays_reach (hD : D = 2 ∨ D = 3) (hK : K ≤ 2 ^ 11)
    (hl : LongLimit nm ((2 * K + 8) * ρ)) {me : GridMap D F32 F32} {q : Fin D → ℚ} {p : Point D F32} {y : Fin D → ℚ}
    (hrr : RayRange (2 * M + m.tileSize + 2) origin p me.bounds.min me.resolution x y q ρ)
    (h1 : ∀ i, |cellFromPoint p me.bounds.min me.resolution i
            - cellFromPoint origin me.bounds.min me.resolution i| ≤ (K + 2 : ℕ))
    (h2 : ∀ i, y i ≠ x i → |y i - (q i + cellFromPoint p me.bounds.min me.resolution i * ρ)| ≤
            (1 / 2 - (5 * (2 * M + m.tileSize + 2) + (K + 2 : ℕ) ^ 2 + 10 * (K + 2 : ℕ) + 23) / 2 ^ 24) * ρ) :
    ∃ ray, Casts origin p me.bounds me.resolution nm.maxRange ray
      (some (cellFromPoint p me.bounds.min me.resolution)) := by
  rcases hl with hl | ⟨lam, hl1, hl2, hl3⟩
  · exact C24_reaches_end hD hrr h1 h2 (by rw [show Scalar.lt (lit 0) nm.maxRange = false from hl]; simp)
  · refine C24_range hD hrr (by omega) h1 h2 hl1 (le_trans (le_of_eq ?_) hl2) hl3
    push_cast
    ring

/-- C44, exactly: a scan in the working range, with no range limit or a long one, is integrated or panics. It
is integrated if and only if the cell of every point is a cell of the expanded map and so is, for points in
another cell than the sensor, the cell of the sensor. -/
theorem C44_decides (hD : D = 2 ∨ D = 3) (hP : Placed m cb ρ) (h : ScanRange M K m cb ρ x origin cloud)
    (hK : K ≤ 2 ^ 11) (hl : LongLimit nm ((2 * K + 8) * ρ)) (ho : IsOrder ord) :
    ∃ me ncb, m.expandBounds cloud.bounds (Fp.lit 0) = .ok me ∧ Placed me ncb ρ ∧
      ((∃ m', Integrates ord nm m origin cloud m') ↔ ∀ p ∈ cloud.points,
        InGrid me (me.cellFromPoint p) ∧
          (me.cellFromPoint p ≠ me.cellFromPoint origin → InGrid me (me.cellFromPoint origin))) ∧
      (PanicsIndex ord nm m origin cloud ↔ ¬ ∃ m', Integrates ord nm m origin cloud m') := by
  obtain ⟨me, ncb, q, h1, hP', -, -, -, -, -, -, -, -, -, -, -, hpts⟩ := scan_setup hD hP h
  have hray : ∀ p ∈ cloud.points, ∃ ray, Casts origin p me.bounds me.resolution nm.maxRange ray
      (some (me.cellFromPoint p)) := by
    intro p hp
    obtain ⟨y, hrr, -, g1, g2⟩ := hpts p hp
    exact rays_reach hD hK hl hrr g1 g2
  obtain ⟨free, occ, hc⟩ := C28_returns_iff.mpr fun p hp => (hray p hp).imp fun ray => fun g => ⟨_, g⟩
  have hdet : ∀ {me' free' occ'}, m.expandBounds cloud.bounds (Fp.lit 0) = .ok me' →
      CastsRays origin cloud me'.bounds me'.resolution nm.maxRange free' occ' →
      me' = me ∧ ∀ c, (c ∈ free' ∨ c ∈ occ') ↔ (c ∈ free ∨ c ∈ occ) := by
    intro me' free' occ' g1 g2
    rw [h1] at g1
    cases g1
    refine ⟨rfl, fun c => ?_⟩
    rw [C28_free g2, C28_free hc, C28_occupied g2, C28_occupied hc]
  have hfo : (∀ c, c ∈ free ∨ c ∈ occ → InGrid me c) ↔ ∀ p ∈ cloud.points,
        InGrid me (me.cellFromPoint p) ∧
          (me.cellFromPoint p ≠ me.cellFromPoint origin → InGrid me (me.cellFromPoint origin)) := by
    constructor
    · intro g p hp
      obtain ⟨ray, hr⟩ := hray p hp
      refine ⟨g _ (.inr ((C28_occupied hc _).mpr ⟨p, hp, ray, hr⟩)), fun hne => g _ ?_⟩
      have hlen := C19_shortest hr
      have hne' : ray ≠ [] := by
        rintro rfl
        refine hne (funext fun i => ?_)
        have h3 := (Finset.sum_eq_zero_iff_of_nonneg (fun i _ => abs_nonneg _)).mp hlen.symm i (Finset.mem_univ i)
        rw [abs_eq_zero, sub_eq_zero] at h3
        exact h3
      have hmem : me.cellFromPoint origin ∈ ray := by
        have := (C17_connected hr hne').1
        rw [GridMap.cellFromPoint, ← this]
        exact List.head_mem hne'
      by_cases hoc : me.cellFromPoint origin ∈ occ
      · exact .inr hoc
      · exact .inl ((C28_free hc _).mpr ⟨⟨p, hp, ray, _, hr, hmem⟩, hoc⟩)
    · rintro g c (hcf | hco)
      · obtain ⟨⟨p, hp, ray, res, h2, h3⟩, -⟩ := (C28_free hc c).mp hcf
        obtain ⟨ray', h4⟩ := hray p hp
        obtain ⟨rfl, rfl⟩ := casts_unique h2 h4
        have h6 := C19_in_box h2 c h3
        have h7 := (g p hp).1
        by_cases hne : me.cellFromPoint p = me.cellFromPoint origin
        · intro i
          have := h6 i
          have h8 := h7 i
          have h9 : cellFromPoint origin me.bounds.min me.resolution i = me.cellFromPoint p i := by
            rw [hne]; rfl
          omega
        · intro i
          have h9 := (g p hp).2 hne i
          have := h6 i
          have h8 := h7 i
          have e1 : me.cellFromPoint origin i = cellFromPoint origin me.bounds.min me.resolution i := rfl
          omega
      · obtain ⟨p, hp, ray, h2⟩ := (C28_occupied hc c).mp hco
        rcases (C18_end_not_in_ray h2).2.2 with h3 | h3
        · cases h3
        · injection h3 with h3
          rw [h3]
          exact (g p hp).1
  refine ⟨me, ncb, h1, hP', ?_, ?_⟩
  · rw [C38_returns_iff ho, ← hfo]
    constructor
    · rintro ⟨me', free', occ', g1, g2, g3, g4⟩ c hc'
      obtain ⟨rfl, g5⟩ := hdet g1 g2
      exact ((g5 c).mpr hc').elim (g3 c) (g4 c)
    · exact fun g => ⟨me, free, occ, h1, hc, fun c hc' => g c (.inl hc'), fun c hc' => g c (.inr hc')⟩
  · constructor
    · rintro ⟨n1, g1⟩ ⟨m', n2, g2⟩
      exact integrate_panics_not_ok h1 g1 g2
    · intro hno
      refine C44_outside_panics ho h1 hc ?_
      by_contra hcon
      push Not at hcon
      refine hno ((C38_returns_iff ho).mpr ⟨me, free, occ, h1, hc, fun c hc' => hcon c (.inl hc'),
        fun c hc' => hcon c (.inr hc')⟩)

/-- The cells of the expanded map decide: a coordinate well inside has a cell along that axis, one well outside
has not. -/
lemma axis_outside (hP : Placed m cb ρ) {me : GridMap D F32 F32} {ncb : CellBounds D}
    (hP' : Placed me ncb ρ) {i : Fin D} {c : ℤ} {z : ℚ}
    (hc : |z - (ncb.min i + c) * ρ| ≤ (1 / 2 + (7 * M + 5 * m.tileSize + 11) / 2 ^ 24) * ρ)
    (hz : z < (ncb.min i - 1 / 2 - scanTol M K m.tileSize) * ρ ∨
      (ncb.max i - 1 / 2 + scanTol M K m.tileSize) * ρ ≤ z) : ¬ (0 ≤ c ∧ c < me.data.shape i) := by
  have hpos := hP.res.pos
  have hsh := hP'.shape i
  set δ := scanTol M K m.tileSize with hδ
  have hlt : (7 * (M : ℚ) + 5 * m.tileSize + 11) / 2 ^ 24 < δ := by
    rw [hδ, scanTol]
    refine div_lt_div_of_pos_right ?_ (by norm_num)
    have : (0 : ℚ) ≤ K ^ 2 + 14 * K := by positivity
    have : (0 : ℚ) ≤ M := by positivity
    have : (0 : ℚ) ≤ m.tileSize := by positivity
    linarith
  have hlt' : (7 * (M : ℚ) + 5 * m.tileSize + 11) / 2 ^ 24 * ρ < δ * ρ := by gcongr
  rw [abs_le] at hc
  rintro ⟨h1, h2⟩
  rcases hz with hz | hz
  · have h3 : (0 : ℚ) ≤ c := by exact_mod_cast h1
    have : 0 ≤ c * ρ := by positivity
    linarith [hc.1]
  · have h3 : ncb.min i + c + 1 ≤ ncb.max i := by omega
    have h4 : (ncb.min i : ℚ) + c + 1 ≤ ncb.max i := by exact_mod_cast h3
    have : ((ncb.min i : ℚ) + c + 1) * ρ ≤ ncb.max i * ρ := by gcongr
    linarith [hc.2]

/-- C44: a point in the outer half of the last cells of the expanded map (up to rounding) makes the call
panic. -/
theorem C44_point_beyond_panics (hD : D = 2 ∨ D = 3) (hP : Placed m cb ρ)
    (h : ScanRange M K m cb ρ x origin cloud) (hK : K ≤ 2 ^ 11) (hl : LongLimit nm ((2 * K + 8) * ρ))
    (ho : IsOrder ord) :
    ∃ me ncb, m.expandBounds cloud.bounds (Fp.lit 0) = .ok me ∧ Placed me ncb ρ ∧
      ∀ p ∈ cloud.points, ∀ i y, (p i).Is y → (ncb.max i - 1 / 2 + scanTol M K m.tileSize) * ρ ≤ y →
        PanicsIndex ord nm m origin cloud := by
  obtain ⟨me, ncb, q, h1, hP', -, -, -, -, -, -, -, -, -, -, hcell, -⟩ := scan_setup hD hP h
  refine ⟨me, ncb, h1, hP', fun p hp i y hy hge => ?_⟩
  obtain ⟨me', ncb', g1, -, g3, g4⟩ := C44_decides (nm := nm) hD hP h hK hl ho
  rw [h1] at g1
  cases g1
  rw [g4, g3]
  intro hall
  obtain ⟨y', hy', hyM, -⟩ := h.points p hp i
  obtain rfl := hy.unique hy'
  exact axis_outside hP hP' (hcell i _ _ hy hyM) (.inr hge) ((hall p hp).1 i)

/-- C44: a sensor outside the cells of the expanded map makes the call panic as soon as it sees a point two
cells away. -/
theorem C44_sensor_beyond_panics (hD : D = 2 ∨ D = 3) (hP : Placed m cb ρ)
    (h : ScanRange M K m cb ρ x origin cloud) (hK : K ≤ 2 ^ 11) (hl : LongLimit nm ((2 * K + 8) * ρ))
    (ho : IsOrder ord) {p : Point D F32} (hp : p ∈ cloud.points) {j : Fin D} {y : ℚ} (hy : (p j).Is y)
    (hfar : 2 * ρ ≤ |y - x j|) :
    ∃ me ncb, m.expandBounds cloud.bounds (Fp.lit 0) = .ok me ∧ Placed me ncb ρ ∧
      ∀ i, (x i < (ncb.min i - 1 / 2 - scanTol M K m.tileSize) * ρ ∨
        (ncb.max i - 1 / 2 + scanTol M K m.tileSize) * ρ ≤ x i) → PanicsIndex ord nm m origin cloud := by
  obtain ⟨me, ncb, q, h1, hP', -, -, -, -, -, -, -, -, -, -, hcell, -⟩ := scan_setup hD hP h
  refine ⟨me, ncb, h1, hP', fun i hi => ?_⟩
  obtain ⟨me', ncb', g1, -, g3, g4⟩ := C44_decides (nm := nm) hD hP h hK hl ho
  rw [h1] at g1
  cases g1
  rw [g4, g3]
  intro hall
  have hpos := hP.res.pos
  refine axis_outside hP hP' (hcell i _ _ (h.sensor i) (h.sensor_near i)) hi ((hall p hp).2 ?_ i)
  intro heq
  obtain ⟨y', hy', hyM, -⟩ := h.points p hp j
  obtain rfl := hy.unique hy'
  have e1 := hcell j _ _ hy hyM
  have e2 := hcell j _ _ (h.sensor j) (h.sensor_near j)
  have e3 : cellCoordFromPointCoord (p j) (me.bounds.min j) me.resolution
    = cellCoordFromPointCoord (origin j) (me.bounds.min j) me.resolution := congrFun heq j
  rw [e3] at e1
  have hMq : (M : ℚ) ≤ 262144 := by exact_mod_cast h.M_hi
  have hTq : (m.tileSize : ℚ) ≤ 131072 := by exact_mod_cast hP.tile_le
  have h3 : (1 / 2 + (7 * (M : ℚ) + 5 * m.tileSize + 11) / 2 ^ 24) * ρ ≤ 3 / 4 * ρ := by
    refine mul_le_mul_of_nonneg_right ?_ hpos.le
    norm_num
    linarith
  have h4 := abs_sub_le y ((ncb.min j + cellCoordFromPointCoord (origin j) (me.bounds.min j) me.resolution) * ρ) (x j)
  rw [abs_sub_comm ((ncb.min j + _) * ρ) (x j)] at h4
  linarith

/-- The upper corner of a request that stays below the cell `n` is rounded to at most that cell. -/
lemma cellOf_discMax_le (hr : Res r ρ) {v : F32} {z : ℚ} (hv : v.Is z) (hz : |z| ≤ 2 ^ 18 * ρ) {n : ℤ}
    (hn : |n| ≤ 2 ^ 19) (h : z ≤ (n - 1 / 8) * ρ) : cellOf r (Bounds.discMax r true v) ≤ n := by
  have hpos := hr.pos
  obtain ⟨h1, -, h3⟩ := floor_ceil_range hr hz
  have hq : |z / ρ| ≤ 2 ^ 18 := by rw [abs_div, abs_of_pos hpos, div_le_iff₀ hpos]; exact hz
  have hzn : z / ρ ≤ n - 1 / 8 := by rw [div_le_iff₀ hpos]; exact h
  have hc := hv.div hr.1 hpos.ne' (F32.noOvf (hq.trans (by norm_num)))
  unfold Bounds.discMax
  dsimp only
  by_cases he : relativeEq (Scalar.div v r) (Scalar.round (Scalar.div v r)) = true
  · rw [if_pos he, if_pos rfl]
    have hs : |z + ρ| ≤ (2 ^ 18 + 1) * ρ := by
      have := abs_add_le z ρ
      rw [abs_of_pos hpos] at this
      linarith
    have i1 := hv.add hr.1 (F32.noOvf_res hpos hr.2.2 (by norm_num) (by norm_num) hs)
    have e1 := F32.err_res hr.2.1 hs
    have b1 : |b32.rnd (z + ρ) - 0| ≤ (2 ^ 18 + 2) * ρ := by
      rw [sub_zero]
      have := abs_sub_abs_le_abs_sub (b32.rnd (z + ρ)) (z + ρ)
      have e2 : ((2 ^ 18 + 1) / 2 ^ 24 + 1 / 2 ^ 50) * ρ ≤ 1 * ρ := by gcongr; norm_num
      linarith
    obtain ⟨d, g1, g2⟩ := cellCoord_is hr F32.zero_is i1 b1 (by norm_num) (by norm_num)
    have g3 : cellOf r (v +. r) = roundAway d := g1
    rw [g3]
    rw [sub_zero] at g2
    have e3 : |b32.rnd (z + ρ) / ρ - (z / ρ + 1)| ≤ (2 ^ 18 + 1) / 2 ^ 24 + 1 / 2 ^ 50 := by
      rw [show b32.rnd (z + ρ) / ρ - (z / ρ + 1) = (b32.rnd (z + ρ) - (z + ρ)) / ρ by field_simp, abs_div,
        abs_of_pos hpos, div_le_iff₀ hpos]
      exact e1
    have h4 : |b32.rnd (z / ρ) - roundAway (b32.rnd (z / ρ))| ≤ 1 / 2 ^ 22 * (2 ^ 18 + 1) := by
      have h4 := close_of_relativeEq hc hc.round he
      refine h4.trans ?_
      have h5 := Fp.roundAway_err (b32.rnd (z / ρ))
      have h6 := abs_sub_abs_le_abs_sub (roundAway (b32.rnd (z / ρ)) : ℚ) (b32.rnd (z / ρ))
      gcongr
      refine max_le (by norm_num) (max_le (by linarith) (by linarith))
    have h5 := F32.err (z / ρ)
    generalize roundAway (b32.rnd (z / ρ)) = k at h4
    have h6 : (k : ℚ) < n := by
      rw [abs_le] at h4 h5
      norm_num at h4 h5 hq
      linarith [h4.1, h5.2]
    have h7 : k + 1 ≤ n := by
      have : k < n := by exact_mod_cast h6
      omega
    have h8 : roundAway d = k + 1 := by
      apply Fp.roundAway_eq_of_lt
      rw [abs_le] at h4 h5 g2 e3
      rw [abs_lt]
      push_cast
      norm_num at h4 h5 g2 e3 hq ⊢
      constructor
      · linarith [h4.2, h5.1, g2.1, e3.1]
      · linarith [h4.1, h5.2, g2.2, e3.2]
    omega
  · rw [if_neg he]
    have h4 : cellOf r ((v.div r).ceil.mul r) = ⌈b32.rnd (z / ρ)⌉ := cellOf_scaled hr h3 hc.ceil
    change cellOf r ((v.div r).ceil.mul r) ≤ n
    rw [h4, Int.ceil_le]
    exact Fmt.rnd_le_of_rep (Fmt.rep_int (f := b32) (by
      refine hn.trans ?_
      norm_num [b32])) (by linarith)

/-- The lower corner of a request that stays above the cell `n` is rounded to at least that cell. -/
lemma le_cellOf_discMin_of_le (hr : Res r ρ) {v : F32} {z : ℚ} (hv : v.Is z) (hz : |z| ≤ 2 ^ 18 * ρ) {n : ℤ}
    (hn : |n| ≤ 2 ^ 19) (h : n * ρ ≤ z) : n ≤ cellOf r (Bounds.discMin r v) := by
  have hpos := hr.pos
  obtain ⟨-, h2, -⟩ := floor_ceil_range hr hz
  have hq : |z / ρ| ≤ 2 ^ 18 := by rw [abs_div, abs_of_pos hpos, div_le_iff₀ hpos]; exact hz
  have hzn : (n : ℚ) ≤ z / ρ := by rw [le_div_iff₀ hpos]; exact h
  have hc := hv.div hr.1 hpos.ne' (F32.noOvf (hq.trans (by norm_num)))
  unfold Bounds.discMin
  dsimp only
  by_cases he : relativeEq (Scalar.div v r) (Scalar.round (Scalar.div v r)) = true
  · rw [if_pos he]
    obtain ⟨d, g1, g2⟩ := cellCoord_is (M := 2 ^ 18) hr F32.zero_is hv (by rw [sub_zero]; exact hz) (by norm_num)
      (by norm_num)
    rw [sub_zero] at g2
    have g3 : cellOf r v = roundAway d := g1
    rw [g3]
    have g4 := Fp.roundAway_err d
    have g5 : ((n - 1 : ℤ) : ℚ) < roundAway d := by
      rw [abs_le] at g2 g4
      push_cast
      norm_num at g2
      linarith [g2.1, g4.1]
    have : n - 1 < roundAway d := by exact_mod_cast g5
    omega
  · rw [if_neg he]
    have h4 : cellOf r ((v.div r).floor.mul r) = ⌊b32.rnd (z / ρ)⌋ := cellOf_scaled hr h2 hc.floor
    change n ≤ cellOf r ((v.div r).floor.mul r)
    rw [h4, Int.le_floor]
    exact Fmt.le_rnd_of_rep (Fmt.rep_int (f := b32) (by
      refine hn.trans ?_
      norm_num [b32])) hzn

/-- If the old map and the cloud stay below the tile border `k ≥ 1`, so does the expanded map. -/
lemma upper_le (hD : D = 2 ∨ D = 3) (hP : Placed m cb ρ) (h : ScanRange M K m cb ρ x origin cloud) {i : Fin D} {k : ℤ}
    (hk : 1 ≤ k) (hk' : k * m.tileSize ≤ 2 ^ 19) (hmap : cb.max i ≤ k * m.tileSize)
    (hcloud : ∀ p ∈ cloud.points, ∀ y, (p i).Is y → y ≤ (k * m.tileSize - 1 / 8) * ρ)
    {me : GridMap D F32 F32} {ncb : CellBounds D} (g1 : m.expandBounds cloud.bounds (Fp.lit 0) = .ok me)
    (hP' : Placed me ncb ρ) : (ncb.max i : ℚ) ≤ k * m.tileSize := by
  have hpos := hP.res.pos
  have hT := hP.tile_pos
  obtain ⟨me', ncb', q, h1, hP2, -, -, -, -, hreq, hal, hdc, hcb, hleast, hcorner, hcell, -⟩ := scan_setup hD hP h
  rw [g1] at h1
  cases h1
  have hkT : (1 : ℤ) ≤ k * m.tileSize := by
    have : (1 : ℤ) * 1 ≤ k * m.tileSize := by gcongr; exact_mod_cast hT
    omega
  have hkTq : (1 : ℚ) ≤ k * m.tileSize := by exact_mod_cast hkT
  have hncb : ncb = ncb' := by rw [← hP'.cells, ← hP2.cells]
  subst hncb
  have hle : ncb.max i ≤ k * m.tileSize := by
    have hsub := hleast ⟨ncb.min, Function.update ncb.max i (k * m.tileSize)⟩ (fun j => ⟨(hal j).1, by
        by_cases hj : j = i
        · subst hj
          simp
        · simpa [hj] using (hal j).2⟩)
      (fun j => ⟨(hdc j).1, by
        by_cases hj : j = i
        · subst hj
          simp only [Function.update_self]
          obtain ⟨-, w, hw, hw'⟩ := hcorner j
          have hMq : (M : ℚ) ≤ 2 ^ 18 := by exact_mod_cast h.M_hi
          refine cellOf_discMax_le hP.res hw (hw'.trans (by gcongr)) ?_ ?_
          · rw [abs_le]; constructor <;> linarith
          · have := (cloud_bounds_pred cloud j (fun v => ∀ y, v.Is y → y ≤ (k * m.tileSize - 1 / 8) * ρ)
              (fun y hy => by
                obtain rfl := hy.unique F32.zero_is
                have : (0 : ℚ) ≤ k * m.tileSize - 1 / 8 := by linarith
                positivity) hcloud).2 w hw
            push_cast
            exact this
        · simpa [hj] using (hdc j).2⟩)
      (fun hne j => ⟨(hcb hne j).1, by
        by_cases hj : j = i
        · subst hj
          simpa using hmap
        · simpa [hj] using (hcb hne j).2⟩)
    simpa using (hsub i).2
  exact_mod_cast hle

/-- If the old map and the cloud stay above the tile border `k ≤ 0`, so does the expanded map. -/
lemma le_lower (hD : D = 2 ∨ D = 3) (hP : Placed m cb ρ) (h : ScanRange M K m cb ρ x origin cloud) {i : Fin D} {k : ℤ}
    (hk : k ≤ 0) (hk' : -2 ^ 19 ≤ k * m.tileSize) (hmap : k * m.tileSize ≤ cb.min i)
    (hcloud : ∀ p ∈ cloud.points, ∀ y, (p i).Is y → k * m.tileSize * ρ ≤ y)
    {me : GridMap D F32 F32} {ncb : CellBounds D} (g1 : m.expandBounds cloud.bounds (Fp.lit 0) = .ok me)
    (hP' : Placed me ncb ρ) : (k * m.tileSize : ℚ) ≤ ncb.min i := by
  have hpos := hP.res.pos
  have hT := hP.tile_pos
  obtain ⟨me', ncb', q, h1, hP2, -, -, -, -, hreq, hal, hdc, hcb, hleast, hcorner, hcell, -⟩ := scan_setup hD hP h
  rw [g1] at h1
  cases h1
  have hkT : k * m.tileSize ≤ (0 : ℤ) := mul_nonpos_of_nonpos_of_nonneg hk (by positivity)
  have hkTq : (k * m.tileSize : ℚ) ≤ 0 := by exact_mod_cast hkT
  have hncb : ncb = ncb' := by rw [← hP'.cells, ← hP2.cells]
  subst hncb
  have hle : k * m.tileSize ≤ ncb.min i := by
    have hsub := hleast ⟨Function.update ncb.min i (k * m.tileSize), ncb.max⟩ (fun j => ⟨by
        by_cases hj : j = i
        · subst hj
          simp
        · simpa [hj] using (hal j).1, (hal j).2⟩)
      (fun j => ⟨by
        by_cases hj : j = i
        · subst hj
          simp only [Function.update_self]
          obtain ⟨⟨w, hw, hw'⟩, -⟩ := hcorner j
          have hMq : (M : ℚ) ≤ 2 ^ 18 := by exact_mod_cast h.M_hi
          refine le_cellOf_discMin_of_le hP.res hw (hw'.trans (by gcongr)) ?_ ?_
          · rw [abs_le]; constructor <;> linarith
          · have := (cloud_bounds_pred cloud j (fun v => ∀ y, v.Is y → k * m.tileSize * ρ ≤ y)
              (fun y hy => by
                obtain rfl := hy.unique F32.zero_is
                exact mul_nonpos_of_nonpos_of_nonneg hkTq hpos.le) hcloud).1 w hw
            push_cast
            exact this
        · simpa [hj] using (hdc j).1, (hdc j).2⟩)
      (fun hne j => ⟨by
        by_cases hj : j = i
        · subst hj
          simpa using hmap
        · simpa [hj] using (hcb hne j).1, (hcb hne j).2⟩)
    simpa using (hsub i).1
  exact_mod_cast hle

/-- C44, the edge in world coordinates: if the old map and the cloud stay below the tile border `k`, and a point
of the cloud is less than half a cell below that border (up to rounding), the call panics. -/
theorem C44_edge_strip_panics (hD : D = 2 ∨ D = 3) (hP : Placed m cb ρ)
    (h : ScanRange M K m cb ρ x origin cloud) (hK : K ≤ 2 ^ 11) (hl : LongLimit nm ((2 * K + 8) * ρ))
    (ho : IsOrder ord) {i : Fin D} {k : ℤ} (hk : 1 ≤ k) (hk' : k * m.tileSize ≤ 2 ^ 19)
    (hmap : cb.max i ≤ k * m.tileSize)
    (hcloud : ∀ p ∈ cloud.points, ∀ y, (p i).Is y → y ≤ (k * m.tileSize - 1 / 8) * ρ)
    {p : Point D F32} (hp : p ∈ cloud.points) {y : ℚ} (hy : (p i).Is y)
    (hedge : (k * m.tileSize - 1 / 2 + scanTol M K m.tileSize) * ρ ≤ y) :
    PanicsIndex ord nm m origin cloud := by
  have hpos := hP.res.pos
  obtain ⟨me, ncb, g1, hP', g2⟩ := C44_point_beyond_panics (nm := nm) hD hP h hK hl ho
  refine g2 p hp i y hy (le_trans ?_ hedge)
  have := upper_le hD hP h hk hk' hmap hcloud g1 hP'
  gcongr

/-- C44, the sensor in world coordinates: if the old map and the cloud stay on one side of a tile border, and the
sensor is on the other side (by half a cell below a lower border; by less than half a cell below an upper border,
or above it), the call panics as soon as the sensor sees a point two cells away. -/
theorem C44_sensor_apart_panics (hD : D = 2 ∨ D = 3) (hP : Placed m cb ρ)
    (h : ScanRange M K m cb ρ x origin cloud) (hK : K ≤ 2 ^ 11) (hl : LongLimit nm ((2 * K + 8) * ρ))
    (ho : IsOrder ord) {p : Point D F32} (hp : p ∈ cloud.points) {j : Fin D} {y : ℚ} (hy : (p j).Is y)
    (hfar : 2 * ρ ≤ |y - x j|) {i : Fin D} {k : ℤ} (hk' : |k * m.tileSize| ≤ 2 ^ 19)
    (hside : (k ≤ 0 ∧ k * m.tileSize ≤ cb.min i ∧
        (∀ p ∈ cloud.points, ∀ y, (p i).Is y → k * m.tileSize * ρ ≤ y) ∧
        x i < (k * m.tileSize - 1 / 2 - scanTol M K m.tileSize) * ρ) ∨
      (1 ≤ k ∧ cb.max i ≤ k * m.tileSize ∧
        (∀ p ∈ cloud.points, ∀ y, (p i).Is y → y ≤ (k * m.tileSize - 1 / 8) * ρ) ∧
        (k * m.tileSize - 1 / 2 + scanTol M K m.tileSize) * ρ ≤ x i)) :
    PanicsIndex ord nm m origin cloud := by
  have hpos := hP.res.pos
  obtain ⟨me, ncb, g1, hP', g2⟩ := C44_sensor_beyond_panics (nm := nm) hD hP h hK hl ho hp hy hfar
  rw [abs_le] at hk'
  rcases hside with ⟨hk, hmap, hcloud, hx⟩ | ⟨hk, hmap, hcloud, hx⟩
  · refine g2 i (.inl (hx.trans_le ?_))
    have := le_lower hD hP h hk hk'.1 hmap hcloud g1 hP'
    gcongr
  · refine g2 i (.inr (le_trans ?_ hx))
    have := upper_le hD hP h hk hk'.2 hmap hcloud g1 hP'
    gcongr

/-- A scan of the small map (cells of side 1, tiles of 2) with one point; the second coordinates are 1/2. -/
lemma oneScan (a b : ℚ) (ha : |a| ≤ 8) (hb : |b| ≤ 8) (ha' : (Fp.lit a : F32).Is a) (hb' : (Fp.lit b : F32).Is b)
    (hab : |b - a| ≤ 8) (hne : 1 / 2 ^ 40 ≤ |b - a|) (hm : ∃ n : ℤ, n - 1 / 4 ≤ b ∧ b ≤ n + 1 / 4) :
    ScanRange 8 8 smallMap CellBounds.empty 1 ![a, 1 / 2] ![Fp.lit a, Fp.lit (1 / 2)]
      (PointCloud.fromPoints [![Fp.lit b, Fp.lit (1 / 2)]]) := by
  have hh : (Fp.lit (1 / 2) : F32).Is (1 / 2) := by decide +kernel
  have hT : smallMap.tileSize = 2 := rfl
  refine ⟨by norm_num, by norm_num, by norm_num, by norm_num, by decide, ?_, ?_, ?_⟩
  · intro i; fin_cases i <;> assumption
  · intro i; fin_cases i
    · simpa using ha
    · norm_num
  · intro p hp
    rw [C13_points_fromPoints] at hp
    obtain rfl := List.mem_singleton.mp hp
    rw [hT]
    intro i
    fin_cases i
    · refine ⟨b, hb', by simpa using hb, by simpa using hab, .inr ⟨by simpa using hne, fun n => ?_⟩⟩
      obtain ⟨c, h1, h2⟩ := hm
      refine le_trans (b := 1 / 4) (by norm_num) ?_
      rcases lt_or_ge n c with h | h
      · have : (n : ℚ) + 1 ≤ c := by exact_mod_cast h
        exact le_trans (by linarith) (le_abs_self _)
      · have : (c : ℚ) ≤ n := by exact_mod_cast h
        exact le_trans (by linarith) (neg_le_abs _)
    · exact ⟨1 / 2, hh, by norm_num, by norm_num, .inl rfl⟩

/-- The small map, a sensor at 1/2 and a point at 7/4, a quarter of a cell below the tile border at 2: panic. -/
example (hr : nm.maxRange = Fp.lit 60) {ord : List (Cell 2) → List (Cell 2)} (ho : IsOrder ord) :
    PanicsIndex ord nm smallMap ![Fp.lit (1 / 2), Fp.lit (1 / 2)]
      (PointCloud.fromPoints [![Fp.lit (7 / 4), Fp.lit (1 / 2)]]) := by
  have h1 : (Fp.lit (7 / 4) : F32).Is (7 / 4) := by decide +kernel
  have hT : smallMap.tileSize = 2 := rfl
  refine C44_edge_strip_panics (i := 0) (k := 1) (y := 7 / 4) (M := 8) (K := 8) (by norm_num) smallMap_placed
    (oneScan (1 / 2) (7 / 4) (by norm_num) (by norm_num) (by decide +kernel) h1 (by norm_num) (by norm_num)
      ⟨2, by norm_num, by norm_num⟩) (by norm_num)
    (.inr ⟨60, by rw [hr]; decide +kernel, by norm_num, by norm_num⟩) ho (by norm_num) (by rw [hT]; norm_num)
    (by decide) ?_ (p := ![Fp.lit (7 / 4), Fp.lit (1 / 2)]) (by rw [C13_points_fromPoints]; simp) h1
    (by rw [hT, scanTol]; norm_num)
  intro p hp y hy
  rw [C13_points_fromPoints] at hp
  obtain rfl := List.mem_singleton.mp hp
  obtain rfl := hy.unique h1
  rw [hT]; norm_num

/-- The small map, a sensor at -3 and a point at 1/4: panic. -/
example (hr : nm.maxRange = Fp.lit 60) {ord : List (Cell 2) → List (Cell 2)} (ho : IsOrder ord) :
    PanicsIndex ord nm smallMap ![Fp.lit (-3), Fp.lit (1 / 2)]
      (PointCloud.fromPoints [![Fp.lit (1 / 4), Fp.lit (1 / 2)]]) := by
  have h1 : (Fp.lit (1 / 4) : F32).Is (1 / 4) := by decide +kernel
  have hT : smallMap.tileSize = 2 := rfl
  refine C44_sensor_apart_panics (i := 0) (j := 0) (k := 0) (y := 1 / 4) (M := 8) (K := 8) (by norm_num) smallMap_placed
    (oneScan (-3) (1 / 4) (by norm_num) (by norm_num) (by decide +kernel) h1 (by norm_num) (by norm_num)
      ⟨0, by norm_num, by norm_num⟩) (by norm_num)
    (.inr ⟨60, by rw [hr]; decide +kernel, by norm_num, by norm_num⟩) ho
    (p := ![Fp.lit (1 / 4), Fp.lit (1 / 2)]) (by rw [C13_points_fromPoints]; simp) h1 (by norm_num)
    (by norm_num) (.inl ⟨le_rfl, by decide, ?_, by rw [hT, scanTol]; norm_num⟩)
  intro p hp y hy
  rw [C13_points_fromPoints] at hp
  obtain rfl := List.mem_singleton.mp hp
  obtain rfl := hy.unique h1
  norm_num

end Verif.Props
