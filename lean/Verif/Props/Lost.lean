import Verif.Props.BadViz
import Verif.Spec.Lost

/-!
# C99: a sensor position with a NaN coordinate
-/

namespace Verif.Props
open Spec Scalar

variable {D : ℕ}

/-! ## The ray -/

section
variable {o e : Point D F32} {bounds : Bounds D F32} {r ml : F32}

/-- From a NaN position no cell is beyond the range limit. -/
lemma lost_near (hD : D = 2 ∨ D = 3) (hlost : IsBad o) (z : Cell D) : (rayCtx o e bounds r ml).tooFar z = false := by
  obtain ⟨i, hi⟩ := hlost
  unfold RayCtx.tooFar
  change ((lit 0 <. ml) && ((ml *. ml) <. normSquared fun j => pointFromCell z bounds.min r j -. o j)) = false
  rw [normSquared_nan hD (i := i) (by simp only [hi]; exact Fp.sub_nan)]
  have : ((ml *. ml) <. (.nan : F32)) = false := by
    change Fp.lt (Fp.mul ml ml) .nan = false
    cases Fp.mul ml ml <;> rfl
  rw [this, Bool.and_false]

lemma below_below (a : Cell D) (d : Fin D) (k : ℕ) : below (below a d 1) d k = below a d (k + 1) := by
  unfold below
  simp only [Function.update_self, Function.update_idem]
  congr 1
  push_cast
  ring

/-- Without a range limit, the loop goes down until it comes upon the end. -/
lemma castLoop_lost (hD : D = 2 ∨ D = 3) {c : RayCtx D F32} {a : Fin D} (ha : ∀ j, j ≤ a) (hs : c.s a = -1)
    (hnear : ∀ z, c.tooFar z = false) {fuel : ℕ} {cell : Cell D} {t : Point D F32}
    (ht : ∀ j, t j = .nan ∨ t j = .inf false) (hta : t a = .nan) (hcell : InIsize (cell a)) :
    (-2 ^ 63 ≤ cell a - fuel → castLoop c fuel cell t = .error .fuel ∨ ∃ x, castLoop c fuel cell t = .ok x) ∧
      (-2 ^ 63 ≤ cell a - fuel → (∃ k < fuel, below cell a (k + 1) = c.endCell) → ∃ x, castLoop c fuel cell t = .ok x) := by
  induction fuel generalizing cell t with
  | zero => exact ⟨fun _ => .inl rfl, by rintro - ⟨k, hk, -⟩; omega⟩
  | succ n ih =>
    unfold InIsize at hcell
    by_cases hlo : -2 ^ 63 ≤ cell a - (n + 1 : ℕ)
    swap
    · exact ⟨fun h => absurd h hlo, fun h => absurd h hlo⟩
    have hstep : isz (cell a + toInt (c.step a)) = .ok (cell a - 1) := by
      rw [show toInt (c.step a) = -1 from hs, isz_ok]
      refine ⟨by ring, ?_⟩
      unfold InIsize isizeMin isizeMax at *
      push_cast at hlo
      omega
    have e0 : Function.update cell a (cell a - 1) = below cell a 1 := by
      unfold below
      push_cast
      rfl
    simp only [castLoop, selDim_last hD ht ha, hstep, M.bind_ok, e0, hnear, Bool.false_eq_true, if_false]
    have hbc : below cell a 1 a = cell a - 1 := by unfold below; rw [Function.update_self]; push_cast; rfl
    have hnan : Fp.add (t a) (c.tDelta a) = .nan := by rw [hta]; exact Fp.nan_add
    obtain ⟨i1, i2⟩ := ih (cell := below cell a 1) (t := Function.update t a (t a +. c.tDelta a)) (by
        intro j
        by_cases hj : j = a
        · subst hj; left; rw [Function.update_self]; exact hnan
        · rw [Function.update_of_ne hj]; exact ht j) (by rw [Function.update_self]; exact hnan) (by
        rw [hbc]
        unfold InIsize isizeMin isizeMax at *
        push_cast at hlo
        omega)
    rw [hbc] at i1 i2
    push_cast at hlo
    split_ifs with h1
    · exact ⟨fun _ => .inr ⟨_, rfl⟩, fun _ _ => ⟨_, rfl⟩⟩
    · constructor
      · intro _
        rcases i1 (by omega) with h2 | ⟨⟨x, y⟩, h2⟩
        · left; rw [h2]; rfl
        · right; rw [h2]; exact ⟨_, rfl⟩
      · rintro - ⟨k, hk, h2⟩
        cases k with
        | zero => exact absurd h2 h1
        | succ k =>
          obtain ⟨⟨x, y⟩, h3⟩ := i2 (by omega) ⟨k, by omega, by rw [below_below]; exact h2⟩
          rw [h3]
          exact ⟨_, rfl⟩

/-- C99, the ray: from a position with a NaN coordinate, a ray is the cells from the sensor's straight down the
last axis to that of the point, and ends in it; there is no range limit. -/
theorem C99_ray (hD : D = 2 ∨ D = 3) {d : Fin D} (hd : ∀ j, j ≤ d) (hlost : IsBad o) {ray : List (Cell D)}
    {x : Option (Cell D)} (h : Casts o e bounds r ml ray x) :
    (∀ z, z ∈ ray ↔ ∃ k < ray.length, z = below (cellFromPoint o bounds.min r) d k) ∧
      x = some (cellFromPoint e bounds.min r) ∧
      below (cellFromPoint o bounds.min r) d ray.length = cellFromPoint e bounds.min r := by
  have hcol := C26_nan_walks_down hD hd (by obtain ⟨i, hi⟩ := hlost; exact ⟨i, .inr hi⟩) h
  obtain ⟨i, hi⟩ := hlost
  have hnan := fun j => rayDir_nan hD (e := e) (.inr hi) j
  refine ⟨fun z => ?_, ?_⟩
  · conv_lhs => rw [hcol]
    unfold column below
    simp only [List.mem_map, List.mem_range]
    exact ⟨fun ⟨k, h1, h2⟩ => ⟨k, h1, h2.symm⟩, fun ⟨k, h1, h2⟩ => ⟨k, h1, h2.symm⟩⟩
  · obtain ⟨fuel, h⟩ := h
    unfold castRay at h
    rw [if_pos hD] at h
    dsimp only at h
    split_ifs at h with h1
    · cases h
      refine ⟨rfl, ?_⟩
      rw [← h1]
      unfold below
      simp
    · rw [M.bind_eq_ok] at h
      obtain ⟨⟨rest, y⟩, h2, h⟩ := h
      cases h
      obtain ⟨-, h4⟩ := castLoop_below hD hd (s_nan (hnan d)) (t := t0 o e bounds r) (fun j => .inl (t0_nan (hnan j)))
        (t0_nan (hnan d)) h2
      rcases h4 with ⟨h5, h6⟩ | ⟨-, h6⟩
      · exact ⟨h5, h6⟩
      · rw [lost_near hD ⟨i, hi⟩] at h6
        cases h6

/-- What a ray from a NaN position does in `fuel` steps. -/
lemma lost_fuel (hD : D = 2 ∨ D = 3) {d : Fin D} (hd : ∀ j, j ≤ d) (hlost : IsBad o) {fuel : ℕ}
    (hf : -2 ^ 63 ≤ cellFromPoint o bounds.min r d - fuel) :
    (castRay fuel o e bounds r ml = .error .fuel ∨ ∃ x, castRay fuel o e bounds r ml = .ok x) ∧
      ((∃ k ≤ fuel, below (cellFromPoint o bounds.min r) d k = cellFromPoint e bounds.min r) →
        ∃ x, castRay fuel o e bounds r ml = .ok x) := by
  obtain ⟨i, hi⟩ := hlost
  have hnan := fun j => rayDir_nan hD (e := e) (.inr hi) j
  unfold castRay
  rw [if_pos hD]
  dsimp only
  split_ifs with h1
  · exact ⟨.inr ⟨_, rfl⟩, fun _ => ⟨_, rfl⟩⟩
  · obtain ⟨i1, i2⟩ := castLoop_lost hD (c := rayCtx o e bounds r ml) hd (s_nan (hnan d)) (lost_near hD ⟨i, hi⟩)
      (fuel := fuel) (t := t0 o e bounds r) (fun j => .inl (t0_nan (hnan j))) (t0_nan (hnan d))
      (cellFromPoint_machine _ _ _ d)
    change (castLoop (rayCtx o e bounds r ml) fuel (cellFromPoint o bounds.min r) (t0 o e bounds r) >>= _ = _ ∨
      ∃ x, castLoop (rayCtx o e bounds r ml) fuel (cellFromPoint o bounds.min r) (t0 o e bounds r) >>= _ = _) ∧
      (_ → ∃ x, castLoop (rayCtx o e bounds r ml) fuel (cellFromPoint o bounds.min r) (t0 o e bounds r) >>= _ = _)
    constructor
    · rcases i1 hf with h2 | ⟨⟨x, y⟩, h2⟩
      · left; rw [h2]; rfl
      · right; rw [h2]; exact ⟨_, rfl⟩
    · rintro ⟨k, hk, h3⟩
      obtain ⟨k, rfl⟩ : ∃ k', k = k' + 1 := by
        cases k with
        | zero => exact absurd (by rw [← h3]; unfold below; simp) h1
        | succ k => exact ⟨k, rfl⟩
      obtain ⟨⟨x, y⟩, h2⟩ := i2 hf ⟨k, by omega, h3⟩
      rw [h2]
      exact ⟨_, rfl⟩

/-- C99, the ray: it returns exactly if the point's cell is the sensor's or straight below it. -/
theorem C99_returns_iff (hD : D = 2 ∨ D = 3) {d : Fin D} (hd : ∀ j, j ≤ d) (hlost : IsBad o) :
    (∃ ray x, Casts o e bounds r ml ray x) ↔
      ∃ n, below (cellFromPoint o bounds.min r) d n = cellFromPoint e bounds.min r := by
  constructor
  · rintro ⟨ray, x, h⟩
    exact ⟨_, (C99_ray hD hd hlost h).2.2⟩
  · rintro ⟨n, h⟩
    have h1 := cellFromPoint_machine e bounds.min r d
    rw [← h] at h1
    unfold below InIsize isizeMin at h1
    rw [Function.update_self] at h1
    obtain ⟨⟨ray, x⟩, h2⟩ := (lost_fuel (e := e) (ml := ml) hD hd hlost (fuel := n) (by omega)).2 ⟨n, le_rfl, h⟩
    exact ⟨ray, x, n, h2⟩

end

/-! ## The scan -/

section
variable {nm : LidarNoiseModel F32} {m : GridMap D F32 F32} {cb : CellBounds D} {ρ lam : ℚ}
  {origin : Point D F32} {cloud : PointCloud D F32} {ord : List (Cell D) → List (Cell D)} {M : ℕ}

/-- A tile border below everything in the working range. -/
lemma above_all {T : ℕ} (hT : 1 ≤ T) (hM : M ≤ 2 ^ 18) (hpos : 0 < ρ) (h : NanCoords M ρ cloud) (d : Fin D) :
    Above d (((-2 ^ 18 : ℤ) : ℚ) * T * ρ) cloud := by
  intro p hp y hy
  rcases h p hp d with h1 | ⟨y', h1, h2⟩
  · have := Fp.notNaN_is hy
    rw [h1] at this; cases this
  · obtain rfl := h1.unique hy
    have hTq : (1 : ℚ) ≤ T := by exact_mod_cast hT
    have hMq : (M : ℚ) ≤ 2 ^ 18 := by exact_mod_cast hM
    have h3 := (abs_le.mp h2).1
    have h4 : (M : ℚ) * ρ ≤ 2 ^ 18 * T * ρ := by
      refine mul_le_mul_of_nonneg_right ?_ hpos.le
      nlinarith
    push_cast
    linarith

lemma lowCorner_all {T : ℕ} (hT : 1 ≤ T) (hM : M + T + 1 ≤ 2 ^ 18) (h : LowCorner M T cb) (d : Fin D) :
    cb = CellBounds.empty ∨ (-2 ^ 18 : ℤ) * T ≤ cb.min d := by
  right
  have h1 := _root_.abs_le.mp (h.abs_le hT d)
  have hT' : (1 : ℤ) ≤ T := by exact_mod_cast hT
  push_cast at h1
  have hM' : (M : ℤ) + T + 1 ≤ 2 ^ 18 := by exact_mod_cast hM
  nlinarith [h1.1]

/-- If no ray panics in `fuel` steps and one does not return, the rays take more steps than that. -/
lemma castRays_fuel {fuel : ℕ} {bounds : Bounds D F32} {r ml : F32}
    (h1 : ∀ p, castRay fuel origin p bounds r ml = .error .fuel ∨ ∃ x, castRay fuel origin p bounds r ml = .ok x)
    {p : Point D F32} (hp : p ∈ cloud.points) (h2 : castRay fuel origin p bounds r ml = .error .fuel) :
    castRays fuel origin cloud bounds r ml = .error .fuel := by
  unfold castRays
  have key : ∀ (l : List (Point D F32)) (acc : List (Cell D) × List (Cell D)), p ∈ l →
      l.foldlM (fun acc p => do
        let r ← castRay fuel origin p bounds r ml
        (.ok (castRaysStep acc r) : Verif.M _)) acc = .error .fuel := by
    intro l
    induction l with
    | nil => intro _ h; cases h
    | cons a l ih =>
      intro acc h
      rw [List.foldlM_cons]
      rcases h1 a with h3 | ⟨x, h3⟩
      · rw [h3]; rfl
      · rw [h3]
        refine ih _ ((List.mem_cons.mp h).resolve_left fun h4 => ?_)
        subst h4
        rw [h2] at h3
        cases h3
  rw [key _ _ hp]
  rfl

/-- C99, the scan: integrating a scan whose sensor position has a NaN coordinate, with a point that is not
in the sensor's cell or straight below, does not return, and after 2^62 steps of a ray it still goes on. -/
theorem C99_scan (hD : D = 2 ∨ D = 3) {d : Fin D} (hd : ∀ j, j ≤ d) (hP : Placed m cb ρ) (hM1 : 1 ≤ M)
    (hM : M + m.tileSize + 1 ≤ 2 ^ 18) (hlow : LowCorner M m.tileSize cb) (h : LostScan M ρ origin cloud)
    {p : Point D F32} (hp : p ∈ cloud.points) (hel : Elsewhere ρ d origin p) :
    (¬ ∃ m', Integrates ord nm m origin cloud m') ∧
      ∀ fuel ≤ 2 ^ 62, nm.integratePointCloud ord fuel m origin cloud = .error .fuel := by
  have hpos := hP.res.pos
  have hT1 := hP.tile_pos
  obtain ⟨me, ncb, e1, hP', hlow', eT, -⟩ := nan_setup (by omega) hP hM1 (by omega) hlow h.coords (k := -2 ^ 18)
    (by norm_num) (lowCorner_all hT1 hM hlow d) (above_all hT1 (by omega) hpos h.coords d)
  set N := M + m.tileSize + 1 with hN
  have hN1 : 1 ≤ N := by omega
  have hc : ∀ i, |ncb.min i| ≤ (N : ℕ) := fun i => hlow'.abs_le hT1 i
  have hNq : (N : ℚ) ≤ 262144 := by exact_mod_cast hM
  have hMN : (M : ℚ) ≤ N := by
    have : M ≤ N := by omega
    exact_mod_cast this
  have htiny : (1 / 2 + (7 * (N : ℚ) + 6) / 2 ^ 24) * ρ ≤ 5 / 8 * ρ := by
    refine mul_le_mul_of_nonneg_right ?_ hpos.le
    norm_num
    linarith
  have hworld : ∀ i (v : F32) z, v.Is z → |z| ≤ M * ρ →
      |z - (ncb.min i + cellCoordFromPointCoord v (me.bounds.min i) me.resolution) * ρ| ≤ 5 / 8 * ρ :=
    fun i v z hv hz => (cell_world hP' hN1 hM hc (i := i) hv (hz.trans (by gcongr))).trans htiny
  have hsens : ∀ i x, (origin i).Is x → |x| ≤ M * ρ := by
    intro i x hx
    rcases h.sensor i with h1 | ⟨x', h1, h2⟩
    · have := Fp.notNaN_is hx
      rw [h1] at this; cases this
    · obtain rfl := h1.unique hx
      exact h2
  have hpt : ∀ i y, (p i).Is y → |y| ≤ M * ρ := by
    intro i y hy
    rcases h.coords p hp i with h1 | ⟨y', h1, h2⟩
    · have := Fp.notNaN_is hy
      rw [h1] at this; cases this
    · obtain rfl := h1.unique hy
      exact h2
  -- the point's cell is elsewhere
  have hne : ∀ n, below (cellFromPoint origin me.bounds.min me.resolution) d n ≠
      cellFromPoint p me.bounds.min me.resolution := by
    intro n hn
    rcases hel with ⟨i, hid, x, y, hx, hy, hxy⟩ | ⟨x, y, hx, hy, hxy⟩
    · have h1 := congrFun hn i
      unfold below at h1
      rw [Function.update_of_ne hid] at h1
      have h2 := abs_le.mp (hworld i _ _ hx (hsens i x hx))
      have h3 := abs_le.mp (hworld i _ _ hy (hpt i y hy))
      change cellCoordFromPointCoord (origin i) (me.bounds.min i) me.resolution =
        cellCoordFromPointCoord (p i) (me.bounds.min i) me.resolution at h1
      rw [h1] at h2
      have : |y - x| ≤ 5 / 4 * ρ := by rw [_root_.abs_le]; constructor <;> linarith [h2.1, h2.2, h3.1, h3.2]
      linarith
    · have h1 := congrFun hn d
      unfold below at h1
      rw [Function.update_self] at h1
      have h2 := abs_le.mp (hworld d _ _ hx (hsens d x hx))
      have h3 := abs_le.mp (hworld d _ _ hy (hpt d y hy))
      change cellCoordFromPointCoord (origin d) (me.bounds.min d) me.resolution - n =
        cellCoordFromPointCoord (p d) (me.bounds.min d) me.resolution at h1
      rw [← h1] at h3
      push_cast at h3
      have : 0 ≤ (n : ℚ) * ρ := by positivity
      linarith [h2.1, h3.2]
  have hno : ¬ ∃ ray x, Casts origin p me.bounds me.resolution nm.maxRange ray x := fun hr => by
    obtain ⟨n, hn⟩ := (C99_returns_iff hD hd h.lost).mp hr
    exact hne n hn
  -- the sensor's cell is not far below
  have hlowd : -2 ^ 62 ≤ cellFromPoint origin me.bounds.min me.resolution d := by
    change -2 ^ 62 ≤ cellCoordFromPointCoord (origin d) (me.bounds.min d) me.resolution
    rcases h.sensor d with h1 | ⟨x, h1, h2⟩
    · rw [h1, cellCoord_nan]; norm_num
    · have h3 := abs_le.mp (hworld d _ _ h1 h2)
      generalize cellCoordFromPointCoord (origin d) (me.bounds.min d) me.resolution = c at h3
      have h4 := _root_.abs_le.mp (hc d)
      have h5 : ((ncb.min d : ℤ) : ℚ) ≤ N := by exact_mod_cast h4.2
      have h6 := (abs_le.mp h2).1
      by_contra hcon
      have h7 : (c : ℚ) ≤ -2 ^ 61 := by exact_mod_cast (show c ≤ -2 ^ 61 by omega)
      have h8 : (ncb.min d + c : ℚ) * ρ ≤ (N - 2 ^ 61) * ρ := by
        refine mul_le_mul_of_nonneg_right ?_ hpos.le
        linarith
      have h9 : ((N : ℚ) - 2 ^ 61) * ρ + N * ρ + 5 / 8 * ρ < 0 := by
        have : ((N : ℚ) - 2 ^ 61 + N + 5 / 8) * ρ < 0 := mul_neg_of_neg_of_pos (by norm_num; linarith) hpos
        linarith
      have h10 : (M : ℚ) * ρ ≤ N * ρ := by gcongr
      linarith [h3.2]
  constructor
  · rintro ⟨m', fuel, hi⟩
    unfold LidarNoiseModel.integratePointCloud at hi
    rw [show nm.defaultCellValue = Fp.lit 0 from rfl, e1, Verif.M.bind_ok, Verif.M.bind_eq_ok] at hi
    obtain ⟨⟨free, occ⟩, h1, -⟩ := hi
    exact hno (C28_returns_iff.mp ⟨free, occ, fuel, h1⟩ p hp)
  · intro fuel hf
    have hf' : (fuel : ℤ) ≤ 2 ^ 62 := by exact_mod_cast hf
    have h1 : castRays fuel origin cloud me.bounds me.resolution nm.maxRange = .error .fuel := by
      refine castRays_fuel (fun p' => (lost_fuel hD hd h.lost (by omega)).1) hp ?_
      refine ((lost_fuel hD hd h.lost (by omega)).1).resolve_right ?_
      rintro ⟨⟨ray, x⟩, hx⟩
      exact hno ⟨ray, x, fuel, hx⟩
    unfold LidarNoiseModel.integratePointCloud
    rw [show nm.defaultCellValue = Fp.lit 0 from rfl, e1, Verif.M.bind_ok, h1]
    rfl

end

/-! ## The hypotheses are met -/

/-- A ray from a lost sensor goes from cell 5 of the column straight down to cell 2, the point's, far beyond the range
limit. -/
example : Casts (![.nan, Fp.lit (5 / 2)] : Point 2 F32) ![.nan, Fp.lit (-1 / 2)]
      ⟨![Fp.lit (-2), Fp.lit (-2)], ![Fp.lit 4, Fp.lit 4]⟩ (Fp.lit 1) (Fp.lit 1) [![0, 5], ![0, 4], ![0, 3]]
      (some ![0, 2]) ∧ IsBad (![.nan, Fp.lit (5 / 2)] : Point 2 F32) :=
  ⟨⟨20, by decide +kernel⟩, ⟨0, rfl⟩⟩

/-- Upward, no such ray returns. -/
example : ¬ ∃ ray x, Casts (![.nan, Fp.lit (-1 / 2)] : Point 2 F32) ![.nan, Fp.lit (5 / 2)]
    ⟨![Fp.lit (-2), Fp.lit (-2)], ![Fp.lit 4, Fp.lit 4]⟩ (Fp.lit 1) (Fp.lit 1) ray x := by
  rw [C99_returns_iff (d := 1) (.inl rfl) (by decide) ⟨0, rfl⟩]
  rintro ⟨n, h⟩
  have h1 : cellFromPoint (![.nan, Fp.lit (-1 / 2)] : Point 2 F32) ![Fp.lit (-2), Fp.lit (-2)] (Fp.lit 1) 1 = 2 := by
    decide +kernel
  have h2 : cellFromPoint (![.nan, Fp.lit (5 / 2)] : Point 2 F32) ![Fp.lit (-2), Fp.lit (-2)] (Fp.lit 1) 1 = 5 := by
    decide +kernel
  have h3 := congrFun h 1
  unfold below at h3
  rw [Function.update_self] at h3
  dsimp only at h3
  rw [h1, h2] at h3
  omega

/-- A sensor that is not known on the first axis, and two points. -/
def lostSensor : Point 2 F32 := ![.nan, Fp.lit (1 / 2)]

def lostCloud : PointCloud 2 F32 := PointCloud.fromPoints [![.nan, Fp.lit 5], ![Fp.lit 2, Fp.lit (1 / 4)]]

lemma lostCloud_scan : LostScan 60 1 lostSensor lostCloud := by
  have h5 : (Fp.lit 5 : F32).Is 5 := by decide +kernel
  have h2 : (Fp.lit 2 : F32).Is 2 := by decide +kernel
  have h4 : (Fp.lit (1 / 4) : F32).Is (1 / 4) := by decide +kernel
  refine ⟨⟨0, rfl⟩, fun i => ?_, fun p hp i => ?_⟩
  · fin_cases i
    · exact .inl rfl
    · exact .inr ⟨1 / 2, by decide +kernel, by norm_num [abs_le]⟩
  · rw [lostCloud, C13_points_fromPoints] at hp
    rcases List.mem_pair.mp hp with rfl | rfl <;> fin_cases i
    · exact .inl rfl
    · exact .inr ⟨_, h5, by norm_num [abs_le]⟩
    · exact .inr ⟨_, h2, by norm_num [abs_le]⟩
    · exact .inr ⟨_, h4, by norm_num [abs_le]⟩

lemma lostCloud_elsewhere : (![.nan, Fp.lit 5] : Point 2 F32) ∈ lostCloud.points ∧
    Elsewhere 1 1 lostSensor ![.nan, Fp.lit 5] := by
  refine ⟨?_, .inr ⟨1 / 2, 5, by decide +kernel, by decide +kernel, by norm_num⟩⟩
  rw [lostCloud, C13_points_fromPoints]
  exact List.mem_cons_self

example : ¬ ∃ m', Integrates (fun l => l) defaultNM smallMap lostSensor lostCloud m' :=
  (C99_scan (d := 1) (.inl rfl) (by decide) smallMap_placed (M := 60) (by norm_num)
    (show 60 + 2 + 1 ≤ 2 ^ 18 by norm_num) (.inl rfl) lostCloud_scan lostCloud_elsewhere.1 lostCloud_elsewhere.2).1

end Verif.Props
