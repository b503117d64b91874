import Verif.Props.RayNonFinite
import Verif.Props.Obstacle
import Verif.Props.RangeLimit
import Verif.Props.Edge
import Verif.Props.Lowest
import Verif.Spec.Bad

/-!
# C98: one NaN number in a scan stops the program
-/

namespace Verif.Props
open Spec Scalar

variable {D : ℕ}

/-! ## The ray to a NaN point -/

section
variable {o e : Point D F32} {bounds : Bounds D F32} {r ml : F32}

/-- When no `t_max` is finite and the last one is NaN: the cells stepped through and how the loop ends. -/
lemma castLoop_below (hD : D = 2 ∨ D = 3) {c : RayCtx D F32} {a : Fin D} (ha : ∀ j, j ≤ a)
    (hs : c.s a = -1) {fuel : ℕ} {cell : Cell D} {t : Point D F32}
    (ht : ∀ j, t j = .nan ∨ t j = .inf false) (hta : t a = .nan) {rest x}
    (h : castLoop c fuel cell t = .ok (rest, x)) :
    rest = (List.range rest.length).map (fun k => below cell a (k + 1)) ∧
      ((x = some c.endCell ∧ below cell a (rest.length + 1) = c.endCell) ∨
        (x = none ∧ c.tooFar (below cell a (rest.length + 1)) = true)) := by
  induction fuel generalizing cell t rest with
  | zero => simp [castLoop] at h
  | succ n ih =>
    simp only [castLoop, selDim_last hD ht ha, M.bind_eq_ok] at h
    obtain ⟨z, hz, h⟩ := h
    rw [isz_ok] at hz
    obtain ⟨rfl, -⟩ := hz
    rw [show toInt (c.step a) = -1 from hs] at h
    have e0 : Function.update cell a (cell a + -1) = below cell a 1 := by
      unfold below
      congr 1
    rw [e0] at h
    split_ifs at h with h1 h2
    · cases h; exact ⟨rfl, .inl ⟨by rw [← h1], h1⟩⟩
    · cases h; exact ⟨rfl, .inr ⟨rfl, h2⟩⟩
    · rw [M.bind_eq_ok] at h
      obtain ⟨⟨rest', x'⟩, h3, h⟩ := h
      cases h
      have hnan : Fp.add (t a) (c.tDelta a) = .nan := by rw [hta]; exact Fp.nan_add
      obtain ⟨h4, h5⟩ := ih (by
        intro j
        by_cases hj : j = a
        · subst hj; left; rw [Function.update_self]; exact hnan
        · rw [Function.update_of_ne hj]; exact ht j) (by
          rw [Function.update_self]; exact hnan) h3
      have e1 : ∀ k, below (below cell a 1) a k = below cell a (k + 1) := by
        intro k
        unfold below
        simp only [Function.update_self, Function.update_idem]
        congr 1
        push_cast
        ring
      simp only [e1] at h4 h5
      refine ⟨?_, h5⟩
      rw [List.length_cons, List.range_succ_eq_map, List.map_cons, List.map_map]
      congr 1

/-- C98, the ray: to a point with a NaN coordinate whose cell is not the sensor's, the ray goes straight down the
last axis from the sensor's cell, until it comes upon the point's cell, or upon a cell beyond the range limit. -/
theorem C98_ray (hD : D = 2 ∨ D = 3) {d : Fin D} (hd : ∀ j, j ≤ d) (hbad : IsBad e)
    (hne : cellFromPoint o bounds.min r ≠ cellFromPoint e bounds.min r) {ray : List (Cell D)}
    {x : Option (Cell D)} (h : Casts o e bounds r ml ray x) :
    0 < ray.length ∧ (∀ z, z ∈ ray ↔ ∃ k < ray.length, z = below (cellFromPoint o bounds.min r) d k) ∧
      ((x = some (cellFromPoint e bounds.min r) ∧
          below (cellFromPoint o bounds.min r) d ray.length = cellFromPoint e bounds.min r) ∨
        (x = none ∧ Scalar.lt (Scalar.lit 0) ml = true ∧
          Beyond o bounds r ml (below (cellFromPoint o bounds.min r) d ray.length))) := by
  obtain ⟨i, hi⟩ := hbad
  have hnan := fun j => rayDir_nan hD (o := o) (.inl hi) j
  obtain ⟨fuel, h⟩ := h
  unfold castRay at h
  rw [if_pos hD] at h
  dsimp only at h
  rw [if_neg hne, M.bind_eq_ok] at h
  obtain ⟨⟨rest, y⟩, h2, h⟩ := h
  cases h
  obtain ⟨h3, h4⟩ := castLoop_below hD hd (s_nan (hnan d)) (t := t0 o e bounds r) (fun j => .inl (t0_nan (hnan j)))
    (t0_nan (hnan d)) h2
  refine ⟨by simp, fun z => ?_, ?_⟩
  · rw [List.mem_cons, h3, List.mem_map, List.length_cons, List.length_map, List.length_range]
    constructor
    · rintro (rfl | ⟨k, hk, rfl⟩)
      · exact ⟨0, by omega, by unfold below; simp⟩
      · exact ⟨k + 1, by rw [List.mem_range] at hk; omega, rfl⟩
    · rintro ⟨k, hk, rfl⟩
      cases k with
      | zero => left; unfold below; simp
      | succ k => exact .inr ⟨k, by rw [List.mem_range]; omega, rfl⟩
  · rw [List.length_cons]
    refine h4.imp_right fun ⟨h5, h6⟩ => ⟨h5, ?_⟩
    unfold RayCtx.tooFar at h6
    rw [Bool.and_eq_true] at h6
    exact h6

end

/-! ## The map, with the NaN coordinates replaced by 0 -/

/-- A coordinate, or 0 if it is NaN. -/
def cleanCoord (v : F32) : F32 := if v.isNaN then Fp.lit 0 else v

def clean (c : PointCloud D F32) : PointCloud D F32 :=
  PointCloud.fromPoints (c.points.map fun p i => cleanCoord (p i))

lemma clean_bounds (c : PointCloud D F32) (hc : ∀ p ∈ c.points, ∀ i, p i = .nan ∨ (p i).isFin = true) :
    (clean c).bounds = c.bounds := by
  unfold PointCloud.bounds clean
  rw [C13_points_fromPoints, List.foldl_map]
  have key : ∀ l : List (Point D F32), (∀ p ∈ l, ∀ i, p i = .nan ∨ (p i).isFin = true) → ∀ b : Bounds D F32,
      (∀ i, ∃ x y, (b.min i).Is x ∧ (b.max i).Is y ∧ x ≤ 0 ∧ 0 ≤ y) →
      l.foldl (fun b p => PointCloud.boundsStep b fun i => cleanCoord (p i)) b = l.foldl PointCloud.boundsStep b := by
    intro l
    induction l with
    | nil => intros; rfl
    | cons p l ih =>
      intro hl b hb
      rw [List.foldl_cons, List.foldl_cons]
      have e : (PointCloud.boundsStep b fun i => cleanCoord (p i)) = PointCloud.boundsStep b p := by
        unfold PointCloud.boundsStep
        congr 1 <;> funext i <;> beta_reduce <;> rcases hl p List.mem_cons_self i with h | h
        · obtain ⟨x, y, h1, h2, h3, h4⟩ := hb i
          rw [h]
          have : Scalar.lt (cleanCoord (.nan : F32)) (b.min i) = false := by
            change Fp.lt (Fp.lit 0) (b.min i) = false
            rw [F32.zero_is.lt h1]; simpa using h3
          rw [this]
          rfl
        · cases hv : p i with
          | nan => rw [hv] at h; cases h
          | inf _ => rw [hv] at h; cases h
          | fin q nz a1 a2 => rfl
        · obtain ⟨x, y, h1, h2, h3, h4⟩ := hb i
          rw [h]
          have : Scalar.lt (b.max i) (cleanCoord (.nan : F32)) = false := by
            change Fp.lt (b.max i) (Fp.lit 0) = false
            rw [h2.lt F32.zero_is]; simpa using h4
          have h' : Scalar.lt (b.max i) (.nan : F32) = false := by
            change Fp.lt (b.max i) .nan = false
            obtain ⟨_, _, _, hh⟩ := h2
            rw [hh]; rfl
          rw [this, h']
          rfl
        · cases hv : p i with
          | nan => rw [hv] at h; cases h
          | inf _ => rw [hv] at h; cases h
          | fin q nz a1 a2 => rfl
      rw [e]
      refine ih (fun p' hp' => hl p' (List.mem_cons_of_mem _ hp')) _ fun i => ?_
      obtain ⟨x, y, h1, h2, h3, h4⟩ := hb i
      unfold PointCloud.boundsStep
      dsimp only
      rcases hl p List.mem_cons_self i with h | h
      · rw [h]
        have a1 : Scalar.lt (.nan : F32) (b.min i) = false := rfl
        have a2 : Scalar.lt (b.max i) (.nan : F32) = false := by
          change Fp.lt (b.max i) .nan = false
          obtain ⟨_, _, _, hh⟩ := h2
          rw [hh]; rfl
        rw [a1, a2]
        exact ⟨x, y, h1, h2, h3, h4⟩
      · have h5 := Fp.isFin_is h
        generalize (p i).val = z at h5
        have a1 : Scalar.lt (p i) (b.min i) = decide (z < x) := h5.lt h1
        have a2 : Scalar.lt (b.max i) (p i) = decide (y < z) := h2.lt h5
        rw [a1, a2]
        by_cases c1 : z < x <;> by_cases c2 : y < z <;> simp only [c1, c2, decide_true, decide_false, if_true]
        · linarith
        · exact ⟨z, y, h5, h2, by linarith, h4⟩
        · exact ⟨x, z, h1, h5, h3, by linarith⟩
        · exact ⟨x, y, h1, h2, h3, h4⟩
  exact key c.points hc _ fun i => ⟨0, 0, F32.zero_is, F32.zero_is, le_refl _, le_refl _⟩

lemma cellCoord_nan (b r : F32) : cellCoordFromPointCoord (.nan : F32) b r = 0 := by
  unfold cellCoordFromPointCoord
  change Fp.toInt (Fp.round (Fp.div (Fp.sub .nan b) r)) = 0
  rw [Fp.nan_sub]
  cases r <;> rfl

/-! ## The scan -/

section
variable {nm : LidarNoiseModel F32} {m : GridMap D F32 F32} {cb : CellBounds D} {ρ lam : ℚ}
  {origin : Point D F32} {cloud : PointCloud D F32} {ord : List (Cell D) → List (Cell D)}
  {x : Fin D → ℚ} {M : ℕ}

lemma clean_within (hpos : 0 < ρ) (h : NanCoords M ρ cloud) : WithinCells M ρ (clean cloud) := by
  intro p hp i
  unfold clean at hp
  rw [C13_points_fromPoints, List.mem_map] at hp
  obtain ⟨p, hp, rfl⟩ := hp
  rcases h p hp i with h1 | ⟨y, h1, h2⟩
  · refine ⟨0, ?_, by rw [abs_zero]; positivity⟩
    beta_reduce
    rw [h1]
    exact F32.zero_is
  · refine ⟨y, ?_, h2⟩
    beta_reduce
    unfold cleanCoord
    rw [Fp.notNaN_is h1]
    exact h1

lemma nan_bounds (h : NanCoords M ρ cloud) : (clean cloud).bounds = cloud.bounds :=
  clean_bounds cloud fun p hp i => (h p hp i).imp_right fun ⟨_, h1, _⟩ => h1.isFin

/-- The least corner of a clean cloud is one of its coordinates or 0. -/
lemma clean_min (h : NanCoords M ρ cloud) {d : Fin D} {b : ℚ} (h0 : b ≤ 0)
    (ha : Above d b cloud) : ∃ z, ((clean cloud).bounds.min d).Is z ∧ b ≤ z := by
  refine (cloud_bounds_pred (clean cloud) d (fun v => ∃ z, v.Is z ∧ b ≤ z) ⟨0, F32.zero_is, h0⟩ fun p hp => ?_).1
  unfold clean at hp
  rw [C13_points_fromPoints, List.mem_map] at hp
  obtain ⟨p, hp, rfl⟩ := hp
  rcases h p hp d with h1 | ⟨y, h1, h2⟩
  · refine ⟨0, ?_, h0⟩
    beta_reduce
    rw [h1]
    exact F32.zero_is
  · refine ⟨y, ?_, ha p hp y h1⟩
    beta_reduce
    unfold cleanCoord
    rw [Fp.notNaN_is h1]
    exact h1

/-- The map a scan with NaN coordinates is integrated into. -/
lemma nan_setup (hD : D ≤ 3) (hP : Placed m cb ρ) (hM1 : 1 ≤ M) (hM : M ≤ 2 ^ 18)
    (hlow : LowCorner M m.tileSize cb) (h : NanCoords M ρ cloud) {d : Fin D} {k : ℤ} (hk : k ≤ 0)
    (hcb : cb = CellBounds.empty ∨ k * m.tileSize ≤ cb.min d) (ha : Above d (k * m.tileSize * ρ) cloud) :
    ∃ me ncb, m.expandBounds cloud.bounds (Fp.lit 0) = .ok me ∧ Placed me ncb ρ ∧ LowCorner M m.tileSize ncb ∧
      me.tileSize = m.tileSize ∧ k * m.tileSize ≤ ncb.min d ∧ (∀ i, (ncb.min i - 1 / 8) * ρ ≤ 0) ∧
      ∀ p ∈ cloud.points, ∀ i y, (p i).Is y → (ncb.min i - 1 / 8) * ρ ≤ y := by
  have hpos := hP.res.pos
  have hMq : (M : ℚ) ≤ 262144 := by exact_mod_cast hM
  have hT1 := hP.tile_pos
  have hT1' : (1 : ℤ) ≤ m.tileSize := by exact_mod_cast hT1
  have hcl := clean_within hpos h
  have hb := nan_bounds h
  have hcloud : CloudInRange (clean cloud) ρ := by
    intro p hp i
    obtain ⟨y, h1, h2⟩ := hcl p hp i
    exact ⟨y, h1, h2.trans (by norm_num; gcongr)⟩
  have hreq := request_of_cloud hpos hcloud
  obtain ⟨me, ncb, h1, h0, hP', -, -⟩ := expand_spec hD hP hreq (Fp.lit 0 : F32)
  obtain ⟨ncb', h0', hal, hdc, hcbs, hleast, hrange⟩ := newCellBounds_spec hP hreq
  rw [h0] at h0'
  cases h0'
  obtain ⟨ncb', q1, q2, q3, -⟩ := low_corner hD hP hM1 hM hcl hlow h1
  obtain rfl : ncb' = ncb := by rw [← q1.cells, hP'.cells]
  have hkT : k * (m.tileSize : ℤ) ≤ 0 := mul_nonpos_of_nonpos_of_nonneg hk (by positivity)
  have hkTq : (k * m.tileSize * ρ : ℚ) ≤ 0 := by
    have : (k * m.tileSize : ℚ) ≤ 0 := by exact_mod_cast hkT
    exact mul_nonpos_of_nonpos_of_nonneg this hpos.le
  have hmin : ∀ i, ∃ z, ((clean cloud).bounds.min i).Is z ∧ |z| ≤ 2 ^ 18 * ρ := fun i => by
    obtain ⟨z, -, e1, -, -, e2, -⟩ := hreq i
    exact ⟨z, e1, e2⟩
  have hlo : ∀ i z, ((clean cloud).bounds.min i).Is z → (ncb'.min i - 1 / 8) * ρ ≤ z := by
    intro i z hz
    obtain ⟨z', e1, e2⟩ := hmin i
    obtain rfl := e1.unique hz
    refine le_trans ?_ (cellOf_discMin_le hP.res hz e2)
    have h7 : ((ncb'.min i : ℤ) : ℚ) ≤
        cellOf m.resolution (Bounds.discMin m.resolution ((clean cloud).bounds.min i)) := by
      exact_mod_cast (hdc i).1
    gcongr
  refine ⟨me, ncb', hb ▸ h1, q1, q2, q3, ?_, fun i => ?_, fun p hp i y hy => ?_⟩
  · obtain ⟨z, e1, e2⟩ := hmin d
    have hz : (k * m.tileSize * ρ : ℚ) ≤ z := by
      obtain ⟨z', e3, e4⟩ := clean_min h hkTq ha
      obtain rfl := e1.unique e3
      exact e4
    have hge : k * m.tileSize ≤ (discCells m.resolution (clean cloud).bounds).min d := by
      by_cases hlt : k * (m.tileSize : ℤ) ≤ -(2 ^ 20)
      · have := _root_.abs_le.mp (discCells_range hP.res hreq d).1
        omega
      · exact cell_le_discMin hP.res e1 e2 (by rw [_root_.abs_le]; omega) (by push_cast; exact hz)
    have hsub := hleast ⟨fun i => if i = d then k * m.tileSize else m.tileSize * -2 ^ 20, fun _ => m.tileSize * 2 ^ 20⟩
      (fun i => ⟨by dsimp only; split_ifs; exacts [dvd_mul_left _ _, dvd_mul_right _ _], dvd_mul_right _ _⟩)
      (fun i => by
        have h4 := _root_.abs_le.mp (discCells_range hP.res hreq i).2.1
        have h5 := _root_.abs_le.mp (discCells_range hP.res hreq i).1
        refine ⟨?_, by dsimp only; omega⟩
        dsimp only
        split_ifs with hi
        · rw [hi]; exact hge
        · omega)
      (fun hne i => by
        have h5 := _root_.abs_le.mp (hP.inRange i).2
        have h6 := _root_.abs_le.mp (hP.inRange i).1
        refine ⟨?_, by dsimp only; omega⟩
        dsimp only
        split_ifs with hi
        · rw [hi]; exact hcb.resolve_left hne
        · omega)
    have := (hsub d).1
    simpa using this
  · obtain ⟨z, e1, -⟩ := hmin i
    exact (hlo i z e1).trans ((Fp.FLe_is e1 F32.zero_is).mp (C14_bounds_contain (clean cloud) i).1)
  · obtain ⟨z, e1, -⟩ := hmin i
    refine (hlo i z e1).trans ?_
    have e2 := ((C14_bounds_contain cloud i).2.2 p hp (Fp.notNaN_is hy)).1
    rw [hb] at e1
    exact (Fp.FLe_is e1 hy).mp e2

/-- The cells straight below the sensor's, down to index -1, are not beyond the range limit, if the lower corner of
the map (at `q`) is within it. -/
lemma nan_near (hD : D = 2 ∨ D = 3) {o : Point D F32} {bounds : Bounds D F32} {r ml : F32} {q : Fin D → ℚ} {N b : ℚ}
    (h : RayRange N o o bounds.min r x x q ρ) (hN : N ≤ 2 ^ 19 + 1) (hml : ml.Is lam) (h60 : 1 / 2 ^ 60 ≤ lam)
    (hle : lam ≤ 2 ^ 60) {d : Fin D} (h0 : 0 ≤ cellFromPoint o bounds.min r d) {n : ℕ}
    (hn : n ≤ cellFromPoint o bounds.min r d + 1) (hb : b - 1 / 20 * ρ ≤ q d)
    (hfl : x d - b + 5 * ρ ≤ lam * (1 - 1 / 2 ^ 20)) : ¬ Beyond o bounds r ml (below (cellFromPoint o bounds.min r) d n) := by
  have hpos := h.pos
  have hN1 := h.M_lo
  have hin := in_cell h
  have hsmall := between_small h (z := cellFromPoint o bounds.min r) (fun i => by simp)
  generalize cellFromPoint o bounds.min r = oc at *
  have hbd : below oc d n d = oc d - n := Function.update_self ..
  have hbj : ∀ j, j ≠ d → below oc d n j = oc j := fun j hj => Function.update_of_ne hj _ _
  refine C68_near hD h (N := N + 1) (l := x d - b + 13 / 5 * ρ + 2 * (3 / 4 * ρ))
    (by linarith) (by norm_num at hN ⊢; linarith) ?_ hml h60 hle ?_ ?_
  · intro j
    by_cases hj : j = d
    · subst hj
      rw [hbd]
      have h1 : |oc j - (n : ℤ)| ≤ max 1 (oc j) := by rw [_root_.abs_le]; omega
      have h2 : ((|oc j - (n : ℤ)| : ℤ) : ℚ) ≤ ((max 1 (oc j) : ℤ) : ℚ) := by exact_mod_cast h1
      push_cast at h2 ⊢
      refine h2.trans (max_le (by linarith) ((le_abs_self _).trans (hsmall j)))
    · rw [hbj j hj]
      exact hsmall j
  · have hod' := abs_le.mp (hin d)
    have hlenq : (n : ℚ) ≤ oc d + 1 := by exact_mod_cast hn
    have hlm : (n : ℚ) * ρ ≤ (oc d + 1) * ρ := by gcongr
    have hlm0 : 0 ≤ (n : ℚ) * ρ := by positivity
    have hod0 : (0 : ℚ) ≤ oc d := by exact_mod_cast h0
    have hocm : 0 ≤ (oc d : ℚ) * ρ := by positivity
    have hcd : centre q ρ (below oc d n) d = centre q ρ oc d - n * ρ := by
      unfold centre
      rw [hbd]
      push_cast
      ring
    have hcd' : centre q ρ oc d = q d + oc d * ρ := rfl
    have hAd : |centre q ρ (below oc d n) d - x d| ≤ x d - b + 13 / 5 * ρ := by
      rw [hcd, _root_.abs_le]
      constructor <;> linarith
    refine distLe_of_axes (by omega) (by positivity)
      (y := Function.update x d (centre q ρ (below oc d n) d)) (l := x d - b + 13 / 5 * ρ)
      ⟨(abs_nonneg _).trans hAd, ?_⟩ fun j => ?_
    · unfold distSq
      rw [Finset.sum_eq_single d]
      · rw [Function.update_self, ← sq_abs]
        exact pow_le_pow_left₀ (abs_nonneg _) hAd 2
      · intro j _ hj
        rw [Function.update_of_ne hj]
        ring
      · simp
    · by_cases hj : j = d
      · subst hj
        rw [Function.update_self]
        linarith
      · rw [Function.update_of_ne hj, sub_self, abs_zero, zero_add]
        have : centre q ρ (below oc d n) j = centre q ρ oc j := by
          unfold centre
          rw [hbj j hj]
        rw [this, abs_sub_comm]
        exact hin j
  · have : rangeTol (N + 1) ρ ≤ 2 / 5 * ρ := by
      unfold rangeTol
      rw [← mul_assoc]
      refine mul_le_mul_of_nonneg_right ?_ hpos.le
      norm_num at hN ⊢
      linarith
    linarith

/-- The rays of such a scan return. -/
lemma nan_rays (hD : D = 2 ∨ D = 3) {N : ℕ} {me : GridMap D F32 F32} {ncb : CellBounds D} (hP' : Placed me ncb ρ)
    (hN1 : 1 ≤ N) (hN : N ≤ 2 ^ 18) (hMN : M ≤ N) (hc : ∀ i, |ncb.min i| ≤ (N : ℕ)) (h : NanScan M ρ origin cloud x)
    (hml : nm.maxRange.Is lam) (hlam0 : 0 < lam) (hle : lam ≤ M * ρ) :
    ∃ q : Fin D → ℚ, (∀ i, |q i - ncb.min i * ρ| ≤ (3 * N + 2) / 2 ^ 24 * ρ) ∧
      RayRange (2 * N + 1) origin origin me.bounds.min me.resolution x x q ρ ∧
      ∀ p ∈ cloud.points, ∃ ray e, Casts origin p me.bounds me.resolution nm.maxRange ray e := by
  have hpos := hP'.res.pos
  obtain ⟨q, g1, g2, g3⟩ := corner_is hP' hN1 hN hc
  have hNq : (N : ℚ) ≤ 262144 := by exact_mod_cast hN
  have hNq1 : (1 : ℚ) ≤ N := by exact_mod_cast hN1
  have hMN : (M : ℚ) ≤ N := by exact_mod_cast hMN
  have hnear : ∀ i z, |z| ≤ M * ρ → |z - q i| ≤ (2 * N + 1) * ρ := by
    intro i z hz
    have := abs_sub z (q i)
    have h1 : (M : ℚ) * ρ ≤ N * ρ := by gcongr
    linarith [g3 i]
  have hrr : ∀ (e : Point D F32) (y : Fin D → ℚ), (∀ i, (e i).Is (y i)) → (∀ i, |y i| ≤ M * ρ) →
      (∀ i, y i = x i ∨ ρ / 2 ^ 40 ≤ |y i - x i|) →
      RayRange (2 * N + 1) origin e me.bounds.min me.resolution x y q ρ := by
    intro e y h1 h2 h3
    exact ⟨hP'.res.1, h.res_lo, h.res_hi, by linarith, by norm_num; linarith, h.sensor, h1, g1,
      fun i => hnear i _ (h.sensor_near i), fun i => hnear i _ (h2 i), fun i => (g3 i).trans (by gcongr; linarith), h3⟩
  have hoo := hrr origin x h.sensor h.sensor_near fun _ => .inl rfl
  have hlam : lam ≤ (2 * N + 1) * ρ := hle.trans (by gcongr; linarith)
  refine ⟨q, g2, hoo, fun p hp => ?_⟩
  by_cases hb : IsBad p
  · obtain ⟨d, hd⟩ : ∃ d : Fin D, ∀ j, j ≤ d := by
      rcases hD with rfl | rfl
      · exact ⟨1, by decide⟩
      · exact ⟨2, by decide⟩
    exact C26_returns_partial hD hd hoo (.inl hb) hml hlam0 hlam
  · have hnum : ∀ i, ∃ y, (p i).Is y ∧ |y| ≤ M * ρ := fun i =>
      (h.coords p hp i).resolve_left fun hi => hb ⟨i, hi⟩
    choose y hy1 hy2 using hnum
    exact C22_f32_returns hD (hrr p y hy1 hy2 fun i => h.apart p hp hb i (y i) (hy1 i)) hml hlam0 hlam

/-- The map does not lose cells. -/
lemma nan_grows (hD : D ≤ 3) (hP : Placed m cb ρ) (hM : M ≤ 2 ^ 18) (h : NanCoords M ρ cloud)
    {me : GridMap D F32 F32} {ncb : CellBounds D} (e1 : m.expandBounds cloud.bounds (Fp.lit 0) = .ok me)
    (hP' : Placed me ncb ρ) (hne : cb ≠ CellBounds.empty) (i : Fin D) : ncb.min i ≤ cb.min i := by
  have hpos := hP.res.pos
  have hMq : (M : ℚ) ≤ 262144 := by exact_mod_cast hM
  have hcloud : CloudInRange (clean cloud) ρ := by
    intro p hp i
    obtain ⟨y, h1, h2⟩ := clean_within hpos h p hp i
    exact ⟨y, h1, h2.trans (by norm_num; gcongr)⟩
  have hreq := request_of_cloud hpos hcloud
  rw [nan_bounds h] at hreq
  obtain ⟨me', ncb', f1, f2, f3, -⟩ := expand_spec hD hP hreq (Fp.lit 0 : F32)
  rw [e1] at f1
  cases f1
  obtain ⟨ncb'', g1, -, -, g4, -⟩ := newCellBounds_spec hP hreq
  rw [f2] at g1
  cases g1
  have : ncb = ncb' := by rw [← hP'.cells, f3.cells]
  rw [this]
  exact (g4 hne i).1

/-- `C98_panics`; or the map reaches two cells below the sensor already. -/
lemma nan_panics (hD : D = 2 ∨ D = 3) (hP : Placed m cb ρ) (hM1 : 1 ≤ M) (hM : M + m.tileSize + 1 ≤ 2 ^ 18)
    (hlow : LowCorner M m.tileSize cb) (ho : IsOrder ord) (h : NanScan M ρ origin cloud x)
    {d : Fin D} (hd : ∀ j, j ≤ d) {k : ℤ} (hk : k ≤ 0) (hcb : cb = CellBounds.empty ∨ k * m.tileSize ≤ cb.min d)
    (ha : Above d (k * m.tileSize * ρ) cloud) (hml : nm.maxRange.Is lam) (h60 : 1 / 2 ^ 60 ≤ lam) (hle : lam ≤ M * ρ)
    (hfl : x d - k * m.tileSize * ρ + 5 * ρ ≤ lam * (1 - 1 / 2 ^ 20))
    {p : Point D F32} (hp : p ∈ cloud.points) (hbad : IsBad p) 
    (hside : Aside ρ d cloud x p ∨ ∃ i, i ≠ d ∧ p i = .nan ∧ cb ≠ CellBounds.empty ∧ (cb.min i + 2) * ρ ≤ x i) :
    PanicsIndex ord nm m origin cloud := by
  have hpos := hP.res.pos
  have hT1 := hP.tile_pos
  obtain ⟨me, ncb, e1, hP', hlow', eT, hfloor, hz0, hzp⟩ :=
    nan_setup (by omega) hP hM1 (by omega) hlow h.coords hk hcb ha
  set N := M + m.tileSize + 1 with hN
  have hN1 : 1 ≤ N := by omega
  have hc : ∀ i, |ncb.min i| ≤ (N : ℕ) := fun i => hlow'.abs_le hT1 i
  have hNq : (N : ℚ) ≤ 262144 := by exact_mod_cast hM
  have hMN : (M : ℚ) ≤ N := by
    have : M ≤ N := by omega
    exact_mod_cast this
  obtain ⟨q, g2, hoo, hret⟩ := nan_rays (nm := nm) hD hP' hN1 hM (by omega) hc h hml
    (lt_of_lt_of_le (by norm_num) h60) hle
  obtain ⟨free, occ, hcast⟩ := C28_returns_iff.mpr hret
  refine C44_outside_panics ho e1 hcast ?_
  obtain ⟨ray, e, hray⟩ := hret p hp
  set oc := cellFromPoint origin me.bounds.min me.resolution with hoc
  set ec := cellFromPoint p me.bounds.min me.resolution with hec
  -- the point's cell is aside
  have hside : ∃ i, i ≠ d ∧ ((p i = .nan ∧ (ncb.min i - 1 / 8) * ρ + 2 * ρ ≤ x i) ∨
      ∃ y, (p i).Is y ∧ 2 * ρ ≤ |y - x i|) := by
    rcases hside with ⟨i, hid, ⟨hn, hi⟩ | hi⟩ | ⟨i, hid, hn, hcb0, hi⟩
    · refine ⟨i, hid, .inl ⟨hn, ?_⟩⟩
      rcases hi with hi | ⟨p', hp', y, hy, hle⟩
      · linarith [hz0 i]
      · linarith [hzp p' hp' i y hy]
    · exact ⟨i, hid, .inr hi⟩
    · refine ⟨i, hid, .inl ⟨hn, ?_⟩⟩
      have h1 : ((ncb.min i : ℤ) : ℚ) ≤ (cb.min i : ℤ) := by
        exact_mod_cast nan_grows (by omega) hP (by omega) h.coords e1 hP' hcb0 i
      have h2 : ((ncb.min i : ℤ) : ℚ) * ρ ≤ (cb.min i : ℤ) * ρ := by gcongr
      linarith
  obtain ⟨i, hid, hi⟩ := hside
  have htiny : (1 / 2 + (7 * (N : ℚ) + 6) / 2 ^ 24) * ρ ≤ 5 / 8 * ρ := by
    refine mul_le_mul_of_nonneg_right ?_ hpos.le
    norm_num
    linarith
  have hxi := abs_le.mp ((cell_world hP' hN1 hM hc (i := i) (h.sensor i) ((h.sensor_near i).trans (by gcongr))).trans
    htiny)
  have hnei : oc i ≠ ec i := by
    change cellCoordFromPointCoord (origin i) (me.bounds.min i) me.resolution ≠
      cellCoordFromPointCoord (p i) (me.bounds.min i) me.resolution
    generalize cellCoordFromPointCoord (origin i) (me.bounds.min i) me.resolution = a at hxi
    rcases hi with ⟨hn, hv⟩ | ⟨y, hy, hyx⟩
    · rw [hn, cellCoord_nan]
      have : (0 : ℚ) < a * ρ := by linarith [hxi.2]
      have h0 : (0 : ℚ) < a := pos_of_mul_pos_left this hpos.le
      have h0' : 0 < a := by exact_mod_cast h0
      omega
    · have hyM : |y| ≤ M * ρ := by
        rcases h.coords p hp i with hn | ⟨y', h1, h2⟩
        · have := Fp.notNaN_is hy
          rw [hn] at this; cases this
        · obtain rfl := h1.unique hy
          exact h2
      have hyi := abs_le.mp ((cell_world hP' hN1 hM hc (i := i) hy (hyM.trans (by gcongr))).trans htiny)
      intro heq
      rw [← heq] at hyi
      have : |y - x i| ≤ 5 / 4 * ρ := by rw [_root_.abs_le]; constructor <;> linarith [hyi.1, hyi.2, hxi.1, hxi.2]
      linarith
  have hne : oc ≠ ec := fun he => hnei (congrFun he i)
  obtain ⟨r1, r2, r3⟩ := C98_ray hD hd hbad hne hray
  have hbelow : ∀ n, below oc d n i = oc i := fun n => Function.update_of_ne hid _ _
  have hbd : ∀ n : ℕ, below oc d n d = oc d - n := fun n => Function.update_self ..
  -- some cell of the ray lies below the grid
  have hout : ∃ z ∈ ray, z d < 0 := by
    by_cases hod : oc d < 0
    · exact ⟨below oc d 0, (r2 _).mpr ⟨0, r1, rfl⟩, by rw [hbd]; push_cast; omega⟩
    · by_cases hlen : oc d + 1 < ray.length
      · refine ⟨below oc d (oc d + 1).toNat, (r2 _).mpr ⟨_, by omega, rfl⟩, by rw [hbd]; omega⟩
      · exfalso
        rcases r3 with ⟨-, r3⟩ | ⟨-, -, r3⟩
        · exact hnei ((hbelow _).symm.trans (congrFun r3 i))
        · have hfl' : ((k * m.tileSize : ℤ) : ℚ) ≤ ((ncb.min d : ℤ) : ℚ) := by exact_mod_cast hfloor
          push_cast at hfl'
          have hfl'' : (k * m.tileSize * ρ : ℚ) ≤ ncb.min d * ρ := by gcongr
          have hsm : (3 * (N : ℚ) + 2) / 2 ^ 24 * ρ ≤ 1 / 20 * ρ := by
            refine mul_le_mul_of_nonneg_right ?_ hpos.le
            norm_num
            linarith
          refine nan_near hD hoo (by norm_num; linarith) hml h60 ?_ (not_lt.mp hod) (n := ray.length) (not_lt.mp hlen)
            (b := k * m.tileSize * ρ) (by linarith [(abs_le.mp (g2 d)).1]) hfl r3
          refine hle.trans ?_
          have h1 := h.res_hi
          have h2 : (M : ℚ) ≤ 262144 := hMN.trans hNq
          calc (M : ℚ) * ρ ≤ 262144 * 2 ^ 20 := by gcongr
            _ ≤ 2 ^ 60 := by norm_num
  obtain ⟨z, hz, hzd⟩ := hout
  refine ⟨z, ?_, fun hg => by have := (hg d).1; omega⟩
  by_cases hzo : z ∈ occ
  · exact .inr hzo
  · exact .inl ((C28_free hcast z).mpr ⟨⟨p, hp, ray, e, hray, hz⟩, hzo⟩)

/-- C98, the scan: a scan with a NaN coordinate panics, if the floor of the map is in range. All the coordinates
along the last axis, and the map, are above tile border `k`, and the sensor, with five cells to spare, is within
the range limit of it. -/
theorem C98_panics (hD : D = 2 ∨ D = 3) (hP : Placed m cb ρ) (hM1 : 1 ≤ M) (hM : M + m.tileSize + 1 ≤ 2 ^ 18)
    (hlow : LowCorner M m.tileSize cb) (ho : IsOrder ord) (h : NanScan M ρ origin cloud x)
    {d : Fin D} (hd : ∀ j, j ≤ d) {k : ℤ} (hk : k ≤ 0) (hcb : cb = CellBounds.empty ∨ k * m.tileSize ≤ cb.min d)
    (ha : Above d (k * m.tileSize * ρ) cloud) (hml : nm.maxRange.Is lam) (h60 : 1 / 2 ^ 60 ≤ lam) (hle : lam ≤ M * ρ)
    (hfl : x d - k * m.tileSize * ρ + 5 * ρ ≤ lam * (1 - 1 / 2 ^ 20))
    {p : Point D F32} (hp : p ∈ cloud.points) (hbad : IsBad p) (hside : Aside ρ d cloud x p) :
    PanicsIndex ord nm m origin cloud :=
  nan_panics hD hP hM1 hM hlow ho h hd hk hcb ha hml h60 hle hfl hp hbad (.inl hside)

/-- A scan in the working range, NaN or not, is integrated or panics; it does not hang. -/
lemma nan_ends (hD : D = 2 ∨ D = 3) (hP : Placed m cb ρ) (hM1 : 1 ≤ M) (hM : M + m.tileSize + 1 ≤ 2 ^ 18)
    (hlow : LowCorner M m.tileSize cb) (ho : IsOrder ord) (h : NanScan M ρ origin cloud x)
    {d : Fin D} {k : ℤ} (hk : k ≤ 0) (hcb : cb = CellBounds.empty ∨ k * m.tileSize ≤ cb.min d)
    (ha : Above d (k * m.tileSize * ρ) cloud) (hml : nm.maxRange.Is lam) (hlam0 : 0 < lam) (hle : lam ≤ M * ρ) :
    (∃ m', Integrates ord nm m origin cloud m') ∨ PanicsIndex ord nm m origin cloud := by
  obtain ⟨me, ncb, e1, hP', hlow', eT, -⟩ := nan_setup (by omega) hP hM1 (by omega) hlow h.coords hk hcb ha
  obtain ⟨q, -, -, hret⟩ := nan_rays (nm := nm) (N := M + m.tileSize + 1) hD hP' (by omega) hM (by omega)
    (fun i => hlow'.abs_le hP.tile_pos i) h hml hlam0 hle
  obtain ⟨free, occ, hcast⟩ := C28_returns_iff.mpr hret
  by_cases hcon : ∃ c, (c ∈ free ∨ c ∈ occ) ∧ ¬ InGrid me c
  · exact .inr (C44_outside_panics ho e1 hcast hcon)
  · push Not at hcon
    exact .inl ((C38_returns_iff ho).mpr ⟨me, free, occ, e1, hcast, fun c hc' => hcon c (.inl hc'),
      fun c hc' => hcon c (.inr hc')⟩)

end

/-! ## Examples -/

/-- A ray to a point with two NaN coordinates, ended by the range limit. -/
example : Casts (![Fp.lit (5 / 2), Fp.lit (1 / 2)] : Point 2 F32) ![.nan, .nan]
      ⟨![Fp.lit (-2), Fp.lit (-2)], ![Fp.lit 4, Fp.lit 4]⟩ (Fp.lit 1) (Fp.lit 4) [![5, 3], ![5, 2], ![5, 1], ![5, 0], ![5, -1]]
      none ∧ IsBad (![.nan, .nan] : Point 2 F32) ∧
    cellFromPoint (![Fp.lit (5 / 2), Fp.lit (1 / 2)] : Point 2 F32) ![Fp.lit (-2), Fp.lit (-2)] (Fp.lit 1) ≠
      cellFromPoint (![.nan, .nan] : Point 2 F32) ![Fp.lit (-2), Fp.lit (-2)] (Fp.lit 1) :=
  ⟨⟨20, by decide +kernel⟩, ⟨0, rfl⟩, by decide +kernel⟩

/-- A sensor, a point with NaN coordinates and a point without. -/
def nanCloud : PointCloud 2 F32 := PointCloud.fromPoints [![.nan, .nan], ![Fp.lit (-1 / 2), Fp.lit (1 / 4)]]

def nanSensor : Point 2 F32 := ![Fp.lit (5 / 2), Fp.lit (1 / 2)]

lemma nanCloud_scan : NanScan 60 1 nanSensor nanCloud ![5 / 2, 1 / 2] := by
  have hx : ∀ i, (nanSensor i).Is ((![5 / 2, 1 / 2] : Fin 2 → ℚ) i) := by decide +kernel
  have hy : ∀ i, ((![Fp.lit (-1 / 2), Fp.lit (1 / 4)] : Point 2 F32) i).Is ((![-1 / 2, 1 / 4] : Fin 2 → ℚ) i) := by
    decide +kernel
  refine ⟨by norm_num, by norm_num, hx, fun i => ?_, fun p hp i => ?_, fun p hp hb i y h => ?_⟩
  · fin_cases i <;> norm_num [abs_le]
  · rw [nanCloud, C13_points_fromPoints] at hp
    rcases List.mem_pair.mp hp with rfl | rfl
    · left; fin_cases i <;> rfl
    · exact .inr ⟨_, hy i, by fin_cases i <;> norm_num [abs_le]⟩
  · rw [nanCloud, C13_points_fromPoints] at hp
    rcases List.mem_pair.mp hp with rfl | rfl
    · exact absurd ⟨0, rfl⟩ hb
    · obtain rfl := h.unique (hy i)
      right
      fin_cases i <;> norm_num [le_abs]

lemma nanCloud_above : Above 1 (-2) nanCloud := by
  intro p hp y h
  rw [nanCloud, C13_points_fromPoints] at hp
  rcases List.mem_pair.mp hp with rfl | rfl
  · obtain ⟨_, _, _, h⟩ := h
    cases h
  · obtain rfl := h.unique (show ((![Fp.lit (-1 / 2), Fp.lit (1 / 4)] : Point 2 F32) 1).Is (1 / 4) by decide +kernel)
    norm_num

/-- The point with NaN coordinates is aside: the sensor is two cells above the origin on the other axis. -/
lemma nanCloud_aside : (![.nan, .nan] : Point 2 F32) ∈ nanCloud.points ∧ IsBad (![.nan, .nan] : Point 2 F32) ∧
    Aside 1 1 nanCloud ![5 / 2, 1 / 2] ![.nan, .nan] := by
  refine ⟨?_, ⟨0, rfl⟩, 0, by decide, .inl ⟨rfl, .inl (by norm_num)⟩⟩
  rw [nanCloud, C13_points_fromPoints]
  exact List.mem_cons_self

/-- The scan panics with the default noise model, on the empty map with cells of side 1 and tiles of two cells. -/
example : PanicsIndex (fun l => l) defaultNM smallMap nanSensor nanCloud := by
  obtain ⟨h1, h2, h3⟩ := nanCloud_aside
  exact C98_panics (d := 1) (k := -1) (lam := 60) (.inl rfl) smallMap_placed (by norm_num)
    (show 60 + 2 + 1 ≤ 2 ^ 18 by norm_num) (.inl rfl) (fun l => List.Perm.refl l) nanCloud_scan (by decide) (by norm_num) (.inl rfl)
    (by have := nanCloud_above; have e : ((-1 : ℤ) * (smallMap.tileSize : ℕ) * 1 : ℚ) = -2 := by
          rw [show smallMap.tileSize = 2 from rfl]; norm_num
        rw [e]; exact this)
    (by decide +kernel) (by norm_num) (by norm_num)
    (by rw [show smallMap.tileSize = 2 from rfl]; norm_num) h1 h2 h3

end Verif.Props
