import Verif.Props.RaySame
import Verif.Spec.Motion

/-!
# C86: clear rays move with the scene
-/

namespace Verif.Props
open Spec Scalar

variable {D : ℕ} {M ρ ρ' : ℚ} {o e o' e' : Point D F32} {bounds bounds' : Bounds D F32} {r r' : F32}
  {x y q x' y' q' : Fin D → ℚ} {g : GridMotion D}

lemma sign_cast (u : ℤˣ) : ((u : ℤ) : ℚ) = 1 ∨ ((u : ℤ) : ℚ) = -1 := by
  rcases Int.units_eq_one_or u with h | h <;> simp [h]

/-- In cells. -/
lemma near_inCells (hρ : 0 < ρ) {t : ℚ} {w : Cell D} (i : Fin D) :
    |lineAt x y t i - (q i + w i * ρ)| = |lineAt (inCells q ρ x) (inCells q ρ y) t i - w i| * ρ := by
  rw [← abs_of_pos hρ, ← abs_mul, abs_of_pos hρ]
  congr 1
  unfold lineAt inCells
  field_simp
  ring

lemma dist_motion {u v : Fin D → ℚ} {t : ℚ} {w : Cell D} (i : Fin D) :
    |lineAt (g.point u) (g.point v) t i - g.cell w i| = |lineAt u v t (g.axes i) - w (g.axes i)| := by
  have h : lineAt (g.point u) (g.point v) t i - g.cell w i
      = (g.sign i : ℤ) * (lineAt u v t (g.axes i) - w (g.axes i)) := by
    unfold lineAt GridMotion.point GridMotion.cell
    push_cast
    ring
  rw [h, abs_mul]
  rcases sign_cast (g.sign i) with h | h <;> rw [h] <;> simp

variable (hx : inCells q' ρ' x' = g.point (inCells q ρ x)) (hy : inCells q' ρ' y' = g.point (inCells q ρ y))
include hx hy

lemma dist_motion' (hρ : 0 < ρ) (hρ' : 0 < ρ') {t : ℚ} {w : Cell D} (i : Fin D) :
    |lineAt x' y' t i - (q' i + g.cell w i * ρ')| / ρ'
      = |lineAt x y t (g.axes i) - (q (g.axes i) + w (g.axes i) * ρ)| / ρ := by
  rw [near_inCells hρ, near_inCells hρ', hx, hy, dist_motion, mul_div_assoc, mul_div_assoc,
    div_self hρ.ne', div_self hρ'.ne']

lemma touches_motion (hρ : 0 < ρ) (hρ' : 0 < ρ') {τ : ℚ} {w : Cell D} :
    Touches q' x' y' ρ' (τ * ρ') (g.cell w) ↔ Touches q x y ρ (τ * ρ) w := by
  have key : ∀ t, (∀ i, |lineAt x' y' t i - (q' i + g.cell w i * ρ')| ≤ ρ' / 2 + τ * ρ') ↔
      ∀ i, |lineAt x y t i - (q i + w i * ρ)| ≤ ρ / 2 + τ * ρ := by
    intro t
    rw [← g.axes.forall_congr_right (q := fun i => |lineAt x y t i - (q i + w i * ρ)| ≤ ρ / 2 + τ * ρ)]
    refine forall_congr' fun i => ?_
    rw [show ρ' / 2 + τ * ρ' = (1 / 2 + τ) * ρ' by ring, show ρ / 2 + τ * ρ = (1 / 2 + τ) * ρ by ring,
      ← div_le_iff₀ hρ', ← div_le_iff₀ hρ, dist_motion' hx hy hρ hρ']
  unfold Touches
  simp only [key]

lemma enters_motion (hρ : 0 < ρ) (hρ' : 0 < ρ') {τ : ℚ} {w : Cell D} :
    Enters q' x' y' ρ' (τ * ρ') (g.cell w) ↔ Enters q x y ρ (τ * ρ) w := by
  have key : ∀ t, (∀ i, |lineAt x' y' t i - (q' i + g.cell w i * ρ')| < ρ' / 2 - τ * ρ') ↔
      ∀ i, |lineAt x y t i - (q i + w i * ρ)| < ρ / 2 - τ * ρ := by
    intro t
    rw [← g.axes.forall_congr_right (q := fun i => |lineAt x y t i - (q i + w i * ρ)| < ρ / 2 - τ * ρ)]
    refine forall_congr' fun i => ?_
    rw [show ρ' / 2 - τ * ρ' = (1 / 2 - τ) * ρ' by ring, show ρ / 2 - τ * ρ = (1 / 2 - τ) * ρ by ring,
      ← div_lt_iff₀ hρ', ← div_lt_iff₀ hρ, dist_motion' hx hy hρ hρ']
  unfold Enters
  simp only [key]

omit hx hy in
lemma cell_surjective (g : GridMotion D) (w : Cell D) : ∃ v, g.cell v = w := by
  refine ⟨fun j => g.sign (g.axes.symm j) * (w (g.axes.symm j) - g.shift (g.axes.symm j)), ?_⟩
  funext i
  unfold GridMotion.cell
  rcases Int.units_eq_one_or (g.sign i) with h | h <;> simp [h]

lemma clear_motion (hρ : 0 < ρ) (hρ' : 0 < ρ') {τ : ℚ} (hc : ClearSegment q x y ρ (τ * ρ)) :
    ClearSegment q' x' y' ρ' (τ * ρ') := by
  intro w hw
  obtain ⟨v, rfl⟩ := cell_surjective g w
  rw [touches_motion hx hy hρ hρ'] at hw
  exact (enters_motion hx hy hρ hρ').mpr (hc v hw)

omit hx hy in
lemma cell_between (g : GridMotion D) {a b c : Cell D} (h : Between a b c) :
    Between (g.cell a) (g.cell b) (g.cell c) := by
  intro i
  have := h (g.axes i)
  unfold GridMotion.cell
  rcases Int.units_eq_one_or (g.sign i) with h | h <;> simp only [h, Units.val_one, Units.val_neg] <;> omega

omit hx hy in
lemma cell_dist (g : GridMotion D) (a b : Cell D) (i : Fin D) :
    |g.cell a i - g.cell b i| = |a (g.axes i) - b (g.axes i)| := by
  have h1 : g.cell a i - g.cell b i = g.sign i * (a (g.axes i) - b (g.axes i)) := by unfold GridMotion.cell; ring
  rw [h1, abs_mul]
  rcases Int.units_eq_one_or (g.sign i) with h | h <;> simp [h]

omit hx hy in
lemma RayRange.swap (h : RayRange M o e bounds.min r x y q ρ) : RayRange M e o bounds.min r y x q ρ :=
  ⟨h.res, h.lo, h.hi, h.M_lo, h.M_hi, h.end_, h.origin, h.offset, h.end_near, h.origin_near, h.offset_near,
    fun i => (h.apart i).imp Eq.symm fun h1 => by rwa [abs_sub_comm]⟩

omit hx hy in
/-- The computed cell of the start of a clear segment is the cell that the start is in. -/
lemma origin_touches (h : RayRange M o e bounds.min r x y q ρ) {K : ℕ} (i : Fin D) :
    |x i - (q i + cellFromPoint o bounds.min r i * ρ)| ≤ ρ / 2 + (5 * M + K ^ 2 + 10 * K + 23) / 2 ^ 24 * ρ := by
  have := (origin_cell h i).2
  have := mul_le_mul_of_nonneg_right (tol_bounds h (K := K)) h.pos.le
  linarith

omit hy in
lemma cell_motion (h : RayRange M o e bounds.min r x y q ρ) (h' : RayRange M o' e' bounds'.min r' x' y' q' ρ')
    {K : ℕ} (hc' : ClearSegment q' x' y' ρ' ((5 * M + K ^ 2 + 10 * K + 23) / 2 ^ 24 * ρ')) :
    cellFromPoint o' bounds'.min r' = g.cell (cellFromPoint o bounds.min r) := by
  refine clear_start hc' h'.pos (origin_touches h') fun i => ?_
  have h1 := dist_motion' (y := x) (y' := x') hx hx h.pos h'.pos (t := 0) (w := cellFromPoint o bounds.min r) i
  have h2 := origin_touches h (K := K) (g.axes i)
  simp only [lineAt, zero_mul, add_zero] at h1
  rw [show ρ' / 2 + (5 * M + K ^ 2 + 10 * K + 23) / 2 ^ 24 * ρ' = (1 / 2 + (5 * M + K ^ 2 + 10 * K + 23) / 2 ^ 24) * ρ'
    by ring, ← div_le_iff₀ h'.pos, h1, div_le_iff₀ h.pos]
  linarith

/-- C86: if the scene (both ends of the ray, in cells from the centre of cell 0) is moved by a motion of the grid
onto itself, the cells of a clear ray, computed in f32, move with it, whatever the resolutions and offsets. -/
theorem C86_moves (hD : D = 2 ∨ D = 3) (h : RayRange M o e bounds.min r x y q ρ)
    (h' : RayRange M o' e' bounds'.min r' x' y' q' ρ') {K : ℕ}
    (hK : ∀ i, |cellFromPoint e bounds.min r i - cellFromPoint o bounds.min r i| ≤ K)
    (hc : ClearSegment q x y ρ ((5 * M + K ^ 2 + 10 * K + 23) / 2 ^ 24 * ρ)) {ml ml' : F32}
    (hml : Scalar.lt (lit 0) ml = false) (hml' : Scalar.lt (lit 0) ml' = false) :
    ∃ ray end_, Casts o e bounds r ml ray (some end_) ∧
      Casts o' e' bounds' r' ml' (ray.map g.cell) (some (g.cell end_)) := by
  have hc' := clear_motion hx hy h.pos h'.pos hc
  have ho := cell_motion hx h h' hc'
  have he := cell_motion hy (RayRange.swap h) (RayRange.swap h') (clear_swap hc')
  have hK' : ∀ i, |cellFromPoint e' bounds'.min r' i - cellFromPoint o' bounds'.min r' i| ≤ K := fun i => by
    rw [ho, he, cell_dist]; exact hK _
  obtain ⟨ray, h1, -, -, h2⟩ := C84_same_as_exact hD h hK hc (ml := ml) (by simp [hml])
    (bX := ⟨exact fun i => (q i : ℝ), exact fun i => (q i : ℝ)⟩) rfl (mlX := lit 0) (by simp [Scalar.lt, lit])
  obtain ⟨ray', h1', -, -, h2'⟩ := C84_same_as_exact hD h' hK' hc' (ml := ml') (by simp [hml'])
    (bX := ⟨exact fun i => (q' i : ℝ), exact fun i => (q' i : ℝ)⟩) rfl (mlX := lit 0) (by simp [Scalar.lt, lit])
  refine ⟨ray, _, h1, ?_⟩
  obtain ⟨p1, p2, -⟩ := ray_path h1
  obtain ⟨p1', p2', -⟩ := ray_path h1'
  have hl := C19_shortest h1
  have hl' := C19_shortest h1'
  have hll : ray'.length = ray.length := by
    have : (ray'.length : ℤ) = ray.length := by
      rw [hl, hl', ho, he]
      simp only [cell_dist]
      exact Equiv.sum_comp g.axes fun i => |cellFromPoint e bounds.min r i - cellFromPoint o bounds.min r i|
    exact_mod_cast this
  have heq : ray' ++ [cellFromPoint e' bounds'.min r'] = (ray ++ [cellFromPoint e bounds.min r]).map g.cell := by
    refine path_eq p1' ?_ p2' ?_ (by simp [hll])
    · rw [ho, List.pairwise_map]
      exact p1.imp fun hb => cell_between g hb
    · intro w hw
      obtain ⟨v, rfl⟩ := cell_surjective g w
      refine List.mem_map_of_mem ?_
      rw [h2']  at hw
      rw [h2]
      have := touches_motion hx hy h.pos h'.pos (τ := 0) (w := v)
      rw [zero_mul, zero_mul] at this
      exact this.mp hw
  rw [List.map_append, List.map_singleton, he] at heq
  rw [← List.append_cancel_right heq, ← he]
  exact h1'

omit hx hy in
/-- C86: cast backwards, a clear ray passes the same cells in the opposite order. -/
theorem C86_backwards (hD : D = 2 ∨ D = 3) (h : RayRange M o e bounds.min r x y q ρ) {K : ℕ}
    (hK : ∀ i, |cellFromPoint e bounds.min r i - cellFromPoint o bounds.min r i| ≤ K)
    (hc : ClearSegment q x y ρ ((5 * M + K ^ 2 + 10 * K + 23) / 2 ^ 24 * ρ)) {ml : F32}
    (hml : Scalar.lt (lit 0) ml = false) :
    ∃ ray end_ back start, Casts o e bounds r ml ray (some end_) ∧ Casts e o bounds r ml back (some start) ∧
      back ++ [start] = (ray ++ [end_]).reverse := by
  obtain ⟨ray, h1, -, -, h2⟩ := C84_same_as_exact hD h hK hc (ml := ml) (by simp [hml])
    (bX := ⟨exact fun i => (q i : ℝ), exact fun i => (q i : ℝ)⟩) rfl (mlX := lit 0) (by simp [Scalar.lt, lit])
  obtain ⟨back, h1', -, -, h2'⟩ := C84_same_as_exact hD (RayRange.swap h)
    (fun i => by rw [abs_sub_comm]; exact hK i) (clear_swap hc) (ml := ml) (by simp [hml])
    (bX := ⟨exact fun i => (q i : ℝ), exact fun i => (q i : ℝ)⟩) rfl (mlX := lit 0) (by simp [Scalar.lt, lit])
  refine ⟨ray, _, back, _, h1, h1', ?_⟩
  obtain ⟨p1, p2, -⟩ := ray_path h1
  obtain ⟨p1', p2', -⟩ := ray_path h1'
  have hl := C19_shortest h1
  have hl' := C19_shortest h1'
  have hll : back.length = ray.length := by
    have : (back.length : ℤ) = ray.length := by
      rw [hl, hl']
      exact Finset.sum_congr rfl fun i _ => abs_sub_comm _ _
    exact_mod_cast this
  refine path_eq p1' ?_ p2' ?_ (by simp [hll])
  · rw [List.pairwise_reverse]
    have hin : ∀ a ∈ ray ++ [cellFromPoint e bounds.min r],
        Between (cellFromPoint o bounds.min r) (cellFromPoint e bounds.min r) a := by
      intro a ha
      rcases List.mem_append.mp ha with ha | ha
      · exact C19_in_box h1 a ha
      · rw [List.mem_singleton.mp ha]; intro i; omega
    refine p1.imp_of_mem fun {a b} ha hb hab i => ?_
    have := hin a ha i
    have := hin b hb i
    have := hab i
    omega
  · intro w hw
    rw [List.mem_reverse, h2]
    rw [h2'] at hw
    obtain ⟨t, t0, t1, ht⟩ := hw
    refine ⟨1 - t, by linarith, by linarith, fun i => ?_⟩
    have : lineAt x y (1 - t) i = lineAt y x t i := by unfold lineAt; ring
    rw [this]
    exact ht i

omit hx hy in
/-- C86: at corners this is not so: the diagonal from (0,0) to (2,2) passes other cells than the one from (2,2) to
(0,0), and than its image with the axes exchanged. -/
theorem C86_not_at_corners :
    castRay 5 (![Fp.lit 0, Fp.lit 0] : Point 2 F32) ![Fp.lit 2, Fp.lit 2] ⟨![Fp.lit 0, Fp.lit 0], ![Fp.lit 9, Fp.lit 9]⟩
      (Fp.lit 1) (Fp.lit 0) = .ok ([![0, 0], ![0, 1], ![1, 1], ![1, 2]], some ![2, 2]) ∧
    castRay 5 (![Fp.lit 2, Fp.lit 2] : Point 2 F32) ![Fp.lit 0, Fp.lit 0] ⟨![Fp.lit 0, Fp.lit 0], ![Fp.lit 9, Fp.lit 9]⟩
      (Fp.lit 1) (Fp.lit 0) = .ok ([![2, 2], ![2, 1], ![1, 1], ![1, 0]], some ![0, 0]) := by
  constructor <;> decide +kernel

omit hx hy in
/-- The hypotheses of C86: the segment from (1/4, 1/4) to (9/4, 1) in a grid with cells of side 1, turned by a right
angle, moved by 3 cells, and drawn in a grid with cells of side 2 and the centre of cell 0 at (1, 1). -/
example :
    inCells ![1, 1] 2 (![13 / 2, 3 / 2] : Fin 2 → ℚ) = GridMotion.point ⟨Equiv.swap 0 1, ![-1, 1], ![3, 0]⟩
      (inCells (fun _ => 0) 1 ![1 / 4, 1 / 4]) ∧
    inCells ![1, 1] 2 (![5, 11 / 2] : Fin 2 → ℚ) = GridMotion.point ⟨Equiv.swap 0 1, ![-1, 1], ![3, 0]⟩
      (inCells (fun _ => 0) 1 ![9 / 4, 1]) ∧
    RayRange 4 (![Fp.lit (1 / 4), Fp.lit (1 / 4)] : Point 2 F32) ![Fp.lit (9 / 4), Fp.lit 1]
      ![Fp.lit 0, Fp.lit 0] (Fp.lit 1) ![1 / 4, 1 / 4] ![9 / 4, 1] (fun _ => 0) 1 ∧
    RayRange 4 (![Fp.lit (13 / 2), Fp.lit (3 / 2)] : Point 2 F32) ![Fp.lit 5, Fp.lit (11 / 2)]
      ![Fp.lit 1, Fp.lit 1] (Fp.lit 2) ![13 / 2, 3 / 2] ![5, 11 / 2] ![1, 1] 2 ∧
    (∀ i, |cellFromPoint (![Fp.lit (9 / 4), Fp.lit 1] : Point 2 F32) ![Fp.lit 0, Fp.lit 0] (Fp.lit 1) i
      - cellFromPoint (![Fp.lit (1 / 4), Fp.lit (1 / 4)] : Point 2 F32) ![Fp.lit 0, Fp.lit 0] (Fp.lit 1) i| ≤ (2 : ℕ)) ∧
    ClearSegment (fun _ => 0) (![1 / 4, 1 / 4] : Fin 2 → ℚ) ![9 / 4, 1] 1
      ((5 * 4 + (2 : ℕ) ^ 2 + 10 * (2 : ℕ) + 23) / 2 ^ 24 * 1) ∧
    Scalar.lt (lit 0) (Fp.lit 0 : F32) = false ∧
    castRay 4 (![Fp.lit (13 / 2), Fp.lit (3 / 2)] : Point 2 F32) ![Fp.lit 5, Fp.lit (11 / 2)]
      ⟨![Fp.lit 1, Fp.lit 1], ![Fp.lit 9, Fp.lit 9]⟩ (Fp.lit 2) (Fp.lit 0)
      = .ok ([![3, 0], ![3, 1], ![2, 1]], some ![2, 2]) := by
  refine ⟨?_, ?_, ⟨by decide +kernel, by norm_num, by norm_num, by norm_num, by norm_num, by decide +kernel,
    by decide +kernel, by decide +kernel, ?_, ?_, ?_, ?_⟩, ⟨by decide +kernel, by norm_num, by norm_num, by norm_num,
    by norm_num, by decide +kernel, by decide +kernel, by decide +kernel, ?_, ?_, ?_, ?_⟩, by decide +kernel,
    clear_example (by norm_num) (by norm_num), by decide +kernel, by decide +kernel⟩
  · decide +kernel
  · decide +kernel
  · intro i; fin_cases i <;> norm_num
  · intro i; fin_cases i <;> norm_num
  · intro i; fin_cases i <;> norm_num
  · intro i; right; fin_cases i <;> norm_num
  · intro i; fin_cases i <;> norm_num
  · intro i; fin_cases i <;> norm_num
  · intro i; fin_cases i <;> norm_num
  · intro i; right; fin_cases i <;> norm_num

end Verif.Props
