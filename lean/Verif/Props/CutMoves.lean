import Verif.Props.Cut

/-!
# C104, moved scenes: the geometric map with a range limit moves with the scene
-/

namespace Verif.Props
open Spec Scalar

variable {D : ℕ} {N K : ℕ} {ρ ρ' lam lam' : ℚ} {x y x' y' : Fin D → ℚ} {g : GridMotion D}

lemma holds_moved (hρ : 0 < ρ) (hρ' : 0 < ρ') (hy : MovedPoint g ρ ρ' y y') {w : Cell D} :
    Holds ρ' (g.cell w) y' ↔ Holds ρ w y := in_moved hρ hρ' hy

lemma inside_moved (hρ : 0 < ρ) (hρ' : 0 < ρ') (hx : MovedPoint g ρ ρ' x x') (hy : MovedPoint g ρ ρ' y y') {t : ℚ}
    {w : Cell D} : InsideAt ρ' x' y' t (g.cell w) ↔ InsideAt ρ x y t w := by
  have key : (∀ i, |x' i + t * (y' i - x' i) - g.cell w i * ρ'| < ρ' / 2) ↔
      ∀ i, |x i + t * (y i - x i) - w i * ρ| < ρ / 2 := by
    rw [← g.axes.forall_congr_right (q := fun i => |x i + t * (y i - x i) - w i * ρ| < ρ / 2)]
    refine forall_congr' fun i => ?_
    have h := dist_motion' hx hy hρ hρ' (t := t) (w := w) i
    unfold lineAt at h
    rw [zero_add, zero_add] at h
    rw [show ρ' / 2 = 1 / 2 * ρ' by ring, show ρ / 2 = 1 / 2 * ρ by ring, ← div_lt_iff₀ hρ', ← div_lt_iff₀ hρ, h]
  unfold InsideAt
  rw [key]

/-- The distance from a point to the centre of a cell, in cells, stays the same. -/
lemma distSq_moved (hρ : 0 < ρ) (hρ' : 0 < ρ') (hx : MovedPoint g ρ ρ' x x') {w : Cell D} :
    (distSq x' fun i => g.cell w i * ρ') / ρ' ^ 2 = (distSq x fun i => w i * ρ) / ρ ^ 2 := by
  unfold distSq
  rw [div_eq_mul_inv, div_eq_mul_inv, Finset.sum_mul, Finset.sum_mul,
    ← Equiv.sum_comp g.axes fun i => ((w i : ℚ) * ρ - x i) ^ 2 * (ρ ^ 2)⁻¹]
  refine Finset.sum_congr rfl fun i _ => ?_
  have h := dist_motion' hx hx hρ hρ' (t := 0) (w := w) i
  unfold lineAt at h
  rw [zero_add, zero_add, zero_mul, zero_mul, add_zero, add_zero] at h
  rw [← div_eq_mul_inv, ← div_eq_mul_inv, ← sq_abs, ← div_pow, abs_sub_comm, h, abs_sub_comm, div_pow, sq_abs]

lemma distLe_moved (hρ : 0 < ρ) (hρ' : 0 < ρ') (hx : MovedPoint g ρ ρ' x x') {w : Cell D} {l : ℚ} :
    DistLe x' (fun i => g.cell w i * ρ') (l * ρ') ↔ DistLe x (fun i => w i * ρ) (l * ρ) := by
  unfold DistLe
  rw [mul_nonneg_iff_of_pos_right hρ, mul_nonneg_iff_of_pos_right hρ', mul_pow, mul_pow, ← div_le_iff₀ (by positivity),
    ← div_le_iff₀ (by positivity), distSq_moved hρ hρ' hx]

lemma blocked_moved (hρ : 0 < ρ) (hρ' : 0 < ρ') (hl : lam' / ρ' = lam / ρ) (hx : MovedPoint g ρ ρ' x x')
    (hy : MovedPoint g ρ ρ' y y') {t : ℚ} : Blocked lam' ρ' x' y' t ↔ Blocked lam ρ x y t := by
  have key : ∀ u : Cell D, (lam' ^ 2 < distSq x' fun i => g.cell u i * ρ') ↔ lam ^ 2 < distSq x fun i => u i * ρ := by
    intro u
    have e : lam' ^ 2 / ρ' ^ 2 = lam ^ 2 / ρ ^ 2 := by rw [← div_pow, ← div_pow, hl]
    have a := div_lt_div_iff_of_pos_right (a := lam' ^ 2) (b := distSq x' fun i => g.cell u i * ρ') (c := ρ' ^ 2)
      (by positivity)
    have b := div_lt_div_iff_of_pos_right (a := lam ^ 2) (b := distSq x fun i => u i * ρ) (c := ρ ^ 2) (by positivity)
    rw [← a, ← b, e, distSq_moved hρ hρ' hx]
  constructor
  · rintro ⟨u, s, h1, h2, h3, h4, h5⟩
    obtain ⟨v, rfl⟩ := cell_surjective g u
    rw [holds_moved hρ hρ' hx] at h3
    rw [holds_moved hρ hρ' hy] at h4
    exact ⟨v, s, h1, (inside_moved hρ hρ' hx hy).mp h2, h3, h4, (key v).mp h5⟩
  · rintro ⟨u, s, h1, h2, h3, h4, h5⟩
    rw [← holds_moved hρ hρ' hx] at h3
    rw [← holds_moved hρ hρ' hy] at h4
    exact ⟨g.cell u, s, h1, (inside_moved hρ hρ' hx hy).mpr h2, h3, h4, (key u).mpr h5⟩

lemma offLimit_moved (hρ : 0 < ρ) (hρ' : 0 < ρ') (hl : lam' / ρ' = lam / ρ) (hx : MovedPoint g ρ ρ' x x')
    (hy : MovedPoint g ρ ρ' y y') (h : OffLimit N lam ρ x y) : OffLimit N lam' ρ' x' y' := by
  intro u t h1 h2 h3
  obtain ⟨v, rfl⟩ := cell_surjective g u
  rw [holds_moved hρ hρ' hx] at h2
  rw [holds_moved hρ hρ' hy] at h3
  have e : ∀ (a l r : ℚ), 0 < r → l * a = l / r * a * r := fun a l r hr => by field_simp
  have := h v t ((inside_moved hρ hρ' hx hy).mp h1) h2 h3
  unfold limitTol at this ⊢
  rw [e _ lam ρ hρ, e _ lam ρ hρ, ← sub_mul, ← add_mul] at this
  rw [e _ lam' ρ' hρ', e _ lam' ρ' hρ', ← sub_mul, ← add_mul, hl, distLe_moved hρ hρ' hx, distLe_moved hρ hρ' hx]
  exact this

lemma geoUpTo_moved {s s' : (Fin D → ℚ) × List (Fin D → ℚ)} (hρ : 0 < ρ) (hρ' : 0 < ρ') (hl : lam' / ρ' = lam / ρ)
    (h : MovedScan g ρ ρ' s s') (w : Cell D) :
    geoUpTo lam' ρ' s'.1 s'.2 (g.cell w) = geoUpTo lam ρ s.1 s.2 w := by
  obtain ⟨hx, hp⟩ := h
  unfold geoUpTo
  refine told_congr ⟨?_, ?_⟩ fun _ => ⟨?_, ?_⟩
  · rintro ⟨y', hy', h1, h2⟩
    obtain ⟨y, hy, hm⟩ := forall₂_left hp.flip hy'
    exact ⟨y, hy, (holds_moved hρ hρ' hm).mp h1, by rwa [blocked_moved hρ hρ' hl hx hm] at h2⟩
  · rintro ⟨y, hy, h1, h2⟩
    obtain ⟨y', hy', hm⟩ := forall₂_left hp hy
    exact ⟨y', hy', (holds_moved hρ hρ' hm).mpr h1, by rwa [blocked_moved hρ hρ' hl hx hm]⟩
  · rintro ⟨y', hy', t, h1, h2⟩
    obtain ⟨y, hy, hm⟩ := forall₂_left hp.flip hy'
    exact ⟨y, hy, t, (inside_moved hρ hρ' hx hm).mp h1, by rwa [blocked_moved hρ hρ' hl hx hm] at h2⟩
  · rintro ⟨y, hy, t, h1, h2⟩
    obtain ⟨y', hy', hm⟩ := forall₂_left hp hy
    exact ⟨y', hy', t, (inside_moved hρ hρ' hx hm).mpr h1, by rwa [blocked_moved hρ hρ' hl hx hm]⟩

variable {nm nm' : LidarNoiseModel F32} {m₀ m₀' m m' : GridMap D F32 F32}

lemma cutFold_moved {scans scans' : List ((Fin D → ℚ) × List (Fin D → ℚ))} (hρ : 0 < ρ) (hρ' : 0 < ρ')
    (hl : lam' / ρ' = lam / ρ) (hnm : nm'.hit = nm.hit ∧ nm'.miss = nm.miss ∧ nm'.max = nm.max ∧ nm'.min = nm.min)
    (h : List.Forall₂ (MovedScan g ρ ρ') scans scans') (w : Cell D) (v : F32) :
    cutFold nm' lam' ρ' scans' (g.cell w) v = cutFold nm lam ρ scans w v := by
  obtain ⟨n1, n2, n3, n4⟩ := hnm
  have hap : ∀ v s, Seen.apply nm' v s = Seen.apply nm v s := by
    intro v s
    cases s <;> simp only [Seen.apply, n1, n2, n3, n4]
  unfold cutFold
  induction h generalizing v with
  | nil => rfl
  | cons h1 _ ih =>
    rw [List.foldl_cons, List.foldl_cons, geoUpTo_moved hρ hρ' hl h1, hap]
    exact ih _

/-- C104: the map with a range limit moves with the scene. Two maps are made by playing scans with points on both sides
of the limit; the second scene is the first one moved by a motion of the grid onto itself, and possibly scaled together
with the resolution and the limit. Then each world cell has in the first map the value that its image has in the
second. -/
theorem C104_moves {M : ℕ} (hD : D = 2 ∨ D = 3) (h0 : Placed m₀ CellBounds.empty ρ)
    (h0' : Placed m₀' CellBounds.empty ρ') (hM1 : 1 ≤ M) (hN : N = M + m₀.tileSize + 1) (hN18 : N ≤ 2 ^ 18)
    {N' M' K' : ℕ} (hM1' : 1 ≤ M') (hN' : N' = M' + m₀'.tileSize + 1) (hN18' : N' ≤ 2 ^ 18)
    (hnm : nm'.hit = nm.hit ∧ nm'.miss = nm.miss ∧ nm'.max = nm.max ∧ nm'.min = nm.min)
    (hl : lam' / ρ' = lam / ρ) {hist hist'} {scans scans' : List ((Fin D → ℚ) × List (Fin D → ℚ))}
    (hcl : ∀ e ∈ hist, WithinCells M ρ e.2.2) (hcl' : ∀ e ∈ hist', WithinCells M' ρ' e.2.2)
    (hs : List.Forall₂ (fun e s => CutRays N K ρ nm.maxRange lam e.2.1 e.2.2 s.1 s.2) hist scans)
    (hs' : List.Forall₂ (fun e s => CutRays N' K' ρ' nm'.maxRange lam' e.2.1 e.2.2 s.1 s.2) hist' scans')
    (hmv : List.Forall₂ (MovedScan g ρ ρ') scans scans')
    (h : Playback nm m₀ hist m) (h' : Playback nm' m₀' hist' m') :
    ∃ cb cb', Placed m cb ρ ∧ Placed m' cb' ρ' ∧ ∀ w, ∃ v, Before m cb w v ∧ Before m' cb' (g.cell w) v := by
  obtain ⟨cb, p1, p2⟩ := C104_playback hD h0 hM1 hN hN18 hcl hs h
  obtain ⟨cb', q1, q2⟩ := C104_playback hD h0' hM1' hN' hN18' hcl' hs' h'
  refine ⟨cb, cb', p1, q1, fun w => ⟨_, p2 w, ?_⟩⟩
  rw [← cutFold_moved h0.res.pos h0'.res.pos hl hnm hmv]
  exact q2 _

/-! ## Examples -/

/-- `farScan` turned by a right angle, moved by 3 cells, and scaled by 2. -/
def farTurned : Point 2 F32 × PointCloud 2 F32 :=
  (![Fp.lit (11 / 2), Fp.lit (1 / 2)],
    PointCloud.fromPoints [![Fp.lit 4, Fp.lit (9 / 2)], ![Fp.lit (11 / 2), Fp.lit (13 / 2)]])

/-- `nearNM` with the range limit 3. -/
def wideNM : LidarNoiseModel F32 := { nearNM with maxRange := Fp.lit 3 }

lemma farTurned_moved : MovedScan ⟨Equiv.swap 0 1, ![-1, 1], ![3, 0]⟩ 1 2
    (![1 / 4, 1 / 4], [![9 / 4, 1], ![13 / 4, 1 / 4]])
    ((![11 / 2, 1 / 2], [![4, 9 / 2], ![11 / 2, 13 / 2]]) : (Fin 2 → ℚ) × List (Fin 2 → ℚ)) :=
  ⟨by unfold MovedPoint; decide +kernel, .cons (by unfold MovedPoint; decide +kernel)
    (.cons (by unfold MovedPoint; decide +kernel) .nil)⟩

lemma farTurned_cut : CutRays 7 3 2 wideNM.maxRange 3 farTurned.1 farTurned.2 ![11 / 2, 1 / 2]
    [![4, 9 / 2], ![11 / 2, 13 / 2]] := by
  have h := farTurned_moved
  refine ⟨?_, fun y' hy' => ?_, by decide +kernel, by norm_num, by norm_num, fun y' hy' => ?_⟩
  · rw [farTurned, C13_points_fromPoints]
    refine .cons ⟨by norm_num, by norm_num, by norm_num, by norm_num, by decide +kernel, ?_, by decide +kernel, ?_, ?_, ?_⟩
      (.cons ⟨by norm_num, by norm_num, by norm_num, by norm_num, by decide +kernel, ?_, by decide +kernel, ?_, ?_, ?_⟩ .nil)
    all_goals (intro i; fin_cases i <;> norm_num [abs_of_pos])
  · obtain ⟨y, hy, hm⟩ := forall₂_left h.2.flip hy'
    exact clear_motion h.1 hm (by norm_num) (by norm_num) (far_cut.clear y hy)
  · obtain ⟨y, hy, hm⟩ := forall₂_left h.2.flip hy'
    exact offLimit_moved (by norm_num) (by norm_num) (by norm_num) h.1 hm (far_cut.off_limit y hy)

lemma farTurned_within : WithinCells 4 2 farTurned.2 := by
  intro p hp
  rw [farTurned, C13_points_fromPoints] at hp
  rcases List.mem_cons.mp hp with rfl | hp
  · intro i
    refine ⟨![4, 9 / 2] i, ?_, ?_⟩ <;> revert i <;> decide +kernel
  · rw [List.mem_singleton] at hp
    subst hp
    intro i
    refine ⟨![11 / 2, 13 / 2] i, ?_, ?_⟩ <;> revert i <;> decide +kernel

lemma farTurned_plays : ∃ m, Playback wideNM wideMap [(m, farTurned)] m := by
  have h1 : (wideNM.integratePointCloud id 20 wideMap farTurned.1 farTurned.2).toOption.isSome = true := by
    decide +kernel
  cases e1 : wideNM.integratePointCloud id 20 wideMap farTurned.1 farTurned.2 with
  | error e => rw [e1] at h1; cases h1
  | ok m => exact ⟨m, .scan .start (fun l => List.Perm.refl l) ⟨20, e1⟩⟩

/-- The scan played as it is and turned, moved and scaled, with the limit scaled: the maps agree cell by cell. The cell
(2, 1), which was hit, is in the second scene the cell (2, 2); the cell (2, 0), which is beyond the limit, is the cell
(3, 2). -/
example : (∃ (m m' : GridMap 2 F32 F32) (cb cb' : CellBounds 2), Playback nearNM smallMap [(m, farScan)] m ∧
      Playback wideNM wideMap [(m', farTurned)] m' ∧ Placed m cb 1 ∧ Placed m' cb' 2 ∧
      ∀ w, ∃ v, Before m cb w v ∧ Before m' cb' (GridMotion.cell ⟨Equiv.swap 0 1, ![-1, 1], ![3, 0]⟩ w) v) ∧
    geoUpTo 3 2 ![11 / 2, 1 / 2] [![4, 9 / 2], ![11 / 2, 13 / 2]] ![2, 2] = .hit ∧
    geoUpTo 3 2 ![11 / 2, 1 / 2] [![4, 9 / 2], ![11 / 2, 13 / 2]] ![3, 2] = .nothing := by
  refine ⟨?_, ?_, ?_⟩
  · obtain ⟨m, h⟩ := far_plays
    obtain ⟨m', h'⟩ := farTurned_plays
    obtain ⟨cb, cb', p1, p2, p3⟩ := C104_moves (M := 4) (N := 7) (K := 3) (M' := 4) (N' := 7) (K' := 3) (nm := nearNM)
      (nm' := wideNM) (hist := [(m, farScan)]) (hist' := [(m', farTurned)]) (.inl rfl)
      smallMap_placed wideMap_placed (by norm_num) rfl (by norm_num) (by norm_num) rfl (by norm_num)
      ⟨rfl, rfl, rfl, rfl⟩ (lam := 3 / 2) (lam' := 3) (by norm_num) (by simpa using far_within)
      (by simpa using farTurned_within) (.cons far_cut .nil) (.cons farTurned_cut .nil) (.cons farTurned_moved .nil) h h'
    exact ⟨m, m', cb, cb', h, h', p1, p2, p3⟩
  · have := geoUpTo_moved (lam := 3 / 2) (lam' := 3) (by norm_num) (by norm_num) (by norm_num) farTurned_moved ![2, 1]
    rw [far_told.1] at this
    rw [← this]
    congr 1
    decide
  · have := geoUpTo_moved (lam := 3 / 2) (lam' := 3) (by norm_num) (by norm_num) (by norm_num) farTurned_moved ![2, 0]
    rw [far_told.2.2.1] at this
    rw [← this]
    congr 1
    decide

end Verif.Props
