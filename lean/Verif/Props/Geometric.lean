import Verif.Spec.Geometric
import Verif.Props.Obstacle
import Verif.Props.Motion
import Verif.Props.Lowest

/-!
# C88: the map of clear scans is the geometric map
-/

namespace Verif.Props
open Spec Scalar

section
variable {D : ℕ} {N K : ℕ} {m : GridMap D F32 F32} {cb : CellBounds D} {ρ : ℚ} {origin p : Point D F32}
  {x y q : Fin D → ℚ} {cloud : PointCloud D F32} {pts : List (Fin D → ℚ)} {ml : F32}

/-- The cell of a point. -/
lemma exists_cell (hρ : 0 < ρ) (y : Fin D → ℚ) : ∃ w : Cell D, ∀ i, |y i - w i * ρ| ≤ ρ / 2 := by
  refine ⟨fun i => round (y i / ρ), fun i => ?_⟩
  have h := abs_sub_round (y i / ρ)
  have e : y i - round (y i / ρ) * ρ = (y i / ρ - round (y i / ρ)) * ρ := by field_simp
  rw [e, abs_mul, abs_of_pos hρ]
  calc _ ≤ 1 / 2 * ρ := by gcongr
    _ = ρ / 2 := by ring

/-- A point at which a clear segment ends is well inside its cell. -/
lemma clear_end_inside (hρ : 0 < ρ) {τ : ℚ} (hτ : 0 ≤ τ) (hc : ClearSegment (fun _ => 0) x y ρ (τ * ρ)) {w : Cell D}
    (hw : ∀ i, |y i - w i * ρ| ≤ ρ / 2) : Inside τ ρ w y := by
  intro i
  have h0 : 0 ≤ τ * ρ := by positivity
  have := clear_inside hc hρ h0 (a := w) (fun i => by rw [zero_add]; linarith [hw i]) i
  rw [zero_add] at this
  linarith

lemma rayTol_nonneg : 0 ≤ rayTol N K := by unfold rayTol; positivity

lemma clear_tol (hD : 0 < D) (hρ : 0 < ρ) (hc : ClearSegment (fun _ => 0) x y ρ (rayTol N K * ρ)) :
    rayTol N K ≤ 1 / 2 := by
  obtain ⟨w, hw⟩ := exists_cell hρ y
  have h := (abs_nonneg _).trans (clear_end_inside hρ rayTol_nonneg hc hw ⟨0, hD⟩)
  have := nonneg_of_mul_nonneg_left h hρ
  linarith

section shift
variable {o τ δ : ℚ} {c : Fin D → ℤ} (hq : ∀ i, |q i - c i * ρ| ≤ δ * ρ)
include hq

lemma shift_near {u : Fin D → ℚ} {w : Cell D} (i : Fin D) :
    |u i - (0 + w i * ρ)| ≤ |u i - (q i + ((w i - c i : ℤ) : ℚ) * ρ)| + δ * ρ ∧
      |u i - (q i + ((w i - c i : ℤ) : ℚ) * ρ)| ≤ |u i - (0 + w i * ρ)| + δ * ρ := by
  have e : u i - (0 + w i * ρ) = u i - (q i + ((w i - c i : ℤ) : ℚ) * ρ) + (q i - c i * ρ) := by push_cast; ring
  have h1 := abs_add_le (u i - (q i + ((w i - c i : ℤ) : ℚ) * ρ)) (q i - c i * ρ)
  have h2 := abs_sub (u i - (0 + w i * ρ)) (q i - c i * ρ)
  rw [← e] at h1
  rw [e, add_sub_cancel_right, ← e] at h2
  exact ⟨h1.trans (by linarith [hq i]), h2.trans (by linarith [hq i])⟩

/-- A segment clear of the corners of the world cells is clear of the corners of the cells of the map. -/
lemma clear_shift (hρ : 0 < ρ) (hc : ClearSegment (fun _ => 0) x y ρ ((τ + δ) * ρ)) : ClearSegment q x y ρ (τ * ρ) := by
  rintro z ⟨t, t0, t1, ht⟩
  have ez : ∀ i, z i + c i - c i = z i := fun i => by ring
  obtain ⟨s, s0, s1, hs⟩ := hc (fun i => z i + c i) ⟨t, t0, t1, fun i => by
    have := (shift_near hq (u := lineAt x y t) (w := fun i => z i + c i) i).1
    simp only [ez] at this
    linarith [ht i]⟩
  refine ⟨s, s0, s1, fun i => ?_⟩
  have := (shift_near hq (u := lineAt x y s) (w := fun i => z i + c i) i).2
  simp only [ez] at this
  linarith [hs i]

/-- And it meets the same cells. -/
lemma touches_shift (hρ : 0 < ρ) (hτ : 0 ≤ τ) (hδ : 0 ≤ δ) (hc : ClearSegment (fun _ => 0) x y ρ ((τ + δ) * ρ))
    {w : Cell D} : Touches q x y ρ 0 (fun i => w i - c i) ↔ Touches (fun _ => 0) x y ρ 0 w := by
  have h0 : 0 ≤ τ * ρ := by positivity
  have h1 : 0 ≤ δ * ρ := by positivity
  constructor
  · rintro ⟨t, t0, t1, ht⟩
    obtain ⟨s, s0, s1, hs⟩ := hc w ⟨t, t0, t1, fun i => by
      have := (shift_near hq (u := lineAt x y t) (w := w) i).1
      linarith [ht i]⟩
    exact ⟨s, s0, s1, fun i => by linarith [hs i]⟩
  · rintro ⟨t, t0, t1, ht⟩
    obtain ⟨s, s0, s1, hs⟩ := hc w ⟨t, t0, t1, fun i => by linarith [ht i]⟩
    refine ⟨s, s0, s1, fun i => ?_⟩
    have := (shift_near hq (u := lineAt x y s) (w := w) i).2
    linarith [hs i]

end shift

lemma clear_mono {τ τ' : ℚ} (h : τ' ≤ τ) (hc : ClearSegment q x y ρ τ) : ClearSegment q x y ρ τ' := by
  rintro w ⟨t, t0, t1, ht⟩
  obtain ⟨s, s0, s1, hs⟩ := hc w ⟨t, t0, t1, fun i => by linarith [ht i]⟩
  exact ⟨s, s0, s1, fun i => by linarith [hs i]⟩

lemma world_touches {w : Cell D} : Touches (fun _ => 0) x y ρ 0 w ↔
    ∃ t : ℚ, 0 ≤ t ∧ t ≤ 1 ∧ ∀ i, |x i + t * (y i - x i) - w i * ρ| ≤ ρ / 2 := by
  unfold Touches lineAt
  simp only [zero_add, add_zero]

/-- One ray of a clear scan: it ends in the cell of the point, and passes the cells that the segment meets. -/
lemma clear_ray (hD : D = 2 ∨ D = 3) (hP : Placed m cb ρ) (hc : ∀ i, |cb.min i| ≤ N) (h : Aims N K ρ origin p x y)
    (hcl : ClearSegment (fun _ => 0) x y ρ (rayTol N K * ρ)) (hlim : WithinLimit ml ρ x y) :
    ∃ ray we, Casts origin p m.bounds m.resolution ml ray (some (localCell m we)) ∧
      (∀ w, localCell m w = localCell m we ↔ ∀ i, |y i - w i * ρ| ≤ ρ / 2) ∧
      ∀ w, localCell m w ∈ ray ++ [localCell m we] ↔
        ∃ t : ℚ, 0 ≤ t ∧ t ≤ 1 ∧ ∀ i, |x i + t * (y i - x i) - w i * ρ| ≤ ρ / 2 := by
  have hpos := hP.res.pos
  have hδ := clear_tol (by omega) hpos hcl
  obtain ⟨we, hwe⟩ := exists_cell hpos y
  have hin := clear_end_inside hpos rayTol_nonneg hcl hwe
  obtain ⟨q, h1, hrr, hK⟩ := aims_range hP hc h
  have hmar := fun i (_ : y i ≠ x i) => aims_margin hP hc h h1 hin i
  have e : cellFromPoint p m.bounds.min m.resolution = localCell m we := by
    rw [local_eq hP]
    funext i
    exact cell_of_inside hP h.N_lo h.N_hi hc (h.point i) (h.point_near i) (rayTol_lt h.N_lo) (hin i)
  have hτ : (5 * (2 * (N : ℚ) + 1) + (K + 2 : ℕ) ^ 2 + 10 * (K + 2 : ℕ) + 23) / 2 ^ 24
      + (3 * N + 2) / 2 ^ 24 ≤ rayTol N K := by
    rw [rayTol, ← add_div]
    refine div_le_div_of_nonneg_right ?_ (by norm_num)
    push_cast
    nlinarith
  have hcl' := clear_mono (mul_le_mul_of_nonneg_right hτ hpos.le) hcl
  have hclm := clear_shift h1 hpos hcl'
  have htouch := fun w : Cell D => touches_shift h1 hpos (by positivity) (by positivity) hcl' (w := w)
  have hbX : (⟨exact fun i => (q i : ℝ), exact fun i => (q i : ℝ)⟩ : Bounds D XR).min = exact fun i => (q i : ℝ) := rfl
  have hray : ∃ ray, Casts origin p m.bounds m.resolution ml ray (some (cellFromPoint p m.bounds.min m.resolution)) ∧
      ∀ z, z ∈ ray ++ [cellFromPoint p m.bounds.min m.resolution] ↔ Touches q x y ρ 0 z := by
    rcases hlim with hl | ⟨lam, l, hml, h60, hd, hl⟩
    · obtain ⟨ray, r1, -, -, r2⟩ := C84_same_as_exact hD hrr hK hclm (ml := ml) (by simp [hl]) hbX (mlX := lit 0)
        (by simp [Scalar.lt, lit])
      exact ⟨ray, r1, r2⟩
    · obtain ⟨ray, hr⟩ := C68_reached hD hrr hK hmar hml h60 hd (by linarith [tol_small hpos hδ])
      cases hb : Scalar.lt (lit 0) ml
      · obtain ⟨ray, r1, -, -, r2⟩ := C84_same_as_exact hD hrr hK hclm (ml := ml) (by simp [hb]) hbX (mlX := lit 0)
          (by simp [Scalar.lt, lit])
        exact ⟨ray, r1, r2⟩
      · obtain ⟨cells, -, r2, ray', res, r3, r4, -⟩ := C84_cut hD hrr hK hclm hb
        obtain ⟨e1, e2⟩ := casts_unique hr r3
        rcases r4 with ⟨r5, -⟩ | ⟨r5, -⟩
        · subst e1
          rw [← r5] at r2
          exact ⟨ray, hr, r2⟩
        · rw [r5] at e2
          cases e2
  obtain ⟨ray, r1, r2⟩ := hray
  rw [e] at r1 r2
  refine ⟨ray, we, r1, fun w => ⟨fun hw => ?_, fun hw => ?_⟩, fun w => ?_⟩
  · have : w = we := by
      rw [local_eq hP, local_eq hP] at hw
      funext i
      have h2 : w i - cb.min i = we i - cb.min i := congrFun hw i
      omega
    rw [this]; exact hwe
  · rw [show w = we from clear_end hcl hpos (fun i => by
      rw [zero_add]
      have : 0 ≤ rayTol N K * ρ := mul_nonneg rayTol_nonneg hpos.le
      linarith [hw i]) fun i => by
      rw [zero_add]
      have : 0 ≤ rayTol N K * ρ := mul_nonneg rayTol_nonneg hpos.le
      linarith [hwe i]]
  · rw [r2, local_eq hP, htouch, world_touches]

lemma told_congr {a b c d : Prop} {_ : Decidable a} {_ : Decidable b} {_ : Decidable c} {_ : Decidable d} (h1 : a ↔ b)
    (h2 : ¬ b → (c ↔ d)) :
    (if a then Seen.hit else if c then .miss else .nothing) = if b then Seen.hit else if d then .miss else .nothing := by
  by_cases hb : b
  · rw [if_pos hb, if_pos (h1.mpr hb)]
  · rw [if_neg hb, if_neg (h1.not.mpr hb)]
    simp only [h2 hb]

/-- C88, for one scan: if the segments from the sensor to the points keep clear of the corners of the cells, what the
scan, computed in f32, tells about a world cell is what geometry tells about it. -/
theorem C88_scan (hD : D = 2 ∨ D = 3) (hP : Placed m cb ρ) (hc : ∀ i, |cb.min i| ≤ N)
    (h : ClearRays N K ρ ml origin cloud x pts) (w : Cell D) :
    seen origin cloud m.bounds m.resolution ml (localCell m w) = geoSeen ρ x pts w := by
  have key : ∀ p y, p ∈ cloud.points → y ∈ pts → Aims N K ρ origin p x y → _ := fun p y _ hy ha =>
    clear_ray hD hP hc ha (h.clear y hy) (h.range y hy)
  have hit : (∃ p ∈ cloud.points, ∃ ray, Casts origin p m.bounds m.resolution ml ray (some (localCell m w))) ↔
      ∃ y ∈ pts, ∀ i, |y i - w i * ρ| ≤ ρ / 2 := by
    constructor
    · rintro ⟨p, hp, ray, hr⟩
      obtain ⟨y, hy, ha⟩ := forall₂_left h.numbers hp
      obtain ⟨ray', we, k1, k2, -⟩ := key p y hp hy ha
      refine ⟨y, hy, (k2 w).mp ?_⟩
      exact Option.some.inj (casts_unique hr k1).2
    · rintro ⟨y, hy, hw⟩
      obtain ⟨p, hp, ha⟩ := forall₂_left h.numbers.flip hy
      obtain ⟨ray', we, k1, k2, -⟩ := key p y hp hy ha
      exact ⟨p, hp, ray', by rw [(k2 w).mpr hw]; exact k1⟩
  unfold seen geoSeen
  refine told_congr hit fun hh => ⟨?_, ?_⟩
  · rintro ⟨p, hp, ray, e, hr, hmem⟩
    obtain ⟨y, hy, ha⟩ := forall₂_left h.numbers hp
    obtain ⟨ray', we, k1, -, k3⟩ := key p y hp hy ha
    refine ⟨y, hy, (k3 w).mp (List.mem_append_left _ ?_)⟩
    rw [← (casts_unique hr k1).1]
    exact hmem
  · rintro ⟨y, hy, ht⟩
    obtain ⟨p, hp, ha⟩ := forall₂_left h.numbers.flip hy
    obtain ⟨ray', we, k1, k2, k3⟩ := key p y hp hy ha
    refine ⟨p, hp, ray', _, k1, ?_⟩
    rcases List.mem_append.mp ((k3 w).mpr ht) with h1 | h1
    · exact h1
    · exact absurd ⟨y, hy, (k2 w).mp (List.mem_singleton.mp h1)⟩ hh

/-! ## Maps -/

variable {nm : LidarNoiseModel F32} {m₀ : GridMap D F32 F32}

/-- Recordings played into a map, if of each it is known what it tells about every world cell, whatever the map: every
world cell has the value that these answers make of zero. -/
lemma tells_playback {M : ℕ} (hD : D = 2 ∨ D = 3) (h0 : Placed m₀ CellBounds.empty ρ) (hM1 : 1 ≤ M)
    (hN : N = M + m₀.tileSize + 1) (hN18 : N ≤ 2 ^ 18) {hist} {tells : List (Cell D → Seen)}
    (hcl : ∀ e ∈ hist, WithinCells M ρ e.2.2)
    (hs : List.Forall₂ (fun e G => ∀ (m : GridMap D F32 F32) (cb : CellBounds D), Placed m cb ρ → (∀ i, |cb.min i| ≤ N) →
      ∀ w, seen e.2.1 e.2.2 m.bounds m.resolution nm.maxRange (localCell m w) = G w) hist tells)
    (h : Playback nm m₀ hist m) :
    ∃ cb, Placed m cb ρ ∧ ∀ w, Before m cb w (tells.foldl (fun v G => Seen.apply nm v (G w)) (Fp.lit 0)) := by
  have hpos := h0.res.pos
  have hcr : ∀ e ∈ hist, CloudInRange e.2.2 ρ := by
    intro e he p hp i
    obtain ⟨y, h1, h2⟩ := hcl e he p hp i
    have : (M : ℚ) ≤ 262144 := by
      have : M ≤ 262144 := by omega
      exact_mod_cast this
    exact ⟨y, h1, h2.trans (by norm_num; gcongr)⟩
  obtain ⟨cb, q1, q2⟩ := C69_values (by omega) h0 hcr h
  have hcor := (playback_corner (by omega) h0 hM1 (by omega) hcl h).2
  have hfold : ∀ w v, foldSeen nm hist w v = tells.foldl (fun v G => Seen.apply nm v (G w)) v := by
    intro w
    unfold foldSeen
    clear q2 q1 h hcl hcr
    induction hs with
    | nil => intro v; rfl
    | cons h1 _ ih =>
      intro v
      obtain ⟨cb', hP', hl⟩ := hcor _ List.mem_cons_self
      rw [List.foldl_cons, List.foldl_cons, h1 _ _ hP' (fun i => by rw [hN]; exact hl.abs_le h0.tile_pos i) w]
      exact ih (fun e he => hcor e (List.mem_cons_of_mem _ he)) _
  have hval : ∀ w, worldValue m cb w = .ok (tells.foldl (fun v G => Seen.apply nm v (G w)) (Fp.lit 0)) := by
    intro w
    rw [q2 w, show worldValue m₀ CellBounds.empty w = .ok (Fp.lit 0) from if_neg fun h => by
      have := h ⟨0, by omega⟩
      simp only [CellBounds.empty] at this
      omega, ← hfold]
    rfl
  refine ⟨cb, q1, fun w => ⟨fun hw => ?_, fun hw => ?_⟩⟩
  · rw [← hval w]; exact (if_pos hw).symm
  · have h1 := hval w
    rw [show worldValue m cb w = .ok (Fp.lit 0) from if_neg hw] at h1
    exact (Except.ok.inj h1).symm

/-- C88, for recordings played into a map: every world cell has the value that the scans, by geometry alone, make of
zero. A cell that is not stored counts as zero. -/
theorem C88_playback {M : ℕ} (hD : D = 2 ∨ D = 3) (h0 : Placed m₀ CellBounds.empty ρ) (hM1 : 1 ≤ M)
    (hN : N = M + m₀.tileSize + 1) (hN18 : N ≤ 2 ^ 18) {hist} {scans : List ((Fin D → ℚ) × List (Fin D → ℚ))}
    (hcl : ∀ e ∈ hist, WithinCells M ρ e.2.2)
    (hs : List.Forall₂ (fun e s => ClearRays N K ρ nm.maxRange e.2.1 e.2.2 s.1 s.2) hist scans)
    (h : Playback nm m₀ hist m) :
    ∃ cb, Placed m cb ρ ∧ ∀ w, Before m cb w (geoFold nm ρ scans w (Fp.lit 0)) := by
  obtain ⟨cb, p1, p2⟩ := tells_playback hD h0 hM1 hN hN18 (tells := scans.map fun s => geoSeen ρ s.1 s.2) hcl
    (List.forall₂_map_right_iff.mpr (hs.imp fun _ _ h1 _ _ hP hc => C88_scan hD hP hc h1)) h
  refine ⟨cb, p1, fun w => ?_⟩
  have := p2 w
  rw [List.foldl_map] at this
  exact this

/-! ## The visualizer -/

section
open Viz
variable {n : ℕ} {recs : ℕ → Point D F32 × PointCloud D F32} {ord : ℕ → List (Verif.Cell D) → List (Verif.Cell D)}
  {scans : ℕ → (Fin D → ℚ) × List (Fin D → ℚ)}

lemma cyclic_map {α β : Type} (f : α → β) (g : ℕ → α) (n k : ℕ) : cyclic (fun r => f (g r)) n k = (cyclic g n k).map f := by
  simp [cyclic]

/-- The same for the visualizer, at every moment of every run from a map without cells. -/
lemma tells_visualizer {M : ℕ} (hD : D = 2 ∨ D = 3) (hn : 0 < n) (h0 : Placed m₀ CellBounds.empty ρ)
    (ho : ∀ r, IsOrder (ord r)) (hM1 : 1 ≤ M) (hN : N = M + m₀.tileSize + 1) (hN18 : N ≤ 2 ^ 18)
    (hcl : ∀ r < n, WithinCells M ρ (recs r).2) {tells : ℕ → Verif.Cell D → Seen}
    (hs : ∀ r < n, ∀ (m : GridMap D F32 F32) (cb : CellBounds D), Placed m cb ρ → (∀ i, |cb.min i| ≤ N) →
      ∀ w, seen (recs r).1 (recs r).2 m.bounds m.resolution nm.maxRange (localCell m w) = tells r w)
    {s : State (GridMap D F32 F32) (Verif.Cell D) (Point D F32)} (hr : Reach (occOps nm recs ord) n m₀ s) :
    ∃ k cb, k ≤ s.workers.length ∧ s.workers.length ≤ k + 1 ∧
      (s.main = .clearFlag ∨ s.main = .spawn → k = s.workers.length) ∧ Placed s.map cb ρ ∧
      ∀ w, Before s.map cb w ((cyclic tells n k).foldl (fun v G => Seen.apply nm v (G w)) (Fp.lit 0)) := by
  obtain ⟨hist, p1, p2, p3, p4, p5⟩ := C69_playback hn ho hr
  have hlen : hist.length = (cyclic tells n hist.length).length := by simp [cyclic]
  have hat : ∀ j (hj : j < hist.length), (hist[j]).2 = recs (j % n) := by
    intro j hj
    have h1 : (hist.map (·.2))[j]? = some (hist[j]).2 := by
      rw [List.getElem?_map, List.getElem?_eq_getElem hj]; rfl
    rw [p2] at h1
    unfold cyclic at h1
    rw [List.getElem?_map, List.getElem?_range hj] at h1
    exact (Option.some.inj h1).symm
  obtain ⟨cb, q1, q2⟩ := tells_playback hD h0 hM1 hN hN18 (hist := hist) (tells := cyclic tells n hist.length)
    (fun e he => by
      obtain ⟨j, hj, rfl⟩ := List.getElem_of_mem he
      rw [hat j hj]
      exact hcl _ (Nat.mod_lt _ hn))
    (List.forall₂_iff_get.mpr ⟨hlen, fun j hj hj' => by
      simp only [List.get_eq_getElem]
      have e : (cyclic tells n hist.length)[j] = tells (j % n) := by simp [cyclic]
      rw [e, hat j hj]
      exact hs _ (Nat.mod_lt _ hn)⟩) p1
  exact ⟨hist.length, cb, p3, p4, p5, q1, q2⟩

/-- C88, for the visualizer: at every moment of every run from a map without cells, `k` scans have been played, and
every world cell has the value that they, by geometry alone, make of zero. -/
theorem C88_visualizer {M : ℕ} (hD : D = 2 ∨ D = 3) (hn : 0 < n) (h0 : Placed m₀ CellBounds.empty ρ)
    (ho : ∀ r, IsOrder (ord r)) (hM1 : 1 ≤ M) (hN : N = M + m₀.tileSize + 1) (hN18 : N ≤ 2 ^ 18)
    (hcl : ∀ r < n, WithinCells M ρ (recs r).2)
    (hs : ∀ r < n, ClearRays N K ρ nm.maxRange (recs r).1 (recs r).2 (scans r).1 (scans r).2)
    {s : State (GridMap D F32 F32) (Verif.Cell D) (Point D F32)} (hr : Reach (occOps nm recs ord) n m₀ s) :
    ∃ k cb, k ≤ s.workers.length ∧ s.workers.length ≤ k + 1 ∧
      (s.main = .clearFlag ∨ s.main = .spawn → k = s.workers.length) ∧ Placed s.map cb ρ ∧
      ∀ w, Before s.map cb w (geoFold nm ρ (cyclic scans n k) w (Fp.lit 0)) := by
  obtain ⟨k, cb, p1, p2, p3, p4, p5⟩ := tells_visualizer hD hn h0 ho hM1 hN hN18 hcl
    (tells := fun r => geoSeen ρ (scans r).1 (scans r).2) (fun r hr _ _ hP hc => C88_scan hD hP hc (hs r hr)) hr
  refine ⟨k, cb, p1, p2, p3, p4, fun w => ?_⟩
  have := p5 w
  rw [cyclic_map (fun s : (Fin D → ℚ) × List (Fin D → ℚ) => geoSeen ρ s.1 s.2), List.foldl_map] at this
  exact this

/-- The same on the screen, if no recording reaches below the tiles that the first one reaches. -/
lemma tells_screen {M : ℕ} (hD : D = 2 ∨ D = 3) (hn : 0 < n) (h0 : Placed m₀ CellBounds.empty ρ)
    (ht0 : m₀.changedCells = []) (hth : FLe (Fp.lit 0) nm.threshold)
    (ho : ∀ r, IsOrder (ord r)) (hM1 : 1 ≤ M) (hN : N = M + m₀.tileSize + 1) (hN18 : N ≤ 2 ^ 18)
    (hcl : ∀ r, WithinCells M ρ (recs r).2) {tells : ℕ → Verif.Cell D → Seen}
    (hs : ∀ r < n, ∀ (m : GridMap D F32 F32) (cb : CellBounds D), Placed m cb ρ → (∀ i, |cb.min i| ≤ N) →
      ∀ w, seen (recs r).1 (recs r).2 m.bounds m.resolution nm.maxRange (localCell m w) = tells r w) {k : Fin D → ℤ}
    (hk : LowestFirst m₀.tileSize ρ recs k)
    {s : State (GridMap D F32 F32) (Verif.Cell D) (Point D F32)} (hr : Reach (occOps nm recs ord) n m₀ s)
    (hm : s.main = .clearFlag ∨ s.main = .spawn) (w : Verif.Cell D) (hw : MachineCell (localCell s.map w)) {v : F32}
    (hv : v = (cyclic tells n s.workers.length).foldl (fun v G => Seen.apply nm v (G w)) (Fp.lit 0)) :
    (¬ nm.threshold.lt v = true → s.tracked (localCell s.map w) = none) ∧
    (nm.threshold.lt v = true →
      ∃ p, s.tracked (localCell s.map w) = some p ∧ ∀ i, ∃ z, (p i).Is z ∧ |z - w i * ρ| < ρ / 2) := by
  have hpos := h0.res.pos
  have hcr : ∀ r, CloudInRange (recs r).2 ρ := by
    intro r p hp i
    obtain ⟨y, h1, h2⟩ := hcl r p hp i
    have : (M : ℚ) ≤ 262144 := by
      have : M ≤ 262144 := by omega
      exact_mod_cast this
    exact ⟨y, h1, h2.trans (by norm_num; gcongr)⟩
  obtain ⟨j, cb, -, -, p3, p4, p5⟩ := tells_visualizer hD hn h0 ho hM1 hN hN18 (fun r _ => hcl r) hs hr
  rw [p3 hm] at p5
  obtain ⟨b1, b2⟩ := p5 w
  rw [← hv] at b1 b2
  have hdraw := C55_lowest_first (by omega) hn h0 ht0 hth ho (by omega) hcr hk hr hm _ hw
  have hloc := local_eq p4 w
  have hval : InCells w cb → nm.occupied s.map (localCell s.map w) =
      .ok (nm.threshold.lt v) := by
    intro hin
    have h1 := b1 hin
    unfold valueAt at h1
    unfold LidarNoiseModel.occupied
    rw [hloc, h1]
    rfl
  constructor
  · intro hlt
    rw [hdraw, if_neg]
    by_cases hin : InCells w cb
    · rw [hval hin]
      intro h
      exact hlt (Except.ok.inj h)
    · unfold LidarNoiseModel.occupied
      rw [(C31_get s.map hw).2 (by rw [hloc]; exact fun h => hin ((inCells_iff p4 w).mpr h))]
      intro h
      cases h
  · intro hlt
    have hin : InCells w cb := by
      by_contra h
      rw [b2 h, Fp.not_lt_of_FLe hth] at hlt
      cases hlt
    refine ⟨s.map.pointFromCell (localCell s.map w), by rw [hdraw, if_pos (by rw [hval hin, hlt])], fun i => ?_⟩
    have h1 := hin i
    have r1' : |cb.min i| ≤ 2 ^ 19 := (p4.min_range i).elim (fun h => h.trans (by norm_num)) fun h => h.2
    have r2' : |cb.max i| ≤ 2 ^ 19 := (p4.max_range i).elim (fun h => h.trans (by norm_num)) fun h => h.2
    have r1 := abs_le.mp r1'
    have r2 := abs_le.mp r2'
    have c1 : |((cb.min i : ℤ) : ℚ)| ≤ 2 ^ 19 := by exact_mod_cast r1'
    obtain ⟨e1, e2⟩ := pointCoord_is (c := cb.min i) (N := 2 ^ 19) p4.res F32.zero_is c1
      (by rw [abs_zero]; positivity) (by norm_num) (by norm_num)
    have e3 : |cellPoint (cb.min i) 0 ρ| ≤ 2 ^ 20 * ρ := by
      have h5 := abs_sub_abs_le_abs_sub (cellPoint (cb.min i) 0 ρ) (cb.min i * ρ + 0)
      have h6 : |(cb.min i : ℚ) * ρ + 0| ≤ 2 ^ 19 * ρ := by rw [add_zero, abs_mul, abs_of_pos hpos]; gcongr
      norm_num at h5 h6 e2 ⊢
      linarith
    have c2 : |((localCell s.map w i : ℤ) : ℚ)| ≤ 2 ^ 20 := by
      have : |localCell s.map w i| ≤ 2 ^ 20 := by
        rw [hloc, abs_le]
        dsimp only
        constructor <;> omega
      exact_mod_cast this
    obtain ⟨e4, e5⟩ := pointCoord_is (c := localCell s.map w i) (N := 2 ^ 20) (o := s.map.bounds.min i) p4.res
      (by rw [p4.bounds]; exact e1) c2 e3 (by norm_num) (by norm_num)
    refine ⟨_, e4, ?_⟩
    have e6 : ((localCell s.map w i : ℤ) : ℚ) = w i - cb.min i := by rw [hloc]; push_cast; rfl
    rw [e6] at e5
    have t1 := abs_le.mp e2
    have t2 := abs_le.mp e5
    norm_num at t1 t2
    rw [abs_lt]
    constructor <;> linarith

/-- C88, on the screen: if no recording reaches below the tiles that the first one reaches, then whenever the renderer
has processed a batch, exactly those cells are drawn whose value all the scans started so far, by geometry alone, have
taken from zero to above the threshold, each at a point inside it. -/
theorem C88_screen {M : ℕ} (hD : D = 2 ∨ D = 3) (hn : 0 < n) (h0 : Placed m₀ CellBounds.empty ρ)
    (ht0 : m₀.changedCells = []) (hth : FLe (Fp.lit 0) nm.threshold)
    (ho : ∀ r, IsOrder (ord r)) (hM1 : 1 ≤ M) (hN : N = M + m₀.tileSize + 1) (hN18 : N ≤ 2 ^ 18)
    (hcl : ∀ r, WithinCells M ρ (recs r).2)
    (hs : ∀ r < n, ClearRays N K ρ nm.maxRange (recs r).1 (recs r).2 (scans r).1 (scans r).2) {k : Fin D → ℤ}
    (hk : LowestFirst m₀.tileSize ρ recs k)
    {s : State (GridMap D F32 F32) (Verif.Cell D) (Point D F32)} (hr : Reach (occOps nm recs ord) n m₀ s)
    (hm : s.main = .clearFlag ∨ s.main = .spawn) (w : Verif.Cell D) (hw : MachineCell (localCell s.map w)) :
    (¬ nm.threshold.lt (geoFold nm ρ (cyclic scans n s.workers.length) w (Fp.lit 0)) = true →
      s.tracked (localCell s.map w) = none) ∧
    (nm.threshold.lt (geoFold nm ρ (cyclic scans n s.workers.length) w (Fp.lit 0)) = true →
      ∃ p, s.tracked (localCell s.map w) = some p ∧ ∀ i, ∃ z, (p i).Is z ∧ |z - w i * ρ| < ρ / 2) := by
  refine tells_screen hD hn h0 ht0 hth ho hM1 hN hN18 hcl (tells := fun r => geoSeen ρ (scans r).1 (scans r).2)
    (fun r hr _ _ hP hc => C88_scan hD hP hc (hs r hr)) hk hr hm w hw ?_
  rw [cyclic_map (fun s : (Fin D → ℚ) × List (Fin D → ℚ) => geoSeen ρ s.1 s.2), List.foldl_map]
  rfl

end

/-! ## Moved scenes -/

lemma touches_moved {ρ' : ℚ} {g : GridMotion D} {x' y' : Fin D → ℚ} (hρ : 0 < ρ) (hρ' : 0 < ρ')
    (hx : MovedPoint g ρ ρ' x x') (hy : MovedPoint g ρ ρ' y y') {w : Cell D} :
    (∃ t : ℚ, 0 ≤ t ∧ t ≤ 1 ∧ ∀ i, |x' i + t * (y' i - x' i) - g.cell w i * ρ'| ≤ ρ' / 2) ↔
      ∃ t : ℚ, 0 ≤ t ∧ t ≤ 1 ∧ ∀ i, |x i + t * (y i - x i) - w i * ρ| ≤ ρ / 2 := by
  have h := touches_motion hx hy hρ hρ' (τ := 0) (w := w)
  rw [zero_mul, zero_mul] at h
  rw [← world_touches, ← world_touches, h]

lemma in_moved {ρ' : ℚ} {g : GridMotion D} {y' : Fin D → ℚ} (hρ : 0 < ρ) (hρ' : 0 < ρ')
    (hy : MovedPoint g ρ ρ' y y') {w : Cell D} :
    (∀ i, |y' i - g.cell w i * ρ'| ≤ ρ' / 2) ↔ ∀ i, |y i - w i * ρ| ≤ ρ / 2 := by
  have h := touches_moved hρ hρ' hy hy (w := w)
  simp only [sub_self, mul_zero, add_zero] at h
  exact ⟨fun h1 => (h.mp ⟨0, le_rfl, zero_le_one, h1⟩).elim fun _ h => h.2.2,
    fun h1 => (h.mpr ⟨0, le_rfl, zero_le_one, h1⟩).elim fun _ h => h.2.2⟩

lemma geoSeen_moved {ρ' : ℚ} {g : GridMotion D} {s s' : (Fin D → ℚ) × List (Fin D → ℚ)} (hρ : 0 < ρ) (hρ' : 0 < ρ')
    (h : MovedScan g ρ ρ' s s') (w : Cell D) : geoSeen ρ' s'.1 s'.2 (g.cell w) = geoSeen ρ s.1 s.2 w := by
  obtain ⟨hx, hp⟩ := h
  unfold geoSeen
  refine told_congr ⟨?_, ?_⟩ fun _ => ⟨?_, ?_⟩
  · rintro ⟨y', hy', hw⟩
    obtain ⟨y, hy, hm⟩ := forall₂_left hp.flip hy'
    exact ⟨y, hy, (in_moved hρ hρ' hm).mp hw⟩
  · rintro ⟨y, hy, hw⟩
    obtain ⟨y', hy', hm⟩ := forall₂_left hp hy
    exact ⟨y', hy', (in_moved hρ hρ' hm).mpr hw⟩
  · rintro ⟨y', hy', hw⟩
    obtain ⟨y, hy, hm⟩ := forall₂_left hp.flip hy'
    exact ⟨y, hy, (touches_moved hρ hρ' hx hm).mp hw⟩
  · rintro ⟨y, hy, hw⟩
    obtain ⟨y', hy', hm⟩ := forall₂_left hp hy
    exact ⟨y', hy', (touches_moved hρ hρ' hx hm).mpr hw⟩

lemma geoFold_moved {ρ' : ℚ} {g : GridMotion D} {scans scans' : List ((Fin D → ℚ) × List (Fin D → ℚ))} (hρ : 0 < ρ)
    (hρ' : 0 < ρ') {nm' : LidarNoiseModel F32} (hnm : nm'.hit = nm.hit ∧ nm'.miss = nm.miss ∧ nm'.max = nm.max ∧
      nm'.min = nm.min) (h : List.Forall₂ (MovedScan g ρ ρ') scans scans') (w : Cell D) (v : F32) :
    geoFold nm' ρ' scans' (g.cell w) v = geoFold nm ρ scans w v := by
  obtain ⟨n1, n2, n3, n4⟩ := hnm
  have hap : ∀ v s, Seen.apply nm' v s = Seen.apply nm v s := by
    intro v s
    cases s <;> simp only [Seen.apply, n1, n2, n3, n4]
  unfold geoFold
  induction h generalizing v with
  | nil => rfl
  | cons h1 _ ih =>
    rw [List.foldl_cons, List.foldl_cons, geoSeen_moved hρ hρ' h1, hap]
    exact ih _

/-- C88: the map moves with the scene. Two maps are made by playing clear scans; the second scene is the first one
moved by a motion of the grid onto itself, and possibly scaled together with the resolution. Then each world cell has
in the first map the value that its image has in the second. -/
theorem C88_moves {M : ℕ} (hD : D = 2 ∨ D = 3) {g : GridMotion D} {ρ' : ℚ} {nm' : LidarNoiseModel F32}
    {m₀' m' : GridMap D F32 F32} (h0 : Placed m₀ CellBounds.empty ρ) (h0' : Placed m₀' CellBounds.empty ρ')
    (hM1 : 1 ≤ M) (hN : N = M + m₀.tileSize + 1) (hN18 : N ≤ 2 ^ 18) {N' M' K' : ℕ} (hM1' : 1 ≤ M')
    (hN' : N' = M' + m₀'.tileSize + 1) (hN18' : N' ≤ 2 ^ 18)
    (hnm : nm'.hit = nm.hit ∧ nm'.miss = nm.miss ∧ nm'.max = nm.max ∧ nm'.min = nm.min) {hist hist'}
    {scans scans' : List ((Fin D → ℚ) × List (Fin D → ℚ))}
    (hcl : ∀ e ∈ hist, WithinCells M ρ e.2.2) (hcl' : ∀ e ∈ hist', WithinCells M' ρ' e.2.2)
    (hs : List.Forall₂ (fun e s => ClearRays N K ρ nm.maxRange e.2.1 e.2.2 s.1 s.2) hist scans)
    (hs' : List.Forall₂ (fun e s => ClearRays N' K' ρ' nm'.maxRange e.2.1 e.2.2 s.1 s.2) hist' scans')
    (hmv : List.Forall₂ (MovedScan g ρ ρ') scans scans')
    (h : Playback nm m₀ hist m) (h' : Playback nm' m₀' hist' m') :
    ∃ cb cb', Placed m cb ρ ∧ Placed m' cb' ρ' ∧ ∀ w, ∃ v, Before m cb w v ∧ Before m' cb' (g.cell w) v := by
  obtain ⟨cb, p1, p2⟩ := C88_playback hD h0 hM1 hN hN18 hcl hs h
  obtain ⟨cb', q1, q2⟩ := C88_playback hD h0' hM1' hN' hN18' hcl' hs' h'
  refine ⟨cb, cb', p1, q1, fun w => ⟨_, p2 w, ?_⟩⟩
  rw [← geoFold_moved h0.res.pos h0'.res.pos hnm hmv]
  exact q2 _

end

/-! ## Examples -/

/-- The sensor at (1/4, 1/4) sees a point at (9/4, 1). -/
def clearScan : Point 2 F32 × PointCloud 2 F32 :=
  (![Fp.lit (1 / 4), Fp.lit (1 / 4)], PointCloud.fromPoints [![Fp.lit (9 / 4), Fp.lit 1]])

/-- The same turned by a right angle, moved by 3 cells, and scaled by 2. -/
def turnedScan : Point 2 F32 × PointCloud 2 F32 :=
  (![Fp.lit (11 / 2), Fp.lit (1 / 2)], PointCloud.fromPoints [![Fp.lit 4, Fp.lit (9 / 2)]])

/-- `smallMap` with resolution 2. -/
def wideMap : GridMap 2 F32 F32 := { smallMap with resolution := Fp.lit 2 }

lemma one_clear : ClearRays 7 2 1 smallNM.maxRange clearScan.1 clearScan.2 ![1 / 4, 1 / 4] [![9 / 4, 1]] := by
  refine ⟨?_, ?_, ?_⟩
  · rw [clearScan, C13_points_fromPoints]
    refine .cons ⟨by norm_num, by norm_num, by norm_num, by norm_num, by decide +kernel, ?_, by decide +kernel, ?_, ?_, ?_⟩
      .nil
    · intro i; fin_cases i <;> norm_num [abs_of_pos]
    · intro i; fin_cases i <;> norm_num [abs_of_pos]
    · intro i; fin_cases i <;> norm_num [abs_of_pos]
    · intro i; right; fin_cases i <;> norm_num [abs_of_pos]
  · intro y hy
    rw [List.mem_singleton] at hy
    subst hy
    exact clear_example (by norm_num [rayTol]) (by norm_num [rayTol])
  · intro y hy
    rw [List.mem_singleton] at hy
    subst hy
    exact .inr ⟨60, 3, by decide +kernel, by norm_num, ⟨by norm_num, by decide +kernel⟩, by norm_num⟩

lemma turned_moved : MovedScan ⟨Equiv.swap 0 1, ![-1, 1], ![3, 0]⟩ 1 2 (![1 / 4, 1 / 4], [![9 / 4, 1]])
    ((![11 / 2, 1 / 2], [![4, 9 / 2]]) : (Fin 2 → ℚ) × List (Fin 2 → ℚ)) :=
  ⟨by unfold MovedPoint; decide +kernel, .cons (by unfold MovedPoint; decide +kernel) .nil⟩

lemma turned_clear : ClearRays 7 2 2 smallNM.maxRange turnedScan.1 turnedScan.2 ![11 / 2, 1 / 2] [![4, 9 / 2]] := by
  refine ⟨?_, ?_, ?_⟩
  · rw [turnedScan, C13_points_fromPoints]
    refine .cons ⟨by norm_num, by norm_num, by norm_num, by norm_num, by decide +kernel, ?_, by decide +kernel, ?_, ?_, ?_⟩
      .nil
    · intro i; fin_cases i <;> norm_num [abs_of_pos]
    · intro i; fin_cases i <;> norm_num [abs_of_pos]
    · intro i; fin_cases i <;> norm_num [abs_of_pos]
    · intro i; right; fin_cases i <;> norm_num [abs_of_pos]
  · intro y hy
    rw [List.mem_singleton] at hy
    subst hy
    have h := turned_moved
    have h1 : MovedPoint ⟨Equiv.swap 0 1, ![-1, 1], ![3, 0]⟩ 1 2 (![9 / 4, 1] : Fin 2 → ℚ) ![4, 9 / 2] := by
      cases h.2; assumption
    exact clear_motion h.1 h1 (by norm_num) (by norm_num)
      (clear_example (tol := rayTol 7 2 * 1) (by norm_num [rayTol]) (by norm_num [rayTol]))
  · intro y hy
    rw [List.mem_singleton] at hy
    subst hy
    exact .inr ⟨60, 5, by decide +kernel, by norm_num, ⟨by norm_num, by decide +kernel⟩, by norm_num⟩

lemma one_within : WithinCells 4 1 clearScan.2 := by
  intro p hp
  rw [clearScan, C13_points_fromPoints, List.mem_singleton] at hp
  subst hp
  intro i
  refine ⟨![9 / 4, 1] i, ?_, ?_⟩ <;> revert i <;> decide +kernel

lemma turned_within : WithinCells 4 2 turnedScan.2 := by
  intro p hp
  rw [turnedScan, C13_points_fromPoints, List.mem_singleton] at hp
  subst hp
  intro i
  refine ⟨![4, 9 / 2] i, ?_, ?_⟩ <;> revert i <;> decide +kernel

lemma wideMap_placed : Placed wideMap CellBounds.empty 2 := by
  refine ⟨⟨by decide +kernel, by norm_num, by norm_num⟩, ?_, by decide, by decide, by decide, by decide,
    by decide, by decide⟩
  ext i
  all_goals (revert i; decide +kernel)

/-- The hypotheses of C88 hold for this scan, played into two maps without cells, once as it is and once turned, moved
and scaled; and the lowest tiles are those with the origin. By geometry the cell (2, 1) was hit. -/
example : (∃ m m' : GridMap 2 F32 F32, Playback smallNM smallMap [(m, clearScan)] m ∧
      Playback smallNM wideMap [(m', turnedScan)] m') ∧
    Placed smallMap CellBounds.empty 1 ∧ Placed wideMap CellBounds.empty 2 ∧ 7 = 4 + smallMap.tileSize + 1 ∧
    7 = 4 + wideMap.tileSize + 1 ∧ WithinCells 4 1 clearScan.2 ∧ WithinCells 4 2 turnedScan.2 ∧
    ClearRays 7 2 1 smallNM.maxRange clearScan.1 clearScan.2 ![1 / 4, 1 / 4] [![9 / 4, 1]] ∧
    ClearRays 7 2 2 smallNM.maxRange turnedScan.1 turnedScan.2 ![11 / 2, 1 / 2] [![4, 9 / 2]] ∧
    LowestFirst smallMap.tileSize 1 (fun _ => clearScan) (fun _ => 0) ∧
    geoSeen 1 ![1 / 4, 1 / 4] [![9 / 4, 1]] ![2, 1] = .hit := by
  refine ⟨?_, smallMap_placed, wideMap_placed, rfl, rfl, one_within, turned_within, one_clear, turned_clear,
    ⟨by simp, fun r p hp i => ?_, fun _ => .inl rfl⟩, ?_⟩
  · have h1 : ((smallNM.integratePointCloud id 20 smallMap clearScan.1 clearScan.2).toOption.isSome &&
        (smallNM.integratePointCloud id 20 wideMap turnedScan.1 turnedScan.2).toOption.isSome) = true := by decide +kernel
    have hid : IsOrder (id : List (Verif.Cell 2) → List (Verif.Cell 2)) := fun l => List.Perm.refl l
    cases e1 : smallNM.integratePointCloud id 20 smallMap clearScan.1 clearScan.2 with
    | error e => rw [e1] at h1; cases h1
    | ok m =>
      cases e2 : smallNM.integratePointCloud id 20 wideMap turnedScan.1 turnedScan.2 with
      | error e => rw [e1, e2] at h1; cases h1
      | ok m' => exact ⟨m, m', .scan .start hid ⟨20, e1⟩, .scan .start hid ⟨20, e2⟩⟩
  · rw [clearScan, C13_points_fromPoints, List.mem_singleton] at hp
    subst hp
    refine ⟨![9 / 4, 1] i, ?_, ?_⟩ <;> revert i <;> decide +kernel
  · unfold geoSeen
    rw [if_pos]
    exact ⟨_, List.mem_singleton_self _, by decide +kernel⟩

end Verif.Props
