import Verif.Props.Motion
import Verif.Props.Geometric
import Verif.Spec.Nearer

/-!
# C103: a nearer point on the same line of sight
-/

namespace Verif.Props
open Spec Scalar

section general
variable {D : ℕ} {F : Type} [Scalar F] [ScalarLaws F]

/-- The steps from `c` to `a`. -/
private def dist1 (c a : Cell D) : ℕ := (∑ i, |a i - c i|).toNat

private lemma dist1_lt {c a b : Cell D} (h : Between c b a) (hne : a ≠ b) : dist1 c a < dist1 c b := by
  have hle : ∀ i, |a i - c i| ≤ |b i - c i| := fun i => by
    have := h i
    rcases abs_cases (a i - c i) with h1 | h1 <;> rcases abs_cases (b i - c i) with h2 | h2 <;> omega
  obtain ⟨j, hj⟩ := Function.ne_iff.mp hne
  have hlt : ∑ i, |a i - c i| < ∑ i, |b i - c i| :=
    Finset.sum_lt_sum (fun i _ => hle i) ⟨j, Finset.mem_univ _, by
      have := h j
      rcases abs_cases (a j - c j) with h1 | h1 <;> rcases abs_cases (b j - c j) with h2 | h2 <;> omega⟩
  have h0 : 0 ≤ ∑ i, |a i - c i| := Finset.sum_nonneg fun i _ => abs_nonneg _
  unfold dist1
  omega

private lemma index_le {c : Cell D} {l : List (Cell D)} (h : l.Pairwise fun a b => Between c b a) (hn : l.Nodup) :
    ∀ k (hk : k < l.length), k ≤ dist1 c l[k] := by
  intro k
  induction k with
  | zero => exact fun _ => Nat.zero_le _
  | succ k ih =>
    intro hk
    have h1 := ih (by omega)
    have h2 := dist1_lt (List.pairwise_iff_getElem.mp h k (k + 1) (by omega) hk (by omega))
      (fun he => by have := (List.Nodup.getElem_inj_iff hn).mp he; omega)
    omega

/-- C103, for any arithmetic: if two rays start in one cell, reach their ends, and the second passes no cell but those
of the first, then it is the beginning of the first. -/
theorem C103_prefix {o e o' e' : Point D F} {bounds bounds' : Bounds D F} {r r' ml ml' : F} {ray ray' c c'}
    (h : Casts o e bounds r ml ray (some c)) (h' : Casts o' e' bounds' r' ml' ray' (some c'))
    (ho : cellFromPoint o' bounds'.min r' = cellFromPoint o bounds.min r)
    (hs : ∀ w ∈ ray' ++ [c'], w ∈ ray ++ [c]) : ray' ++ [c'] <+: ray ++ [c] := by
  obtain ⟨p1, p2, -⟩ := ray_path h
  obtain ⟨q1, q2, -⟩ := ray_path h'
  have hl := C19_shortest h'
  rw [ho] at q1 hl
  obtain ⟨k, hk, hkc⟩ := List.mem_iff_getElem.mp (hs c' (by simp))
  have hd := index_le p1 p2 k hk
  rw [hkc] at hd
  have hd' : dist1 (cellFromPoint o bounds.min r) c' = ray'.length := by unfold dist1; omega
  have key : ray' ++ [c'] = (ray ++ [c]).take (k + 1) := by
    refine path_eq q1 (p1.sublist (List.take_sublist _ _)) q2 ?_ ?_
    · intro w hw
      obtain ⟨j, hj, hjw⟩ := List.mem_iff_getElem.mp (hs w hw)
      rw [List.mem_take_iff_getElem]
      refine ⟨j, ?_, hjw⟩
      rw [lt_min_iff]
      refine ⟨?_, hj⟩
      by_contra hlt
      have h1 := List.pairwise_iff_getElem.mp p1 k j hk hj (by omega)
      rw [hkc, hjw] at h1
      have hne : w ≠ c' := by
        rintro rfl
        have := (List.Nodup.getElem_inj_iff p2).mp (hkc.trans hjw.symm)
        omega
      have hw' : w ∈ ray' := by
        rcases List.mem_append.mp hw with hw | hw
        · exact hw
        · exact absurd (List.mem_singleton.mp hw) hne
      have h2 := (List.pairwise_append.mp q1).2.2 w hw' c' (List.mem_singleton.mpr rfl)
      exact hne (funext fun i => by have := h1 i; have := h2 i; omega)
    · simp only [List.length_take, List.length_append, List.length_singleton]
      omega
  rw [key]
  exact List.take_prefix _ _

end general

variable {D : ℕ} {ρ : ℚ} {x y y' q : Fin D → ℚ}

/-- The cells met by a piece of a clear segment, up to the tolerance, are met by the segment. -/
private lemma touches_piece {τ s : ℚ} (s0 : 0 ≤ s) (s1 : s ≤ 1) (hc : ClearSegment q x y ρ τ) (hτ : 0 ≤ τ)
    (hon : ∀ i, |y' i - lineAt x y s i| ≤ τ) {w : Cell D} (hw : Touches q x y' ρ 0 w) : Touches q x y ρ 0 w := by
  obtain ⟨t, t0, t1, ht⟩ := hw
  obtain ⟨u, u0, u1, hu⟩ := hc w ⟨t * s, by positivity, by nlinarith, fun i => by
    have h1 : lineAt x y (t * s) i - (q i + w i * ρ) =
        (lineAt x y' t i - (q i + w i * ρ)) - t * (y' i - lineAt x y s i) := by unfold lineAt; ring
    have h2 : |t * (y' i - lineAt x y s i)| ≤ τ := by
      rw [abs_mul, abs_of_nonneg t0]
      nlinarith [hon i, abs_nonneg (y' i - lineAt x y s i)]
    rw [h1]
    exact (abs_sub _ _).trans (by linarith [ht i])⟩
  exact ⟨u, u0, u1, fun i => by linarith [hu i]⟩

/-- C103, in f32: let the segment from `x` to `y` keep clear of the corners by `τ`, let `y'` lie on it up to `τ`, and
let the segment from `x` to `y'` keep clear too. The ray to `y'` is the beginning of the ray to `y`. -/
theorem C103_nearer {M τ s : ℚ} {o e e' : Point D F32} {bounds : Bounds D F32} {r : F32} (hD : D = 2 ∨ D = 3)
    (h : RayRange M o e bounds.min r x y q ρ) (h' : RayRange M o e' bounds.min r x y' q ρ) {K : ℕ}
    (hK : ∀ i, |cellFromPoint e bounds.min r i - cellFromPoint o bounds.min r i| ≤ K)
    (hK' : ∀ i, |cellFromPoint e' bounds.min r i - cellFromPoint o bounds.min r i| ≤ K)
    (hτ : (5 * M + K ^ 2 + 10 * K + 23) / 2 ^ 24 * ρ ≤ τ)
    (hc : ClearSegment q x y ρ τ) (hc' : ClearSegment q x y' ρ ((5 * M + K ^ 2 + 10 * K + 23) / 2 ^ 24 * ρ))
    (s0 : 0 ≤ s) (s1 : s ≤ 1) (hon : ∀ i, |y' i - lineAt x y s i| ≤ τ) {ml ml' : F32}
    (hml : Scalar.lt (lit 0) ml = false) (hml' : Scalar.lt (lit 0) ml' = false) :
    ∃ ray c ray' c', Casts o e bounds r ml ray (some c) ∧ Casts o e' bounds r ml' ray' (some c') ∧
      ray' ++ [c'] <+: ray ++ [c] := by
  have hp := h.pos
  have hM := h.M_lo
  have h0 : 0 ≤ τ := le_trans (by positivity) hτ
  obtain ⟨ray, h1, -, -, h2⟩ := C84_same_as_exact hD h hK (clear_mono hτ hc) (ml := ml) (by simp [hml])
    (bX := ⟨exact fun i => (q i : ℝ), exact fun i => (q i : ℝ)⟩) rfl (mlX := lit 0) (by simp [Scalar.lt, lit])
  obtain ⟨ray', h1', -, -, h2'⟩ := C84_same_as_exact hD h' hK' hc' (ml := ml') (by simp [hml'])
    (bX := ⟨exact fun i => (q i : ℝ), exact fun i => (q i : ℝ)⟩) rfl (mlX := lit 0) (by simp [Scalar.lt, lit])
  refine ⟨ray, _, ray', _, h1, h1', C103_prefix h1 h1' rfl fun w hw => ?_⟩
  exact (h2 w).mpr (touches_piece s0 s1 hc h0 hon ((h2' w).mp hw))

/-- Geometry alone: points added in front change nothing but their own cells. -/
private lemma geoSeen_front {τ : ℚ} {pts pts' : List (Fin D → ℚ)} (h0 : 0 ≤ τ) (hadd : AddsInFront τ ρ x pts pts')
    {w : Cell D} (hw : ∀ y' ∈ pts', y' ∉ pts → ¬ ∀ i, |y' i - w i * ρ| ≤ ρ / 2) :
    geoSeen ρ x pts' w = geoSeen ρ x pts w := by
  unfold geoSeen
  refine told_congr ⟨?_, ?_⟩ fun _ => ⟨?_, ?_⟩
  · rintro ⟨z, hz, hzw⟩
    by_cases hp : z ∈ pts
    · exact ⟨z, hp, hzw⟩
    · exact absurd hzw (hw z hz hp)
  · exact fun ⟨z, hz, hzw⟩ => ⟨z, hadd.keeps z hz, hzw⟩
  · rintro ⟨z, hz, hzw⟩
    rcases hadd.new z hz with hz | ⟨y, hy, hc, s, s0, s1, hon⟩
    · exact ⟨z, hz, hzw⟩
    · exact ⟨y, hy, world_touches.mp (touches_piece s0 s1 hc h0 hon (world_touches.mpr hzw))⟩
  · exact fun ⟨z, hz, hzw⟩ => ⟨z, hadd.keeps z hz, hzw⟩

/-- C103, for scans in f32: add to a clear scan points in front of its points. What the scan tells about a cell with an
added point becomes a hit; what it tells about every other cell stays the same. -/
theorem C103_added {N K : ℕ} {τ : ℚ} {ml : F32} {origin : Point D F32} {cloud cloud' : PointCloud D F32}
    {pts pts' : List (Fin D → ℚ)} {m : GridMap D F32 F32} {cb : CellBounds D} (hD : D = 2 ∨ D = 3) (hP : Placed m cb ρ)
    (hcb : ∀ i, |cb.min i| ≤ N) (h : ClearRays N K ρ ml origin cloud x pts)
    (h' : ClearRays N K ρ ml origin cloud' x pts') (h0 : 0 ≤ τ) (hadd : AddsInFront τ ρ x pts pts') (w : Cell D) :
    ((∃ y' ∈ pts', ∀ i, |y' i - w i * ρ| ≤ ρ / 2) →
      seen origin cloud' m.bounds m.resolution ml (localCell m w) = .hit) ∧
    ((∀ y' ∈ pts', y' ∉ pts → ¬ ∀ i, |y' i - w i * ρ| ≤ ρ / 2) →
      seen origin cloud' m.bounds m.resolution ml (localCell m w)
        = seen origin cloud m.bounds m.resolution ml (localCell m w)) := by
  rw [C88_scan hD hP hcb h w, C88_scan hD hP hcb h' w]
  exact ⟨fun hw => if_pos hw, fun hw => geoSeen_front h0 hadd hw⟩

/-- C103, for histories: play clear scans into a map without cells, and the same scans with points added in front into
the same map. Every world cell without an added point has the same value in both. -/
theorem C103_playback {M N K : ℕ} {τ : ℚ} {nm : LidarNoiseModel F32} {m₀ m m' : GridMap D F32 F32} (hD : D = 2 ∨ D = 3)
    (hP : Placed m₀ CellBounds.empty ρ) (hM1 : 1 ≤ M) (hN : N = M + m₀.tileSize + 1) (hN18 : N ≤ 2 ^ 18) {hist hist'}
    {scans scans' : List ((Fin D → ℚ) × List (Fin D → ℚ))} (hcl : ∀ e ∈ hist, WithinCells M ρ e.2.2)
    (hcl' : ∀ e ∈ hist', WithinCells M ρ e.2.2)
    (hs : List.Forall₂ (fun e s => ClearRays N K ρ nm.maxRange e.2.1 e.2.2 s.1 s.2) hist scans)
    (hs' : List.Forall₂ (fun e s => ClearRays N K ρ nm.maxRange e.2.1 e.2.2 s.1 s.2) hist' scans')
    (h : Playback nm m₀ hist m) (h' : Playback nm m₀ hist' m') (h0 : 0 ≤ τ)
    (hadd : List.Forall₂ (fun s s' => s'.1 = s.1 ∧ AddsInFront τ ρ s.1 s.2 s'.2) scans scans') :
    ∃ cb cb', Placed m cb ρ ∧ Placed m' cb' ρ ∧ ∀ w,
      List.Forall₂ (fun s s' => ∀ y' ∈ s'.2, y' ∉ s.2 → ¬ ∀ i, |y' i - w i * ρ| ≤ ρ / 2) scans scans' →
      ∃ v, Before m cb w v ∧ Before m' cb' w v := by
  obtain ⟨cb, k1, k2⟩ := C88_playback hD hP hM1 hN hN18 hcl hs h
  obtain ⟨cb', k1', k2'⟩ := C88_playback hD hP hM1 hN hN18 hcl' hs' h'
  refine ⟨cb, cb', k1, k1', fun w hw => ⟨_, k2 w, ?_⟩⟩
  have key : ∀ v, geoFold nm ρ scans' w v = geoFold nm ρ scans w v := by
    clear hs hs' k2 k2'
    induction hadd with
    | nil => exact fun _ => rfl
    | @cons s s' _ _ h1 _ ih =>
      intro v
      cases hw with
      | cons hw1 hw2 =>
        simp only [geoFold, List.foldl_cons]
        rw [h1.1, geoSeen_front h0 h1.2 hw1]
        exact ih hw2 _
  rw [← key]
  exact k2' w

/-- C103 does not hold at corners: (1, 3) lies on the segment from (0, 0) to (3, 9), but the ray to it passes the cell
(1, 1), which the ray to (3, 9) does not. -/
theorem C103_not_at_corners :
    castRay 5 (![Fp.lit 0, Fp.lit 0] : Point 2 F32) ![Fp.lit 1, Fp.lit 3] ⟨![Fp.lit 0, Fp.lit 0], ![Fp.lit 9, Fp.lit 9]⟩
      (Fp.lit 1) (Fp.lit 0) = .ok ([![0, 0], ![0, 1], ![1, 1], ![1, 2]], some ![1, 3]) ∧
    castRay 13 (![Fp.lit 0, Fp.lit 0] : Point 2 F32) ![Fp.lit 3, Fp.lit 9] ⟨![Fp.lit 0, Fp.lit 0], ![Fp.lit 9, Fp.lit 9]⟩
      (Fp.lit 1) (Fp.lit 0) = .ok ([![0, 0], ![0, 1], ![0, 2], ![1, 2], ![1, 3], ![1, 4], ![1, 5], ![2, 5], ![2, 6],
        ![2, 7], ![2, 8], ![3, 8]], some ![3, 9]) := by
  constructor <;> decide +kernel

/-- The segment from (1/4, 1/4) to (5/4, 5/8), half of that to (9/4, 1), keeps clear of the corners: it passes the
cells (0,0), (1,0) and (1,1), and no other cell is nearer than 1/100. -/
lemma half_clear {tol : ℚ} (htol : tol ≤ 1 / 100) :
    ClearSegment (fun _ => 0) (![1 / 4, 1 / 4] : Fin 2 → ℚ) ![5 / 4, 5 / 8] 1 tol := by
  rintro w ⟨t, t0, t1, ht⟩
  have hx := abs_le.mp (ht 0)
  have hy := abs_le.mp (ht 1)
  simp only [lineAt, Matrix.cons_val_zero, Matrix.cons_val_one] at hx hy
  have a1 : -1 < w 0 := by
    have : (-1 : ℚ) < w 0 := by linarith
    exact_mod_cast this
  have a2 : w 0 < 2 := by
    have : (w 0 : ℚ) < 2 := by linarith
    exact_mod_cast this
  have a3 : -1 < w 1 := by
    have : (-1 : ℚ) < w 1 := by linarith
    exact_mod_cast this
  have a4 : w 1 < 2 := by
    have : (w 1 : ℚ) < 2 := by linarith
    exact_mod_cast this
  have key : ∀ s : ℚ, 0 ≤ s → s ≤ 1 → |1 / 4 + s - w 0| < 1 / 2 - tol → |1 / 4 + s * (3 / 8) - w 1| < 1 / 2 - tol →
      Enters (fun _ => 0) (![1 / 4, 1 / 4] : Fin 2 → ℚ) ![5 / 4, 5 / 8] 1 tol w := by
    intro s s0 s1 hs1 hs2
    refine ⟨s, s0, s1, fun i => ?_⟩
    fin_cases i
    · simp only [lineAt, Fin.zero_eta, Matrix.cons_val_zero]
      convert hs1 using 2; ring
    · simp only [lineAt, Fin.mk_one, Matrix.cons_val_one, Matrix.cons_val_fin_one]
      convert hs2 using 2; ring
  have b1 : w 0 = 0 ∨ w 0 = 1 := by omega
  have b2 : w 1 = 0 ∨ w 1 = 1 := by omega
  rcases b1 with b1 | b1 <;> rcases b2 with b2 | b2 <;> rw [b1] at hx key <;> rw [b2] at hy key <;>
    push_cast at hx hy key
  · exact key 0 le_rfl zero_le_one (by rw [abs_lt]; constructor <;> linarith) (by rw [abs_lt]; constructor <;> linarith)
  · exfalso; linarith
  · exact key (1 / 2) (by norm_num) (by norm_num) (by rw [abs_lt]; constructor <;> linarith)
      (by rw [abs_lt]; constructor <;> linarith)
  · exact key 1 (by norm_num) (by norm_num) (by rw [abs_lt]; constructor <;> linarith)
      (by rw [abs_lt]; constructor <;> linarith)

/-- `clearScan` with the point (5/4, 5/8) in front. -/
def frontScan : Point 2 F32 × PointCloud 2 F32 :=
  (![Fp.lit (1 / 4), Fp.lit (1 / 4)], PointCloud.fromPoints [![Fp.lit (5 / 4), Fp.lit (5 / 8)], ![Fp.lit (9 / 4), Fp.lit 1]])

lemma front_clear :
    ClearRays 7 2 1 smallNM.maxRange frontScan.1 frontScan.2 ![1 / 4, 1 / 4] [![5 / 4, 5 / 8], ![9 / 4, 1]] := by
  refine ⟨?_, ?_, ?_⟩
  · rw [frontScan, C13_points_fromPoints]
    refine .cons ⟨by norm_num, by norm_num, by norm_num, by norm_num, by decide +kernel, ?_, by decide +kernel, ?_, ?_, ?_⟩
      (.cons ⟨by norm_num, by norm_num, by norm_num, by norm_num, by decide +kernel, ?_, by decide +kernel, ?_, ?_, ?_⟩ .nil)
    all_goals (intro i; fin_cases i <;> norm_num [abs_of_pos])
  · intro y hy
    rcases List.mem_cons.mp hy with rfl | hy
    · exact half_clear (by norm_num [rayTol])
    · rw [List.mem_singleton] at hy
      subst hy
      exact clear_example (by norm_num [rayTol]) (by norm_num [rayTol])
  · intro y hy
    rcases List.mem_cons.mp hy with rfl | hy
    · exact .inr ⟨60, 3, by decide +kernel, by norm_num, ⟨by norm_num, by decide +kernel⟩, by norm_num⟩
    · rw [List.mem_singleton] at hy
      subst hy
      exact .inr ⟨60, 3, by decide +kernel, by norm_num, ⟨by norm_num, by decide +kernel⟩, by norm_num⟩

lemma front_adds : AddsInFront (1 / 100) 1 (![1 / 4, 1 / 4] : Fin 2 → ℚ) [![9 / 4, 1]] [![5 / 4, 5 / 8], ![9 / 4, 1]] := by
  refine ⟨fun y hy => List.mem_cons_of_mem _ hy, fun y hy => ?_⟩
  rcases List.mem_cons.mp hy with rfl | hy
  · refine .inr ⟨_, List.mem_singleton_self _, clear_example (by norm_num) le_rfl, 1 / 2, by norm_num, by norm_num, ?_⟩
    decide +kernel
  · exact .inl hy

lemma front_within : WithinCells 4 1 frontScan.2 := by
  intro p hp
  rw [frontScan, C13_points_fromPoints] at hp
  rcases List.mem_cons.mp hp with rfl | hp
  · intro i
    refine ⟨![5 / 4, 5 / 8] i, ?_, ?_⟩ <;> revert i <;> decide +kernel
  · rw [List.mem_singleton] at hp
    subst hp
    intro i
    refine ⟨![9 / 4, 1] i, ?_, ?_⟩ <;> revert i <;> decide +kernel

/-- The hypotheses of C103 for these rays in f32; the ray to the nearer point is (0,0), (1,0), (1,1). -/
example : RayRange 4 (![Fp.lit (1 / 4), Fp.lit (1 / 4)] : Point 2 F32) ![Fp.lit (5 / 4), Fp.lit (5 / 8)]
      ![Fp.lit 0, Fp.lit 0] (Fp.lit 1) ![1 / 4, 1 / 4] ![5 / 4, 5 / 8] (fun _ => 0) 1 ∧
    (∀ i, |cellFromPoint (![Fp.lit (5 / 4), Fp.lit (5 / 8)] : Point 2 F32) ![Fp.lit 0, Fp.lit 0] (Fp.lit 1) i
      - cellFromPoint (![Fp.lit (1 / 4), Fp.lit (1 / 4)] : Point 2 F32) ![Fp.lit 0, Fp.lit 0] (Fp.lit 1) i| ≤ (2 : ℕ)) ∧
    ((5 * 4 + (2 : ℕ) ^ 2 + 10 * (2 : ℕ) + 23) / 2 ^ 24 * 1 : ℚ) ≤ 1 / 100 ∧
    ClearSegment (fun _ => 0) (![1 / 4, 1 / 4] : Fin 2 → ℚ) ![9 / 4, 1] 1 (1 / 100) ∧
    ClearSegment (fun _ => 0) (![1 / 4, 1 / 4] : Fin 2 → ℚ) ![5 / 4, 5 / 8] 1
      ((5 * 4 + (2 : ℕ) ^ 2 + 10 * (2 : ℕ) + 23) / 2 ^ 24 * 1) ∧
    (∀ i, |(![5 / 4, 5 / 8] : Fin 2 → ℚ) i - lineAt ![1 / 4, 1 / 4] ![9 / 4, 1] (1 / 2) i| ≤ 1 / 100) ∧
    castRay 4 (![Fp.lit (1 / 4), Fp.lit (1 / 4)] : Point 2 F32) ![Fp.lit (5 / 4), Fp.lit (5 / 8)]
      ⟨![Fp.lit 0, Fp.lit 0], ![Fp.lit 9, Fp.lit 9]⟩ (Fp.lit 1) (Fp.lit 0) = .ok ([![0, 0], ![1, 0]], some ![1, 1]) := by
  refine ⟨⟨by decide +kernel, by norm_num, by norm_num, by norm_num, by norm_num, by decide +kernel, by decide +kernel,
    by decide +kernel, ?_, ?_, ?_, ?_⟩, by decide +kernel, by norm_num, clear_example (by norm_num) le_rfl,
    half_clear (by norm_num), by decide +kernel, by decide +kernel⟩
  · intro i; fin_cases i <;> norm_num
  · intro i; fin_cases i <;> norm_num
  · intro i; fin_cases i <;> norm_num
  · intro i; right; fin_cases i <;> norm_num

/-- Played into the same empty map, the two scans leave the same value in the cell (1, 0). -/
example : ∃ (m m' : GridMap 2 F32 F32) (cb cb' : CellBounds 2) (v : F32), Playback smallNM smallMap [(m, clearScan)] m ∧
    Playback smallNM smallMap [(m', frontScan)] m' ∧ Placed m cb 1 ∧ Placed m' cb' 1 ∧ Before m cb ![1, 0] v ∧
    Before m' cb' ![1, 0] v := by
  have h1 : ((smallNM.integratePointCloud id 20 smallMap clearScan.1 clearScan.2).toOption.isSome &&
      (smallNM.integratePointCloud id 20 smallMap frontScan.1 frontScan.2).toOption.isSome) = true := by decide +kernel
  have hid : IsOrder (id : List (Verif.Cell 2) → List (Verif.Cell 2)) := fun l => List.Perm.refl l
  cases e1 : smallNM.integratePointCloud id 20 smallMap clearScan.1 clearScan.2 with
  | error e => rw [e1] at h1; cases h1
  | ok m =>
    cases e2 : smallNM.integratePointCloud id 20 smallMap frontScan.1 frontScan.2 with
    | error e => rw [e1, e2] at h1; cases h1
    | ok m' =>
      have p1 : Playback smallNM smallMap [(m, clearScan)] m := .scan .start hid ⟨20, e1⟩
      have p2 : Playback smallNM smallMap [(m', frontScan)] m' := .scan .start hid ⟨20, e2⟩
      obtain ⟨cb, cb', k1, k2, k3⟩ := C103_playback (M := 4) (N := 7) (K := 2) (τ := 1 / 100)
        (scans := [(![1 / 4, 1 / 4], [![9 / 4, 1]])])
        (scans' := [(![1 / 4, 1 / 4], [![5 / 4, 5 / 8], ![9 / 4, 1]])]) (.inl rfl) smallMap_placed (by norm_num) rfl
        (by norm_num) (by simpa using one_within) (by simpa using front_within) (.cons one_clear .nil)
        (.cons front_clear .nil) p1 p2 (by norm_num) (.cons ⟨rfl, front_adds⟩ .nil)
      obtain ⟨v, k4, k5⟩ := k3 ![1, 0] (.cons (by decide +kernel) .nil)
      exact ⟨m, m', cb, cb', v, p1, p2, k1, k2, k4, k5⟩

end Verif.Props
