import Verif.Props.Cut
import Verif.Spec.Longer

/-!
# C106: a longer range limit
-/

namespace Verif.Props
open Spec Scalar

/-! ## Any arithmetic -/

section
variable {F : Type} [Scalar F] {D : ℕ} {origin end_ : Point D F} {bounds : Bounds D F} {res ml1 ml2 : F}
  {ray1 ray2 : List (Cell D)} {e1 e2 : Option (Cell D)}

/-- Two loops that differ in the range limit only are the same, up to the first cell that is too far for the shorter
one. -/
private lemma castLoop_longer {c : RayCtx D F} {ml : F}
    (hfar : ∀ z, ({ c with maxLen := ml } : RayCtx D F).tooFar z = true → c.tooFar z = true) {fuel : ℕ} {cell : Cell D}
    {t : Point D F} {r1 r2 : List (Cell D)} {x1 x2 : Option (Cell D)}
    (h1 : castLoop c fuel cell t = .ok (r1, x1))
    (h2 : castLoop { c with maxLen := ml } fuel cell t = .ok (r2, x2)) :
    r1 = r2 ∧ x1 = x2 ∨ x1 = none ∧ ∃ z rest, r2 = r1 ++ z :: rest ∧ c.tooFar z = true := by
  induction fuel generalizing cell t r1 r2 x1 x2 with
  | zero => simp [castLoop] at h1
  | succ n ih =>
    simp only [castLoop] at h1 h2
    cases hd : selDim t with
    | none => rw [hd] at h1; cases h1
    | some d =>
      rw [hd] at h1 h2
      simp only [M.bind_eq_ok] at h1 h2
      obtain ⟨z, hz, h1⟩ := h1
      obtain ⟨z', hz', h2⟩ := h2
      rw [hz] at hz'
      cases hz'
      by_cases he : Function.update cell d z = c.endCell
      · rw [if_pos he] at h1 h2
        cases h1
        cases h2
        exact .inl ⟨rfl, rfl⟩
      · rw [if_neg he] at h1 h2
        by_cases hf1 : c.tooFar (Function.update cell d z) = true
        · rw [if_pos hf1] at h1
          cases h1
          split_ifs at h2 with hf2
          · cases h2
            exact .inl ⟨rfl, rfl⟩
          · rw [M.bind_eq_ok] at h2
            obtain ⟨⟨r2', x2'⟩, -, h2⟩ := h2
            cases h2
            exact .inr ⟨rfl, _, _, rfl, hf1⟩
        · rw [if_neg hf1, M.bind_eq_ok] at h1
          rw [if_neg (fun h => hf1 (hfar _ h)), M.bind_eq_ok] at h2
          obtain ⟨⟨r1', x1'⟩, h3, h1⟩ := h1
          obtain ⟨⟨r2', x2'⟩, h4, h2⟩ := h2
          cases h1
          cases h2
          rcases ih h3 h4 with ⟨i1, i2⟩ | ⟨i1, z', rest, i2, i3⟩
          · exact .inl ⟨by rw [i1], i2⟩
          · exact .inr ⟨i1, z', rest, by rw [i2]; rfl, i3⟩

/-- C106, one ray, for any arithmetic: with two limits of which the second is the longer (or none), the rays are the
same; or the first is the second cut before a cell that is beyond the first limit, and reports no end. -/
theorem C106_ray (h1 : Casts origin end_ bounds res ml1 ray1 e1) (h2 : Casts origin end_ bounds res ml2 ray2 e2)
    (hml : (lit 0 <. ml1) = true)
    (hle : (lit 0 <. ml2) = true → ∀ z, Beyond origin bounds res ml2 z → Beyond origin bounds res ml1 z) :
    ray1 = ray2 ∧ e1 = e2 ∨
      e1 = none ∧ ∃ z rest, ray2 = ray1 ++ z :: rest ∧ Beyond origin bounds res ml1 z := by
  obtain ⟨n1, h1⟩ := h1
  obtain ⟨n2, h2⟩ := h2
  replace h1 := castRay_mono h1 n2
  replace h2 := castRay_mono h2 n1
  rw [Nat.add_comm] at h2
  unfold castRay at h1 h2
  split_ifs at h1 h2 with hD
  dsimp only at h1 h2
  by_cases hne : cellFromPoint origin bounds.min res = cellFromPoint end_ bounds.min res
  · rw [if_pos hne] at h1 h2
    cases h1
    cases h2
    exact .inl ⟨rfl, rfl⟩
  · rw [if_neg hne, M.bind_eq_ok] at h1 h2
    obtain ⟨⟨r1, x1⟩, g1, h1⟩ := h1
    obtain ⟨⟨r2, x2⟩, g2, h2⟩ := h2
    cases h1
    cases h2
    rcases castLoop_longer (c := rayCtx origin end_ bounds res ml1) (ml := ml2) (by
      intro z hz
      unfold RayCtx.tooFar at hz ⊢
      change ((lit 0 <. ml2) && _) = true at hz
      change ((lit 0 <. ml1) && _) = true
      rw [Bool.and_eq_true] at hz
      rw [hml, Bool.true_and]
      exact hle hz.1 z hz.2) g1 g2 with ⟨i1, i2⟩ | ⟨i1, z, rest, i2, i3⟩
    · exact .inl ⟨by rw [i1], i2⟩
    · refine .inr ⟨i1, z, rest, by rw [i2]; rfl, ?_⟩
      unfold RayCtx.tooFar at i3
      rw [Bool.and_eq_true] at i3
      exact i3.2

/-- C106, one scan, for any arithmetic: with the longer limit a scan tells no less about a cell. -/
theorem C106_no_less {cloud : PointCloud D F}
    (h2 : ∀ p ∈ cloud.points, ∃ ray e, Casts origin p bounds res ml2 ray e) (hml : (lit 0 <. ml1) = true)
    (hle : (lit 0 <. ml2) = true → ∀ z, Beyond origin bounds res ml2 z → Beyond origin bounds res ml1 z) (c : Cell D) :
    NoLess (seen origin cloud bounds res ml1 c) (seen origin cloud bounds res ml2 c) := by
  have hhit : (∃ p ∈ cloud.points, ∃ ray, Casts origin p bounds res ml1 ray (some c)) →
      ∃ p ∈ cloud.points, ∃ ray, Casts origin p bounds res ml2 ray (some c) := by
    rintro ⟨p, hp, ray, hr⟩
    obtain ⟨ray2, e2, hr2⟩ := h2 p hp
    rcases C106_ray hr hr2 hml hle with ⟨rfl, rfl⟩ | ⟨h, -⟩
    · exact ⟨p, hp, _, hr2⟩
    · cases h
  have hmiss : (∃ p ∈ cloud.points, ∃ ray e, Casts origin p bounds res ml1 ray e ∧ c ∈ ray) →
      ∃ p ∈ cloud.points, ∃ ray e, Casts origin p bounds res ml2 ray e ∧ c ∈ ray := by
    rintro ⟨p, hp, ray, e, hr, hc⟩
    obtain ⟨ray2, e2, hr2⟩ := h2 p hp
    refine ⟨p, hp, _, _, hr2, ?_⟩
    rcases C106_ray hr hr2 hml hle with ⟨rfl, rfl⟩ | ⟨-, z, rest, rfl, -⟩
    · exact hc
    · exact List.mem_append_left _ hc
  unfold seen
  by_cases a1 : ∃ p ∈ cloud.points, ∃ ray, Casts origin p bounds res ml1 ray (some c)
  · rw [if_pos a1, if_pos (hhit a1)]
    rfl
  · rw [if_neg a1]
    by_cases a2 : ∃ p ∈ cloud.points, ∃ ray e, Casts origin p bounds res ml1 ray e ∧ c ∈ ray
    · rw [if_pos a2, if_pos (hmiss a2)]
      split_ifs <;> simp [NoLess]
    · rw [if_neg a2]
      trivial
end

/-! ## f32 -/

section
variable {D : ℕ} {ρ lam : ℚ} {nm1 nm2 : LidarNoiseModel F32} {N : ℕ} {x : Fin D → ℚ}

private lemma limit_pos {ml : F32} (hml : ml.Is lam) (h0 : 0 < lam) : Scalar.lt (lit 0) ml = true := by
  have : Fp.lt (Fp.lit 0) ml = decide (0 < lam) := Fp.Is.lt F32.zero_is hml
  rw [show Scalar.lt (lit 0) ml = decide (0 < lam) from this, decide_eq_true_iff]
  exact h0

private lemma longer_beyond {o : Point D F32} {bounds : Bounds D F32} {r : F32} (hl1 : nm1.maxRange.Is lam) (h0 : 0 < lam)
    (hl2 : LongLimit nm2 lam) : Scalar.lt (lit 0) nm2.maxRange = true →
      ∀ z, Beyond o bounds r nm2.maxRange z → Beyond o bounds r nm1.maxRange z := by
  intro hpos z hz
  rcases hl2 with hl2 | ⟨l2, hl2, hle, hbig⟩
  · rw [hpos] at hl2; cases hl2
  have sq : ∀ {l : ℚ}, 0 < l → l ≤ 2 ^ 60 → |l * l| ≤ 2 ^ 120 := by
    intro l a b
    rw [abs_of_pos (by positivity)]
    calc l * l ≤ 2 ^ 60 * 2 ^ 60 := by gcongr
      _ = 2 ^ 120 := by norm_num
  have m1 := hl1.mul hl1 (F32.noOvf ((sq h0 (hle.trans hbig)).trans (by norm_num)))
  have m2 := hl2.mul hl2 (F32.noOvf ((sq (h0.trans_le hle) hbig).trans (by norm_num)))
  have hr : b32.rnd (lam * lam) ≤ b32.rnd (l2 * l2) := Fmt.rnd_mono (mul_le_mul hle hle h0.le (h0.le.trans hle))
  unfold Beyond at hz ⊢
  obtain ⟨k1, k2, k3⟩ := Fp.lt_iff.mp hz
  exact Fp.lt_iff.mpr ⟨Fp.notNaN_is m1, k2, ((Fp.FLe_is m1 m2).mpr hr).2.2.trans_lt k3⟩

/-- C106, one ray in f32: a cell whose centre is nearer than the shorter limit by two cells and the rounding errors is
passed, or reported as the end, with the longer limit if and only if it is with the shorter. -/
theorem C106_near_ray {M B : ℚ} {o e : Point D F32} {bounds : Bounds D F32} {r : F32} {y q : Fin D → ℚ} {z : Cell D}
    {ray1 ray2 : List (Cell D)} {e1 e2 : Option (Cell D)} {l : ℚ} (hD : D = 2 ∨ D = 3)
    (h : RayRange M o e bounds.min r x y q ρ) (hMB : M + 1 ≤ B) (hB : B ≤ 2 ^ 21) (hz : ∀ i, |(z i : ℚ)| ≤ B)
    (hl1 : nm1.maxRange.Is lam) (h60 : lam ≤ 2 ^ 60) (hl2 : LongLimit nm2 lam)
    (h1 : Casts o e bounds r nm1.maxRange ray1 e1) (h2 : Casts o e bounds r nm2.maxRange ray2 e2)
    (hd : DistLe x (centre q ρ z) l) (hl : l + 2 * ρ + rangeTol B ρ ≤ lam * (1 - 1 / 2 ^ 20)) :
    (z ∈ ray2 ↔ z ∈ ray1) ∧ (e2 = some z ↔ e1 = some z) := by
  have hp := h.pos
  have hlo := h.lo
  have hM := h.M_hi
  have hM1 := h.M_lo
  have hl0 := hd.1
  have ht : 0 ≤ rangeTol B ρ := by
    unfold rangeTol
    have : 0 ≤ (5 * B + 4) / 2 ^ 24 * ρ := mul_nonneg (by norm_num; linarith) hp.le
    linarith
  have hlam : 1 / 2 ^ 60 ≤ lam := by norm_num at hlo hl ⊢; linarith
  have hlam0 : 0 < lam := lt_of_lt_of_le (by norm_num) hlam
  rcases C106_ray h1 h2 (limit_pos hl1 hlam0) (longer_beyond hl1 hlam0 hl2) with ⟨rfl, rfl⟩ | ⟨rfl, b, rest, rfl, h3⟩
  · exact ⟨.rfl, .rfl⟩
  -- a cell from the cut on has the cell of the cut between it and the sensor
  have key : ¬ Between (cellFromPoint o bounds.min r) z b := by
    intro hbt
    have horig : ∀ i, |(cellFromPoint o bounds.min r i : ℚ)| ≤ B := fun i =>
      (origin_cell h i).1.trans (by linarith)
    refine C68_near hD h (N := B) (by linarith) hB (fun i => ?_) hl1 hlam h60 ?_ hl h3
    · have a1 := abs_le.mp (horig i)
      have a2 := abs_le.mp (hz i)
      obtain ⟨h3, h4⟩ := hbt i
      have h3' : min (cellFromPoint o bounds.min r i : ℚ) (z i) ≤ b i := by exact_mod_cast h3
      have h4' : (b i : ℚ) ≤ max (cellFromPoint o bounds.min r i : ℚ) (z i) := by exact_mod_cast h4
      rw [abs_le]
      rcases min_le_iff.mp h3' with h5 | h5 <;> rcases le_max_iff.mp h4' with h6 | h6 <;> constructor <;> linarith
    refine distLe_of_axes (by omega) hp.le hd fun i => ?_
    have h1 := abs_le.mp (in_cell h i)
    obtain ⟨h3, h4⟩ := hbt i
    have h3' : min (cellFromPoint o bounds.min r i : ℚ) (z i) ≤ b i := by exact_mod_cast h3
    have h4' : (b i : ℚ) ≤ max (cellFromPoint o bounds.min r i : ℚ) (z i) := by exact_mod_cast h4
    have h5 := neg_abs_le (centre q ρ z i - x i)
    have h6 := le_abs_self (centre q ρ z i - x i)
    have h7 := abs_nonneg (centre q ρ z i - x i)
    generalize |centre q ρ z i - x i| = A at *
    unfold centre at *
    rw [abs_le]
    constructor
    · rcases min_le_iff.mp h3' with h7 | h7
      · have := mul_le_mul_of_nonneg_right h7 hp.le; linarith
      · have := mul_le_mul_of_nonneg_right h7 hp.le; linarith
    · rcases le_max_iff.mp h4' with h7 | h7
      · have := mul_le_mul_of_nonneg_right h7 hp.le; linarith
      · have := mul_le_mul_of_nonneg_right h7 hp.le; linarith
  refine ⟨⟨fun hm => ?_, fun hm => List.mem_append_left _ hm⟩, fun hm => ?_, fun hm => by cases hm⟩
  · rcases List.mem_append.mp hm with hm | hm
    · exact hm
    · exfalso
      have hpw := (List.pairwise_append.mp (C19_no_return h2)).2.1
      rcases List.mem_cons.mp hm with rfl | hm
      · exact key fun i => ⟨min_le_right _ _, le_max_right _ _⟩
      · exact key ((List.pairwise_cons.mp hpw).1 z hm)
  · exact absurd (C19_in_box (hm ▸ h2) b (by simp)) key

/-- C106, one scan in f32: about a world cell well within the shorter limit the scan tells the same with both. -/
theorem C106_near_scan {m : GridMap D F32 F32} {cb : CellBounds D} {origin : Point D F32} {cloud : PointCloud D F32}
    (hD : D = 2 ∨ D = 3) (hP : Placed m cb ρ) (hc : ∀ i, |cb.min i| ≤ N) (ha : AimedFrom N ρ origin cloud x)
    (hl1 : nm1.maxRange.Is lam) (h60 : lam ≤ 2 ^ 60) (hl2 : LongLimit nm2 lam)
    (h1 : ∀ p ∈ cloud.points, ∃ ray e, Casts origin p m.bounds m.resolution nm1.maxRange ray e)
    (h2 : ∀ p ∈ cloud.points, ∃ ray e, Casts origin p m.bounds m.resolution nm2.maxRange ray e)
    {w : Cell D} (hwN : ∀ i, |w i| ≤ N) (hw : WellWithin ρ lam x w) :
    seen origin cloud m.bounds m.resolution nm2.maxRange (localCell m w)
      = seen origin cloud m.bounds m.resolution nm1.maxRange (localCell m w) := by
  have hpos := hP.res.pos
  obtain ⟨l, hd, hl⟩ := hw
  have hloc : localCell m w = fun i => w i - cb.min i := by
    unfold localCell; rw [hP.cells]
  have key : ∀ p ∈ cloud.points, ∀ ray1 e1 ray2 e2, Casts origin p m.bounds m.resolution nm1.maxRange ray1 e1 →
      Casts origin p m.bounds m.resolution nm2.maxRange ray2 e2 →
      (localCell m w ∈ ray2 ↔ localCell m w ∈ ray1) ∧ (e2 = some (localCell m w) ↔ e1 = some (localCell m w)) := by
    intro p hp ray1 e1 ray2 e2 hr1 hr2
    obtain ⟨K, y, hA⟩ := ha p hp
    obtain ⟨q, hq, hrr, -⟩ := aims_range hP hc hA
    have hNq : (N : ℚ) ≤ 262144 := by exact_mod_cast hA.N_hi
    have hNq1 : (1 : ℚ) ≤ N := by exact_mod_cast hA.N_lo
    refine C106_near_ray (B := 2 * N + 2) (l := l + 1 / 4 * ρ) hD hrr (by linarith) (by norm_num; linarith) (fun i => ?_)
      hl1 h60 hl2 hr1 hr2 ?_ ?_
    · rw [hloc]
      have a1 : |(w i : ℚ)| ≤ N := by exact_mod_cast hwN i
      have a2 : |(cb.min i : ℚ)| ≤ N := by exact_mod_cast hc i
      have := abs_sub (w i : ℚ) (cb.min i)
      push_cast
      linarith
    · have hcen := distLe_of_coords (D := D) (y := centre q ρ fun i => w i - cb.min i) (x := fun i => (w i : ℚ) * ρ)
        (η := 1 / 8 * ρ) (by omega) (by positivity) (by
          intro i
          refine le_trans (le_of_eq ?_) ((hq i).trans (mul_le_mul_of_nonneg_right ?_ hpos.le))
          · unfold centre
            push_cast
            congr 1
            ring
          · rw [div_le_iff₀ (by norm_num)]
            norm_num
            linarith)
      rw [hloc]
      exact (hd.trans hcen).mono (by linarith)
    · have : rangeTol (2 * N + 2) ρ ≤ 1 / 2 * ρ := by
        have e : rangeTol (2 * (N : ℚ) + 2) ρ = 2 * (5 * (2 * N + 2) + 4) / 2 ^ 24 * ρ := by unfold rangeTol; ring
        rw [e]
        refine mul_le_mul_of_nonneg_right ?_ hpos.le
        rw [div_le_iff₀ (by norm_num)]
        norm_num
        linarith
      linarith
  unfold seen
  refine told_congr ⟨?_, ?_⟩ fun _ => ⟨?_, ?_⟩
  · rintro ⟨p, hp, ray2, hr2⟩
    obtain ⟨ray1, e1, hr1⟩ := h1 p hp
    exact ⟨p, hp, ray1, (key p hp _ _ _ _ hr1 hr2).2.mp rfl ▸ hr1⟩
  · rintro ⟨p, hp, ray1, hr1⟩
    obtain ⟨ray2, e2, hr2⟩ := h2 p hp
    exact ⟨p, hp, ray2, (key p hp _ _ _ _ hr1 hr2).2.mpr rfl ▸ hr2⟩
  · rintro ⟨p, hp, ray2, e2, hr2, hm⟩
    obtain ⟨ray1, e1, hr1⟩ := h1 p hp
    exact ⟨p, hp, ray1, e1, hr1, (key p hp _ _ _ _ hr1 hr2).1.mp hm⟩
  · rintro ⟨p, hp, ray1, e1, hr1, hm⟩
    obtain ⟨ray2, e2, hr2⟩ := h2 p hp
    exact ⟨p, hp, ray2, e2, hr2, (key p hp _ _ _ _ hr1 hr2).1.mpr hm⟩

/-! ## The same scans played with two noise models -/

lemma playback_nil {nm : LidarNoiseModel F32} {m₀ m : GridMap D F32 F32} {hist} (h : Playback nm m₀ hist m)
    (hn : hist = []) : SameGrid m₀ m := by
  induction h with
  | start => exact ⟨rfl, rfl, rfl, rfl⟩
  | scan => simp at hn
  | marks _ hg ih =>
    obtain ⟨a1, a2, a3, a4⟩ := ih hn
    obtain ⟨b1, b2, b3, b4⟩ := hg
    exact ⟨b1.trans a1, b2.trans a2, b3.trans a3, b4.trans a4⟩

lemma playback_snoc {nm : LidarNoiseModel F32} {m₀ m : GridMap D F32 F32} {hist l e} (h : Playback nm m₀ hist m)
    (hl : hist = l ++ [e]) :
    ∃ m1 ord, Playback nm m₀ l m1 ∧ IsOrder ord ∧ Integrates ord nm m1 e.2.1 e.2.2 e.1 ∧ SameGrid e.1 m := by
  induction h with
  | start => simp at hl
  | scan h1 ho hi =>
    obtain ⟨rfl, h3⟩ := List.append_inj' hl rfl
    obtain rfl := List.singleton_inj.mp h3
    exact ⟨_, _, h1, ho, hi, rfl, rfl, rfl, rfl⟩
  | marks _ hg ih =>
    obtain ⟨m1, ord, c1, c2, c3, a1, a2, a3, a4⟩ := ih hl
    obtain ⟨b1, b2, b3, b4⟩ := hg
    exact ⟨m1, ord, c1, c2, c3, b1.trans a1, b2.trans a2, b3.trans a3, b4.trans a4⟩

/-- The bounds that a map gets do not depend on its values. -/
lemma expand_same {m m' me me' : GridMap D F32 F32} {b : Bounds D F32} {d : F32} (h1 : m'.bounds = m.bounds)
    (h2 : m'.resolution = m.resolution) (h3 : m'.tileSize = m.tileSize) (he : m.expandBounds b d = .ok me)
    (he' : m'.expandBounds b d = .ok me') :
    me'.bounds = me.bounds ∧ me'.resolution = me.resolution ∧ me'.tileSize = me.tileSize := by
  have hn : m'.newCellBounds b = m.newCellBounds b := by unfold GridMap.newCellBounds; rw [h1, h2, h3]
  unfold GridMap.expandBounds at he he'
  rw [hn] at he'
  rw [M.bind_eq_ok] at he he'
  obtain ⟨ncb, a1, a2⟩ := he
  obtain ⟨ncb', b1, b2⟩ := he'
  rw [a1] at b1
  cases b1
  dsimp only at a2 b2
  rw [h1, h2] at b2
  split_ifs at a2 b2 with hc
  · cases a2
    cases b2
    exact ⟨h1, h2, h3⟩
  all_goals
    simp only [M.bind_eq_ok] at a2 b2
    obtain ⟨t, -, t', -, a2⟩ := a2
    obtain ⟨u, -, u', -, b2⟩ := b2
    cases a2
    cases b2
    exact ⟨rfl, rfl, h3⟩

/-- C106: whatever the noise models, maps that have taken the same scans have the same bounds, after each scan. -/
theorem C106_same_bounds {m₀ m1 m2 : GridMap D F32 F32} {hist1 hist2} (h1 : Playback nm1 m₀ hist1 m1)
    (h2 : Playback nm2 m₀ hist2 m2) (hs : hist2.map (·.2) = hist1.map (·.2)) :
    (m2.bounds = m1.bounds ∧ m2.resolution = m1.resolution ∧ m2.tileSize = m1.tileSize) ∧
    List.Forall₂ (fun a b => b.2 = a.2 ∧ b.1.bounds = a.1.bounds ∧ b.1.resolution = a.1.resolution ∧
      (∀ p ∈ a.2.2.points, ∃ ray e, Casts a.2.1 p a.1.bounds a.1.resolution nm1.maxRange ray e) ∧
      ∀ p ∈ a.2.2.points, ∃ ray e, Casts a.2.1 p a.1.bounds a.1.resolution nm2.maxRange ray e) hist1 hist2 := by
  induction hist1 using List.reverseRecOn generalizing hist2 m1 m2 with
  | nil =>
    obtain rfl : hist2 = [] := by simpa using hs
    obtain ⟨-, a1, a2, a3⟩ := playback_nil h1 rfl
    obtain ⟨-, b1, b2, b3⟩ := playback_nil h2 rfl
    exact ⟨⟨by rw [a1, b1], by rw [a2, b2], by rw [a3, b3]⟩, .nil⟩
  | append_singleton l a ih =>
    rcases List.eq_nil_or_concat hist2 with rfl | ⟨l', b, rfl⟩
    · simp at hs
    rw [List.concat_eq_append] at *
    rw [List.map_append, List.map_append] at hs
    obtain ⟨hs1, hs2⟩ := List.append_inj' hs rfl
    have hab : b.2 = a.2 := by simpa using hs2
    obtain ⟨n1, ord1, a1, a2, a3, a4⟩ := playback_snoc h1 rfl
    obtain ⟨n2, ord2, b1, b2, b3, b4⟩ := playback_snoc h2 rfl
    obtain ⟨⟨i1, i2, i3⟩, i4⟩ := ih a1 b1 hs1
    obtain ⟨me1, f1, o1, c1, c2, -, -, -, c3, c4, c5, -⟩ := C38_integrate a2 a3
    obtain ⟨me2, f2, o2, d1, d2, -, -, -, d3, d4, d5, -⟩ := C38_integrate b2 b3
    rw [hab] at d1 d2
    obtain ⟨k1, k2, k3⟩ := expand_same i1 i2 i3 c1 d1
    have e1 : b.1.bounds = a.1.bounds := by rw [d3, c3, k1]
    have e2 : b.1.resolution = a.1.resolution := by rw [d4, c4, k2]
    have e3 : b.1.tileSize = a.1.tileSize := by rw [d5, c5, k3]
    obtain ⟨-, a5, a6, a7⟩ := a4
    obtain ⟨-, b5, b6, b7⟩ := b4
    refine ⟨⟨by rw [a5, b5, e1], by rw [a6, b6, e2], by rw [a7, b7, e3]⟩, List.rel_append i4 (.cons ⟨hab, e1, e2, ?_, ?_⟩ .nil)⟩
    · have := C28_returns_iff.mp ⟨f1, o1, c2⟩
      rw [c3, c4]
      exact this
    · have := C28_returns_iff.mp ⟨f2, o2, d2⟩
      rw [c3, c4, ← k1, ← k2]
      exact this

/-- C106, for recordings: play the same scans with two noise models that differ in the range limit only. With the longer
limit each scan tells no less about any cell; and a world cell that is well within the shorter limit of every sensor
has the same value in both maps. -/
theorem C106_playback {M : ℕ} {m₀ m1 m2 : GridMap D F32 F32} {hist1 hist2} (hD : D = 2 ∨ D = 3)
    (h0 : Placed m₀ CellBounds.empty ρ) (hM1 : 1 ≤ M) (hN : N = M + m₀.tileSize + 1) (hN18 : N ≤ 2 ^ 18)
    (hnm : nm2.hit = nm1.hit ∧ nm2.miss = nm1.miss ∧ nm2.max = nm1.max ∧ nm2.min = nm1.min)
    (hl1 : nm1.maxRange.Is lam) (hpos : 0 < lam) (h60 : lam ≤ 2 ^ 60) (hl2 : LongLimit nm2 lam)
    (hcl : ∀ e ∈ hist1, WithinCells M ρ e.2.2) (h1 : Playback nm1 m₀ hist1 m1) (h2 : Playback nm2 m₀ hist2 m2)
    (hs : hist2.map (·.2) = hist1.map (·.2)) :
    ∃ cb, Placed m1 cb ρ ∧ Placed m2 cb ρ ∧
      List.Forall₂ (fun a b => ∀ w,
        NoLess (seen a.2.1 a.2.2 a.1.bounds a.1.resolution nm1.maxRange (localCell a.1 w))
          (seen b.2.1 b.2.2 b.1.bounds b.1.resolution nm2.maxRange (localCell b.1 w))) hist1 hist2 ∧
      ∀ w : Cell D, (∀ i, |w i| ≤ N) → (∀ e ∈ hist1, ∃ x, AimedFrom N ρ e.2.1 e.2.2 x ∧ WellWithin ρ lam x w) →
        ∃ v, Before m1 cb w v ∧ Before m2 cb w v := by
  have hres := h0.res.pos
  have hcr : ∀ e ∈ hist1, CloudInRange e.2.2 ρ := by
    intro e he p hp i
    obtain ⟨y, h1, h2⟩ := hcl e he p hp i
    have : (M : ℚ) ≤ 262144 := by
      have : M ≤ 262144 := by omega
      exact_mod_cast this
    exact ⟨y, h1, h2.trans (by norm_num; gcongr)⟩
  have hcl2 : ∀ e ∈ hist2, e.2 ∈ hist1.map (·.2) := fun e he => hs ▸ List.mem_map_of_mem he
  obtain ⟨cb, q1, q2⟩ := C69_values (by omega) h0 hcr h1
  obtain ⟨cb', r1, r2⟩ := C69_values (by omega) h0 (fun e he => by
    obtain ⟨e', he', h⟩ := List.mem_map.mp (hcl2 e he)
    rw [← h]; exact hcr e' he') h2
  have hcor := (playback_corner (by omega) h0 hM1 (by omega) hcl h1).2
  obtain ⟨⟨s1, s2, s3⟩, s4⟩ := C106_same_bounds h1 h2 hs
  have hcb : cb' = cb := by rw [← q1.cells, ← r1.cells, s1, s2]
  subst hcb
  refine ⟨cb', q1, r1, s4.imp fun a b hab w => ?_, fun w hwN hw => ?_⟩
  · obtain ⟨t1, t2, t3, t4, t5⟩ := hab
    have : localCell b.1 w = localCell a.1 w := by unfold localCell; rw [t2, t3]
    rw [t1, t2, t3, this]
    exact C106_no_less t5 (limit_pos hl1 hpos) (longer_beyond hl1 hpos hl2) _
  · have hfold : ∀ v, foldSeen nm2 hist2 w v = foldSeen nm1 hist1 w v := by
      obtain ⟨n1, n2, n3, n4⟩ := hnm
      have hap : ∀ v s, Seen.apply nm2 v s = Seen.apply nm1 v s := by
        intro v s
        cases s <;> simp only [Seen.apply, n1, n2, n3, n4]
      unfold foldSeen
      clear q2 r2 h1 h2 hcl hcl2 hcr hs
      induction s4 with
      | nil => intro v; rfl
      | @cons a b _ _ hab _ ih =>
        intro v
        obtain ⟨t1, t2, t3, t4, t5⟩ := hab
        obtain ⟨cb1, hP1, hlow⟩ := hcor _ List.mem_cons_self
        obtain ⟨x, hx1, hx2⟩ := hw _ List.mem_cons_self
        have e : localCell b.1 w = localCell a.1 w := by unfold localCell; rw [t2, t3]
        rw [List.foldl_cons, List.foldl_cons, hap, t1, t2, t3, e, C106_near_scan hD hP1
          (fun i => by rw [hN]; exact hlow.abs_le h0.tile_pos i) hx1 hl1 h60 hl2 t4 t5 hwN hx2]
        exact ih (fun e he => hcor e (List.mem_cons_of_mem _ he)) (fun e he => hw e (List.mem_cons_of_mem _ he)) _
    have hz : worldValue m₀ CellBounds.empty w = .ok (Fp.lit 0) := if_neg fun h => by
      have := h ⟨0, by omega⟩
      simp only [CellBounds.empty] at this
      omega
    have hb : ∀ {m : GridMap D F32 F32} {v : F32}, worldValue m cb' w = .ok v → Before m cb' w v := by
      intro m v hv
      refine ⟨fun hin => ?_, fun hin => ?_⟩
      · rw [← hv]; exact (if_pos hin).symm
      · rw [show worldValue m cb' w = .ok (Fp.lit 0) from if_neg hin] at hv
        exact (Except.ok.inj hv).symm
    refine ⟨foldSeen nm1 hist1 w (Fp.lit 0), hb ?_, hb ?_⟩
    · rw [q2 w, hz]; rfl
    · rw [r2 w, hz, ← hfold]; rfl

/-! ## The visualizer -/

open Viz

variable {n : ℕ} {recs : ℕ → Point D F32 × PointCloud D F32}
  {ord1 ord2 : ℕ → List (Verif.Cell D) → List (Verif.Cell D)} {m₀ : GridMap D F32 F32}
  {s1 s2 : State (GridMap D F32 F32) (Verif.Cell D) (Point D F32)}

/-- C106, for the visualizer: two runs on the same recordings, with noise models that differ in the range limit only. At
moments when the renderers have processed a batch and as many scans have been started, the maps have the same bounds,
and agree on every world cell that is well within the shorter limit of every sensor. -/
theorem C106_visualizer {M : ℕ} (hD : D = 2 ∨ D = 3) (hn : 0 < n) (h0 : Placed m₀ CellBounds.empty ρ)
    (ho1 : ∀ r, IsOrder (ord1 r)) (ho2 : ∀ r, IsOrder (ord2 r)) (hM1 : 1 ≤ M) (hN : N = M + m₀.tileSize + 1)
    (hN18 : N ≤ 2 ^ 18)
    (hnm : nm2.hit = nm1.hit ∧ nm2.miss = nm1.miss ∧ nm2.max = nm1.max ∧ nm2.min = nm1.min)
    (hl1 : nm1.maxRange.Is lam) (hpos : 0 < lam) (h60 : lam ≤ 2 ^ 60) (hl2 : LongLimit nm2 lam)
    (hcl : ∀ r < n, WithinCells M ρ (recs r).2) (hr1 : Reach (occOps nm1 recs ord1) n m₀ s1)
    (hr2 : Reach (occOps nm2 recs ord2) n m₀ s2) (hm1 : s1.main = .clearFlag ∨ s1.main = .spawn)
    (hm2 : s2.main = .clearFlag ∨ s2.main = .spawn) (hw : s2.workers.length = s1.workers.length) :
    s2.map.bounds = s1.map.bounds ∧ s2.map.resolution = s1.map.resolution ∧
    ∃ cb, Placed s1.map cb ρ ∧ Placed s2.map cb ρ ∧ ∀ w : Verif.Cell D, (∀ i, |w i| ≤ N) →
      (∀ r < n, ∃ x, AimedFrom N ρ (recs r).1 (recs r).2 x ∧ WellWithin ρ lam x w) →
      ∃ v, Before s1.map cb w v ∧ Before s2.map cb w v := by
  obtain ⟨hist1, p1, p2, -, -, p3⟩ := C69_playback hn ho1 hr1
  obtain ⟨hist2, q1, q2, -, -, q3⟩ := C69_playback hn ho2 hr2
  have hs : hist2.map (·.2) = hist1.map (·.2) := by rw [p2, q2, p3 hm1, q3 hm2, hw]
  have hat : ∀ e ∈ hist1, ∃ r < n, e.2 = recs r := by
    intro e he
    have : e.2 ∈ cyclic recs n hist1.length := p2 ▸ List.mem_map_of_mem he
    unfold cyclic at this
    obtain ⟨j, -, hj⟩ := List.mem_map.mp this
    exact ⟨j % n, Nat.mod_lt _ hn, hj.symm⟩
  obtain ⟨⟨c1, c2, -⟩, -⟩ := C106_same_bounds p1 q1 hs
  obtain ⟨cb, d1, d2, -, d3⟩ := C106_playback hD h0 hM1 hN hN18 hnm hl1 hpos h60 hl2 (fun e he => by
    obtain ⟨r, hr, h⟩ := hat e he
    rw [h]; exact hcl r hr) p1 q1 hs
  refine ⟨c1, c2, cb, d1, d2, fun w hwN hx => d3 w hwN fun e he => ?_⟩
  obtain ⟨r, hr, h⟩ := hat e he
  rw [h]
  exact hx r hr

/-- C106, on the screen: if no recording reaches below the tiles that the first one reaches, then at such moments the
same of these cells are drawn, at the same points. -/
theorem C106_screen {M : ℕ} (hD : D = 2 ∨ D = 3) (hn : 0 < n) (h0 : Placed m₀ CellBounds.empty ρ)
    (ht0 : m₀.changedCells = []) (hth : FLe (Fp.lit 0) nm1.threshold) (hth' : nm2.threshold = nm1.threshold)
    (ho1 : ∀ r, IsOrder (ord1 r)) (ho2 : ∀ r, IsOrder (ord2 r)) (hM1 : 1 ≤ M) (hN : N = M + m₀.tileSize + 1)
    (hN18 : N ≤ 2 ^ 18)
    (hnm : nm2.hit = nm1.hit ∧ nm2.miss = nm1.miss ∧ nm2.max = nm1.max ∧ nm2.min = nm1.min)
    (hl1 : nm1.maxRange.Is lam) (hpos : 0 < lam) (h60 : lam ≤ 2 ^ 60) (hl2 : LongLimit nm2 lam)
    (hcl : ∀ r, WithinCells M ρ (recs r).2) {k : Fin D → ℤ} (hk : LowestFirst m₀.tileSize ρ recs k)
    (hr1 : Reach (occOps nm1 recs ord1) n m₀ s1)
    (hr2 : Reach (occOps nm2 recs ord2) n m₀ s2) (hm1 : s1.main = .clearFlag ∨ s1.main = .spawn)
    (hm2 : s2.main = .clearFlag ∨ s2.main = .spawn) (hw : s2.workers.length = s1.workers.length)
    {w : Verif.Cell D} (hwN : ∀ i, |w i| ≤ N) (hmc : MachineCell (localCell s1.map w))
    (hx : ∀ r < n, ∃ x, AimedFrom N ρ (recs r).1 (recs r).2 x ∧ WellWithin ρ lam x w) :
    localCell s2.map w = localCell s1.map w ∧ s2.tracked (localCell s1.map w) = s1.tracked (localCell s1.map w) := by
  have hres := h0.res.pos
  have hcr : ∀ r, CloudInRange (recs r).2 ρ := by
    intro r p hp i
    obtain ⟨y, h1, h2⟩ := hcl r p hp i
    have : (M : ℚ) ≤ 262144 := by
      have : M ≤ 262144 := by omega
      exact_mod_cast this
    exact ⟨y, h1, h2.trans (by norm_num; gcongr)⟩
  obtain ⟨c1, c2, cb, d1, d2, d3⟩ := C106_visualizer hD hn h0 ho1 ho2 hM1 hN hN18 hnm hl1 hpos h60 hl2
    (fun r _ => hcl r) hr1 hr2 hm1 hm2 hw
  have e : localCell s2.map w = localCell s1.map w := by unfold localCell; rw [c1, c2]
  refine ⟨e, ?_⟩
  rw [C55_lowest_first (by omega) hn h0 ht0 hth ho1 (by omega) hcr hk hr1 hm1 _ hmc,
    C55_lowest_first (by omega) hn h0 ht0 (hth'.symm ▸ hth) ho2 (by omega) hcr hk hr2 hm2 _ hmc]
  have hp : s2.map.pointFromCell (localCell s1.map w) = s1.map.pointFromCell (localCell s1.map w) := by
    unfold GridMap.pointFromCell; rw [c1, c2]
  have hocc : nm2.occupied s2.map (localCell s1.map w) = nm1.occupied s1.map (localCell s1.map w) := by
    obtain ⟨v, b1, b2⟩ := d3 w hwN hx
    have hloc := local_eq d1 w
    unfold LidarNoiseModel.occupied
    rw [hth']
    congr 1
    by_cases hin : InCells w cb
    · have h1 := b1.1 hin
      have h2 := b2.1 hin
      unfold valueAt at h1 h2
      rw [hloc, h1, h2]
    · rw [(C31_get s1.map hmc).2 (by rw [hloc]; exact fun h => hin ((inCells_iff d1 w).mpr h)),
        (C31_get s2.map hmc).2 (by rw [hloc]; exact fun h => hin ((inCells_iff d2 w).mpr h))]
  rw [hp, hocc]
end

/-! ## Examples -/

/-- The sensor at (1/4, 1/4) sees a point at (9/4, 1) and one at (81/4, 1/4). -/
def longScan : Point 2 F32 × PointCloud 2 F32 :=
  (![Fp.lit (1 / 4), Fp.lit (1 / 4)],
    PointCloud.fromPoints [![Fp.lit (9 / 4), Fp.lit 1], ![Fp.lit (81 / 4), Fp.lit (1 / 4)]])

/-- `smallNM` with the range limit 10. -/
def tenNM : LidarNoiseModel F32 := { smallNM with maxRange := Fp.lit 10 }

lemma long_aimed : AimedFrom 24 1 longScan.1 longScan.2 ![1 / 4, 1 / 4] := by
  intro p hp
  rw [longScan, C13_points_fromPoints] at hp
  rcases List.mem_cons.mp hp with rfl | hp
  · refine ⟨20, ![9 / 4, 1], by norm_num, by norm_num, by norm_num, by norm_num, by decide +kernel, ?_,
      by decide +kernel, ?_, ?_, ?_⟩ <;> decide +kernel
  · rw [List.mem_singleton] at hp
    subst hp
    refine ⟨20, ![81 / 4, 1 / 4], by norm_num, by norm_num, by norm_num, by norm_num, by decide +kernel, ?_,
      by decide +kernel, ?_, ?_, ?_⟩ <;> decide +kernel

lemma long_within : WithinCells 21 1 longScan.2 := by
  intro p hp
  rw [longScan, C13_points_fromPoints] at hp
  rcases List.mem_cons.mp hp with rfl | hp
  · intro i
    refine ⟨![9 / 4, 1] i, ?_, ?_⟩ <;> revert i <;> decide +kernel
  · rw [List.mem_singleton] at hp
    subst hp
    intro i
    refine ⟨![81 / 4, 1 / 4] i, ?_, ?_⟩ <;> revert i <;> decide +kernel

lemma long_rays : (castRay 40 longScan.1 (![Fp.lit (81 / 4), Fp.lit (1 / 4)] : Point 2 F32) ⟨![Fp.lit 0, Fp.lit 0],
      ![Fp.lit 30, Fp.lit 30]⟩ (Fp.lit 1) tenNM.maxRange).toOption
        = some ((List.range 11).map fun i => ![(i : ℤ), 0], none) ∧
    (castRay 40 longScan.1 (![Fp.lit (81 / 4), Fp.lit (1 / 4)] : Point 2 F32) ⟨![Fp.lit 0, Fp.lit 0],
      ![Fp.lit 30, Fp.lit 30]⟩ (Fp.lit 1) smallNM.maxRange).toOption
        = some ((List.range 20).map fun i => ![(i : ℤ), 0], some ![20, 0]) := by decide +kernel

/-- The ray to the second point with the limit 10 and with the limit 60: the first is cut before the cell (11, 0), and
about the cell (3, 0) the theorem for one ray applies. -/
example : ∃ ray1 e1 ray2 e2 bounds, ray1.length = 11 ∧ ray2.length = 20 ∧
    Casts longScan.1 (![Fp.lit (81 / 4), Fp.lit (1 / 4)] : Point 2 F32) bounds (Fp.lit 1) tenNM.maxRange ray1 e1 ∧
    Casts longScan.1 (![Fp.lit (81 / 4), Fp.lit (1 / 4)] : Point 2 F32) bounds (Fp.lit 1) smallNM.maxRange ray2 e2 ∧
    (∃ z rest, ray2 = ray1 ++ z :: rest ∧ Beyond longScan.1 bounds (Fp.lit 1) tenNM.maxRange z) ∧
    ((![3, 0] : Cell 2) ∈ ray2 ↔ ![3, 0] ∈ ray1) := by
  have ok : ∀ {α : Type} {x : M α} {a : α}, x.toOption = some a → x = .ok a := by
    intro α x a h
    cases x with
    | error e => cases h
    | ok b => exact congrArg _ (Option.some.inj h)
  have h1 : Casts longScan.1 (![Fp.lit (81 / 4), Fp.lit (1 / 4)] : Point 2 F32) ⟨![Fp.lit 0, Fp.lit 0],
      ![Fp.lit 30, Fp.lit 30]⟩ (Fp.lit 1) tenNM.maxRange _ _ := ⟨40, ok long_rays.1⟩
  have h2 : Casts longScan.1 (![Fp.lit (81 / 4), Fp.lit (1 / 4)] : Point 2 F32) ⟨![Fp.lit 0, Fp.lit 0],
      ![Fp.lit 30, Fp.lit 30]⟩ (Fp.lit 1) smallNM.maxRange _ _ := ⟨40, ok long_rays.2⟩
  have hl : LongLimit smallNM 10 := .inr ⟨60, by decide +kernel, by norm_num, by norm_num⟩
  refine ⟨_, _, _, _, _, by simp, by simp, h1, h2, ?_, ?_⟩
  · rcases C106_ray h1 h2 (limit_pos (lam := 10) (by decide +kernel) (by norm_num))
      (longer_beyond (lam := 10) (by decide +kernel) (by norm_num) hl) with ⟨-, h⟩ | ⟨-, h⟩
    · cases h
    · exact h
  · refine (C106_near_ray (M := 21) (B := 22) (ρ := 1) (lam := 10) (l := 4) (x := ![1 / 4, 1 / 4])
      (y := ![81 / 4, 1 / 4]) (q := ![0, 0]) (.inl rfl) ?_ (by norm_num) (by norm_num) (by decide +kernel)
      (by decide +kernel) (by norm_num) hl h1 h2 ?_ (by norm_num [rangeTol])).1
    · exact ⟨by decide +kernel, by norm_num, by norm_num, by norm_num, by norm_num, by decide +kernel, by decide +kernel,
        by decide +kernel, by decide +kernel, by decide +kernel, by decide +kernel, by decide +kernel⟩
    · exact ⟨by norm_num, by decide +kernel⟩

/-- The value of a cell after the scan. -/
def afterLong (nm : LidarNoiseModel F32) (c : Cell 2) : Option F32 :=
  (nm.integratePointCloud id 40 smallMap longScan.1 longScan.2).toOption.bind fun m => (m.get c).toOption

lemma longScan_values : afterLong tenNM ![3, 0] = afterLong smallNM ![3, 0] ∧
    afterLong tenNM ![2, 1] = afterLong smallNM ![2, 1] ∧ afterLong tenNM ![20, 0] = some (Fp.lit 0) ∧
    afterLong smallNM ![20, 0] ≠ some (Fp.lit 0) ∧ (afterLong smallNM ![20, 0]).isSome = true := by decide +kernel

/-- With the limit 10 and with the limit 60: the cells (3, 0) and (2, 1), well within the shorter limit, have the same
values; the cell (20, 0) of the second point was hit only with the longer. -/
example : (∃ m1 m2 : GridMap 2 F32 F32, Playback tenNM smallMap [(m1, longScan)] m1 ∧
      Playback smallNM smallMap [(m2, longScan)] m2 ∧
      ∃ cb, Placed m1 cb 1 ∧ Placed m2 cb 1 ∧ ∃ v, Before m1 cb ![3, 0] v ∧ Before m2 cb ![3, 0] v) ∧
    afterLong tenNM ![20, 0] = some (Fp.lit 0) ∧ afterLong smallNM ![20, 0] ≠ some (Fp.lit 0) := by
  refine ⟨?_, longScan_values.2.2.1, longScan_values.2.2.2.1⟩
  have hid : IsOrder (id : List (Verif.Cell 2) → List (Verif.Cell 2)) := fun l => List.Perm.refl l
  obtain ⟨-, -, h1, -, h2⟩ := longScan_values
  unfold afterLong at h1 h2
  cases e1 : tenNM.integratePointCloud id 40 smallMap longScan.1 longScan.2 with
  | error e => rw [e1] at h1; cases h1
  | ok m1 =>
    cases e2 : smallNM.integratePointCloud id 40 smallMap longScan.1 longScan.2 with
    | error e => rw [e2] at h2; cases h2
    | ok m2 =>
      have p1 : Playback tenNM smallMap [(m1, longScan)] m1 := .scan .start hid ⟨40, e1⟩
      have p2 : Playback smallNM smallMap [(m2, longScan)] m2 := .scan .start hid ⟨40, e2⟩
      obtain ⟨cb, q1, q2, -, q3⟩ := C106_playback (nm1 := tenNM) (nm2 := smallNM) (M := 21) (N := 24)
        (lam := 10) (.inl rfl) smallMap_placed (by norm_num) rfl
        (by norm_num) ⟨rfl, rfl, rfl, rfl⟩ (by decide +kernel) (by norm_num) (by norm_num)
        (.inr ⟨60, by decide +kernel, by norm_num, by norm_num⟩) (by simpa using long_within) p1 p2 rfl
      refine ⟨m1, m2, p1, p2, cb, q1, q2, q3 _ (by decide) fun e he => ⟨![1 / 4, 1 / 4], ?_⟩⟩
      rw [List.mem_singleton] at he
      subst he
      exact ⟨long_aimed, 3, ⟨by norm_num, by decide +kernel⟩, by norm_num⟩

/-- The hypotheses of C106 for the visualizer and for the screen. -/
example : Placed smallMap CellBounds.empty 1 ∧ 24 = 21 + smallMap.tileSize + 1 ∧ tenNM.maxRange.Is 10 ∧
    LongLimit smallNM 10 ∧ WithinCells 21 1 longScan.2 ∧ LowestFirst smallMap.tileSize 1 (fun _ => longScan) (fun _ => 0) ∧
    smallMap.changedCells = [] ∧ FLe (Fp.lit 0) tenNM.threshold ∧ smallNM.threshold = tenNM.threshold ∧
    AimedFrom 24 1 longScan.1 longScan.2 ![1 / 4, 1 / 4] ∧ ¬ WellWithin 1 10 (![1 / 4, 1 / 4] : Fin 2 → ℚ) ![20, 0] ∧
    WellWithin 1 10 (![1 / 4, 1 / 4] : Fin 2 → ℚ) ![3, 0] := by
  refine ⟨smallMap_placed, rfl, by decide +kernel, .inr ⟨60, by decide +kernel, by norm_num, by norm_num⟩, long_within,
    ⟨by simp, fun r p hp i => ?_, fun _ => .inl rfl⟩, rfl, by decide +kernel, rfl, long_aimed, ?_,
    3, ⟨by norm_num, by decide +kernel⟩, by norm_num⟩
  · rw [longScan, C13_points_fromPoints] at hp
    rcases List.mem_cons.mp hp with rfl | hp
    · refine ⟨![9 / 4, 1] i, ?_, ?_⟩ <;> revert i <;> decide +kernel
    · rw [List.mem_singleton] at hp
      subst hp
      refine ⟨![81 / 4, 1 / 4] i, ?_, ?_⟩ <;> revert i <;> decide +kernel
  · rintro ⟨l, ⟨h0, h1⟩, hl⟩
    have e : distSq (![1 / 4, 1 / 4] : Fin 2 → ℚ) (fun i => ((![20, 0] : Cell 2) i : ℚ) * 1) = 6242 / 16 := by
      decide +kernel
    rw [e] at h1
    norm_num at hl
    nlinarith

end Verif.Props
