import Verif.Props.RayNonFinite
import Verif.Spec.WideRange

/-!
# C22: `cast_ray` returns in a wide range of inputs

In `C22_f32_returns` the ray is at most 2^20 cells long, so that f32 arithmetic tells neighbouring cells
apart. Termination does not need that: whatever the rounding does to the path, the loop always steps along an
axis on which the ray moves, so the cells go away from the origin and finally beyond the range limit. What is
needed is that no number overflows or vanishes.
-/

namespace Verif
open Spec Scalar

namespace F32

lemma rep_pow {k : ℤ} (h1 : -149 ≤ k) (h2 : k ≤ 127) : b32.Rep (2 ^ k) := by
  by_cases h : k ≤ 104
  · have := rep_mul_pow (n := 1) (k := k) (by norm_num) h1 h
    simpa using this
  · refine ⟨2 ^ 23, k - 23, by simp [b32], by simp only [b32]; omega, by simp only [b32]; omega, ?_⟩
    rw [two_zpow_sub]
    push_cast
    ring

/-- Rounding does not cross a power of two. -/
lemma pow_up {v : ℚ} {k : ℤ} (h0 : -149 ≤ k) (hk : k ≤ 127) (h : |v| ≤ 2 ^ k) :
    |b32.rnd v| < 2 ^ b32.emax ∧ |b32.rnd v| ≤ 2 ^ k := by
  have h1 := abs_le.mp h
  have h2 : |b32.rnd v| ≤ 2 ^ k := by
    rw [abs_le]
    exact ⟨Fmt.le_rnd_of_rep (Fmt.rep_neg (rep_pow h0 hk)) h1.1, Fmt.rnd_le_of_rep (rep_pow h0 hk) h1.2⟩
  refine ⟨noOvf (h.trans ?_), h2⟩
  exact_mod_cast two_zpow_le hk

lemma pow_low {v : ℚ} {k : ℤ} (h0 : -149 ≤ k) (hk : k ≤ 127) (h : 2 ^ k ≤ |v|) : 2 ^ k ≤ |b32.rnd v| := by
  rcases abs_cases v with ⟨h1, -⟩ | ⟨h1, -⟩
  · rw [h1] at h
    exact (Fmt.le_rnd_of_rep (rep_pow h0 hk) h).trans (le_abs_self _)
  · rw [h1] at h
    have := Fmt.le_rnd_of_rep (rep_pow h0 hk) h
    rw [Fmt.rnd_neg] at this
    exact this.trans (neg_le_abs _)

/-- Rounding an integer changes it by less than half. -/
lemma rnd_int (z : ℤ) : |(z : ℚ)| / 2 ≤ |b32.rnd z| ∧ |b32.rnd z| ≤ 2 * |(z : ℚ)| := by
  by_cases hz : z = 0
  · subst hz; simp
  · have h1 : (1 : ℚ) ≤ |(z : ℚ)| := by exact_mod_cast Int.one_le_abs hz
    have h2 := err z
    have h3 := abs_sub_abs_le_abs_sub (b32.rnd z) (z : ℚ)
    have h4 := abs_sub_abs_le_abs_sub (z : ℚ) (b32.rnd z)
    rw [abs_sub_comm (z : ℚ)] at h4
    norm_num at h2
    constructor <;> linarith

/-- A number that is small against 2^100 is lost when added to it. -/
lemma stall {v : ℚ} (h0 : 0 ≤ v) (h : v ≤ 2 ^ 70) : b32.rnd (2 ^ 100 + v) = 2 ^ 100 := by
  have hlog : Int.log 2 |(2 : ℚ) ^ 100 + v| = 100 := by
    apply Fmt.log_unique
    · rw [abs_of_nonneg (by positivity)]
      norm_num
      exact h0
    · rw [abs_of_nonneg (by positivity)]
      norm_num at h ⊢
      linarith
  have hu : b32.ulpExp (2 ^ 100 + v) = 77 := by
    unfold Fmt.ulpExp
    rw [hlog]
    simp [b32]
  unfold Fmt.rnd
  rw [hu]
  have hq : roundEven ((2 ^ 100 + v) / 2 ^ (77 : ℤ)) = 2 ^ 23 := by
    have h1 := abs_le.mp (roundEven_err ((2 ^ 100 + v) / 2 ^ (77 : ℤ)))
    have h2 : (2 ^ 100 + v) / 2 ^ (77 : ℤ) = 2 ^ 23 + v / 2 ^ 77 := by norm_num; ring
    have h3 : v / 2 ^ 77 ≤ 1 / 4 := by norm_num at h ⊢; linarith
    have h4 : 0 ≤ v / 2 ^ 77 := by positivity
    rw [h2] at h1 ⊢
    have h5 : (roundEven (2 ^ 23 + v / 2 ^ 77) : ℚ) < ((2 ^ 23 + 1 : ℤ) : ℚ) := by push_cast; linarith [h1.2]
    have h6 : ((2 ^ 23 - 1 : ℤ) : ℚ) < (roundEven (2 ^ 23 + v / 2 ^ 77) : ℚ) := by push_cast; linarith [h1.1]
    have h7 := Int.cast_lt.mp h5
    have h8 := Int.cast_lt.mp h6
    omega
  rw [hq]
  norm_num

end F32

namespace Props
variable {D : ℕ} {ρ : ℚ} {o e : Point D F32} {bounds : Bounds D F32} {r : F32} {x y q : Fin D → ℚ}

lemma _root_.Verif.Spec.WideRange.pos {b : Point D F32} (h : WideRange o e b r x y q ρ) : 0 < ρ :=
  lt_of_lt_of_le (by norm_num) h.lo

/-- The components of the ray. -/
lemma wide_ray {b : Point D F32} (h : WideRange o e b r x y q ρ) (i : Fin D) :
    (e i -. o i).Is (b32.rnd (y i - x i)) ∧ (y i = x i → b32.rnd (y i - x i) = 0) ∧
      |b32.rnd (y i - x i)| ≤ 2 ^ (31 : ℤ) ∧
      (y i ≠ x i → (2 : ℚ) ^ (-50 : ℤ) ≤ |b32.rnd (y i - x i)|) := by
  have h1 : |y i - x i| ≤ 2 ^ (31 : ℤ) := by
    have := abs_sub (y i) (x i)
    have h2 := h.end_le i
    have h3 := h.origin_le i
    norm_num at h2 h3 ⊢
    linarith
  obtain ⟨h2, h3⟩ := F32.pow_up (by norm_num) (by norm_num) h1
  refine ⟨(h.end_ i).sub (h.origin i) h2, fun he => by rw [he, sub_self, F32.rnd_zero], h3, fun hne => ?_⟩
  refine F32.pow_low (by norm_num) (by norm_num) ?_
  have := (h.apart i).resolve_left hne
  norm_num at this ⊢
  exact this

/-- The cells of the ends are finite, far from the limits of isize. -/
lemma wide_cell {b p : Point D F32} {z : Fin D → ℚ} (hr : r.Is ρ) (hlo : 1 / 2 ^ 20 ≤ ρ) (hhi : ρ ≤ 2 ^ 30)
    (hb : ∀ i, (b i).Is (q i)) (hq : ∀ i, |q i| ≤ 2 ^ 30) (hp : ∀ i, (p i).Is (z i)) (hz : ∀ i, |z i| ≤ 2 ^ 30)
    (i : Fin D) : |(cellFromPoint p b r i : ℚ)| ≤ 2 ^ 32 / ρ + 1 / 2 := by
  have hpos : 0 < ρ := lt_of_lt_of_le (by norm_num) hlo
  have h1 : |z i - q i| ≤ 2 ^ (31 : ℤ) := by
    have := abs_sub (z i) (q i)
    have h2 := hz i
    have h3 := hq i
    norm_num at h2 h3 ⊢
    linarith
  obtain ⟨h2, h3⟩ := F32.pow_up (by norm_num) (by norm_num) h1
  have i1 := (hp i).sub (hb i) h2
  set a := b32.rnd (z i - q i) with ha
  have h4 : |a / ρ| ≤ 2 ^ 31 / ρ := by
    rw [abs_div, abs_of_pos hpos]
    norm_num at h3 ⊢
    gcongr
  have h5 : (2 : ℚ) ^ 31 / ρ ≤ 2 ^ (51 : ℤ) := by
    rw [div_le_iff₀ hpos]
    norm_num at hlo ⊢
    linarith
  have h6 : (1 : ℚ) ≤ 2 ^ 31 / ρ := by
    rw [le_div_iff₀ hpos]
    norm_num at hhi ⊢
    linarith
  obtain ⟨h7, h8⟩ := F32.pow_up (by norm_num) (by norm_num) (h4.trans h5)
  have i2 := i1.div hr hpos.ne' h7
  have h9 := F32.err (a / ρ)
  have h10 := abs_sub_abs_le_abs_sub (b32.rnd (a / ρ)) (a / ρ)
  have h11 : |b32.rnd (a / ρ)| ≤ 2 ^ 32 / ρ := by
    have e1 : (2 : ℚ) ^ 32 / ρ = 2 * (2 ^ 31 / ρ) := by ring
    rw [e1]
    norm_num at h9 h4 h6 ⊢
    linarith
  have h12 := Fp.roundAway_err (b32.rnd (a / ρ))
  have h13 := abs_sub_abs_le_abs_sub (roundAway (b32.rnd (a / ρ)) : ℚ) (b32.rnd (a / ρ))
  have h14 : |(roundAway (b32.rnd (a / ρ)) : ℚ)| ≤ 2 ^ 52 := by
    norm_num at h8 h12 ⊢
    linarith
  have h15 : |roundAway (b32.rnd (a / ρ))| ≤ 2 ^ 52 := by exact_mod_cast h14
  have hc : cellFromPoint p b r i = roundAway (b32.rnd (a / ρ)) := by
    refine i2.round_toInt.trans (Fp.clampIsize_of_mem ?_ ?_)
    · unfold isizeMin; linarith [(abs_le.mp h15).1]
    · unfold isizeMax; linarith [(abs_le.mp h15).2]
  rw [hc]
  linarith

/-- The point of a cell. -/
lemma wide_point {b : F32} {q : ℚ} (hr : r.Is ρ) (hlo : 1 / 2 ^ 20 ≤ ρ) (hb : b.Is q) (hq : |q| ≤ 2 ^ 30)
    {c : ℤ} (hc : |(c : ℚ)| * ρ ≤ 2 ^ 36) :
    ∃ P, (pointCoordFromCellCoord c b r).Is P ∧ |P| ≤ 2 ^ (38 : ℤ) ∧
      (2 ^ 35 ≤ |(c : ℚ)| * ρ → 2 ^ (33 : ℤ) ≤ |P|) := by
  have hpos : 0 < ρ := lt_of_lt_of_le (by norm_num) hlo
  obtain ⟨c1, c2⟩ := F32.rnd_int c
  have hc60 : |(c : ℚ)| ≤ 2 ^ (56 : ℤ) := by
    have : |(c : ℚ)| * (1 / 2 ^ 20) ≤ |(c : ℚ)| * ρ := by gcongr
    norm_num at this hc ⊢
    linarith
  obtain ⟨k1, k2⟩ := F32.pow_up (by norm_num) (by norm_num) hc60
  have i0 : (Scalar.ofInt c : F32).Is (b32.rnd c) := Fp.ofRat_is k1
  have h1 : |b32.rnd c * ρ| ≤ 2 ^ (37 : ℤ) := by
    rw [abs_mul, abs_of_pos hpos]
    have : |b32.rnd c| * ρ ≤ 2 * |(c : ℚ)| * ρ := by gcongr
    norm_num at hc ⊢
    linarith
  obtain ⟨h2, h3⟩ := F32.pow_up (by norm_num) (by norm_num) h1
  have i1 := i0.mul hr h2
  have h4 : |b32.rnd (b32.rnd c * ρ) + q| ≤ 2 ^ (38 : ℤ) := by
    have := abs_add_le (b32.rnd (b32.rnd c * ρ)) q
    norm_num at h3 hq ⊢
    linarith
  obtain ⟨h5, h6⟩ := F32.pow_up (by norm_num) (by norm_num) h4
  refine ⟨_, i1.add hb h5, h6, fun hbig => ?_⟩
  refine F32.pow_low (by norm_num) (by norm_num) ?_
  have h7 : (2 : ℚ) ^ (34 : ℤ) ≤ |b32.rnd (b32.rnd c * ρ)| := by
    refine F32.pow_low (by norm_num) (by norm_num) ?_
    rw [abs_mul, abs_of_pos hpos]
    have : |(c : ℚ)| / 2 * ρ ≤ |b32.rnd c| * ρ := by gcongr
    norm_num at hbig ⊢
    linarith
  have h8 := abs_sub_abs_le_abs_sub (b32.rnd (b32.rnd c * ρ)) (-q)
  rw [abs_neg, sub_neg_eq_add] at h8
  norm_num at h7 hq h8 ⊢
  linarith

/-- A cell with a far coordinate is beyond the range limit. -/
lemma wide_far (hD : D = 2 ∨ D = 3) (h : WideRange o e bounds.min r x y q ρ) {ml : F32} {lam : ℚ}
    (hml : ml.Is lam) (h0 : 0 < lam) (hle : lam ≤ 2 ^ 30) {z : Cell D} (hz : ∀ i, |(z i : ℚ)| * ρ ≤ 2 ^ 36)
    {i : Fin D} (hi : 2 ^ 35 ≤ |(z i : ℚ)| * ρ) : (rayCtx o e bounds r ml).tooFar z = true := by
  choose P hP1 hP2 hP3 using fun j => wide_point h.res h.lo (h.offset j) (h.offset_le j) (hz j)
  have hd : ∀ j, |P j - x j| ≤ 2 ^ (39 : ℤ) := fun j => by
    have := abs_sub (P j) (x j)
    have h1 := hP2 j
    have h2 := h.origin_le j
    norm_num at h1 h2 ⊢
    linarith
  have hdi : ∀ j, (pointFromCell z bounds.min r j -. o j).Is (b32.rnd (P j - x j)) := fun j =>
    (hP1 j).sub (h.origin j) (F32.pow_up (by norm_num) (by norm_num) (hd j)).1
  obtain ⟨Q, g1, g2, g3, -⟩ := normSquared_is (B := 2 ^ (39 : ℤ)) hD hdi
    (fun j => (F32.pow_up (by norm_num) (by norm_num) (hd j)).2) (by norm_num) (by norm_num)
  have hlow : (2 : ℚ) ^ (32 : ℤ) ≤ |b32.rnd (P i - x i)| := by
    refine F32.pow_low (by norm_num) (by norm_num) ?_
    have h1 := hP3 i hi
    have h2 := h.origin_le i
    have h3 := abs_sub_abs_le_abs_sub (P i) (x i)
    norm_num at h1 h2 ⊢
    linarith
  have hsq : (2 : ℚ) ^ (64 : ℤ) ≤ Q := by
    refine le_trans ?_ (g3 i)
    have h1 : (2 : ℚ) ^ (64 : ℤ) ≤ |b32.rnd (P i - x i) * b32.rnd (P i - x i)| := by
      rw [abs_mul]
      calc (2 : ℚ) ^ (64 : ℤ) = 2 ^ (32 : ℤ) * 2 ^ (32 : ℤ) := by norm_num
        _ ≤ _ := by gcongr
    have h2 := F32.pow_low (by norm_num) (by norm_num) h1
    rwa [abs_of_nonneg (Fmt.rnd_nonneg (mul_self_nonneg _))] at h2
  have hll : |lam * lam| ≤ 2 ^ (60 : ℤ) := by
    rw [abs_of_nonneg (by positivity)]
    calc lam * lam ≤ 2 ^ 30 * 2 ^ 30 := by gcongr
      _ = _ := by norm_num
  obtain ⟨l1, l2⟩ := F32.pow_up (by norm_num) (by norm_num) hll
  have hm := hml.mul hml l1
  have hlt : b32.rnd (lam * lam) < Q := by
    have := le_abs_self (b32.rnd (lam * lam))
    norm_num at l2 hsq
    linarith
  have c1 : Scalar.lt (lit 0) ml = true := by
    change Fp.lt (Fp.lit 0) ml = true
    rw [F32.zero_is.lt hml]; simpa using h0
  have c2 : Scalar.lt (ml *. ml) (normSquared fun j => pointFromCell z bounds.min r j -. o j) = true := by
    have : Fp.lt (Fp.mul ml ml) (normSquared fun j => pointFromCell z bounds.min r j -. o j) = true := by
      rw [Fp.Is.lt hm g1]; simpa using hlt
    exact this
  unfold RayCtx.tooFar
  change ((lit 0 <. ml) && ((ml *. ml) <. normSquared fun j => pointFromCell z bounds.min r j -. o j)) = true
  rw [c1, c2]
  rfl

/-- An axis along which the ray moves, with direction at least `2 ^ -g`. -/
lemma wide_axis (h : WideRange o e bounds.min r x y q ρ) (ml : F32) {i : Fin D} {d : ℚ} {g : ℤ}
    (hd : (rayDir o e i).Is d) (hg0 : 0 ≤ g) (hg : g ≤ 83) (hdg : 2 ^ (-g) ≤ |d|) :
    ((rayCtx o e bounds r ml).s i = 1 ∨ (rayCtx o e bounds r ml).s i = -1) ∧
      (∃ T, (t0 o e bounds r i).Is T ∧ |T| ≤ 2 ^ (41 + g)) ∧
      ∃ δ, ((rayCtx o e bounds r ml).tDelta i).Is δ ∧ 0 ≤ δ ∧ δ ≤ 2 ^ (30 + g) := by
  have hpos := h.pos
  have hgp := two_zpow_pos (-g)
  have hd0 : d ≠ 0 := fun hd0 => by rw [hd0, abs_zero] at hdg; linarith
  have hda : 0 < |d| := abs_pos.mpr hd0
  have hquot : ∀ {f : ℚ} {k : ℤ}, |f| ≤ 2 ^ k → |f / d| ≤ 2 ^ (k + g) := by
    intro f k hf
    rw [abs_div, div_le_iff₀ hda, two_zpow_add]
    have e1 : (2 : ℚ) ^ k = 2 ^ k * 2 ^ g * 2 ^ (-g) := by
      rw [mul_assoc, ← two_zpow_add]; simp
    calc |f| ≤ 2 ^ k := hf
      _ = 2 ^ k * 2 ^ g * 2 ^ (-g) := e1
      _ ≤ _ := by gcongr
  -- the step
  obtain ⟨s, S, hs, hS, hsig, hSi, hS0⟩ : ∃ (s : ℤ) (S : F32), (s = 1 ∨ s = -1) ∧ S.Is s ∧
      f32Signum (rayDir o e i) = S ∧ Scalar.toInt S = s ∧ Scalar.eq S (Scalar.lit 0) = false := by
    have := signum_is hd
    rw [if_neg hd0] at this
    by_cases h1 : 0 < d
    · rw [if_pos h1] at this
      exact ⟨1, _, .inl rfl, F32.lit_int_is (n := 1) (by norm_num), this, by decide +kernel, by decide +kernel⟩
    · rw [if_neg h1] at this
      exact ⟨-1, _, .inr rfl, F32.lit_int_is (n := -1) (by norm_num), this, by decide +kernel, by decide +kernel⟩
  have hsabs : |(s : ℚ)| = 1 := by rcases hs with rfl | rfl <;> norm_num
  have hcs : (rayCtx o e bounds r ml).s i = s := by
    change Scalar.toInt (f32Signum (rayDir o e i)) = s
    rw [hsig, hSi]
  have hhalf : (Scalar.lit (1 / 2) : F32).Is (1 / 2) := by
    refine Fp.ofRat_is_rep ⟨1, -1, by simp [b32], by simp [b32], by simp [b32], by norm_num⟩
  refine ⟨by rw [hcs]; exact hs, ?_, ?_⟩
  · -- the first border
    have hc := wide_cell h.res h.lo h.hi h.offset h.offset_le h.origin h.origin_le i
    have hcρ : |(cellFromPoint o bounds.min r i : ℚ)| * ρ ≤ 2 ^ 36 := by
      have h1 : |(cellFromPoint o bounds.min r i : ℚ)| * ρ ≤ (2 ^ 32 / ρ + 1 / 2) * ρ := by gcongr
      have h2 : ((2 : ℚ) ^ 32 / ρ + 1 / 2) * ρ = 2 ^ 32 + ρ / 2 := by field_simp
      have h3 := h.hi
      rw [h2] at h1
      norm_num at h1 h3 ⊢
      linarith
    obtain ⟨P, hP, hP2, -⟩ := wide_point h.res h.lo (h.offset i) (h.offset_le i) hcρ
    have b1 : |(s : ℚ) * ρ| ≤ 2 ^ (30 : ℤ) := by
      rw [abs_mul, hsabs, one_mul, abs_of_pos hpos]; exact_mod_cast h.hi
    obtain ⟨b2, b3⟩ := F32.pow_up (by norm_num) (by norm_num) b1
    have i1 := hS.mul h.res b2
    have b4 : |b32.rnd ((s : ℚ) * ρ) * (1 / 2)| ≤ 2 ^ (30 : ℤ) := by
      rw [abs_mul]
      norm_num at b3 ⊢
      linarith [abs_nonneg (b32.rnd ((s : ℚ) * ρ))]
    obtain ⟨b5, b6⟩ := F32.pow_up (by norm_num) (by norm_num) b4
    have i2 := i1.mul hhalf b5
    have b7 : |P + b32.rnd (b32.rnd ((s : ℚ) * ρ) * (1 / 2))| ≤ 2 ^ (39 : ℤ) := by
      refine (abs_add_le _ _).trans ?_
      norm_num at hP2 b6 ⊢
      linarith
    obtain ⟨b8, b9⟩ := F32.pow_up (by norm_num) (by norm_num) b7
    have i3 := hP.add i2 b8
    have b10 : |b32.rnd (P + b32.rnd (b32.rnd ((s : ℚ) * ρ) * (1 / 2))) - x i| ≤ 2 ^ (41 : ℤ) := by
      refine (abs_sub _ _).trans ?_
      have := h.origin_le i
      norm_num at b9 this ⊢
      linarith
    obtain ⟨b11, b12⟩ := F32.pow_up (by norm_num) (by norm_num) b10
    have i4 := i3.sub (h.origin i) b11
    obtain ⟨b13, b14⟩ := F32.pow_up (by omega) (by omega) (hquot b12)
    refine ⟨_, ?_, b14⟩
    have e1 : t0 o e bounds r i = ((pointCoordFromCellCoord (cellFromPoint o bounds.min r i) (bounds.min i) r
        +. S *. r *. lit (1 / 2)) -. o i) /. rayDir o e i := by
      change tMax0 (f32Signum (rayDir o e i)) _ _ _ _ _ = _
      rw [hsig]
      unfold tMax0
      rw [if_neg (by rw [hS0]; exact Bool.false_ne_true)]
    rw [e1]
    exact i4.div hd hd0 b13
  · have b1 : abs (ρ / abs d) ≤ 2 ^ (30 + g) := by
      have := hquot (f := ρ) (k := 30) (by rw [abs_of_pos hpos]; exact_mod_cast h.hi)
      rwa [abs_div, abs_abs, ← abs_div]
    obtain ⟨b2, b3⟩ := F32.pow_up (by omega) (by omega) b1
    refine ⟨_, ?_, Fmt.rnd_nonneg (by positivity), (le_abs_self _).trans b3⟩
    have e1 : (rayCtx o e bounds r ml).tDelta i = r /. Scalar.abs (rayDir o e i) := by
      change tDelta0 (f32Signum (rayDir o e i)) _ _ = _
      rw [hsig]
      unfold tDelta0
      rw [if_neg (by rw [hS0]; exact Bool.false_ne_true)]
    rw [e1]
    exact h.res.div hd.abs hda.ne' b2

/-- Once above -2^124, `t_max` stays there or becomes +∞. -/
lemma tAt_above {c : RayCtx D F32} {t : Point D F32} {i : Fin D} {T δ : ℚ} (hT : (t i).Is T)
    (hT1 : -2 ^ (124 : ℤ) ≤ T) (hδ : (c.tDelta i).Is δ) (h0 : 0 ≤ δ) (k : ℕ) :
    c.tAt t i k = .inf false ∨ ∃ T', (c.tAt t i k).Is T' ∧ -2 ^ (124 : ℤ) ≤ T' := by
  induction k with
  | zero => exact .inr ⟨T, hT, hT1⟩
  | succ k ih =>
    change (Fp.add (c.tAt t i k) (c.tDelta i)) = _ ∨ ∃ T', (Fp.add (c.tAt t i k) (c.tDelta i)).Is T' ∧ _
    obtain ⟨nz, d1, d2, d3⟩ := hδ
    rcases ih with ih | ⟨T', ⟨nz', t1, t2, t3⟩, ih2⟩
    · left; rw [ih, d3]; rfl
    · have h1 : -2 ^ (124 : ℤ) ≤ T' + δ := by linarith
      have e1 : ∃ zs, Fp.add (c.tAt t i k) (c.tDelta i) = Fp.ofRat zs (T' + δ) := by
        rw [t3, d3]; exact ⟨_, rfl⟩
      obtain ⟨zs, e1⟩ := e1
      rw [e1]
      rcases F32.ofRat_cases zs (T' + δ) with h2 | ⟨h2, h3⟩
      · exact .inr ⟨_, h2, Fmt.le_rnd_of_rep (Fmt.rep_neg (F32.rep_pow (by norm_num) (by norm_num))) h1⟩
      · left
        rw [h2]
        congr 1
        rw [decide_eq_false_iff_not, not_lt]
        by_contra hc
        rw [abs_of_neg (not_le.mp hc)] at h3
        norm_num at h1 h3
        linarith

/-- An axis with a moderate `t_delta` never gets above 2^100: additions are lost there. -/
lemma tAt_below {c : RayCtx D F32} {t : Point D F32} {i : Fin D} {T δ : ℚ} (hT : (t i).Is T)
    (hT1 : |T| ≤ 2 ^ 100) (hδ : (c.tDelta i).Is δ) (h0 : 0 ≤ δ) (h1 : δ ≤ 2 ^ 70) (k : ℕ) :
    ∃ T', (c.tAt t i k).Is T' ∧ |T'| ≤ 2 ^ 100 := by
  induction k with
  | zero => exact ⟨T, hT, hT1⟩
  | succ k ih =>
    obtain ⟨T', h2, h3⟩ := ih
    have h4 := abs_le.mp h3
    refine ⟨b32.rnd (T' + δ), h2.add hδ (F32.noOvf ?_), ?_⟩
    · have := abs_add_le T' δ
      rw [abs_of_nonneg h0] at this
      norm_num at h3 h1 ⊢
      linarith
    · rw [abs_le]
      constructor
      · have := F32.rep_pow (k := 100) (by norm_num) (by norm_num)
        exact Fmt.le_rnd_of_rep (Fmt.rep_neg (by exact_mod_cast this)) (by linarith [h4.1])
      · rw [← F32.stall h0 h1]
        exact Fmt.rnd_mono (by linarith [h4.2])

/-- An axis along which the direction is zero. -/
lemma wide_still (ml : F32) {i : Fin D} (hdir : (rayDir o e i).Is 0) :
    (rayCtx o e bounds r ml).s i = 0 ∧
      ∀ k, (rayCtx o e bounds r ml).tAt (t0 o e bounds r) i k = Scalar.inf := by
  have hs : f32Signum (rayDir o e i) = Scalar.lit 0 := by rw [signum_is hdir, if_pos rfl]
  have hz : Scalar.eq (Scalar.lit 0 : F32) (Scalar.lit 0) = true := by decide +kernel
  refine ⟨?_, tAt_still ?_ ?_⟩
  · change Scalar.toInt (f32Signum (rayDir o e i)) = 0
    rw [hs]
    decide +kernel
  · change tMax0 (f32Signum (rayDir o e i)) _ _ _ _ _ = _
    rw [hs]
    unfold tMax0
    rw [if_pos hz]
  · change tDelta0 (f32Signum (rayDir o e i)) _ _ = _
    rw [hs]
    unfold tDelta0
    rw [if_pos hz]

/-- The axes of a ray between different cells. -/
lemma wide_axes (hD : D = 2 ∨ D = 3) (h : WideRange o e bounds.min r x y q ρ) (ml : F32)
    (hne : cellFromPoint o bounds.min r ≠ cellFromPoint e bounds.min r) :
    (∀ i, y i = x i → (rayCtx o e bounds r ml).s i = 0 ∧
        ∀ k, (rayCtx o e bounds r ml).tAt (t0 o e bounds r) i k = Scalar.inf) ∧
      (∀ i, y i ≠ x i → ((rayCtx o e bounds r ml).s i = 1 ∨ (rayCtx o e bounds r ml).s i = -1) ∧
        ∀ k, (rayCtx o e bounds r ml).tAt (t0 o e bounds r) i k = .inf false ∨
          ∃ T, ((rayCtx o e bounds r ml).tAt (t0 o e bounds r) i k).Is T) ∧
      ∃ m, ∀ k, ∃ T, ((rayCtx o e bounds r ml).tAt (t0 o e bounds r) m k).Is T := by
  have hcell : ∀ i, y i = x i → cellFromPoint e bounds.min r i = cellFromPoint o bounds.min r i := by
    intro i hi
    have a1 : FLe (e i) (o i) := (Fp.FLe_is (h.end_ i) (h.origin i)).mpr hi.le
    have a2 : FLe (o i) (e i) := (Fp.FLe_is (h.origin i) (h.end_ i)).mpr hi.ge
    exact le_antisymm (C03_monotone (h.offset i) h.res h.pos a1) (C03_monotone (h.offset i) h.res h.pos a2)
  obtain ⟨i₀, hi₀⟩ : ∃ i, y i ≠ x i := by
    by_contra hc
    push Not at hc
    exact hne (funext fun i => (hcell i (hc i)).symm)
  obtain ⟨m, -, hm⟩ := Finset.exists_max_image Finset.univ (fun i => |b32.rnd (y i - x i)|) ⟨i₀, Finset.mem_univ _⟩
  replace hm := fun i => hm i (Finset.mem_univ i)
  have hm0 : (2 : ℚ) ^ (-50 : ℤ) ≤ |b32.rnd (y m - x m)| :=
    ((wide_ray h i₀).2.2.2 hi₀).trans (hm i₀)
  have hmx : y m ≠ x m := fun hmx => by
    rw [(wide_ray h m).2.1 hmx, abs_zero] at hm0
    norm_num at hm0
  have hmb := (wide_ray h m).2.2.1
  obtain ⟨L, hn, hL1, hL2⟩ := norm_is (B := |b32.rnd (y m - x m)|) hD (fun i => (wide_ray h i).1) hm
    (by norm_num at hm0 ⊢; linarith) (by norm_num at hmb ⊢; linarith) (fun i => by
      by_cases hi : y i = x i
      · exact .inl ((wide_ray h i).2.1 hi)
      · right
        have := (wide_ray h i).2.2.2 hi
        norm_num at this ⊢
        linarith)
  have hL : 0 < L := by
    have := hL1 m
    norm_num at hm0
    linarith
  have hLb : L ≤ 2 ^ (33 : ℤ) := by norm_num at hmb ⊢; linarith
  have hdirb : ∀ i, |b32.rnd (y i - x i) / L| ≤ 2 ^ (2 : ℤ) := fun i => by
    rw [abs_div, abs_of_pos hL, div_le_iff₀ hL]
    have := hL1 i
    norm_num at this ⊢
    linarith
  have hdir : ∀ i, (rayDir o e i).Is (b32.rnd (b32.rnd (y i - x i) / L)) := fun i =>
    (wide_ray h i).1.div hn hL.ne' (F32.pow_up (by norm_num) (by norm_num) (hdirb i)).1
  have hlive : ∀ i, y i ≠ x i → (2 : ℚ) ^ (-83 : ℤ) ≤ |b32.rnd (b32.rnd (y i - x i) / L)| := fun i hi => by
    refine F32.pow_low (by norm_num) (by norm_num) ?_
    rw [abs_div, abs_of_pos hL, le_div_iff₀ hL]
    have := (wide_ray h i).2.2.2 hi
    calc (2 : ℚ) ^ (-83 : ℤ) * L ≤ 2 ^ (-83 : ℤ) * 2 ^ (33 : ℤ) := by gcongr
      _ = 2 ^ (-50 : ℤ) := by norm_num
      _ ≤ _ := this
  have hlm : (2 : ℚ) ^ (-2 : ℤ) ≤ |b32.rnd (b32.rnd (y m - x m) / L)| := by
    refine F32.pow_low (by norm_num) (by norm_num) ?_
    rw [abs_div, abs_of_pos hL, le_div_iff₀ hL]
    norm_num
    linarith
  refine ⟨fun i hi => wide_still ml ?_, fun i hi => ?_, m, fun k => ?_⟩
  · have := hdir i
    rwa [(wide_ray h i).2.1 hi, zero_div, F32.rnd_zero] at this
  · obtain ⟨h1, ⟨T, h2, h3⟩, δ, h4, h5, -⟩ := wide_axis h ml (g := 83) (hdir i) (by norm_num) (by norm_num) (hlive i hi)
    refine ⟨h1, fun k => ?_⟩
    have h6 := (abs_le.mp h3).1
    rcases tAt_above h2 (by norm_num at h6 ⊢; linarith) h4 h5 k with h7 | ⟨T', h7, -⟩
    · exact .inl h7
    · exact .inr ⟨T', h7⟩
  · obtain ⟨h1, ⟨T, h2, h3⟩, δ, h4, h5, h6⟩ := wide_axis h ml (g := 2) (hdir m) (by norm_num) (by norm_num) hlm
    obtain ⟨T', h7, -⟩ := tAt_below h2 (by norm_num at h3 ⊢; linarith) h4 h5 (by norm_num at h6 ⊢; linarith) k
    exact ⟨T', h7⟩

/-- C22, with a range limit, for all coordinates, offsets and limits up to 2^30 and all resolutions between
2^-20 and 2^30: `cast_ray` returns, however many cells there are between the ends. The points of the cells need
not be exact here (a coordinate of a cell can be 2^50, far beyond the integers f32 can tell apart), and
`t_max` may reach +∞; the largest component of the ray keeps a finite `t_max`, so that an axis along which the
ray moves is always selected, and the cell leaves the range after finitely many steps. -/
theorem C22_wide_returns (hD : D = 2 ∨ D = 3) (h : WideRange o e bounds.min r x y q ρ) {ml : F32} {lam : ℚ}
    (hml : ml.Is lam) (h0 : 0 < lam) (hle : lam ≤ 2 ^ 30) : ∃ ray res, Casts o e bounds r ml ray res := by
  set oc := cellFromPoint o bounds.min r with hoc
  set ec := cellFromPoint e bounds.min r with hec
  by_cases hne : oc = ec
  · refine ⟨[], some ec, 0, ?_⟩
    unfold castRay
    rw [if_pos hD]
    dsimp only
    rw [← hoc, ← hec, if_pos hne]
  obtain ⟨hstill, hmove, m, hm⟩ := wide_axes hD h ml hne
  set c := rayCtx o e bounds r ml with hc
  have hpos := h.pos
  have hlo := h.lo
  have hhi := h.hi
  -- the range in cells
  set N : ℕ := ⌈(2 : ℚ) ^ 35 / ρ⌉₊ with hN
  have hN1 : (2 : ℚ) ^ 35 / ρ ≤ N := Nat.le_ceil _
  have hN2 : (N : ℚ) < 2 ^ 35 / ρ + 1 := Nat.ceil_lt_add_one (by positivity)
  have hN3 : (2 : ℚ) ^ 35 ≤ N * ρ := by rwa [div_le_iff₀ hpos] at hN1
  have hN4 : (N : ℚ) * ρ ≤ 2 ^ 36 := by
    have h1 : (N : ℚ) * ρ ≤ (2 ^ 35 / ρ + 1) * ρ := by gcongr
    have h2 : ((2 : ℚ) ^ 35 / ρ + 1) * ρ = 2 ^ 35 + ρ := by field_simp
    rw [h2] at h1
    norm_num at hhi ⊢
    linarith
  have hN5 : N < 2 ^ 58 := by
    have h1 : (2 : ℚ) ^ 35 / ρ ≤ 2 ^ 55 := by
      rw [div_le_iff₀ hpos]
      norm_num at hlo ⊢
      linarith
    have h2 : (N : ℚ) < 2 ^ 58 := by
      have h3 : (2 : ℚ) ^ 55 + 1 < 2 ^ 58 := by norm_num
      linarith
    exact_mod_cast h2
  have hcast : ∀ {n : ℤ}, |n| ≤ N → |(n : ℚ)| ≤ N := fun hn => by exact_mod_cast hn
  have hoa : ∀ i, |oc i| < N := fun i => by
    have h1 := wide_cell h.res h.lo h.hi h.offset h.offset_le h.origin h.origin_le i
    have h2 : (2 : ℚ) ^ 32 / ρ + 1 / 2 < 2 ^ 35 / ρ := by
      have e1 : (2 : ℚ) ^ 35 / ρ = 8 * (2 ^ 32 / ρ) := by ring
      have e2 : (1 : ℚ) ≤ 2 ^ 32 / ρ := by
        rw [le_div_iff₀ hpos]; norm_num at hhi ⊢; linarith
      rw [e1]; linarith
    have h3 : |(oc i : ℚ)| < N := by linarith
    exact_mod_cast h3
  have hk : ∀ k : Fin D → ℕ, (∀ i, |c.cellAt oc k i| < N) → (∀ i, c.s i = 0 → k i = 0) →
      ∀ i, k i ≤ 2 * N := by
    intro k h1 h2 i
    have h3 := abs_lt.mp (h1 i)
    have h4 := abs_lt.mp (hoa i)
    unfold RayCtx.cellAt at h3
    by_cases hi : y i = x i
    · rw [h2 i (hstill i hi).1]; omega
    · rcases (hmove i hi).1 with h5 | h5 <;> rw [h5] at h3 <;> omega
  have hret := castLoop_returns c (a := oc) (t := t0 o e bounds r)
    (Good := fun k => (∀ i, |c.cellAt oc k i| < N) ∧ ∀ i, c.s i = 0 → k i = 0) (K := 6 * N + 1)
    (by
      rintro k ⟨h1, h2⟩
      have h3 := hk k h1 h2
      have h4 : ∑ i, k i ≤ ∑ _i : Fin D, 2 * N := Finset.sum_le_sum fun i _ => h3 i
      rw [Finset.sum_const, Finset.card_univ, Fintype.card_fin, smul_eq_mul] at h4
      rcases hD with rfl | rfl <;> omega)
    (by
      rintro k ⟨h1, h2⟩
      obtain ⟨d, hd⟩ := selDim_some hD (fun i => c.tAt (t0 o e bounds r) i (k i))
      have hnan : ∀ i, (c.tAt (t0 o e bounds r) i (k i)).isNaN = false := by
        intro i
        by_cases hi : y i = x i
        · rw [(hstill i hi).2]; rfl
        · rcases (hmove i hi).2 (k i) with hT | ⟨T, hT⟩
          · rw [hT]; rfl
          · exact Fp.notNaN_is hT
      have hdm : y d ≠ x d := by
        intro hdm
        have hle := selDim_le hd hnan m
        rw [(hstill d hdm).2] at hle
        obtain ⟨T, hT⟩ := hm (k m)
        have h2 : (c.tAt (t0 o e bounds r) m (k m)).lt (Scalar.inf : F32) = true := by
          obtain ⟨_, _, _, h1⟩ := hT
          rw [h1]; rfl
        rw [Fp.not_lt_of_FLe hle] at h2
        cases h2
      have hstep := (hmove d hdm).1
      have hnext : ∀ i, |c.cellAt oc (Function.update k d (k d + 1)) i| ≤ N := by
        intro i
        have h5 := abs_lt.mp (h1 i)
        rw [← c.cellAt_step]
        by_cases hi : i = d
        · subst hi
          rw [Function.update_self, abs_le]
          rcases hstep with h6 | h6 <;> rw [h6] <;> constructor <;> omega
        · rw [Function.update_of_ne hi]; exact (h1 i).le
      refine ⟨d, hd, ?_, ?_⟩
      · apply inIsize_of_abs
        have h5 := abs_lt.mp (h1 d)
        rw [abs_le]
        rcases hstep with h6 | h6 <;> rw [h6] <;> constructor <;> omega
      · intro hnf
        refine ⟨fun i => lt_of_le_of_ne (hnext i) fun h5 => ?_, ?_⟩
        · have e1 : |(c.cellAt oc (Function.update k d (k d + 1)) i : ℚ)| = N := by exact_mod_cast h5
          rw [wide_far hD h hml h0 hle (i := i)
            (fun j => (mul_le_mul_of_nonneg_right (hcast (hnext j)) hpos.le).trans hN4) (by rw [e1]; exact hN3)] at hnf
          cases hnf
        · intro i hi
          by_cases hid : i = d
          · subst hid; rcases hstep with h6 | h6 <;> rw [hi] at h6 <;> omega
          · rw [Function.update_of_ne hid]; exact h2 i hi)
  have hz : c.cellAt oc (fun _ => 0) = oc := by
    funext i; simp [RayCtx.cellAt]
  obtain ⟨⟨l, res⟩, hr⟩ := hret (6 * N + 1) (fun _ => 0) ⟨by
    intro i
    rw [hz]
    exact hoa i, fun _ _ => rfl⟩ (by omega)
  rw [hz] at hr
  exact ⟨_, _, _, castRay_path hD hne hr⟩

/-- The range for given numbers, by computation. -/
lemma wideRange_val {o e b : Point D F32} {r : F32}
    (h : r.isFin = true ∧ 1 / 2 ^ 20 ≤ r.val ∧ r.val ≤ 2 ^ 30 ∧
      ∀ i, (o i).isFin = true ∧ (e i).isFin = true ∧ (b i).isFin = true ∧
        |(o i).val| ≤ 2 ^ 30 ∧ |(e i).val| ≤ 2 ^ 30 ∧ |(b i).val| ≤ 2 ^ 30 ∧
        ((e i).val = (o i).val ∨ 1 / 2 ^ 50 ≤ |(e i).val - (o i).val|)) :
    WideRange o e b r (fun i => (o i).val) (fun i => (e i).val) (fun i => (b i).val) r.val := by
  obtain ⟨h1, h2, h3, h6⟩ := h
  exact ⟨Fp.isFin_is h1, h2, h3, fun i => Fp.isFin_is (h6 i).1, fun i => Fp.isFin_is (h6 i).2.1,
    fun i => Fp.isFin_is (h6 i).2.2.1, fun i => (h6 i).2.2.2.1, fun i => (h6 i).2.2.2.2.1,
    fun i => (h6 i).2.2.2.2.2.1, fun i => (h6 i).2.2.2.2.2.2⟩

/-- From (10^9, 1/3) to (-10^9, 1/3 + 2^-20) in cells of 0.001, with a limit of 10^9: 10^12 cells to pass,
whose points differ by much less than f32 can tell apart at 10^9. -/
example : (∃ x y q ρ, WideRange (![Fp.lit (10 ^ 9), Fp.lit (1/3)] : Point 2 F32)
    ![Fp.lit (-10 ^ 9), Fp.lit (1/3 + 1 / 2 ^ 20)] ![Fp.lit 0, Fp.lit (-1)] (Fp.lit (1/1000)) x y q ρ) ∧
    (Fp.lit (10 ^ 9) : F32).Is (10 ^ 9) ∧ (10 ^ 9 : ℚ) ≤ 2 ^ 30 :=
  ⟨⟨_, _, _, _, wideRange_val (by decide +kernel)⟩,
    Fp.ofRat_is_rep ⟨1953125, 9, by simp [b32], by simp [b32], by simp [b32], by norm_num⟩, by norm_num⟩

/-- The least distance of different coordinates in `WideRange` cannot be dropped, range limit or not. From
(0, 0, 0) to (1, -2^-149, 0), in cells of 0.3 on a grid with the offset (0, -20.25, 0): the border of the cell
towards the end is computed on the wrong side, so `t_max` is -∞ along y; after the first step it is
-∞ + ∞, NaN; then the axis z is selected, along which the ray does not move, for ever. -/
theorem C22_tiny_hangs : CastsForever (![Fp.lit 0, Fp.lit 0, Fp.lit 0] : Point 3 F32)
    ![Fp.lit 1, Fp.lit (-(1 / 2 ^ 149)), Fp.lit 0]
    ⟨![Fp.lit 0, Fp.lit (-81 / 4), Fp.lit 0], ![Fp.lit 9, Fp.lit 9, Fp.lit 9]⟩ (Fp.lit (3 / 10)) (Fp.lit 10) := by
  set o : Point 3 F32 := ![Fp.lit 0, Fp.lit 0, Fp.lit 0] with ho
  set e : Point 3 F32 := ![Fp.lit 1, Fp.lit (-(1 / 2 ^ 149)), Fp.lit 0] with he
  set bd : Bounds 3 F32 := ⟨![Fp.lit 0, Fp.lit (-81 / 4), Fp.lit 0], ![Fp.lit 9, Fp.lit 9, Fp.lit 9]⟩ with hbd
  have hne : ¬ cellFromPoint o bd.min (Fp.lit (3 / 10)) = cellFromPoint e bd.min (Fp.lit (3 / 10)) := by
    decide +kernel
  set c := rayCtx o e bd (Fp.lit (3 / 10)) (Fp.lit 10) with hc
  have hloop : ∀ fuel, castLoop c fuel (cellFromPoint o bd.min (Fp.lit (3 / 10))) (t0 o e bd (Fp.lit (3 / 10))) =
      .error .fuel := by
    intro fuel
    cases fuel with
    | zero => rfl
    | succ n =>
      have hsel : selDim (t0 o e bd (Fp.lit (3 / 10))) = some 1 := by decide +kernel
      have hs : c.s 1 = -1 := by decide +kernel
      have hs' : toInt (c.step 1) = -1 := hs
      have hz : cellFromPoint o bd.min (Fp.lit (3 / 10)) 1 = 68 := by decide +kernel
      simp only [castLoop, hsel, hs', hz]
      rw [isz_ok.mpr ⟨rfl, by decide⟩, M.bind_ok]
      have h1 : ¬ Function.update (cellFromPoint o bd.min (Fp.lit (3 / 10))) 1 (68 + -1) = c.endCell := by
        decide +kernel
      have h2 : c.tooFar (Function.update (cellFromPoint o bd.min (Fp.lit (3 / 10))) 1 (68 + -1)) = false := by
        decide +kernel
      rw [if_neg h1, h2]
      have ht : c.GoodT (Function.update (t0 o e bd (Fp.lit (3 / 10))) 1
          (t0 o e bd (Fp.lit (3 / 10)) 1 +. c.tDelta 1)) := by
        intro i hi
        by_cases h : i = 1
        · subst h; rw [hs] at hi; cases hi
        · rw [Function.update_of_ne h]; exact t0_good _ _ _ _ _ i hi
      rw [castLoop_forever (rayCtx_good _ _ _ _ _) ht h1 h2 (d := 2) (by decide +kernel) (by decide +kernel)
        (by decide +kernel)]
      rfl
  intro fuel
  unfold castRay
  rw [if_pos (.inr rfl)]
  dsimp only
  rw [if_neg hne]
  change (castLoop c fuel (cellFromPoint o bd.min (Fp.lit (3 / 10))) (t0 o e bd (Fp.lit (3 / 10))) >>= _) = _
  rw [hloop]
  rfl

/-- That ray meets the other conditions of `WideRange`. -/
example : let r : F32 := Fp.lit (3 / 10); let e : Point 3 F32 := ![Fp.lit 1, Fp.lit (-(1 / 2 ^ 149)), Fp.lit 0]
    r.isFin = true ∧ 1 / 2 ^ 20 ≤ r.val ∧ r.val ≤ 2 ^ 30 ∧ (∀ i, (e i).isFin = true ∧ |(e i).val| ≤ 2 ^ 30) ∧
    (e 1).val = -(1 / 2 ^ 149) := by decide +kernel

end Props
end Verif
