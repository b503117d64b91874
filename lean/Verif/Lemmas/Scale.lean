import Verif.Spec.Scale
import Verif.Lemmas.Sqrt

/-!
# Rounding commutes with multiplication by a power of two, away from under- and overflow
-/

namespace Verif

/-- A multiple of `2 ^ g`. -/
def OnGrid (g : ℤ) (q : ℚ) : Prop := ∃ n : ℤ, q = n * 2 ^ g

lemma OnGrid.mono {g h : ℤ} {q : ℚ} (hq : OnGrid g q) (hle : h ≤ g) : OnGrid h q := by
  obtain ⟨n, rfl⟩ := hq
  refine ⟨n * 2 ^ (g - h).toNat, ?_⟩
  have h1 := two_zpow_int (k := g - h) (by omega)
  push_cast at h1 ⊢
  rw [h1, mul_assoc, ← two_zpow_add]
  congr 2
  ring

lemma OnGrid.add {g : ℤ} {q r : ℚ} (hq : OnGrid g q) (hr : OnGrid g r) : OnGrid g (q + r) := by
  obtain ⟨n, rfl⟩ := hq
  obtain ⟨m, rfl⟩ := hr
  exact ⟨n + m, by push_cast; ring⟩

lemma OnGrid.neg {g : ℤ} {q : ℚ} (hq : OnGrid g q) : OnGrid g (-q) := by
  obtain ⟨n, rfl⟩ := hq
  exact ⟨-n, by push_cast; ring⟩

lemma OnGrid.mul {g h : ℤ} {q r : ℚ} (hq : OnGrid g q) (hr : OnGrid h r) : OnGrid (g + h) (q * r) := by
  obtain ⟨n, rfl⟩ := hq
  obtain ⟨m, rfl⟩ := hr
  exact ⟨n * m, by rw [two_zpow_add]; push_cast; ring⟩

lemma OnGrid.le {g : ℤ} {q : ℚ} (hq : OnGrid g q) (h0 : q ≠ 0) : 2 ^ g ≤ |q| := by
  obtain ⟨n, rfl⟩ := hq
  have hn : n ≠ 0 := by rintro rfl; simp at h0
  have h1 : (1 : ℚ) ≤ |(n : ℚ)| := by exact_mod_cast Int.one_le_abs hn
  rw [abs_mul, abs_of_pos (two_zpow_pos g)]
  nlinarith [two_zpow_pos g]

lemma OnGrid.of_rep {f : Fmt} {q : ℚ} (h : f.Rep q) : OnGrid f.qmin q := by
  obtain ⟨m, e, -, he, -, rfl⟩ := h
  exact OnGrid.mono ⟨m, rfl⟩ he

namespace Fmt
variable {f : Fmt}

/-- Rounding stays on a grid. -/
lemma grid_rnd {g : ℤ} {q : ℚ} (h : OnGrid g q) : OnGrid g (f.rnd q) := by
  rcases le_or_gt g (f.ulpExp q) with c | c
  · exact OnGrid.mono ⟨roundEven (q / 2 ^ f.ulpExp q), rfl⟩ c
  · obtain ⟨n, hn⟩ := h.mono c.le
    have : f.rnd q = q := by
      unfold rnd
      have hp := (two_zpow_pos (f.ulpExp q)).ne'
      have e : q / 2 ^ f.ulpExp q = n := by rw [div_eq_iff hp]; exact hn
      rw [e, roundEven_intCast]
      exact hn.symm
    rwa [this]

lemma log_scale {q : ℚ} (h : q ≠ 0) (k : ℤ) : Int.log 2 |q * 2 ^ k| = Int.log 2 |q| + k := by
  obtain ⟨h1, h2⟩ := log_bounds h
  have hp := two_zpow_pos k
  apply log_unique
  · rw [abs_mul, abs_of_pos hp, two_zpow_add]; gcongr
  · rw [abs_mul, abs_of_pos hp, show Int.log 2 |q| + k + 1 = (Int.log 2 |q| + 1) + k by ring, two_zpow_add]; gcongr

/-- In the normal range. -/
lemma rnd_scale {q : ℚ} {k : ℤ} (h1 : 2 ^ (f.qmin + f.prec - 1) ≤ |q|) (h2 : 2 ^ (f.qmin + f.prec - 1) ≤ |q * 2 ^ k|) :
    f.rnd (q * 2 ^ k) = f.rnd q * 2 ^ k := by
  have hq : q ≠ 0 := by
    rintro rfl
    rw [abs_zero] at h1
    exact absurd h1 (not_le.mpr (two_zpow_pos _))
  have hl := log_scale hq k
  have a1 : f.qmin + f.prec - 1 ≤ Int.log 2 |q| := by
    have := (log_bounds hq).2
    have := two_zpow_lt_iff.mp (h1.trans_lt this)
    omega
  have a2 : f.qmin + f.prec - 1 ≤ Int.log 2 |q| + k := by
    have hqk : q * 2 ^ k ≠ 0 := mul_ne_zero hq (two_zpow_pos k).ne'
    have := (log_bounds hqk).2
    have := two_zpow_lt_iff.mp (h2.trans_lt this)
    omega
  have e : f.ulpExp (q * 2 ^ k) = f.ulpExp q + k := by
    unfold ulpExp
    rw [hl, max_eq_left (by omega), max_eq_left (by omega)]
    ring
  unfold rnd
  rw [e, two_zpow_add]
  have hp := (two_zpow_pos k).ne'
  have hu := (two_zpow_pos (f.ulpExp q)).ne'
  rw [show q * 2 ^ k / (2 ^ f.ulpExp q * 2 ^ k) = q / 2 ^ f.ulpExp q by field_simp]
  ring

/-- On the grid of the subnormal numbers, as sums of floats are. -/
lemma rnd_scale_grid {q : ℚ} {k : ℤ} (h1 : OnGrid f.qmin q) (h2 : OnGrid f.qmin (q * 2 ^ k)) :
    f.rnd (q * 2 ^ k) = f.rnd q * 2 ^ k := by
  have key : ∀ {q : ℚ} {k : ℤ}, OnGrid f.qmin q → OnGrid f.qmin (q * 2 ^ k) →
      |q| < 2 ^ (f.qmin + f.prec - 1) → f.rnd (q * 2 ^ k) = f.rnd q * 2 ^ k := by
    intro q k ⟨n, hn⟩ h2 hs
    have hp := two_zpow_pos f.qmin
    have hn1 : |n| ≤ 2 ^ f.prec := by
      rw [hn, abs_mul, abs_of_pos hp, show f.qmin + f.prec - 1 = ((f.prec - 1 : ℕ) : ℤ) + f.qmin by
        have := f.prec_pos; omega, two_zpow_add, zpow_natCast, mul_lt_mul_iff_left₀ hp] at hs
      have : |n| < 2 ^ (f.prec - 1) := by exact_mod_cast hs
      exact this.le.trans (pow_le_pow_right₀ (by norm_num) (by omega))
    have e1 : f.rnd q = q := by rw [hn]; exact rnd_of_int_mul hn1 le_rfl
    rw [e1]
    rcases le_or_gt 0 k with hk | hk
    · rw [hn, mul_assoc, ← two_zpow_add]
      exact rnd_of_int_mul hn1 (by omega)
    · obtain ⟨m, hm⟩ := h2
      rw [hm]
      refine rnd_of_int_mul ?_ le_rfl
      have h3 : |(m : ℚ)| ≤ |(n : ℚ)| := by
        have : |q * 2 ^ k| ≤ |q| := by
          rw [abs_mul, abs_of_pos (two_zpow_pos k)]
          have : (2 : ℚ) ^ k ≤ 2 ^ (0 : ℤ) := two_zpow_le hk.le
          rw [zpow_zero] at this
          nlinarith [abs_nonneg q]
        rw [hm, hn, abs_mul, abs_mul, abs_of_pos hp, mul_le_mul_iff_left₀ hp] at this
        exact this
      have : |m| ≤ |n| := by exact_mod_cast h3
      omega
  rcases lt_or_ge |q| (2 ^ (f.qmin + f.prec - 1)) with c | c
  · exact key h1 h2 c
  · rcases lt_or_ge |q * 2 ^ k| (2 ^ (f.qmin + f.prec - 1)) with d | d
    · have e : q * 2 ^ k * 2 ^ (-k) = q := by rw [mul_assoc, ← two_zpow_add]; simp
      have := key (k := -k) h2 (by rwa [e]) d
      rw [e] at this
      rw [this, mul_assoc, ← two_zpow_add]
      simp
    · exact rnd_scale c d

/-- Two numbers in the normal range on the same side of all points of a fine grid are rounded to the same number. -/
lemma rnd_eq_of_sides {a b : ℚ} {g : ℤ} (ha : 0 < a) (hg : 2 ^ (g + f.prec) ≤ a) (hb : 0 < b)
    (hs : ∀ c, OnGrid g c → (c ≤ a ↔ c ≤ b) ∧ (a ≤ c ↔ b ≤ c)) : f.rnd a = f.rnd b := by
  obtain ⟨h1, h2⟩ := log_bounds ha.ne'
  have hpp := f.prec_pos
  rw [abs_of_pos ha] at h1 h2
  have hl : g + f.prec ≤ Int.log 2 a := by
    have := two_zpow_lt_iff.mp (hg.trans_lt h2)
    omega
  have hgrid : ∀ e : ℤ, g ≤ e → ∀ n : ℤ, OnGrid g (n * 2 ^ e) := fun e he n => OnGrid.mono ⟨n, rfl⟩ he
  have hlog : Int.log 2 |b| = Int.log 2 |a| := by
    rw [abs_of_pos ha]
    apply log_unique
    · rw [abs_of_pos hb]
      have := hgrid (Int.log 2 a) (by omega) 1
      rw [Int.cast_one, one_mul] at this
      exact (hs _ this).1.mp h1
    · rw [abs_of_pos hb]
      have := hgrid (Int.log 2 a + 1) (by omega) 1
      rw [Int.cast_one, one_mul] at this
      by_contra hc
      exact absurd ((hs _ this).1.mpr (not_lt.mp hc)) (not_le.mpr h2)
  have hu : f.ulpExp b = f.ulpExp a := by unfold ulpExp; rw [hlog]
  have hug : g < f.ulpExp a := by
    have : Int.log 2 |a| - (f.prec - 1) ≤ f.ulpExp a := le_max_left _ _
    rw [abs_of_pos ha] at this
    omega
  unfold rnd
  rw [hu]
  congr 2
  set u := f.ulpExp a
  have hup := two_zpow_pos u
  have hhalf : ∀ n : ℤ, ((n : ℚ) / 2 ≤ a / 2 ^ u ↔ (n : ℚ) / 2 ≤ b / 2 ^ u) ∧
      (a / 2 ^ u ≤ (n : ℚ) / 2 ↔ b / 2 ^ u ≤ (n : ℚ) / 2) := by
    intro n
    have e : (n : ℚ) / 2 * 2 ^ u = n * 2 ^ (u - 1) := by rw [two_zpow_sub]; norm_num; ring
    rw [le_div_iff₀ hup, le_div_iff₀ hup, div_le_iff₀ hup, div_le_iff₀ hup, e]
    exact hs _ (hgrid _ (by omega) n)
  have hfl : ⌊a / 2 ^ u⌋ = ⌊b / 2 ^ u⌋ := by
    apply le_antisymm
    · rw [Int.le_floor]
      have := (hhalf (2 * ⌊a / 2 ^ u⌋)).1
      push_cast at this
      rw [mul_div_cancel_left₀ _ (by norm_num : (2 : ℚ) ≠ 0)] at this
      exact this.mp (Int.floor_le _)
    · rw [Int.le_floor]
      have := (hhalf (2 * ⌊b / 2 ^ u⌋)).1
      push_cast at this
      rw [mul_div_cancel_left₀ _ (by norm_num : (2 : ℚ) ≠ 0)] at this
      exact this.mpr (Int.floor_le _)
  unfold roundEven
  dsimp only
  rw [hfl]
  set n := ⌊b / 2 ^ u⌋
  obtain ⟨k1, k2⟩ := hhalf (2 * n + 1)
  push_cast at k1 k2
  have c1 : a / 2 ^ u - n < 1 / 2 ↔ b / 2 ^ u - n < 1 / 2 := by
    rw [← not_le, ← not_le, not_iff_not]
    constructor
    · intro h; have := k1.mp (by linarith); linarith
    · intro h; have := k1.mpr (by linarith); linarith
  have c2 : 1 / 2 < a / 2 ^ u - n ↔ 1 / 2 < b / 2 ^ u - n := by
    rw [← not_le, ← not_le, not_iff_not]
    constructor
    · intro h; have := k2.mp (by linarith); linarith
    · intro h; have := k2.mpr (by linarith); linarith
  simp only [c1, c2]

end Fmt

namespace Fp
variable {f : Fmt}

/-- The square root of a number in another unit. -/
lemma sqrtQ_scale {q : ℚ} {k g : ℤ} (hq : f.Rep q) (hq' : f.Rep (q * 2 ^ (2 * k))) (h0 : 0 < q) (hg : f.qmin ≤ g)
    (hg' : f.qmin ≤ g + k) (hlo : 2 ^ (2 * (g + f.prec)) ≤ q) :
    f.rnd (sqrtQ f (q * 2 ^ (2 * k))) = f.rnd (sqrtQ f q * 2 ^ k) := by
  have hk := two_zpow_pos k
  have h0' : 0 < q * 2 ^ (2 * k) := mul_pos h0 (two_zpow_pos _)
  have e2 : (2 : ℚ) ^ (2 * k) = 2 ^ k * 2 ^ k := by rw [← two_zpow_add]; congr 1; ring
  have hgr : ∀ {h : ℤ} {c : ℚ}, f.qmin ≤ h → OnGrid h c → ∃ z : ℤ, c * 2 ^ (1 - f.qmin).toNat = z := by
    intro h c hh hc
    obtain ⟨n, rfl⟩ := hc.mono hh
    have h5 : 0 ≤ f.qmin + (1 - f.qmin).toNat := by omega
    refine ⟨n * 2 ^ (f.qmin + (1 - f.qmin).toNat).toNat, ?_⟩
    have h7 := two_zpow_int h5
    push_cast at h7 ⊢
    rw [h7, two_zpow_add, zpow_natCast]
    ring
  have low : (2 : ℚ) ^ (g + f.prec) ≤ sqrtQ f q := by
    obtain ⟨z, hz⟩ := hgr (h := g) hg (c := 2 ^ (g + f.prec))
      (OnGrid.mono (g := g + f.prec) ⟨1, by simp⟩ (by omega))
    refine (sqrtQ_grid hq h0.le (two_zpow_pos _).le hz).1 ?_
    rw [← two_zpow_add]
    convert hlo using 2
    ring
  have spos : 0 < sqrtQ f q := lt_of_lt_of_le (two_zpow_pos _) low
  have low' : (2 : ℚ) ^ (g + k + f.prec) ≤ sqrtQ f (q * 2 ^ (2 * k)) := by
    obtain ⟨z, hz⟩ := hgr (h := g + k) hg' (c := 2 ^ (g + k + f.prec))
      (OnGrid.mono (g := g + k + f.prec) ⟨1, by simp⟩ (by omega))
    refine (sqrtQ_grid hq' h0'.le (two_zpow_pos _).le hz).1 ?_
    rw [← two_zpow_add]
    have : (2 : ℚ) ^ (2 * (g + f.prec)) * 2 ^ (2 * k) ≤ q * 2 ^ (2 * k) := by gcongr
    rw [← two_zpow_add] at this
    convert this using 2
    ring
  refine Fmt.rnd_eq_of_sides (g := g + k) (lt_of_lt_of_le (two_zpow_pos _) low') low' (mul_pos spos hk) ?_
  intro c hc
  rcases lt_or_ge c 0 with hneg | hpos
  · have a1 : 0 < sqrtQ f (q * 2 ^ (2 * k)) := lt_of_lt_of_le (two_zpow_pos _) low'
    have a2 : 0 < sqrtQ f q * 2 ^ k := mul_pos spos hk
    constructor <;> constructor <;> intro <;> linarith
  · -- the same point in the first unit
    obtain ⟨n, hn⟩ := hc
    set d : ℚ := n * 2 ^ g with hd
    have hcd : c = d * 2 ^ k := by rw [hn, hd, two_zpow_add]; ring
    have hd0 : 0 ≤ d := by
      rw [hcd] at hpos
      exact nonneg_of_mul_nonneg_left hpos hk
    obtain ⟨z, hz⟩ := hgr (h := g) hg (c := d) ⟨n, rfl⟩
    obtain ⟨z', hz'⟩ := hgr (h := g + k) hg' (c := c) ⟨n, hn⟩
    obtain ⟨a1, a2, a3, a4⟩ := sqrtQ_grid hq h0.le hd0 hz
    obtain ⟨b1, b2, b3, b4⟩ := sqrtQ_grid hq' h0'.le hpos hz'
    have hsq : c * c = d * d * 2 ^ (2 * k) := by rw [hcd, e2]; ring
    have hp2 := two_zpow_pos (2 * k)
    rw [hsq, mul_le_mul_iff_left₀ hp2] at b1 b2
    rw [hsq, mul_lt_mul_iff_left₀ hp2] at b3 b4
    rw [hcd, mul_le_mul_iff_left₀ hk, mul_le_mul_iff_left₀ hk]
    rw [hcd] at b1 b2 b3 b4
    constructor
    · constructor
      · intro h
        by_contra hc
        exact absurd h (not_le.mpr (b4 (by
          by_contra hq2
          exact hc (a1 (not_lt.mp hq2)))))
      · intro h
        apply b1
        by_contra hc
        exact absurd h (not_le.mpr (a4 (not_le.mp hc)))
    · constructor
      · intro h
        apply a2
        by_contra hc
        exact absurd h (not_le.mpr (b3 (not_le.mp hc)))
      · intro h
        apply b2
        by_contra hc
        exact absurd h (not_le.mpr (a3 (not_le.mp hc)))

end Fp

end Verif
