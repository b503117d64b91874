import Verif.Props.Limits
import Mathlib.Analysis.SpecialFunctions.Log.Basic

/-!
# C46, C47: log-odds and sign
-/

namespace Verif

/-- The exact logarithm and exponential. -/
noncomputable instance : Libm XR where
  ln := XR.op1 Real.log
  exp := XR.op1 Real.exp

namespace Props
open Spec

variable {D : ℕ} {f : Fmt}

/-! ## C46, exact -/

lemma logodds_exact (p : ℝ) : logoddsFromProbability (XR.fin p) = XR.fin (Real.log (p / (1 - p))) := by
  simp [logoddsFromProbability, Scalar.div, Scalar.sub, Scalar.lit, XR.op2, Libm.ln, XR.op1]

lemma probability_exact (l : ℝ) :
    probabilityFromLogodds (XR.fin l) = XR.fin (1 - 1 / (1 + Real.exp l)) := by
  simp [probabilityFromLogodds, Scalar.div, Scalar.sub, Scalar.add, Scalar.lit, XR.op2, Libm.exp, XR.op1]

/-- C46: in exact arithmetic the two conversions invert each other: on the open unit interval and on all
numbers respectively, and probabilities computed from log-odds are in the open unit interval. -/
theorem C46_exact_inverse :
    (∀ p : ℝ, 0 < p → p < 1 → probabilityFromLogodds (logoddsFromProbability (XR.fin p)) = XR.fin p) ∧
    (∀ l : ℝ, logoddsFromProbability (probabilityFromLogodds (XR.fin l)) = XR.fin l) ∧
    (∀ l : ℝ, ∃ p, probabilityFromLogodds (XR.fin l) = XR.fin p ∧ 0 < p ∧ p < 1) := by
  refine ⟨fun p h0 h1 => ?_, fun l => ?_, fun l => ⟨_, probability_exact l, ?_, ?_⟩⟩
  · rw [logodds_exact, probability_exact, Real.exp_log (div_pos h0 (by linarith))]
    have h2 : (1 : ℝ) - p ≠ 0 := by linarith
    congr 1
    field_simp
    ring
  · rw [probability_exact, logodds_exact]
    have h : 0 < Real.exp l := Real.exp_pos l
    have h2 : (1 + Real.exp l) ≠ 0 := by linarith
    have e : (1 - 1 / (1 + Real.exp l)) / (1 - (1 - 1 / (1 + Real.exp l))) = Real.exp l := by
      field_simp
      ring
    rw [e, Real.log_exp]
  · have h : 0 < Real.exp l := Real.exp_pos l
    rw [sub_pos, div_lt_one (by linarith)]
    linarith
  · have h : 0 < Real.exp l := Real.exp_pos l
    have : 0 < 1 / (1 + Real.exp l) := by positivity
    linarith

/-- C46: in exact arithmetic both conversions are strictly increasing. -/
theorem C46_exact_strict :
    (∀ p q : ℝ, 0 < p → p < q → q < 1 → ∃ a b, logoddsFromProbability (XR.fin p) = XR.fin a ∧
      logoddsFromProbability (XR.fin q) = XR.fin b ∧ a < b) ∧
    (∀ k l : ℝ, k < l → ∃ a b, probabilityFromLogodds (XR.fin k) = XR.fin a ∧
      probabilityFromLogodds (XR.fin l) = XR.fin b ∧ a < b) := by
  refine ⟨fun p q h0 h1 h2 => ⟨_, _, logodds_exact p, logodds_exact q, ?_⟩,
    fun k l h => ⟨_, _, probability_exact k, probability_exact l, ?_⟩⟩
  · apply Real.log_lt_log (div_pos h0 (by linarith))
    rw [div_lt_div_iff₀ (by linarith) (by linarith)]
    nlinarith
  · have h1 : Real.exp k < Real.exp l := Real.exp_lt_exp.mpr h
    have h2 : 0 < Real.exp k := Real.exp_pos k
    have : 1 / (1 + Real.exp l) < 1 / (1 + Real.exp k) :=
      one_div_lt_one_div_of_lt (by linarith) (by linarith)
    linarith

/-! ## C46, floating point -/

/-- What is assumed of the float logarithm and exponential: they are monotone, defined (not NaN) on the
non-negative numbers and everywhere respectively, and the exponential is not negative. -/
structure GoodLibm (f : Fmt) [Libm (Fp f)] : Prop where
  ln_mono : ∀ x y : Fp f, FLe (Fp.lit 0) x → FLe x y → FLe (Libm.ln x) (Libm.ln y)
  exp_mono : ∀ x y : Fp f, FLe x y → FLe (Libm.exp x) (Libm.exp y)
  exp_nonneg : ∀ x : Fp f, x.isNaN = false → FLe (Fp.lit 0) (Libm.exp x)

lemma rep_one : f.Rep 1 := by
  have := Fmt.rep_int (f := f) (n := 1) (by rw [abs_one]; exact one_le_pow₀ (by norm_num))
  exact_mod_cast this

lemma lit_one_is : (Fp.lit 1 : Fp f).Is 1 := Fp.ofRat_is_rep rep_one
lemma lit_zero_is : (Fp.lit 0 : Fp f).Is 0 := Fp.ofRat_is_rep Fmt.rep_zero

lemma lit_one_eq : (Fp.lit 1 : Fp f) = .fin 1 false rep_one (by simp) := by
  obtain ⟨nz, h1, h2, e⟩ := lit_one_is (f := f)
  have : nz = false := by
    rw [Bool.eq_false_iff]; intro h; exact one_ne_zero (h2 h)
  subst this; exact e

/-- Numbers in the closed unit interval. -/
lemma unit_cases {p : Fp f} (h0 : FLe (Fp.lit 0) p) (h1 : FLe p (Fp.lit 1)) :
    ∃ x, p.Is x ∧ 0 ≤ x ∧ x ≤ 1 := by
  rcases p with _ | (_ | _) | ⟨x, nz, hx, hz⟩
  · cases h0.2.1
  · have := h1.2.2
    rw [Fp.key_is lit_one_is] at this
    exact absurd (WithBot.coe_le_coe.mp this) (by simp)
  · have := h0.2.2
    rw [Fp.key_is lit_zero_is] at this
    simp [Fp.key] at this
  · have hp : (Fp.fin x nz hx hz : Fp f).Is x := ⟨_, _, _, rfl⟩
    exact ⟨x, hp, (Fp.FLe_is lit_zero_is hp).mp h0, (Fp.FLe_is hp lit_one_is).mp h1⟩

lemma rnd_unit {q : ℚ} (h0 : 0 ≤ q) (h1 : q ≤ 1) : 0 ≤ f.rnd q ∧ f.rnd q ≤ 1 ∧ |f.rnd q| < 2 ^ f.emax := by
  have a := Fmt.le_rnd_of_rep (f := f) Fmt.rep_zero h0
  have b := Fmt.rnd_le_of_rep (f := f) rep_one h1
  have c := Fmt.rep_abs_lt (f := f) rep_one
  refine ⟨a, b, ?_⟩
  rw [abs_of_nonneg a]
  rw [abs_one] at c
  linarith

/-- `1 - p` for `p` in the unit interval. -/
lemma one_sub {p : Fp f} {x : ℚ} (hp : p.Is x) (h0 : 0 ≤ x) (h1 : x ≤ 1) :
    ((Fp.lit 1).sub p).Is (f.rnd (1 - x)) ∧ ((Fp.lit 1).sub p).sgn = false ∧
      (Fp.lit 1).sub p = Fp.ofRat false (1 - x) := by
  obtain ⟨a, b, c⟩ := rnd_unit (f := f) (q := 1 - x) (by linarith) (by linarith)
  obtain ⟨nz, r1, r2, rfl⟩ := hp
  have e : (Fp.lit 1 : Fp f).sub (.fin x nz r1 r2) = Fp.ofRat false (1 - x) := by
    rw [lit_one_eq]
    simp only [Fp.sub, Fp.neg, Fp.add, Bool.false_and]
    rw [sub_eq_add_neg]
  refine ⟨by rw [e]; exact Fp.ofRat_is c, ?_, e⟩
  rw [e]
  unfold Fp.ofRat
  rw [dif_pos c]
  simp only [Fp.sgn, Bool.or_eq_false_iff, decide_eq_false_iff_not, not_lt, Bool.and_eq_false_iff]
  refine ⟨.inr ?_, a⟩
  split_ifs with h
  · rfl
  · rw [decide_eq_false_iff_not]; linarith

lemma odds_mono {p q : Fp f} (h0 : FLe (Fp.lit 0) p) (hpq : FLe p q) (h1 : FLe q (Fp.lit 1)) :
    FLe (p.div ((Fp.lit 1).sub p)) (q.div ((Fp.lit 1).sub q)) ∧
      FLe (Fp.lit 0) (p.div ((Fp.lit 1).sub p)) := by
  obtain ⟨x, hx, hx0, hx1⟩ := unit_cases h0 (Fp.FLe_trans hpq h1)
  obtain ⟨y, hy, hy0, hy1⟩ := unit_cases (Fp.FLe_trans h0 hpq) h1
  have hxy : x ≤ y := (Fp.FLe_is hx hy).mp hpq
  obtain ⟨a1, a2, -⟩ := one_sub hx hx0 hx1
  obtain ⟨b1, b2, -⟩ := one_sub hy hy0 hy1
  obtain ⟨c1, -, -⟩ := rnd_unit (f := f) (q := 1 - x) (by linarith) (by linarith)
  obtain ⟨d1, -, -⟩ := rnd_unit (f := f) (q := 1 - y) (by linarith) (by linarith)
  have hab : f.rnd (1 - y) ≤ f.rnd (1 - x) := Fmt.rnd_mono (by linarith)
  -- the odds, by cases
  have odds : ∀ {p : Fp f} {x : ℚ}, p.Is x → 0 ≤ x → x ≤ 1 → ((Fp.lit 1).sub p).Is (f.rnd (1 - x)) →
      ((Fp.lit 1).sub p).sgn = false →
      (f.rnd (1 - x) = 0 ∧ p.div ((Fp.lit 1).sub p) = .inf false) ∨
      (f.rnd (1 - x) ≠ 0 ∧ ∃ s, p.div ((Fp.lit 1).sub p) = .ofRat s (x / f.rnd (1 - x))) := by
    intro p x hp h0 h1 hs hsg
    obtain ⟨nz', u1, u2, e⟩ := hs
    rw [e] at hsg ⊢
    obtain ⟨nz, r1, r2, rfl⟩ := hp
    by_cases hz : f.rnd (1 - x) = 0
    · refine .inl ⟨hz, ?_⟩
      have hx : x ≠ 0 := by
        rintro rfl
        rw [sub_zero, Fmt.rnd_of_rep rep_one] at hz
        exact one_ne_zero hz
      have hnz : nz = false := by
        rw [Bool.eq_false_iff]; intro h; exact hx (r2 h)
      simp only [Fp.div, if_pos hz, if_neg hx, hsg, Bool.xor_false]
      simp [Fp.sgn, hnz, h0]
    · exact .inr ⟨hz, (Fp.fin x nz r1 r2 : Fp f).sgn ^^ false, by simp only [Fp.div, if_neg hz, hsg]⟩
  rcases odds hx hx0 hx1 a1 a2 with ⟨z1, e1⟩ | ⟨z1, s1, e1⟩
  · have z2 : f.rnd (1 - y) = 0 := le_antisymm (by linarith) d1
    rcases odds hy hy0 hy1 b1 b2 with ⟨_, e2⟩ | ⟨z3, _⟩
    · rw [e1, e2]; exact ⟨Fp.FLe_refl rfl, Fp.FLe_pos_inf (Fp.notNaN_is lit_zero_is)⟩
    · exact absurd z2 z3
  · have c2 : 0 < f.rnd (1 - x) := lt_of_le_of_ne c1 (Ne.symm z1)
    have hlow : FLe (Fp.lit 0) (Fp.ofRat s1 (x / f.rnd (1 - x)) : Fp f) :=
      Fp.FLe_ofRat (by positivity)
    rcases odds hy hy0 hy1 b1 b2 with ⟨_, e2⟩ | ⟨z2, s2, e2⟩
    · rw [e1, e2]; exact ⟨Fp.FLe_pos_inf Fp.notNaN_ofRat, hlow⟩
    · rw [e1, e2]
      have d2 : 0 < f.rnd (1 - y) := lt_of_le_of_ne d1 (Ne.symm z2)
      refine ⟨Fp.FLe_ofRat ?_, hlow⟩
      exact div_le_div₀ hy0 hxy d2 hab

/-- C46: in floating point the log-odds are a monotone function of the probability on [0, 1] (no NaN),
if the logarithm is monotone. -/
theorem C46_logodds_monotone [Libm (Fp f)] (hl : GoodLibm f) {p q : Fp f} (h0 : FLe (Fp.lit 0) p)
    (hpq : FLe p q) (h1 : FLe q (Fp.lit 1)) :
    FLe (logoddsFromProbability p) (logoddsFromProbability q) :=
  hl.ln_mono _ _ (odds_mono h0 hpq h1).2 (odds_mono h0 hpq h1).1

/-- `1 / s` for `s ≥ 1`, infinity included. -/
lemma recip {s : Fp f} (h : FLe (Fp.lit 1) s) :
    (∃ y, s.Is y ∧ 1 ≤ y ∧ ∃ b, (Fp.lit 1).div s = .ofRat b (1 / y)) ∨
    (s = .inf false ∧ ∃ b, (Fp.lit 1).div s = .ofRat b 0) := by
  rw [lit_one_eq]
  rcases s with _ | (_ | _) | ⟨y, nz, r1, r2⟩
  · cases h.2.1
  · exact .inr ⟨rfl, _, rfl⟩
  · have := h.2.2
    rw [Fp.key_is lit_one_is] at this
    simp [Fp.key] at this
  · have hy : (Fp.fin y nz r1 r2 : Fp f).Is y := ⟨_, _, _, rfl⟩
    have h1 : 1 ≤ y := (Fp.FLe_is lit_one_is hy).mp h
    refine .inl ⟨y, hy, h1, (Fp.fin 1 false rep_one (by simp) : Fp f).sgn ^^
      (Fp.fin y nz r1 r2 : Fp f).sgn, ?_⟩
    simp only [Fp.div]
    rw [if_neg (by linarith)]

lemma recip_anti {s t : Fp f} (h : FLe (Fp.lit 1) s) (hst : FLe s t) :
    FLe ((Fp.lit 1).div t) ((Fp.lit 1).div s) ∧ FLe (Fp.lit 0) ((Fp.lit 1).div s) ∧
      FLe ((Fp.lit 1).div s) (Fp.lit 1) := by
  rcases recip h with ⟨y, hy, hy1, b, e⟩ | ⟨rfl, b, e⟩
  · have l1 : FLe (Fp.lit 0) (Fp.ofRat b (1 / y) : Fp f) := Fp.FLe_ofRat (by positivity)
    have l2 : FLe (Fp.ofRat b (1 / y) : Fp f) (Fp.lit 1) := Fp.FLe_ofRat (by
      rw [div_le_one (by linarith)]; exact hy1)
    rcases recip (Fp.FLe_trans h hst) with ⟨z, hz, hz1, c, e'⟩ | ⟨rfl, c, e'⟩
    · have hyz : y ≤ z := (Fp.FLe_is hy hz).mp hst
      rw [e, e']
      exact ⟨Fp.FLe_ofRat (one_div_le_one_div_of_le (by linarith) hyz), l1, l2⟩
    · rw [e, e']
      exact ⟨Fp.FLe_ofRat (by positivity), l1, l2⟩
  · have l1 : FLe (Fp.lit 0) (Fp.ofRat b 0 : Fp f) := Fp.FLe_ofRat le_rfl
    have l2 : FLe (Fp.ofRat b 0 : Fp f) (Fp.lit 1) := Fp.FLe_ofRat (by norm_num)
    rcases recip (Fp.FLe_trans h hst) with ⟨z, hz, -, -⟩ | ⟨-, c, e'⟩
    · have := hst.2.2
      rw [Fp.key_is hz] at this
      exact absurd (WithBot.coe_le_coe.mp this) (by simp)
    · rw [e, e']
      exact ⟨Fp.FLe_ofRat le_rfl, l1, l2⟩

/-- C46: in floating point the probability is a monotone function of the log-odds and lies in [0, 1], for
all log-odds but NaN, if the exponential is monotone and not negative. -/
theorem C46_probability_monotone [Libm (Fp f)] (hl : GoodLibm f) {k l : Fp f} (h : FLe k l) :
    FLe (probabilityFromLogodds k) (probabilityFromLogodds l) ∧
    FLe (Fp.lit 0) (probabilityFromLogodds k) ∧ FLe (probabilityFromLogodds k) (Fp.lit 1) := by
  have e1 := hl.exp_nonneg k h.1
  have e2 := hl.exp_mono k l h
  -- one plus something non-negative
  have key : ∀ e : Fp f, FLe (Fp.lit 0) e → FLe (Fp.lit 1) ((Fp.lit 1).add e) := by
    intro e he
    refine FLe_add_nonneg (Fp.notNaN_is lit_one_is) he ?_
    rw [lit_one_eq]
    rcases e with _ | (_ | _) | _
    · cases he.2.1
    · rfl
    · rfl
    · exact Fp.notNaN_ofRat
  have hs := key _ e1
  have hst : FLe ((Fp.lit 1).add (Libm.exp k)) ((Fp.lit 1).add (Libm.exp l)) := by
    have comm : ∀ e : Fp f, (Fp.lit 1).add e = e.add (Fp.lit 1) := by
      intro e
      rw [lit_one_eq]
      rcases e with _ | (_ | _) | _ <;> simp only [Fp.add]
      rw [Bool.and_comm, add_comm]
    rw [comm, comm]
    exact Fp.add_mono_right lit_one_is e2
  obtain ⟨r1, r2, r3⟩ := recip_anti hs hst
  have r4 := (recip_anti (Fp.FLe_trans hs hst) (Fp.FLe_refl hst.2.1)).2
  obtain ⟨x, hx, hx0, hx1⟩ := unit_cases r2 r3
  obtain ⟨y, hy, hy0, hy1⟩ := unit_cases r4.1 r4.2
  have hyx : y ≤ x := (Fp.FLe_is hy hx).mp r1
  have a := (one_sub hx hx0 hx1).2.2
  have b := (one_sub hy hy0 hy1).2.2
  change FLe ((Fp.lit 1).sub ((Fp.lit 1).div ((Fp.lit 1).add (Libm.exp k))))
      ((Fp.lit 1).sub ((Fp.lit 1).div ((Fp.lit 1).add (Libm.exp l)))) ∧
    FLe (Fp.lit 0) ((Fp.lit 1).sub ((Fp.lit 1).div ((Fp.lit 1).add (Libm.exp k)))) ∧
    FLe ((Fp.lit 1).sub ((Fp.lit 1).div ((Fp.lit 1).add (Libm.exp k)))) (Fp.lit 1)
  rw [a, b]
  exact ⟨Fp.FLe_ofRat (by linarith), Fp.FLe_ofRat (by linarith), Fp.FLe_ofRat (by linarith)⟩

/-- A libm that meets the assumptions: crude, but monotone. -/
example : ∃ l : Libm (Fp b32), @GoodLibm b32 l := by
  let l : Libm (Fp b32) := ⟨id, fun x => if FLe x (Fp.lit 0) then Fp.lit 0 else x⟩
  have hz : (Fp.lit 0 : F32).isNaN = false := Fp.notNaN_is lit_zero_is
  refine ⟨l, ?_⟩
  refine @GoodLibm.mk b32 l (fun _ _ _ h => h) (fun x y h => ?_) fun x h => ?_
  · change FLe (if _ then _ else _) (if _ then _ else _)
    split_ifs with h1 h2 h2
    · exact Fp.FLe_refl hz
    · exact (Fp.FLe_total h.2.1 hz).resolve_left h2
    · exact absurd (Fp.FLe_trans h h2) h1
    · exact h
  · change FLe _ (if _ then _ else _)
    split_ifs with h1
    · exact Fp.FLe_refl hz
    · exact (Fp.FLe_total h hz).resolve_left h1

/-- C46, with C45: a model built from probabilities with miss ≤ 1/2 ≤ hit and min ≤ 1/2 ≤ max meets the
conditions under which C37 and C42 hold, if the logarithm is monotone and maps 1 to 0. -/
theorem C46_model_conditions [Libm F32] (hl : GoodLibm b32) (hln : (Libm.ln (Fp.lit 1 : F32)).Is 0)
    {hit miss mn mx th range : F32} {nm : LidarNoiseModel F32}
    (h : LidarNoiseModel.new hit miss mn mx th range = .ok nm) :
    (FLe (Fp.lit 0.5) hit → FLe (Fp.lit 0) nm.hit) ∧ (FLe miss (Fp.lit 0.5) → FLe nm.miss (Fp.lit 0)) ∧
    (FLe mn (Fp.lit 0.5) → FLe (Fp.lit 0.5) mx → InLimits nm (Fp.lit 0)) := by
  have hp : ∀ p ∈ [hit, miss, mn, mx, th], FLe (Fp.lit 0) p ∧ FLe p (Fp.lit 1) := by
    by_contra hn
    rw [(C45_new hit miss mn mx th range).2 hn] at h
    cases h
  rw [(C45_new hit miss mn mx th range).1 hp] at h
  cases h
  have hhalf : (logoddsFromProbability (Fp.lit 0.5 : F32)).Is 0 := by
    have e : logoddsFromProbability (Fp.lit 0.5 : F32) = Libm.ln (Fp.lit 1) := by
      unfold logoddsFromProbability
      congr 1
      decide +kernel
    rw [e]; exact hln
  have h05 : FLe (Fp.lit 0 : F32) (Fp.lit 0.5) := by decide +kernel
  have h51 : FLe (Fp.lit 0.5 : F32) (Fp.lit 1) := by decide +kernel
  have hz0 : FLe (Fp.lit 0) (logoddsFromProbability (Fp.lit 0.5 : F32)) :=
    (Fp.FLe_is lit_zero_is hhalf).mpr le_rfl
  have hz1 : FLe (logoddsFromProbability (Fp.lit 0.5 : F32)) (Fp.lit 0) :=
    (Fp.FLe_is hhalf lit_zero_is).mpr le_rfl
  have up : ∀ p ∈ [hit, miss, mn, mx, th], FLe (Fp.lit 0.5) p →
      FLe (Fp.lit 0) (logoddsFromProbability p) := fun p hm h =>
    Fp.FLe_trans hz0 (C46_logodds_monotone hl h05 h (hp p hm).2)
  have down : ∀ p ∈ [hit, miss, mn, mx, th], FLe p (Fp.lit 0.5) →
      FLe (logoddsFromProbability p) (Fp.lit 0) := fun p hm h =>
    Fp.FLe_trans (C46_logodds_monotone hl (hp p hm).1 h h51) hz1
  exact ⟨up hit (by simp), down miss (by simp), fun h1 h2 => ⟨down mn (by simp) h1, up mx (by simp) h2⟩⟩

/-! ## C47 -/

/-- C47: the sign function is 0 exactly on the two zeros, 1 exactly on positive values (infinity
included) and -1 otherwise, which includes NaN. -/
theorem C47_signum (x : Fp f) :
    ((f32Signum x).Is 0 ↔ x.Is 0) ∧
    ((f32Signum x).Is 1 ↔ x.isNaN = false ∧ (Fp.lit 0 : Fp f).key < x.key) ∧
    ((f32Signum x).Is (-1) ↔ x.isNaN = true ∨ x.key < (Fp.lit 0 : Fp f).key) := by
  have e0 : (f32Signum x) = if x.eq (Fp.lit 0) = true then Fp.lit 0
      else if (Fp.lit 0 : Fp f).lt x = true then Fp.lit 1 else Fp.lit (-1) := rfl
  have hm1 : (Fp.lit (-1) : Fp f).Is (-1) := Fp.ofRat_is_rep (Fmt.rep_neg rep_one)
  have hz : (Fp.lit 0 : Fp f).isNaN = false := Fp.notNaN_is lit_zero_is
  have one : ∀ {a b : ℚ} {y : Fp f}, y.Is a → (y.Is b ↔ a = b) := fun ha =>
    ⟨fun hb => ha.unique hb, fun h => h ▸ ha⟩
  rw [e0]
  by_cases h1 : x.eq (Fp.lit 0) = true
  · have hn := (Fp.notNaN_of_eq h1).1
    have hk := (Fp.eq_iff_key hn hz).mp h1
    have hx : x.Is 0 := Fp.is_of_key hn (by rw [hk, Fp.key_is lit_zero_is])
    simp only [if_pos h1, one (lit_zero_is (f := f)), hx, hk, hn]
    simp
  · rw [if_neg h1]
    have hx : ¬ x.Is 0 := fun hx => h1 (by
      rw [Fp.eq_iff_key (Fp.notNaN_is hx) hz, Fp.key_is hx, Fp.key_is lit_zero_is])
    by_cases h2 : (Fp.lit 0 : Fp f).lt x = true
    · obtain ⟨-, a, b⟩ := Fp.lt_iff.mp h2
      simp only [if_pos h2, one (lit_one_is (f := f)), hx, a, b, true_and]
      refine ⟨by norm_num, by norm_num, ?_⟩
      simp only [Bool.false_eq_true, false_or, not_lt.mpr b.le]
      norm_num
    · simp only [if_neg h2, one hm1, hx]
      refine ⟨by norm_num, ?_, ?_⟩
      · constructor
        · intro h; norm_num at h
        · rintro ⟨a, b⟩
          exact absurd (Fp.lt_iff.mpr ⟨hz, a, b⟩) h2
      · simp only [true_iff]
        cases hn : x.isNaN
        · right
          have h3 : ¬ x.key = (Fp.lit 0 : Fp f).key := fun h => h1 ((Fp.eq_iff_key hn hz).mpr h)
          have h4 : ¬ (Fp.lit 0 : Fp f).key < x.key := fun h => h2 ((Fp.lt_iff_key hz hn).mpr h)
          exact lt_of_le_of_ne (not_lt.mp h4) h3
        · exact .inl rfl

/-- C47: it is odd, as numbers, on everything but NaN. -/
theorem C47_odd {x : Fp f} {s : ℚ} (hn : x.isNaN = false) (h : (f32Signum x).Is s) :
    (f32Signum x.neg).Is (-s) := by
  have hz := lit_zero_is (f := f)
  have hnn : x.neg.isNaN = false := by rcases x with _ | (_ | _) | _ <;> simp_all [Fp.neg, Fp.isNaN]
  have hkn : (Fp.lit 0 : Fp f).key < x.key → x.neg.key < (Fp.lit 0 : Fp f).key := by
    rw [Fp.key_is hz]
    rcases x with _ | (_ | _) | ⟨q, _, _, _⟩ <;> simp_all [Fp.neg, Fp.key, Fp.isNaN]
    · norm_cast
      simp
  have hkp : x.key < (Fp.lit 0 : Fp f).key → (Fp.lit 0 : Fp f).key < x.neg.key := by
    rw [Fp.key_is hz]
    rcases x with _ | (_ | _) | ⟨q, _, _, _⟩ <;> simp_all [Fp.neg, Fp.key, Fp.isNaN]
    exact WithBot.coe_lt_coe.mpr (WithTop.coe_lt_top _)
  obtain ⟨a1, a2, a3⟩ := C47_signum x
  obtain ⟨b1, b2, b3⟩ := C47_signum x.neg
  rcases lt_trichotomy x.key (Fp.lit 0 : Fp f).key with hk | hk | hk
  · have : s = -1 := h.unique (a3.mpr (.inr hk))
    subst this
    rw [neg_neg]; exact b2.mpr ⟨hnn, hkp hk⟩
  · have hx : x.Is 0 := Fp.is_of_key hn (by rw [hk, Fp.key_is hz])
    have : s = 0 := h.unique (a1.mpr hx)
    subst this
    have hx' := hx.neg
    rw [neg_zero] at hx' ⊢
    exact b1.mpr hx'
  · have : s = 1 := h.unique (a2.mpr ⟨hn, hk⟩)
    subst this
    exact b3.mpr (.inr (hkn hk))

/-- C47: NaN gets sign -1, and so does its negation. -/
theorem C47_nan : (f32Signum (.nan : Fp f)).Is (-1) ∧ (f32Signum (Fp.neg .nan : Fp f)).Is (-1) :=
  ⟨(C47_signum _).2.2.mpr (.inl rfl), (C47_signum _).2.2.mpr (.inl rfl)⟩

/-- C47: on vectors it acts on each coordinate. -/
theorem C47_vector {F : Type} [Scalar F] (v : Point D F) (i : Fin D) :
    vecSignum v i = f32Signum (v i) := rfl

example : (Fp.lit (-3.5) : F32).isNaN = false ∧ (f32Signum (Fp.lit (-3.5) : F32)).Is (-1) := by
  decide +kernel

end Props
end Verif
