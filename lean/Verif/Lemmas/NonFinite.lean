import Verif.Lemmas.Ray
import Verif.Lemmas.F32
import Mathlib.Tactic.FinCases

/-!
# Rays with non-finite coordinates in f32
-/

namespace Verif
open Scalar

namespace Fp
variable {f : Fmt} {x y : Fp f}

lemma isNaN_iff : x.isNaN = true ↔ x = .nan := by cases x <;> simp [isNaN]

lemma nan_add : add (.nan : Fp f) x = .nan := by cases x <;> rfl
lemma add_nan : add x (.nan : Fp f) = .nan := by cases x <;> rfl
lemma nan_sub : sub (.nan : Fp f) x = .nan := by cases x <;> rfl
lemma sub_nan : sub x (.nan : Fp f) = .nan := by cases x <;> rfl
lemma div_nan : div x (.nan : Fp f) = .nan := by cases x <;> rfl

/-- Positive infinity, or finite and not negative. -/
def Nonneg (x : Fp f) : Prop := x = .inf false ∨ ∃ q, x.Is q ∧ 0 ≤ q

lemma inf_sub {a : Bool} {r : ℚ} (hy : y.Is r) : sub (.inf a) y = .inf a := by
  obtain ⟨_, _, _, rfl⟩ := hy; rfl

lemma Is.sub_notNaN {q r : ℚ} (hx : x.Is q) (hy : y.Is r) : (x.sub y).isNaN = false := by
  obtain ⟨_, _, _, rfl⟩ := hx
  obtain ⟨_, _, _, rfl⟩ := hy
  exact notNaN_ofRat

lemma ofRat_nonneg {zs : Bool} {q : ℚ} (h : 0 ≤ q) : (ofRat zs q : Fp f).Nonneg := by
  by_cases h1 : |f.rnd q| < 2 ^ f.emax
  · exact .inr ⟨_, ofRat_is h1, Fmt.rnd_nonneg h⟩
  · left
    rw [ofRat_overflow h1]
    simp [not_lt.mpr h]

lemma mul_self_nonneg' (h : x.isNaN = false) : (mul x x).Nonneg := by
  cases x with
  | nan => cases h
  | inf a => left; simp [mul]
  | fin q nz h1 h2 => exact ofRat_nonneg (mul_self_nonneg q)

lemma Nonneg.add (hx : x.Nonneg) (hy : y.Nonneg) : (add x y).Nonneg := by
  rcases hx with rfl | ⟨q, ⟨_, _, _, rfl⟩, hq⟩ <;> rcases hy with rfl | ⟨r, ⟨_, _, _, rfl⟩, hr⟩
  · left; simp [Fp.add]
  · exact .inl rfl
  · exact .inl rfl
  · exact ofRat_nonneg (add_nonneg hq hr)

lemma Nonneg.add_inf (hx : x.Nonneg) : Fp.add x (.inf false) = .inf false := by
  rcases hx with rfl | ⟨q, ⟨_, _, _, rfl⟩, hq⟩
  · simp [Fp.add]
  · rfl

lemma Nonneg.inf_add (hx : x.Nonneg) : Fp.add (.inf false) x = .inf false := by
  rcases hx with rfl | ⟨q, ⟨_, _, _, rfl⟩, hq⟩
  · simp [Fp.add]
  · rfl

lemma Is.div_inf {q : ℚ} (hx : x.Is q) : (Fp.div x (.inf false)).Is 0 := by
  obtain ⟨_, _, _, rfl⟩ := hx
  exact ofRat_is_rep Fmt.rep_zero

end Fp

variable {D : ℕ}

lemma normSquared_nan (hD : D = 2 ∨ D = 3) {v : Point D F32} {i : Fin D} (h : v i = .nan) :
    normSquared v = .nan := by
  rcases hD with rfl | rfl <;> fin_cases i
  all_goals
    simp only [Fin.isValue, Fin.zero_eta, Fin.mk_one, Fin.reduceFinMk] at h
    change Fp.add _ _ = _
  · change Fp.add _ (Fp.add (Fp.mul (v 0) (v 0)) _) = _
    rw [h]; exact (congrArg _ (Fp.nan_add (f := b32))).trans Fp.add_nan
  · change Fp.add _ (Fp.add _ (Fp.mul (v 1) (v 1))) = _
    rw [h]; exact (congrArg _ (Fp.add_nan (f := b32))).trans Fp.add_nan
  · change Fp.add _ (Fp.add (Fp.add (Fp.mul (v 0) (v 0)) _) _) = _
    rw [h]
    rw [show Fp.mul (.nan : F32) .nan = .nan from rfl, Fp.nan_add, Fp.nan_add, Fp.add_nan]
  · change Fp.add _ (Fp.add (Fp.add _ (Fp.mul (v 1) (v 1))) _) = _
    rw [h]
    rw [show Fp.mul (.nan : F32) .nan = .nan from rfl, Fp.add_nan, Fp.nan_add, Fp.add_nan]
  · change Fp.add _ (Fp.add _ (Fp.mul (v 2) (v 2))) = _
    rw [h]
    rw [show Fp.mul (.nan : F32) .nan = .nan from rfl, Fp.add_nan, Fp.add_nan]

lemma zero_nonneg : (lit 0 : F32).Nonneg := .inr ⟨0, F32.zero_is, le_refl _⟩

lemma normSquared_inf (hD : D = 2 ∨ D = 3) {v : Point D F32} (hn : ∀ j, (v j).isNaN = false) {i : Fin D}
    (hii : Fp.mul (v i) (v i) = .inf false) : normSquared v = .inf false := by
  have hsq : ∀ j, (Fp.mul (v j) (v j)).Nonneg := fun j => Fp.mul_self_nonneg' (hn j)
  rcases hD with rfl | rfl
  · change Fp.add (lit 0) (Fp.add (Fp.mul (v 0) (v 0)) (Fp.mul (v 1) (v 1))) = _
    fin_cases i
    all_goals simp only [Fin.isValue, Fin.zero_eta, Fin.mk_one] at hii; rw [hii]
    · rw [(hsq 1).inf_add, zero_nonneg.add_inf]
    · rw [(hsq 0).add_inf, zero_nonneg.add_inf]
  · change Fp.add (lit 0) (Fp.add (Fp.add (Fp.mul (v 0) (v 0)) (Fp.mul (v 1) (v 1))) (Fp.mul (v 2) (v 2))) = _
    fin_cases i
    all_goals simp only [Fin.isValue, Fin.zero_eta, Fin.mk_one, Fin.reduceFinMk] at hii; rw [hii]
    · rw [(hsq 1).inf_add, (hsq 2).inf_add, zero_nonneg.add_inf]
    · rw [(hsq 0).add_inf, (hsq 2).inf_add, zero_nonneg.add_inf]
    · rw [((hsq 0).add (hsq 1)).add_inf, zero_nonneg.add_inf]

/-- A NaN coordinate makes every coordinate of the direction NaN. -/
lemma rayDir_nan (hD : D = 2 ∨ D = 3) {o e : Point D F32} {i : Fin D} (h : e i = .nan ∨ o i = .nan)
    (j : Fin D) : rayDir o e j = .nan := by
  change Fp.div (Fp.sub (e j) (o j)) (Fp.sqrt (normSquared fun i => Fp.sub (e i) (o i))) = _
  rw [normSquared_nan hD (i := i) (by
    rcases h with h | h
    · simp only [h]; exact Fp.nan_sub
    · simp only [h]; exact Fp.sub_nan)]
  exact Fp.div_nan

/-- An infinite length makes the direction zero along the finite axes and NaN along the infinite ones. -/
lemma rayDir_inf {o e : Point D F32} (h : norm (fun i => e i -. o i) = (.inf false : F32)) (j : Fin D) :
    ((e j -. o j : F32).isFin = true → (rayDir o e j).Is 0) ∧
      (∀ b, e j -. o j = (.inf b : F32) → rayDir o e j = .nan) := by
  have h1 : rayDir o e j = Fp.div (e j -. o j) (.inf false) := by
    change Fp.div (e j -. o j) (norm fun i => e i -. o i) = _
    rw [h]
  rw [h1]
  constructor
  · intro hf
    exact (Fp.isFin_is hf).div_inf
  · intro b hb
    rw [hb]; rfl

/-- The last axis is chosen when no `t_max` is finite. -/
lemma selDim_last (hD : D = 2 ∨ D = 3) {t : Point D F32} (ht : ∀ j, t j = .nan ∨ t j = .inf false)
    {a : Fin D} (ha : ∀ j, j ≤ a) : selDim t = some a := by
  have hlt : ∀ i j, Scalar.lt (t i) (t j) = false := by
    intro i j
    change Fp.lt (t i) (t j) = false
    rcases ht i with h1 | h1 <;> rcases ht j with h2 | h2 <;> rw [h1, h2] <;> rfl
  rcases hD with rfl | rfl
  · have : a = 1 := le_antisymm (Fin.le_last a) (ha 1)
    subst this
    simp [selDim, hlt]
  · have : a = 2 := le_antisymm (Fin.le_last a) (ha 2)
    subst this
    simp [selDim, hlt]

lemma signum_nan : f32Signum (.nan : F32) = lit (-1) := by decide +kernel

lemma signum_zero {x : F32} (h : x.Is 0) : f32Signum x = lit 0 := by
  unfold f32Signum
  rw [if_pos]
  change Fp.eq x (Fp.lit 0) = true
  rw [h.eq F32.zero_is]; rfl

lemma s_nan {o e : Point D F32} {bounds : Bounds D F32} {r ml : F32} {j : Fin D}
    (h : rayDir o e j = .nan) : (rayCtx o e bounds r ml).s j = -1 := by
  change toInt (f32Signum (rayDir o e j)) = -1
  rw [h, signum_nan]
  exact ScalarLaws.toInt_neg_one

lemma s_zero {o e : Point D F32} {bounds : Bounds D F32} {r ml : F32} {j : Fin D}
    (h : (rayDir o e j).Is 0) : (rayCtx o e bounds r ml).s j = 0 := by
  change toInt (f32Signum (rayDir o e j)) = 0
  rw [signum_zero h]
  exact ScalarLaws.toInt_zero

lemma t0_nan {o e : Point D F32} {bounds : Bounds D F32} {r : F32} {j : Fin D}
    (h : rayDir o e j = .nan) : t0 o e bounds r j = .nan := by
  unfold t0 tMax0 vecSignum
  rw [h, signum_nan, if_neg (by rw [ScalarLaws.neg_one_ne_zero]; simp)]
  exact Fp.div_nan

lemma t0_zero {o e : Point D F32} {bounds : Bounds D F32} {r : F32} {j : Fin D}
    (h : (rayDir o e j).Is 0) : t0 o e bounds r j = .inf false := by
  unfold t0 tMax0 vecSignum
  rw [signum_zero h, if_pos ScalarLaws.zero_eq_zero]
  rfl

/-- When no `t_max` is finite and the last one is NaN, the loop only ever steps down the last axis. -/
lemma castLoop_down (hD : D = 2 ∨ D = 3) {c : RayCtx D F32} {a : Fin D} (ha : ∀ j, j ≤ a)
    (hs : c.s a = -1) {fuel : ℕ} {cell : Cell D} {t : Point D F32}
    (ht : ∀ j, t j = .nan ∨ t j = .inf false) (hta : t a = .nan) {rest x}
    (h : castLoop c fuel cell t = .ok (rest, x)) :
    rest = (List.range rest.length).map fun k : ℕ => Function.update cell a (cell a - (k + 1)) := by
  induction fuel generalizing cell t rest with
  | zero => simp [castLoop] at h
  | succ n ih =>
    simp only [castLoop, selDim_last hD ht ha, M.bind_eq_ok] at h
    obtain ⟨z, hz, h⟩ := h
    rw [isz_ok] at hz
    obtain ⟨rfl, -⟩ := hz
    rw [show toInt (c.step a) = -1 from hs] at h
    split_ifs at h with h1 h2
    · cases h; rfl
    · cases h; rfl
    · rw [M.bind_eq_ok] at h
      obtain ⟨⟨rest', x'⟩, h3, h⟩ := h
      cases h
      have hnan : Fp.add (t a) (c.tDelta a) = .nan := by rw [hta]; exact Fp.nan_add
      have h4 := ih (by
        intro j
        by_cases hj : j = a
        · subst hj; left; rw [Function.update_self]; exact hnan
        · rw [Function.update_of_ne hj]; exact ht j) (by
          rw [Function.update_self]; exact hnan) h3
      rw [List.length_cons, List.range_succ_eq_map, List.map_cons, List.map_map]
      congr 1
      · conv_lhs => rw [h4]
        refine List.map_congr_left fun k _ => ?_
        simp only [Function.comp, Function.update_self, Function.update_idem]
        congr 1
        push_cast
        ring

/-- A loop whose chosen axis has step 0 never ends. -/
lemma castLoop_forever {F : Type} [Scalar F] [ScalarLaws F] {c : RayCtx D F} (hg : c.Good) {cell : Cell D}
    {t : Point D F} (ht : c.GoodT t) (hne : cell ≠ c.endCell) (hf : c.tooFar cell = false) {d : Fin D}
    (hd : selDim t = some d) (hs : c.s d = 0) (hc : InIsize (cell d)) (fuel : ℕ) :
    castLoop c fuel cell t = .error .fuel := by
  have htd : c.tDelta d = inf := by
    rcases hg d with h | h | h
    · omega
    · omega
    · exact h.2
  induction fuel with
  | zero => rfl
  | succ n ih =>
    have hs' : toInt (c.step d) = 0 := hs
    simp only [castLoop, hd, hs', add_zero]
    rw [isz_ok.mpr ⟨rfl, hc⟩, M.bind_ok, Function.update_eq_self, if_neg hne, hf, htd, ht d hs,
      ScalarLaws.inf_add_inf, ← ht d hs, Function.update_eq_self, ih]
    rfl

end Verif
