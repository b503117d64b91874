import Verif.Model.RayCaster
import Mathlib.Algebra.BigOperators.Fin
import Mathlib.Algebra.Order.BigOperators.Group.Finset

/-!
# The loop of `cast_ray`, in any arithmetic
-/

namespace Verif

variable {F : Type} [Scalar F] {D : ℕ}
open Scalar

/-- The integer step along an axis. -/
def RayCtx.s (c : RayCtx D F) (i : Fin D) : ℤ := toInt (c.step i)

/-- What `cast_ray` guarantees about its loop context: steps are -1, 0 or 1, and an axis with step 0
has an infinite `t_delta`. -/
def RayCtx.Good (c : RayCtx D F) : Prop :=
  ∀ i, c.s i = 1 ∨ c.s i = -1 ∨ (c.s i = 0 ∧ c.tDelta i = inf)

/-- An axis with step 0 has an infinite `t_max`. -/
def RayCtx.GoodT (c : RayCtx D F) (t : Point D F) : Prop := ∀ i, c.s i = 0 → t i = inf

/-- One step of the ray along one axis, in the direction of that axis. -/
def RayCtx.UStep (c : RayCtx D F) (a b : Cell D) : Prop :=
  ∃ d, (c.s d = 1 ∨ c.s d = -1) ∧ b = Function.update a d (a d + c.s d)

/-- The outcomes of the loop, from a given cell. -/
inductive RayCtx.Trace (c : RayCtx D F) : Cell D → List (Cell D) → Option (Cell D) → Prop
  | hit {a} : c.UStep a c.endCell → Trace c a [] (some c.endCell)
  | far {a b} : c.UStep a b → b ≠ c.endCell → c.tooFar b = true → Trace c a [] none
  | step {a b rest e} : c.UStep a b → b ≠ c.endCell → c.tooFar b = false → Trace c b rest e →
      Trace c a (b :: rest) e

/-- More fuel does not change a result. -/
lemma castLoop_mono {c : RayCtx D F} {fuel : ℕ} {cell : Cell D} {t : Point D F} {r}
    (h : castLoop c fuel cell t = .ok r) (k : ℕ) : castLoop c (fuel + k) cell t = .ok r := by
  induction fuel generalizing cell t r with
  | zero => simp [castLoop] at h
  | succ n ih =>
    rw [show n + 1 + k = (n + k) + 1 by omega]
    simp only [castLoop] at h ⊢
    cases hd : selDim t with
    | none => rw [hd] at h; exact h
    | some d =>
      rw [hd] at h
      simp only [M.bind_eq_ok] at h ⊢
      obtain ⟨x, hx, h⟩ := h
      refine ⟨x, hx, ?_⟩
      split_ifs at h ⊢ with h1 h2
      · exact h
      · exact h
      · simp only [M.bind_eq_ok] at h ⊢
        obtain ⟨a, ha, h⟩ := h
        exact ⟨a, ih ha, h⟩

/-- A step along an axis with step 0 changes nothing, so it repeats for ever. -/
lemma castLoop_stuck [ScalarLaws F] {c : RayCtx D F} (hg : c.Good) {cell : Cell D} {t : Point D F}
    (ht : c.GoodT t) (hne : cell ≠ c.endCell) (hf : c.tooFar cell = false) {d : Fin D}
    (hd : selDim t = some d) (hs : c.s d = 0) (fuel : ℕ) (r) : castLoop c fuel cell t ≠ .ok r := by
  have htd : c.tDelta d = inf := by
    rcases hg d with h | h | h
    · omega
    · omega
    · exact h.2
  induction fuel generalizing r with
  | zero => simp [castLoop]
  | succ n ih =>
    intro h
    simp only [castLoop, hd, M.bind_eq_ok] at h
    obtain ⟨x, hx, h⟩ := h
    have hs' : toInt (c.step d) = 0 := hs
    rw [isz_ok, hs', add_zero] at hx
    have hx' := hx.1
    subst hx'
    rw [Function.update_eq_self, if_neg hne, hf, htd, ht d hs, ScalarLaws.inf_add_inf,
      ← ht d hs, Function.update_eq_self] at h
    simp only [Bool.false_eq_true, if_false, M.bind_eq_ok] at h
    obtain ⟨a, ha, -⟩ := h
    exact ih a ha

/-- The loop, when it returns, is a trace; or it stops at once because the start itself is beyond the
range limit and the ray has no direction to step in. -/
lemma castLoop_trace [ScalarLaws F] {c : RayCtx D F} (hg : c.Good) {fuel : ℕ} {cell : Cell D}
    {t : Point D F} (ht : c.GoodT t) (hne : cell ≠ c.endCell) {rest e}
    (h : castLoop c fuel cell t = .ok (rest, e)) :
    c.Trace cell rest e ∨ (rest = [] ∧ e = none ∧ c.tooFar cell = true) := by
  induction fuel generalizing cell t rest with
  | zero => simp [castLoop] at h
  | succ n ih =>
    have h0 := h
    simp only [castLoop] at h
    cases hd : selDim t with
    | none => rw [hd] at h; cases h
    | some d =>
      simp only [hd, M.bind_eq_ok] at h
      obtain ⟨x, hx, h⟩ := h
      rw [isz_ok] at hx
      obtain ⟨rfl, -⟩ := hx
      by_cases hs : c.s d = 0
      · -- no movement
        by_cases hf : c.tooFar cell = true
        · right
          have hs' : toInt (c.step d) = 0 := hs
          rw [hs', add_zero, Function.update_eq_self, if_neg hne, if_pos hf] at h
          cases h
          exact ⟨rfl, rfl, hf⟩
        · exact absurd h0 (castLoop_stuck hg ht hne (by simpa using hf) hd hs _ _)
      · left
        have hu : c.UStep cell (Function.update cell d (cell d + toInt (c.step d))) := by
          refine ⟨d, ?_, rfl⟩
          rcases hg d with h1 | h1 | h1
          · exact .inl h1
          · exact .inr h1
          · exact absurd h1.1 hs
        generalize Function.update cell d (cell d + toInt (c.step d)) = b at h hu
        by_cases h1 : b = c.endCell
        · rw [if_pos h1] at h
          cases h
          exact .hit (h1 ▸ hu)
        · rw [if_neg h1] at h
          by_cases h2 : c.tooFar b = true
          · rw [if_pos h2] at h
            cases h
            exact .far hu h1 h2
          · rw [if_neg h2, M.bind_eq_ok] at h
            obtain ⟨⟨rest', e'⟩, ha, h⟩ := h
            cases h
            have hb : c.tooFar b = false := by simpa using h2
            have ht' : c.GoodT (Function.update t d (t d +. c.tDelta d)) := by
              intro i hi
              have : i ≠ d := by rintro rfl; exact hs hi
              rw [Function.update_of_ne this]
              exact ht i hi
            rcases ih ht' h1 ha with h3 | ⟨-, -, h3⟩
            · exact .step hu h1 hb h3
            · rw [hb] at h3; cases h3

/-! ## Facts about traces -/

namespace RayCtx.Trace

variable {c : RayCtx D F} {a : Cell D} {rest : List (Cell D)} {e : Option (Cell D)}

lemma ne_end (h : c.Trace a rest e) : ∀ x ∈ rest, x ≠ c.endCell := by
  induction h with
  | hit | far => simp
  | step h1 h2 h3 h4 ih => simpa [h2] using ih

lemma not_far (h : c.Trace a rest e) : ∀ x ∈ rest, c.tooFar x = false := by
  induction h with
  | hit | far => simp
  | step h1 h2 h3 h4 ih => simpa [h3] using ih

lemma chain (h : c.Trace a rest e) : List.IsChain c.UStep (a :: rest) := by
  induction h with
  | hit | far => exact .singleton _
  | step h1 h2 h3 h4 ih => exact .cons_cons h1 ih

lemma end_eq (h : c.Trace a rest e) : e = none ∨ e = some c.endCell := by
  induction h with
  | hit => exact .inr rfl
  | far => exact .inl rfl
  | step _ _ _ _ ih => exact ih

lemma last (h : c.Trace a rest (some x)) :
    c.UStep ((a :: rest).getLast (by simp)) x := by
  generalize he : some x = e at h
  induction h with
  | hit h => cases he; exact h
  | far => cases he
  | step h1 h2 h3 h4 ih => simpa using ih he

lemma last_none (h : c.Trace a rest none) :
    ∃ b, c.UStep ((a :: rest).getLast (by simp)) b ∧ b ≠ c.endCell ∧ c.tooFar b = true := by
  generalize he : (none : Option (Cell D)) = e at h
  induction h with
  | hit h => cases he
  | far h1 h2 h3 => exact ⟨_, h1, h2, h3⟩
  | step h1 h2 h3 h4 ih => simpa using ih he

end RayCtx.Trace

/-- Progress from `a` to `b`: the number of steps made in the directions of the ray. -/
def RayCtx.progress (c : RayCtx D F) (a b : Cell D) : ℤ := ∑ i, c.s i * (b i - a i)

lemma RayCtx.UStep.progress {c : RayCtx D F} {a b x : Cell D} (h : c.UStep a b) :
    c.progress x b = c.progress x a + 1 := by
  obtain ⟨d, hd, rfl⟩ := h
  unfold RayCtx.progress
  have hterm : ∀ i, c.s i * (Function.update a d (a d + c.s d) i - x i)
      = c.s i * (a i - x i) + if i = d then 1 else 0 := by
    intro i
    by_cases hi : i = d
    · subst hi
      rw [Function.update_self, if_pos rfl]
      rcases hd with h | h <;> rw [h] <;> ring
    · rw [Function.update_of_ne hi, if_neg hi, add_zero]
  rw [Finset.sum_congr rfl fun i _ => hterm i, Finset.sum_add_distrib, Finset.sum_ite_eq']
  simp

/-- `b` lies ahead of `a` (or level) on every axis. -/
def RayCtx.Ahead (c : RayCtx D F) (a b : Cell D) : Prop :=
  ∀ i, 0 ≤ c.s i * (b i - a i) ∧ (c.s i = 0 → b i = a i)

lemma RayCtx.Ahead.refl {c : RayCtx D F} (a : Cell D) : c.Ahead a a := fun i => by simp

lemma RayCtx.Ahead.trans {c : RayCtx D F} {a b x : Cell D} (h1 : c.Ahead a b) (h2 : c.Ahead b x) :
    c.Ahead a x := fun i => by
  refine ⟨?_, fun hs => ((h2 i).2 hs).trans ((h1 i).2 hs)⟩
  have := (h1 i).1
  have := (h2 i).1
  nlinarith

lemma RayCtx.UStep.ahead {c : RayCtx D F} {a b : Cell D} (h : c.UStep a b) : c.Ahead a b := by
  obtain ⟨d, hd, rfl⟩ := h
  intro i
  by_cases hi : i = d
  · subst hi
    rw [Function.update_self]
    constructor
    · rcases hd with h | h <;> rw [h] <;> norm_num
    · rcases hd with h | h <;> rw [h] <;> norm_num
  · rw [Function.update_of_ne hi]; simp

namespace RayCtx.Trace
variable {c : RayCtx D F} {a : Cell D} {rest : List (Cell D)} {e : Option (Cell D)}

lemma ahead (h : c.Trace a rest e) : ∀ x ∈ rest, c.Ahead a x := by
  induction h with
  | hit | far => simp
  | step h1 _ _ _ ih =>
    intro x hx
    rcases List.mem_cons.mp hx with rfl | hx
    · exact h1.ahead
    · exact h1.ahead.trans (ih x hx)

lemma pairwise_ahead (h : c.Trace a rest e) : rest.Pairwise c.Ahead := by
  induction h with
  | hit _ => exact .nil
  | far _ _ _ => exact .nil
  | step _ _ _ h ih => exact List.pairwise_cons.mpr ⟨h.ahead, ih⟩

lemma end_ahead (h : c.Trace a rest (some y)) : ∀ x ∈ a :: rest, c.Ahead x y := by
  generalize he : some y = e at h
  induction h with
  | hit h => cases he; simpa using h.ahead
  | far => cases he
  | step h1 h2 h3 h4 ih =>
    intro x hx
    rcases List.mem_cons.mp hx with rfl | hx
    · exact h1.ahead.trans (ih he _ List.mem_cons_self)
    · exact ih he x hx

lemma progress_get (h : c.Trace a rest e) (k : ℕ) (hk : k < (a :: rest).length) (x : Cell D) :
    c.progress x (a :: rest)[k] = c.progress x a + k := by
  induction h generalizing k with
  | hit | far =>
    have : k = 0 := by simpa using hk
    subst this; simp
  | step h1 h2 h3 h4 ih =>
    cases k with
    | zero => simp
    | succ k =>
      have := ih k (by simpa using hk)
      simp only [List.getElem_cons_succ] at this ⊢
      rw [this, h1.progress]; push_cast; ring

lemma nodup (h : c.Trace a rest e) : (a :: rest).Nodup := by
  rw [List.nodup_iff_injective_getElem]
  intro ⟨j, hj⟩ ⟨k, hk⟩ hjk
  have h1 := h.progress_get j hj a
  have h2 := h.progress_get k hk a
  simp only at hjk
  rw [hjk, h2] at h1
  ext
  simp
  omega

lemma length_eq (h : c.Trace a rest (some y)) :
    ((a :: rest).length : ℤ) = c.progress a y := by
  generalize he : some y = e at h
  have key : ∀ x, c.progress x y = c.progress x a + (a :: rest).length := by
    induction h with
    | hit h => cases he; intro x; rw [h.progress]; simp
    | far => cases he
    | step h1 h2 h3 h4 ih =>
      intro x
      rw [ih he x, h1.progress]; push_cast [List.length_cons]; ring
  rw [key a]
  simp [RayCtx.progress]

end RayCtx.Trace

/-- When the end lies ahead, progress is the Manhattan distance. -/
lemma RayCtx.Ahead.progress_eq {c : RayCtx D F} (hg : c.Good) {a b : Cell D} (h : c.Ahead a b) :
    c.progress a b = ∑ i, |b i - a i| := by
  unfold RayCtx.progress
  refine Finset.sum_congr rfl fun i _ => ?_
  obtain ⟨h1, h2⟩ := h i
  rcases hg i with h | h | h
  · rw [h] at h1 ⊢; rw [one_mul] at h1 ⊢; rw [abs_of_nonneg h1]
  · rw [h] at h1 ⊢; rw [abs_of_nonpos (by linarith)]; ring
  · rw [h2 h.1]; simp

/-! ## The context built by `cast_ray` -/

lemma signum_cases (x : F) :
    f32Signum x = lit 0 ∨ f32Signum x = lit 1 ∨ f32Signum x = lit (-1) := by
  unfold f32Signum; split_ifs <;> simp

lemma rayCtx_good [ScalarLaws F] (origin end_ : Point D F) (bounds : Bounds D F) (res ml : F) :
    (rayCtx origin end_ bounds res ml).Good := by
  intro i
  unfold RayCtx.s
  simp only [rayCtx, vecSignum]
  rcases signum_cases (rayDir origin end_ i) with h | h | h
  · right; right
    rw [h]
    exact ⟨ScalarLaws.toInt_zero, by simp [tDelta0, ScalarLaws.zero_eq_zero]⟩
  · left; rw [h]; exact ScalarLaws.toInt_one
  · right; left; rw [h]; exact ScalarLaws.toInt_neg_one

/-- `t_max` before the loop. -/
def t0 (origin end_ : Point D F) (bounds : Bounds D F) (res : F) : Point D F := fun i =>
  tMax0 (vecSignum (rayDir origin end_) i) (rayDir origin end_ i) (origin i) (bounds.min i) res
    (cellFromPoint origin bounds.min res i)

lemma t0_good [ScalarLaws F] (origin end_ : Point D F) (bounds : Bounds D F) (res ml : F) :
    (rayCtx origin end_ bounds res ml).GoodT (t0 origin end_ bounds res) := by
  intro i hs
  unfold RayCtx.s at hs
  simp only [rayCtx, vecSignum] at hs
  rcases signum_cases (rayDir origin end_ i) with h | h | h
  · have h' : vecSignum (rayDir origin end_) i = lit 0 := h
    unfold t0
    rw [h']
    simp [tMax0, ScalarLaws.zero_eq_zero]
  · rw [h, ScalarLaws.toInt_one] at hs; omega
  · rw [h, ScalarLaws.toInt_neg_one] at hs; omega

/-- The outcomes of `cast_ray`. -/
lemma castRay_cases [ScalarLaws F] {fuel : ℕ} {origin end_ : Point D F} {bounds : Bounds D F}
    {res ml : F} {ray e} (h : castRay fuel origin end_ bounds res ml = .ok (ray, e)) :
    let oc := cellFromPoint origin bounds.min res
    let c := rayCtx origin end_ bounds res ml
    (oc = c.endCell ∧ ray = [] ∧ e = some c.endCell) ∨
    (oc ≠ c.endCell ∧ ∃ rest, ray = oc :: rest ∧
      (c.Trace oc rest e ∨ (rest = [] ∧ e = none ∧ c.tooFar oc = true))) := by
  intro oc c
  unfold castRay at h
  by_cases hD : D = 2 ∨ D = 3
  · rw [if_pos hD] at h
    dsimp only at h
    by_cases hc : cellFromPoint origin bounds.min res = cellFromPoint end_ bounds.min res
    · rw [if_pos hc] at h
      cases h
      exact .inl ⟨hc, rfl, rfl⟩
    · rw [if_neg hc, M.bind_eq_ok] at h
      obtain ⟨⟨rest, e'⟩, h1, h2⟩ := h
      cases h2
      right
      refine ⟨hc, rest, rfl, ?_⟩
      exact castLoop_trace (rayCtx_good _ _ _ _ _) (t0_good _ _ _ _ ml) hc h1
  · rw [if_neg hD] at h; cases h

lemma castRay_mono {fuel : ℕ} {origin end_ : Point D F} {bounds : Bounds D F}
    {res ml : F} {r} (h : castRay fuel origin end_ bounds res ml = .ok r) (k : ℕ) :
    castRay (fuel + k) origin end_ bounds res ml = .ok r := by
  unfold castRay at h ⊢
  dsimp only at h ⊢
  split_ifs at h ⊢ with h1 h2
  · exact h
  · rw [M.bind_eq_ok] at h ⊢
    obtain ⟨a, h3, h4⟩ := h
    exact ⟨a, castLoop_mono h3 k, h4⟩

end Verif
