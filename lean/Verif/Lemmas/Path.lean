import Verif.Lemmas.Ray

/-!
# The path taken by the loop of `cast_ray` when it finds its end cell
-/

namespace Verif

variable {F : Type} [Scalar F] {D : ℕ}
open Scalar

/-- The selected axis has the least value. -/
lemma selDim_min {F : Type} [Scalar F] {D : ℕ} {t : Point D F} {d : Fin D} (h : selDim t = some d)
    (h1 : ∀ i j, Scalar.lt (t i) (t j) = true → Scalar.lt (t j) (t i) = false)
    (h2 : ∀ i j k, Scalar.lt (t i) (t j) = false → Scalar.lt (t j) (t k) = false →
      Scalar.lt (t i) (t k) = false) (i : Fin D) : Scalar.lt (t i) (t d) = false := by
  have hirr : ∀ i, Scalar.lt (t i) (t i) = false := by
    intro i
    cases hh : Scalar.lt (t i) (t i) with
    | false => rfl
    | true => rw [h1 i i hh] at hh; cases hh
  match D, t, d, i with
  | 0, _, _, i => exact i.elim0
  | 1, _, _, _ => simp [selDim] at h
  | 2, t, d, i =>
    simp only [selDim, Option.some.injEq] at h
    split_ifs at h with h3
    · subst h
      match i with
      | 0 => exact hirr 0
      | 1 => exact h1 _ _ h3
    · subst h
      rw [Bool.not_eq_true] at h3
      match i with
      | 0 => exact h3
      | 1 => exact hirr 1
  | 3, t, d, i =>
    simp only [selDim, Option.some.injEq] at h
    split_ifs at h with h3 h4 h4
    · subst h
      match i with
      | 0 => exact hirr 0
      | 1 => exact h1 _ _ h3
      | 2 => exact h1 _ _ h4
    · subst h
      rw [Bool.not_eq_true] at h4
      match i with
      | 0 => exact h4
      | 1 => exact h2 1 0 2 (h1 _ _ h3) h4
      | 2 => exact hirr 2
    · subst h
      rw [Bool.not_eq_true] at h3
      match i with
      | 0 => exact h3
      | 1 => exact hirr 1
      | 2 => exact h1 _ _ h4
    · subst h
      rw [Bool.not_eq_true] at h3 h4
      match i with
      | 0 => exact h2 0 1 2 h3 h4
      | 1 => exact h4
      | 2 => exact hirr 2
  | n + 4, _, _, _ => simp [selDim] at h

/-- An axis is selected in dimensions 2 and 3. -/
lemma selDim_some {F : Type} [Scalar F] {D : ℕ} (hD : D = 2 ∨ D = 3) (t : Point D F) :
    ∃ d, selDim t = some d := by
  rcases hD with rfl | rfl <;> exact ⟨_, rfl⟩

/-- The loop of `cast_ray`, without the range limit, passes these cells; the last is the end cell. -/
inductive RayCtx.Path (c : RayCtx D F) : Cell D → Point D F → List (Cell D) → Prop
  | hit {a t d} : selDim t = some d → InIsize (a d + c.s d) →
      Function.update a d (a d + c.s d) = c.endCell → Path c a t [c.endCell]
  | step {a t d l} : selDim t = some d → InIsize (a d + c.s d) →
      Function.update a d (a d + c.s d) ≠ c.endCell →
      Path c (Function.update a d (a d + c.s d)) (Function.update t d (t d +. c.tDelta d)) l →
      Path c a t (Function.update a d (a d + c.s d) :: l)

namespace RayCtx.Path
variable {c : RayCtx D F} {a : Cell D} {t : Point D F} {l : List (Cell D)}

lemma ne_nil (h : c.Path a t l) : l ≠ [] := by cases h <;> simp

lemma getLast (h : c.Path a t l) : l.getLast h.ne_nil = c.endCell := by
  induction h with
  | hit => rfl
  | step h1 h2 h3 h4 ih => rw [List.getLast_cons h4.ne_nil]; exact ih

/-- If no cell before the end is beyond the limit, the loop reports the path and its end. -/
lemma castLoop_near (h : c.Path a t l) (hf : ∀ x ∈ l.dropLast, c.tooFar x = false) :
    castLoop c l.length a t = .ok (l.dropLast, some c.endCell) := by
  induction h with
  | @hit a t d h1 h2 h3 =>
    simp only [List.length_singleton, castLoop, h1]
    rw [show toInt (c.step d) = c.s d from rfl, isz_ok.mpr ⟨rfl, h2⟩, M.bind_ok]
    rw [if_pos h3]
    rfl
  | @step a t d l h1 h2 h3 h4 ih =>
    rw [List.dropLast_cons_of_ne_nil h4.ne_nil] at hf ⊢
    simp only [List.length_cons, castLoop, h1]
    rw [show toInt (c.step d) = c.s d from rfl, isz_ok.mpr ⟨rfl, h2⟩, M.bind_ok]
    rw [if_neg h3, hf _ List.mem_cons_self, ih fun x hx => hf x (List.mem_cons_of_mem _ hx)]
    rfl

/-- Otherwise it reports the cells before the first one beyond the limit. -/
lemma castLoop_far (h : c.Path a t l) {pre post : List (Cell D)} {x : Cell D}
    (hl : l = pre ++ x :: post) (hp : post ≠ []) (hf : ∀ y ∈ pre, c.tooFar y = false)
    (hx : c.tooFar x = true) : castLoop c l.length a t = .ok (pre, none) := by
  induction h generalizing pre with
  | @hit a t d h1 h2 h3 =>
    cases pre with
    | nil => simp only [List.nil_append, List.cons.injEq] at hl; exact absurd hl.2.symm hp
    | cons y pre => simp at hl
  | @step a t d l h1 h2 h3 h4 ih =>
    simp only [List.length_cons, castLoop, h1]
    rw [show toInt (c.step d) = c.s d from rfl, isz_ok.mpr ⟨rfl, h2⟩, M.bind_ok]
    cases pre with
    | nil =>
      simp only [List.nil_append, List.cons.injEq] at hl
      rw [if_neg h3, hl.1, if_pos hx]
    | cons y pre =>
      simp only [List.cons_append, List.cons.injEq] at hl
      obtain ⟨rfl, hl⟩ := hl
      rw [if_neg h3, hf _ List.mem_cons_self, ih hl fun z hz => hf z (List.mem_cons_of_mem _ hz)]
      rfl

end RayCtx.Path

/-- The cell after `k i` steps along each axis `i`. -/
def RayCtx.cellAt (c : RayCtx D F) (a : Cell D) (k : Fin D → ℕ) : Cell D := fun i => a i + c.s i * k i

lemma RayCtx.cellAt_step (c : RayCtx D F) (a : Cell D) (k : Fin D → ℕ) (d : Fin D) :
    Function.update (c.cellAt a k) d (c.cellAt a k d + c.s d) = c.cellAt a (Function.update k d (k d + 1)) := by
  funext i
  by_cases hi : i = d
  · subst hi
    simp only [Function.update_self, RayCtx.cellAt]; push_cast; ring
  · simp only [RayCtx.cellAt, Function.update_of_ne hi]

/-- The path exists if the loop never selects an axis that has made all its steps. `T i k` is the value of
`t_max` for axis `i` after `k` steps, `N` the numbers of steps to make, `Q` anything that can be shown
backwards along the path. -/
lemma RayCtx.exists_path (c : RayCtx D F) {a : Cell D} {T : Fin D → ℕ → F} {N : Fin D → ℕ}
    {Q : (Fin D → ℕ) → List (Cell D) → Prop}
    (hs : ∀ i, c.s i = 1 ∨ c.s i = -1 ∨ (c.s i = 0 ∧ N i = 0))
    (hT : ∀ i k, T i (k + 1) = T i k +. c.tDelta i)
    (hend : c.endCell = c.cellAt a N)
    (hm : ∀ i, InIsize (a i)) (hm' : ∀ i, InIsize (c.endCell i))
    (hsel : ∀ k, (∀ i, k i ≤ N i) → k ≠ N → ∃ d, selDim (fun i => T i (k i)) = some d ∧ k d < N d)
    (hlast : ∀ k d, (∀ i, k i ≤ N i) → selDim (fun i => T i (k i)) = some d →
      Function.update k d (k d + 1) = N → Q k [c.endCell])
    (hstep : ∀ k d l, (∀ i, k i ≤ N i) → k d < N d → selDim (fun i => T i (k i)) = some d →
      Q (Function.update k d (k d + 1)) l →
      Q k (c.cellAt a (Function.update k d (k d + 1)) :: l))
    (k : Fin D → ℕ) (hk : ∀ i, k i ≤ N i) (hkN : k ≠ N) :
    ∃ l, c.Path (c.cellAt a k) (fun i => T i (k i)) l ∧ Q k l := by
  have key : ∀ n k, (∀ i, k i ≤ N i) → k ≠ N → ∑ i, (N i - k i) = n →
      ∃ l, c.Path (c.cellAt a k) (fun i => T i (k i)) l ∧ Q k l := by
    intro n
    induction n with
    | zero =>
      intro k hk hkN h0
      exfalso
      apply hkN
      funext i
      have := Finset.sum_eq_zero_iff.mp h0 i (Finset.mem_univ i)
      have := hk i
      omega
    | succ n ih =>
      intro k hk hkN hn
      obtain ⟨d, hd, hlt⟩ := hsel k hk hkN
      set k' := Function.update k d (k d + 1) with hk'
      have hk'N : ∀ i, k' i ≤ N i := by
        intro i
        by_cases hi : i = d
        · subst hi; rw [hk', Function.update_self]; omega
        · rw [hk', Function.update_of_ne hi]; exact hk i
      have hcell := c.cellAt_step a k d
      rw [← hk'] at hcell
      have hT' : Function.update (fun i => T i (k i)) d (T d (k d) +. c.tDelta d) = fun i => T i (k' i) := by
        funext i
        by_cases hi : i = d
        · subst hi; rw [Function.update_self, hk', Function.update_self, hT]
        · rw [Function.update_of_ne hi, hk', Function.update_of_ne hi]
      have hin : InIsize (c.cellAt a k d + c.s d) := by
        have e1 : c.cellAt a k d + c.s d = c.cellAt a k' d := by
          rw [← hcell, Function.update_self]
        rw [e1]
        have h1 := hm d
        have h2 := hm' d
        have h3 := hk'N d
        rw [hend] at h2
        simp only [RayCtx.cellAt, InIsize] at h1 h2 ⊢
        rcases hs d with h | h | ⟨h, h'⟩
        · rw [h] at h2 ⊢; omega
        · rw [h] at h2 ⊢; omega
        · omega
      by_cases hfin : k' = N
      · refine ⟨[c.endCell], ?_, hlast k d hk hd hfin⟩
        refine .hit hd hin ?_
        rw [hcell, hend, hfin]
      · have hne : c.cellAt a k' ≠ c.endCell := by
          intro h
          apply hfin
          funext i
          have := congrFun (h.trans hend) i
          simp only [RayCtx.cellAt] at this
          have h3 := hk'N i
          rcases hs i with h | h | ⟨h, h'⟩
          · rw [h] at this; omega
          · rw [h] at this; omega
          · omega
        obtain ⟨l, hl, hQ⟩ := ih k' hk'N hfin (by
          have h1 : ∑ i, (N i - k i) = ∑ i, (N i - k' i) + 1 := by
            have : ∀ i, N i - k i = (N i - k' i) + if i = d then 1 else 0 := by
              intro i
              by_cases hi : i = d
              · subst hi; rw [hk', Function.update_self, if_pos rfl]; omega
              · rw [hk', Function.update_of_ne hi, if_neg hi]; omega
            rw [Finset.sum_congr rfl fun i _ => this i, Finset.sum_add_distrib, Finset.sum_ite_eq']
            simp
          omega)
        refine ⟨c.cellAt a k' :: l, ?_, hstep k d l hk hlt hd hQ⟩
        have := RayCtx.Path.step (c := c) (a := c.cellAt a k) (t := fun i => T i (k i)) (l := l) hd hin
          (by rw [hcell]; exact hne) (by rw [hcell, hT']; exact hl)
        rwa [hcell] at this
  exact key _ k hk hkN rfl

/-- `cast_ray` follows the path of its loop. -/
lemma castRay_path {origin end_ : Point D F} {bounds : Bounds D F} {res ml : F} (hD : D = 2 ∨ D = 3)
    (hne : cellFromPoint origin bounds.min res ≠ cellFromPoint end_ bounds.min res) {fuel : ℕ} {r e}
    (h : castLoop (rayCtx origin end_ bounds res ml) fuel (cellFromPoint origin bounds.min res)
      (t0 origin end_ bounds res) = .ok (r, e)) :
    castRay fuel origin end_ bounds res ml = .ok (cellFromPoint origin bounds.min res :: r, e) := by
  unfold castRay
  rw [if_pos hD]
  dsimp only
  rw [if_neg hne]
  have : castLoop (rayCtx origin end_ bounds res ml) fuel (cellFromPoint origin bounds.min res)
      (fun i => tMax0 (vecSignum (rayDir origin end_) i) (rayDir origin end_ i) (origin i) (bounds.min i)
        res (cellFromPoint origin bounds.min res i)) = .ok (r, e) := h
  rw [this]
  rfl

end Verif
