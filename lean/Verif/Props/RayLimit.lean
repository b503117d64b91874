import Verif.Props.Ray
import Verif.Lemmas.Order
import Mathlib.Data.List.TakeWhile

/-!
# C56: the range limit cuts the ray short, and does nothing else

Any arithmetic.
-/

namespace Verif.Props
open Spec Scalar

variable {F : Type} [Scalar F] {D : ℕ} {origin end_ : Point D F} {bounds : Bounds D F} {res ml : F}
  {ray : List (Cell D)} {e : Option (Cell D)}

/-- The loop with a range limit, from the loop without one. -/
lemma castLoop_limit {c : RayCtx D F} (h0 : (lit 0 <. c.maxLen) = false) {ml : F} {fuel : ℕ} {cell : Cell D}
    {t : Point D F} {rest : List (Cell D)} {x : Option (Cell D)}
    (h : castLoop c fuel cell t = .ok (rest, x)) :
    x = some c.endCell ∧ castLoop { c with maxLen := ml } fuel cell t =
      .ok (rest.takeWhile fun z => !({ c with maxLen := ml } : RayCtx D F).tooFar z,
        if rest.all fun z => !({ c with maxLen := ml } : RayCtx D F).tooFar z then some c.endCell else none) := by
  have hnf : ∀ z, c.tooFar z = false := by
    intro z; unfold RayCtx.tooFar; rw [h0]; rfl
  induction fuel generalizing cell t rest x with
  | zero => simp [castLoop] at h
  | succ n ih =>
    simp only [castLoop] at h ⊢
    cases hd : selDim t with
    | none => rw [hd] at h; cases h
    | some d =>
      rw [hd] at h
      simp only [M.bind_eq_ok] at h
      obtain ⟨z, hz, h⟩ := h
      simp only [hz, M.bind_ok]
      by_cases h1 : Function.update cell d z = c.endCell
      · rw [if_pos h1] at h
        cases h
        exact ⟨rfl, by rw [if_pos h1]; rfl⟩
      · rw [if_neg h1, hnf, if_neg (by simp), M.bind_eq_ok] at h
        obtain ⟨⟨rest', x'⟩, h4, h⟩ := h
        cases h
        obtain ⟨h5, h6⟩ := ih h4
        refine ⟨h5, ?_⟩
        rw [if_neg h1]
        cases h3 : ({ c with maxLen := ml } : RayCtx D F).tooFar (Function.update cell d z) with
        | true =>
          rw [if_pos rfl, List.takeWhile_cons, if_neg (by rw [h3]; simp), List.all_cons, h3]
          rfl
        | false =>
          rw [if_neg (by simp), h6, M.bind_ok]
          simp only [List.takeWhile_cons, List.all_cons, h3, Bool.not_false, Bool.true_and, if_true]

/-- C56: if the ray without a range limit is returned, then the ray with a limit is returned too: it is
that ray, cut before the first cell after the origin's whose centre is beyond the limit; the end cell is
reported if and only if nothing was cut. (The end cell itself may be beyond the limit.) -/
theorem C56_limit_cuts {ml0 : F} (h0 : (lit 0 <. ml0) = false) (hml : (lit 0 <. ml) = true)
    (h : Casts origin end_ bounds res ml0 ray e) :
    ∃ ray' e', Casts origin end_ bounds res ml ray' e' ∧ ray' <+: ray ∧
      (∀ y ∈ ray'.tail, ¬ Beyond origin bounds res ml y) ∧
      (e' = e ∧ ray' = ray ∨ e' = none ∧ ∃ z rest, ray = ray' ++ z :: rest ∧ Beyond origin bounds res ml z) ∧
      (ray ≠ [] → ray' ≠ []) := by
  obtain ⟨fuel, h⟩ := h
  by_cases hne : cellFromPoint origin bounds.min res = cellFromPoint end_ bounds.min res
  · unfold castRay at h
    split_ifs at h with hD
    dsimp only at h
    rw [if_pos hne] at h
    cases h
    exact ⟨[], _, C16_same_cell hD hne ml, by simp, by simp, .inl ⟨rfl, rfl⟩, id⟩
  have hfar : ∀ z, (rayCtx origin end_ bounds res ml).tooFar z = true ↔ Beyond origin bounds res ml z := by
    intro z
    unfold RayCtx.tooFar Beyond
    change ((lit 0 <. ml) && _) = true ↔ _
    rw [hml, Bool.true_and]
    rfl
  unfold castRay at h
  split_ifs at h with hD
  dsimp only at h
  rw [if_neg hne, M.bind_eq_ok] at h
  obtain ⟨⟨rest, x⟩, h1, h⟩ := h
  cases h
  obtain ⟨rfl, h2⟩ := castLoop_limit (ml := ml) h0 h1
  set far := (rayCtx origin end_ bounds res ml).tooFar with hf
  have h2' : castLoop (rayCtx origin end_ bounds res ml) fuel (cellFromPoint origin bounds.min res)
      (fun i => tMax0 (vecSignum (rayDir origin end_) i) (rayDir origin end_ i) (origin i) (bounds.min i) res
        (cellFromPoint origin bounds.min res i)) =
      .ok (rest.takeWhile fun z => !far z,
        if rest.all fun z => !far z then some (cellFromPoint end_ bounds.min res) else none) := h2
  refine ⟨cellFromPoint origin bounds.min res :: rest.takeWhile (fun z => !far z),
    if rest.all fun z => !far z then some (cellFromPoint end_ bounds.min res) else none,
    ⟨fuel, ?_⟩, ?_, ?_, ?_, by simp⟩
  · unfold castRay
    rw [if_pos hD]
    dsimp only
    rw [if_neg hne, h2']
    rfl
  · exact (List.prefix_cons_inj _).mpr (List.takeWhile_prefix _)
  · intro y hy hb
    have := List.mem_takeWhile_imp hy
    rw [(hfar y).mpr hb] at this
    cases this
  · by_cases ha : (rest.all fun z => !far z) = true
    · left
      rw [if_pos ha]
      refine ⟨rfl, ?_⟩
      rw [List.takeWhile_eq_self_iff.mpr (List.all_eq_true.mp ha)]
    · right
      rw [if_neg ha]
      refine ⟨rfl, ?_⟩
      cases hd : rest.dropWhile fun z => !far z with
      | nil =>
        rw [List.dropWhile_eq_nil_iff] at hd
        exact absurd (List.all_eq_true.mpr hd) ha
      | cons z l =>
        refine ⟨z, l, ?_, ?_⟩
        · rw [← hd, List.cons_append, List.takeWhile_append_dropWhile]
        · have h3 := List.head_dropWhile_not (p := fun z => !far z) (l := rest) (by rw [hd]; simp)
          simp only [hd, List.head_cons, Bool.not_eq_false'] at h3
          exact (hfar z).mp (by simpa using h3)

/-- Two loops that differ in the range limit only. -/
lemma castLoop_compare {c : RayCtx D F} {ml : F}
    (hfar : ∀ z, ({ c with maxLen := ml } : RayCtx D F).tooFar z = true → c.tooFar z = true) {fuel : ℕ} {cell : Cell D}
    {t : Point D F} {r1 r2 : List (Cell D)} {x1 x2 : Option (Cell D)}
    (h1 : castLoop c fuel cell t = .ok (r1, x1))
    (h2 : castLoop { c with maxLen := ml } fuel cell t = .ok (r2, x2)) :
    r1 <+: r2 ∧ ∀ x, x1 = some x → r2 = r1 ∧ x2 = x1 := by
  induction fuel generalizing cell t r1 r2 x1 x2 with
  | zero => simp [castLoop] at h1
  | succ n ih =>
    simp only [castLoop] at h1 h2
    cases hd : selDim t with
    | none => rw [hd] at h1; cases h1
    | some d =>
      rw [hd] at h1 h2
      simp only [M.bind_eq_ok] at h1 h2
      obtain ⟨z, hz, h1⟩ := h1
      obtain ⟨z', hz', h2⟩ := h2
      rw [hz] at hz'
      cases hz'
      by_cases he : Function.update cell d z = c.endCell
      · rw [if_pos he] at h1 h2
        cases h1
        cases h2
        exact ⟨List.prefix_refl _, fun _ _ => ⟨rfl, rfl⟩⟩
      · rw [if_neg he] at h1 h2
        by_cases hf1 : c.tooFar (Function.update cell d z) = true
        · rw [if_pos hf1] at h1
          cases h1
          exact ⟨List.nil_prefix, fun x hx => by cases hx⟩
        · rw [if_neg hf1, M.bind_eq_ok] at h1
          rw [if_neg (fun h => hf1 (hfar _ h)), M.bind_eq_ok] at h2
          obtain ⟨⟨r1', x1'⟩, h3, h1⟩ := h1
          obtain ⟨⟨r2', x2'⟩, h4, h2⟩ := h2
          cases h1
          cases h2
          obtain ⟨i1, i2⟩ := ih h3 h4
          refine ⟨(List.prefix_cons_inj _).mpr i1, fun x hx => ?_⟩
          obtain ⟨rfl, rfl⟩ := i2 x hx
          exact ⟨rfl, rfl⟩

/-- C56: a longer range limit sees further along the same ray. If all that is beyond the second limit is beyond
the first, the ray with the first limit is an initial part of the ray with the second; and once the end cell is
reported, a longer limit changes nothing. -/
theorem C56_longer_limit {ml1 ml2 : F} {ray1 ray2 : List (Cell D)} {e1 e2 : Option (Cell D)}
    (h1 : Casts origin end_ bounds res ml1 ray1 e1) (h2 : Casts origin end_ bounds res ml2 ray2 e2)
    (hml : (lit 0 <. ml1) = true)
    (hle : (lit 0 <. ml2) = true → ∀ z, Beyond origin bounds res ml2 z → Beyond origin bounds res ml1 z) :
    ray1 <+: ray2 ∧ ∀ x, e1 = some x → ray2 = ray1 ∧ e2 = e1 := by
  obtain ⟨n1, h1⟩ := h1
  obtain ⟨n2, h2⟩ := h2
  replace h1 := castRay_mono h1 n2
  replace h2 := castRay_mono h2 n1
  rw [Nat.add_comm] at h2
  unfold castRay at h1 h2
  split_ifs at h1 h2 with hD
  dsimp only at h1 h2
  by_cases hne : cellFromPoint origin bounds.min res = cellFromPoint end_ bounds.min res
  · rw [if_pos hne] at h1 h2
    cases h1
    cases h2
    exact ⟨List.prefix_refl _, fun _ _ => ⟨rfl, rfl⟩⟩
  · rw [if_neg hne, M.bind_eq_ok] at h1 h2
    obtain ⟨⟨r1, x1⟩, g1, h1⟩ := h1
    obtain ⟨⟨r2, x2⟩, g2, h2⟩ := h2
    cases h1
    cases h2
    obtain ⟨i1, i2⟩ := castLoop_compare (c := rayCtx origin end_ bounds res ml1) (ml := ml2) (by
      intro z hz
      unfold RayCtx.tooFar at hz ⊢
      change ((lit 0 <. ml2) && _) = true at hz
      change ((lit 0 <. ml1) && _) = true
      rw [Bool.and_eq_true] at hz
      rw [hml, Bool.true_and]
      exact hle hz.1 z hz.2) g1 g2
    refine ⟨(List.prefix_cons_inj _).mpr i1, fun x hx => ?_⟩
    obtain ⟨rfl, rfl⟩ := i2 x hx
    exact ⟨rfl, rfl⟩

/-- C56 in f32: the limits `l1 ≤ l2`. -/
theorem C56_longer_limit_f32 {D : ℕ} {origin end_ : Point D F32} {bounds : Bounds D F32} {res ml1 ml2 : F32}
    {ray1 ray2 : List (Cell D)} {e1 e2 : Option (Cell D)} {l1 l2 : ℚ}
    (h1 : Casts origin end_ bounds res ml1 ray1 e1) (h2 : Casts origin end_ bounds res ml2 ray2 e2)
    (hl1 : ml1.Is l1) (hl2 : ml2.Is l2) (h0 : 0 < l1) (hle : l1 ≤ l2) (hbig : l2 ≤ 2 ^ 60) :
    ray1 <+: ray2 ∧ ∀ x, e1 = some x → ray2 = ray1 ∧ e2 = e1 := by
  refine C56_longer_limit h1 h2 ?_ fun _ z hz => ?_
  · change Fp.lt (Fp.lit 0) ml1 = true
    rw [F32.zero_is.lt hl1]
    simpa using h0
  · have sq : ∀ {l : ℚ}, 0 < l → l ≤ 2 ^ 60 → |l * l| ≤ 2 ^ 120 := by
      intro l a b
      rw [abs_of_pos (by positivity)]
      calc l * l ≤ 2 ^ 60 * 2 ^ 60 := by gcongr
        _ = 2 ^ 120 := by norm_num
    have m1 := hl1.mul hl1 (F32.noOvf ((sq h0 (hle.trans hbig)).trans (by norm_num)))
    have m2 := hl2.mul hl2 (F32.noOvf ((sq (h0.trans_le hle) hbig).trans (by norm_num)))
    have hr : b32.rnd (l1 * l1) ≤ b32.rnd (l2 * l2) := Fmt.rnd_mono (mul_le_mul hle hle h0.le (h0.le.trans hle))
    unfold Beyond at hz ⊢
    obtain ⟨k1, k2, k3⟩ := Fp.lt_iff.mp hz
    exact Fp.lt_iff.mpr ⟨Fp.notNaN_is m1, k2, ((Fp.FLe_is m1 m2).mpr hr).2.2.trans_lt k3⟩

/-- A ray without a limit (4 cells), and its cuts at 2.5 and at 1.5 cells: the end cell is not reported. -/
example : castRay 9 (![Fp.lit 0, Fp.lit 0] : Point 2 F32) ![Fp.lit 4, Fp.lit 0]
    ⟨![Fp.lit 0, Fp.lit 0], ![Fp.lit 9, Fp.lit 9]⟩ (Fp.lit 1) (Fp.lit 0) =
      .ok ([![0, 0], ![1, 0], ![2, 0], ![3, 0]], some ![4, 0]) ∧
    castRay 9 (![Fp.lit 0, Fp.lit 0] : Point 2 F32) ![Fp.lit 4, Fp.lit 0]
    ⟨![Fp.lit 0, Fp.lit 0], ![Fp.lit 9, Fp.lit 9]⟩ (Fp.lit 1) (Fp.lit (5/2)) =
      .ok ([![0, 0], ![1, 0], ![2, 0]], none) ∧
    castRay 9 (![Fp.lit 0, Fp.lit 0] : Point 2 F32) ![Fp.lit 4, Fp.lit 0]
    ⟨![Fp.lit 0, Fp.lit 0], ![Fp.lit 9, Fp.lit 9]⟩ (Fp.lit 1) (Fp.lit (3/2)) =
      .ok ([![0, 0], ![1, 0]], none) := by decide +kernel

end Verif.Props
