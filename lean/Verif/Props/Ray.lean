import Verif.Lemmas.Ray
import Verif.Spec.Rays
import Verif.Lemmas.F32

/-!
# C16 – C21: shape of a cast ray

Any arithmetic: for every scalar type whose literals 0, 1, -1 and ∞ behave (`ScalarLaws`), so for `f32`
including NaN, infinities and every rounding error.
-/

namespace Verif.Props
open Spec Scalar

variable {F : Type} [Scalar F] {D : ℕ} {origin end_ : Point D F} {bounds : Bounds D F} {res ml : F}
  {ray : List (Cell D)} {e : Option (Cell D)}

/-- The result does not depend on the fuel: `cast_ray` is a partial function. -/
theorem casts_unique {ray' : List (Cell D)} {e' : Option (Cell D)}
    (h : Casts origin end_ bounds res ml ray e) (h' : Casts origin end_ bounds res ml ray' e') :
    ray = ray' ∧ e = e' := by
  obtain ⟨n, h⟩ := h
  obtain ⟨m, h'⟩ := h'
  have h1 := castRay_mono h m
  have h2 := castRay_mono h' n
  rw [Nat.add_comm, h1] at h2
  injection h2 with h3
  exact Prod.ext_iff.mp h3

/-- C16: if origin and end fall in the same cell, the ray is empty and the end cell is that cell,
whatever the range limit. -/
theorem C16_same_cell (hD : D = 2 ∨ D = 3)
    (h : cellFromPoint origin bounds.min res = cellFromPoint end_ bounds.min res) (ml : F) :
    Casts origin end_ bounds res ml [] (some (cellFromPoint end_ bounds.min res)) := by
  refine ⟨0, ?_⟩
  unfold castRay
  rw [if_pos hD]
  dsimp only
  rw [if_pos h]

/-- C16, converse: an empty ray is only reported when origin and end fall in the same cell. -/
theorem C16_empty_ray [ScalarLaws F] (h : Casts origin end_ bounds res ml [] e) :
    cellFromPoint origin bounds.min res = cellFromPoint end_ bounds.min res ∧
      e = some (cellFromPoint end_ bounds.min res) := by
  obtain ⟨n, h⟩ := h
  rcases castRay_cases h with ⟨h1, -, h3⟩ | ⟨-, rest, h1, -⟩
  · exact ⟨h1, h3⟩
  · cases h1

lemma UStep.adjacent {c : RayCtx D F} {a b : Cell D} (h : c.UStep a b) : Adjacent a b := by
  obtain ⟨d, hd, rfl⟩ := h
  refine ⟨d, ?_, fun j hj => Function.update_of_ne hj _ _⟩
  rw [Function.update_self]
  rcases hd with h | h <;> rw [h] <;> simp

/-- C17: a non-empty ray starts with the cell of the origin, consecutive cells are adjacent, and the
end cell, if reported, is adjacent to the last ray cell. -/
theorem C17_connected [ScalarLaws F] (h : Casts origin end_ bounds res ml ray e) (hne : ray ≠ []) :
    ray.head hne = cellFromPoint origin bounds.min res ∧ List.IsChain Adjacent ray ∧
      ∀ x, e = some x → Adjacent (ray.getLast hne) x := by
  obtain ⟨n, h⟩ := h
  rcases castRay_cases h with ⟨-, h2, -⟩ | ⟨-, rest, rfl, h2⟩
  · exact absurd h2 hne
  · refine ⟨rfl, ?_⟩
    rcases h2 with h2 | ⟨rfl, rfl, -⟩
    · refine ⟨h2.chain.imp fun _ _ => UStep.adjacent, ?_⟩
      rintro x rfl
      exact UStep.adjacent h2.last
    · exact ⟨.singleton _, by simp⟩

/-- C18: the cell of the end point is never among the ray cells, no cell is listed twice, and the
second component is that cell or `None`. -/
theorem C18_end_not_in_ray [ScalarLaws F] (h : Casts origin end_ bounds res ml ray e) :
    cellFromPoint end_ bounds.min res ∉ ray ∧ ray.Nodup ∧
      (e = none ∨ e = some (cellFromPoint end_ bounds.min res)) := by
  obtain ⟨n, h⟩ := h
  rcases castRay_cases h with ⟨-, rfl, h3⟩ | ⟨hne, rest, rfl, h2⟩
  · exact ⟨by simp, by simp, .inr h3⟩
  · rcases h2 with h2 | ⟨rfl, rfl, -⟩
    · refine ⟨?_, h2.nodup, h2.end_eq⟩
      intro hm
      rcases List.mem_cons.mp hm with h4 | h4
      · exact hne h4.symm
      · exact h2.ne_end _ h4 rfl
    · refine ⟨?_, by simp, .inl rfl⟩
      rw [List.mem_singleton]
      exact fun h4 => hne h4.symm

/-- C19: if the end cell is reported, the number of ray cells is the Manhattan distance from the
origin's cell to it, so the ray is a shortest grid path. -/
theorem C19_shortest [ScalarLaws F] {x : Cell D} (h : Casts origin end_ bounds res ml ray (some x)) :
    (ray.length : ℤ) = ∑ i, |x i - cellFromPoint origin bounds.min res i| := by
  obtain ⟨n, h⟩ := h
  rcases castRay_cases h with ⟨h1, rfl, h3⟩ | ⟨hne, rest, rfl, h2⟩
  · injection h3 with h3
    rw [h1, h3]; simp
  · rcases h2 with h2 | ⟨-, h3, -⟩
    · rw [h2.length_eq]
      exact (h2.end_ahead _ List.mem_cons_self).progress_eq (rayCtx_good _ _ _ _ _)
    · cases h3

/-- C19: and every ray cell lies in the box spanned by the two cells. -/
theorem C19_in_box [ScalarLaws F] {x : Cell D} (h : Casts origin end_ bounds res ml ray (some x)) :
    ∀ y ∈ ray, Between (cellFromPoint origin bounds.min res) x y := by
  obtain ⟨n, h⟩ := h
  rcases castRay_cases h with ⟨h1, rfl, h3⟩ | ⟨hne, rest, rfl, h2⟩
  · simp
  · rcases h2 with h2 | ⟨-, h3, -⟩
    · intro y hy i
      have ha : (rayCtx origin end_ bounds res ml).Ahead (cellFromPoint origin bounds.min res) y := by
        rcases List.mem_cons.mp hy with rfl | hy
        · exact RayCtx.Ahead.refl _
        · exact h2.ahead y hy
      obtain ⟨a1, a2⟩ := ha i
      obtain ⟨b1, b2⟩ := h2.end_ahead y hy i
      rcases rayCtx_good origin end_ bounds res ml i with h | h | h
      · rw [h, one_mul] at a1 b1
        exact ⟨(min_le_left _ _).trans (by omega), le_trans (by omega) (le_max_right _ _)⟩
      · rw [h] at a1 b1
        exact ⟨(min_le_right _ _).trans (by omega), le_trans (by omega) (le_max_left _ _)⟩
      · rw [a2 h.1]
        exact ⟨min_le_left _ _, le_max_left _ _⟩
    · cases h3

/-- C19: a ray never turns back, reported end or not: of two of its cells the earlier lies in the box spanned by the
origin's cell and the later. -/
theorem C19_no_return [ScalarLaws F] (h : Casts origin end_ bounds res ml ray e) :
    ray.Pairwise fun a b => Between (cellFromPoint origin bounds.min res) b a := by
  obtain ⟨n, h⟩ := h
  rcases castRay_cases h with ⟨-, rfl, -⟩ | ⟨hne, rest, rfl, h2⟩
  · exact .nil
  · rcases h2 with h2 | ⟨rfl, -, -⟩
    · have hg := rayCtx_good origin end_ bounds res ml
      have key : ∀ {a b}, (rayCtx origin end_ bounds res ml).Ahead (cellFromPoint origin bounds.min res) a →
          (rayCtx origin end_ bounds res ml).Ahead a b → Between (cellFromPoint origin bounds.min res) b a := by
        intro a b ha hb i
        obtain ⟨a1, a2⟩ := ha i
        obtain ⟨b1, b2⟩ := hb i
        rcases hg i with h | h | h
        · rw [h, one_mul] at a1 b1
          exact ⟨(min_le_left _ _).trans (by omega), le_trans (by omega) (le_max_right _ _)⟩
        · rw [h] at a1 b1
          exact ⟨(min_le_right _ _).trans (by omega), le_trans (by omega) (le_max_left _ _)⟩
        · rw [a2 h.1]
          exact ⟨min_le_left _ _, le_max_left _ _⟩
      refine List.pairwise_cons.mpr ⟨fun b hb => key (.refl _) (h2.ahead b hb), ?_⟩
      exact (List.Pairwise.and_mem.mp h2.pairwise_ahead).imp fun ⟨ha, _, hab⟩ => key (h2.ahead _ ha) hab
    · exact List.pairwise_singleton _ _

/-- C20: with a positive range limit, every ray cell after the first is within the limit. -/
theorem C20_within_limit [ScalarLaws F] (h : Casts origin end_ bounds res ml ray e)
    (hml : (lit 0 <. ml) = true) : ∀ y ∈ ray.tail, ¬ Beyond origin bounds res ml y := by
  obtain ⟨n, h⟩ := h
  rcases castRay_cases h with ⟨h1, rfl, h3⟩ | ⟨hne, rest, rfl, h2⟩
  · simp
  · intro y hy hb
    rcases h2 with h2 | ⟨rfl, -, -⟩
    · have := h2.not_far y hy
      unfold RayCtx.tooFar at this
      rw [Bool.and_eq_false_iff] at this
      rcases this with h4 | h4
      · have h5 : (lit 0 <. ml) = false := h4
        rw [hml] at h5; cases h5
      · have h5 : (Scalar.mul ml ml <.
          normSquared fun i => pointFromCell y bounds.min res i -. origin i) = false := h4
        unfold Beyond at hb
        rw [h5] at hb; cases hb
    · simp at hy

lemma tooFar_iff {c : RayCtx D F} {x : Cell D} (h : c.tooFar x = true) :
    (lit 0 <. c.maxLen) = true ∧ (c.maxLen *. c.maxLen <.
      normSquared fun i => pointFromCell x c.boundsMin c.resolution i -. c.origin i) = true := by
  unfold RayCtx.tooFar at h
  rwa [Bool.and_eq_true] at h

/-- C20: `None` is only returned with a positive range limit, and only because a cell beyond the limit
is next on the path; that cell is not the end cell. (The next cell is one step from the last ray
cell; or, when the ray has no direction at all because its computed direction is zero on the chosen
axis, it is the origin's cell itself.) -/
theorem C20_none [ScalarLaws F] (h : Casts origin end_ bounds res ml ray none) :
    (lit 0 <. ml) = true ∧ ∃ (hne : ray ≠ []) (b : Cell D),
      (Adjacent (ray.getLast hne) b ∨ ray = [b]) ∧ b ≠ cellFromPoint end_ bounds.min res ∧
        Beyond origin bounds res ml b := by
  obtain ⟨n, h⟩ := h
  rcases castRay_cases h with ⟨-, -, h3⟩ | ⟨hne, rest, rfl, h2⟩
  · cases h3
  · rcases h2 with h2 | ⟨rfl, -, h3⟩
    · obtain ⟨b, h1, h4, h5⟩ := h2.last_none
      obtain ⟨h6, h7⟩ := tooFar_iff h5
      exact ⟨h6, by simp, b, .inl (UStep.adjacent h1), h4, h7⟩
    · obtain ⟨h6, h7⟩ := tooFar_iff h3
      exact ⟨h6, by simp, _, .inr rfl, hne, h7⟩

/-- C21: without a range limit (`max_len > 0` is false: zero, negative or NaN) a ray that is returned
always reports the cell of the end point. -/
theorem C21_no_limit [ScalarLaws F] (h : Casts origin end_ bounds res ml ray e)
    (hml : (lit 0 <. ml) = false) : e = some (cellFromPoint end_ bounds.min res) := by
  rcases (C18_end_not_in_ray h).2.2 with rfl | h1
  · rw [(C20_none h).1] at hml; cases hml
  · exact h1

/-! ## Concrete rays meeting the hypotheses -/

/-- A ray through three cells that reaches its end. -/
example : Casts (![Fp.lit 0, Fp.lit 0] : Point 2 F32) ![Fp.lit 2, Fp.lit 1]
    ⟨![Fp.lit 0, Fp.lit 0], ![Fp.lit 9, Fp.lit 9]⟩ (Fp.lit 1) (Fp.lit 0)
    [![0, 0], ![1, 0], ![1, 1]] (some ![2, 1]) := ⟨3, by decide +kernel⟩

/-- A ray cut off by its range limit. -/
example : Casts (![Fp.lit 0, Fp.lit 0] : Point 2 F32) ![Fp.lit 20, Fp.lit 1]
    ⟨![Fp.lit 0, Fp.lit 0], ![Fp.lit 9, Fp.lit 9]⟩ (Fp.lit 1) (Fp.lit 3)
    [![0, 0], ![1, 0], ![2, 0], ![3, 0]] none := ⟨4, by decide +kernel⟩
example : (lit 0 <. (Fp.lit 3 : F32)) = true ∧ (lit 0 <. (Fp.lit 0 : F32)) = false ∧
    (lit 0 <. (.nan : F32)) = false := by decide +kernel

/-- Two points of one cell. -/
example : cellFromPoint (![Fp.lit (1/4), Fp.lit 3] : Point 2 F32) originPt (Fp.lit 1) =
    cellFromPoint (![Fp.lit (-1/4), Fp.lit (13/4)] : Point 2 F32) originPt (Fp.lit 1) := by decide +kernel

end Verif.Props
