import Verif.Props.Ray
import Verif.Props.Cloud

/-!
# C27 – C29: the free and occupied sets of `cast_rays`

Any arithmetic. Sets are duplicate-free lists; only membership matters.
-/

namespace Verif

section Sets
variable {α : Type} [DecidableEq α]

lemma mem_hsInsert {a b : α} {s : List α} : b ∈ hsInsert a s ↔ b = a ∨ b ∈ s := by
  unfold hsInsert
  split_ifs with h
  · constructor
    · exact .inr
    · rintro (rfl | h')
      · exact h
      · exact h'
  · rw [List.mem_append, List.mem_singleton, or_comm]

lemma nodup_hsInsert {a : α} {s : List α} (h : s.Nodup) : (hsInsert a s).Nodup := by
  unfold hsInsert
  split_ifs with h'
  · exact h
  · rw [List.nodup_append]
    refine ⟨h, by simp, ?_⟩
    intro x hx y hy
    rw [List.mem_singleton] at hy
    subst hy
    rintro rfl
    exact h' hx

lemma mem_foldl_hsInsert {l s : List α} {b : α} :
    b ∈ l.foldl (fun s c => hsInsert c s) s ↔ b ∈ l ∨ b ∈ s := by
  induction l generalizing s with
  | nil => simp
  | cons c l ih => rw [List.foldl_cons, ih, mem_hsInsert, List.mem_cons]; tauto

lemma nodup_foldl_hsInsert {l s : List α} (h : s.Nodup) :
    (l.foldl (fun s c => hsInsert c s) s).Nodup := by
  induction l generalizing s with
  | nil => exact h
  | cons c l ih => exact ih (nodup_hsInsert h)

lemma mem_foldl_hsRemove {l s : List α} {b : α} :
    b ∈ l.foldl (fun s c => hsRemove c s) s ↔ b ∈ s ∧ b ∉ l := by
  induction l generalizing s with
  | nil => simp
  | cons c l ih =>
    rw [List.foldl_cons, ih, hsRemove, List.mem_filter, List.mem_cons]
    simp only [ne_eq, decide_not, Bool.not_eq_eq_eq_not, Bool.not_true, decide_eq_false_iff_not]
    tauto

lemma nodup_foldl_hsRemove {l s : List α} (h : s.Nodup) :
    (l.foldl (fun s c => hsRemove c s) s).Nodup := by
  induction l generalizing s with
  | nil => exact h
  | cons c l ih => exact ih (h.filter _)

end Sets

variable {F : Type} [Scalar F] {D : ℕ}

/-- The fold of `cast_rays`, in terms of the rays. -/
lemma castRays_fold {fuel : ℕ} {origin : Point D F} {bounds : Bounds D F} {res ml : F}
    {ps : List (Point D F)} {acc free occ} :
    ps.foldlM (fun acc p => do
      let r ← castRay fuel origin p bounds res ml
      .ok (castRaysStep acc r)) acc = (.ok (free, occ) : M _) ↔
    ∃ rs, List.Forall₂ (fun p r => castRay fuel origin p bounds res ml = .ok r) ps rs ∧
      rs.foldl castRaysStep acc = (free, occ) := by
  induction ps generalizing acc with
  | nil =>
    simp only [List.foldlM_nil, M.pure_eq, List.forall₂_nil_left_iff, exists_eq_left, List.foldl_nil]
    constructor
    · intro h; injection h
    · intro h; rw [h]
  | cons p ps ih =>
    rw [List.foldlM_cons, M.bind_eq_ok]
    constructor
    · rintro ⟨a, h1, h2⟩
      rw [M.bind_eq_ok] at h1
      obtain ⟨r, h1, h3⟩ := h1
      cases h3
      obtain ⟨rs, h4, h5⟩ := ih.mp h2
      exact ⟨r :: rs, .cons h1 h4, h5⟩
    · rintro ⟨rs, h1, h2⟩
      cases h1 with
      | cons h1 h3 =>
        rename_i r rs
        exact ⟨castRaysStep acc r, by rw [M.bind_eq_ok]; exact ⟨r, h1, rfl⟩, ih.mpr ⟨rs, h3, h2⟩⟩

lemma castRaysStep_fold (rs : List (List (Cell D) × Option (Cell D))) (acc) :
    (∀ x, x ∈ (rs.foldl castRaysStep acc).1 ↔ x ∈ acc.1 ∨ ∃ r ∈ rs, x ∈ r.1) ∧
    (∀ x, x ∈ (rs.foldl castRaysStep acc).2 ↔ x ∈ acc.2 ∨ ∃ r ∈ rs, r.2 = some x) ∧
    (acc.1.Nodup → (rs.foldl castRaysStep acc).1.Nodup) ∧
    (acc.2.Nodup → (rs.foldl castRaysStep acc).2.Nodup) := by
  induction rs generalizing acc with
  | nil => simp
  | cons r rs ih =>
    obtain ⟨i1, i2, i3, i4⟩ := ih (castRaysStep acc r)
    rw [List.foldl_cons]
    refine ⟨fun x => ?_, fun x => ?_, fun h => i3 ?_, fun h => i4 ?_⟩
    · rw [i1]
      simp only [castRaysStep, mem_foldl_hsInsert, List.mem_cons, exists_eq_or_imp]
      tauto
    · rw [i2]
      simp only [List.mem_cons, exists_eq_or_imp]
      have : x ∈ (castRaysStep acc r).2 ↔ x ∈ acc.2 ∨ r.2 = some x := by
        unfold castRaysStep
        cases hr : r.2 with
        | none => simp
        | some y => simp only [mem_hsInsert, Option.some.injEq]; tauto
      rw [this]; tauto
    · exact nodup_foldl_hsInsert h
    · unfold castRaysStep
      cases r.2 with
      | none => exact h
      | some y => exact nodup_hsInsert h

namespace Props
open Spec

variable {origin : Point D F} {bounds : Bounds D F} {res ml : F} {cloud : PointCloud D F}
  {free occ : List (Cell D)}

/-- `cast_rays` called with these arguments returns the sets `free` and `occ`. -/
def CastsRays (origin : Point D F) (cloud : PointCloud D F) (bounds : Bounds D F) (res ml : F)
    (free occ : List (Cell D)) : Prop :=
  ∃ fuel, castRays fuel origin cloud bounds res ml = .ok (free, occ)

lemma forall₂_exists {α β : Type} {R : α → β → Prop} {l : List α} {m : List β}
    (h : List.Forall₂ R l m) :
    (∀ b ∈ m, ∃ a ∈ l, R a b) ∧ (∀ a ∈ l, ∃ b ∈ m, R a b) := by
  induction h with
  | nil => simp
  | cons h1 h2 ih =>
    constructor
    · intro b hb
      rcases List.mem_cons.mp hb with rfl | hb
      · exact ⟨_, List.mem_cons_self, h1⟩
      · obtain ⟨a, ha, hr⟩ := ih.1 b hb
        exact ⟨a, List.mem_cons_of_mem _ ha, hr⟩
    · intro a ha
      rcases List.mem_cons.mp ha with rfl | ha
      · exact ⟨_, List.mem_cons_self, h1⟩
      · obtain ⟨b, hb, hr⟩ := ih.2 a ha
        exact ⟨b, List.mem_cons_of_mem _ hb, hr⟩

lemma castRays_ok {fuel : ℕ} (h : castRays fuel origin cloud bounds res ml = .ok (free, occ)) :
    ∃ rs f0, List.Forall₂ (fun p r => castRay fuel origin p bounds res ml = .ok r) cloud.points rs ∧
      rs.foldl castRaysStep ([], []) = (f0, occ) ∧
        free = occ.foldl (fun s c => hsRemove c s) f0 := by
  unfold castRays at h
  rw [M.bind_eq_ok] at h
  obtain ⟨⟨f0, o0⟩, h1, h2⟩ := h
  cases h2
  obtain ⟨rs, h3, h4⟩ := castRays_fold.mp h1
  exact ⟨rs, f0, h3, h4, rfl⟩

lemma castRays_mono {n : ℕ} {r} (h : castRays n origin cloud bounds res ml = .ok r) (k : ℕ) :
    castRays (n + k) origin cloud bounds res ml = .ok r := by
  unfold castRays at h ⊢
  rw [M.bind_eq_ok] at h ⊢
  obtain ⟨⟨f0, o0⟩, h1, h2⟩ := h
  obtain ⟨rs, h3, h4⟩ := castRays_fold.mp h1
  exact ⟨(f0, o0), castRays_fold.mpr ⟨rs, h3.imp fun _ _ h => castRay_mono h k, h4⟩, h2⟩

/-- C27: no cell is both free and occupied. -/
theorem C27_disjoint (h : CastsRays origin cloud bounds res ml free occ) :
    ∀ x ∈ free, x ∉ occ := by
  obtain ⟨n, h⟩ := h
  obtain ⟨rs, f0, -, -, rfl⟩ := castRays_ok h
  intro x hx
  exact (mem_foldl_hsRemove.mp hx).2

/-- The results really are sets: no cell is listed twice. -/
theorem castRays_nodup (h : CastsRays origin cloud bounds res ml free occ) :
    free.Nodup ∧ occ.Nodup := by
  obtain ⟨n, h⟩ := h
  obtain ⟨rs, f0, -, h2, rfl⟩ := castRays_ok h
  obtain ⟨-, -, h3, h4⟩ := castRaysStep_fold rs ([], [])
  rw [h2] at h3 h4
  exact ⟨nodup_foldl_hsRemove (h3 List.nodup_nil), h4 List.nodup_nil⟩

/-- C28: the occupied cells are exactly the reported end cells of the rays to the points of the
cloud. -/
theorem C28_occupied (h : CastsRays origin cloud bounds res ml free occ) (x : Cell D) :
    x ∈ occ ↔ ∃ p ∈ cloud.points, ∃ ray, Casts origin p bounds res ml ray (some x) := by
  obtain ⟨n, h⟩ := h
  obtain ⟨rs, f0, h1, h2, rfl⟩ := castRays_ok h
  obtain ⟨-, h4, -⟩ := castRaysStep_fold rs (([] : List (Cell D)), ([] : List (Cell D)))
  rw [h2] at h4
  rw [h4]
  obtain ⟨h5, h6⟩ := forall₂_exists h1
  constructor
  · rintro (h7 | ⟨r, hr, h7⟩)
    · simp at h7
    · obtain ⟨p, hp, hc⟩ := h5 r hr
      exact ⟨p, hp, r.1, n, by rw [hc, ← h7]⟩
  · rintro ⟨p, hp, ray, hc⟩
    obtain ⟨r, hr, hc'⟩ := h6 p hp
    have := casts_unique hc (⟨n, hc'⟩ : Casts origin p bounds res ml r.1 r.2)
    exact .inr ⟨r, hr, this.2.symm⟩

/-- C28: the free cells are exactly the cells on some ray that are not occupied. -/
theorem C28_free (h : CastsRays origin cloud bounds res ml free occ) (x : Cell D) :
    x ∈ free ↔ (∃ p ∈ cloud.points, ∃ ray e, Casts origin p bounds res ml ray e ∧ x ∈ ray) ∧
      x ∉ occ := by
  obtain ⟨n, h⟩ := h
  obtain ⟨rs, f0, h1, h2, rfl⟩ := castRays_ok h
  obtain ⟨h3, -, -⟩ := castRaysStep_fold rs (([] : List (Cell D)), ([] : List (Cell D)))
  rw [h2] at h3
  rw [mem_foldl_hsRemove, h3]
  obtain ⟨h5, h6⟩ := forall₂_exists h1
  refine and_congr_left fun _ => ?_
  constructor
  · rintro (h7 | ⟨r, hr, h7⟩)
    · simp at h7
    · obtain ⟨p, hp, hc⟩ := h5 r hr
      exact ⟨p, hp, r.1, r.2, ⟨n, hc⟩, h7⟩
  · rintro ⟨p, hp, ray, e, hc, hx⟩
    obtain ⟨r, hr, hc'⟩ := h6 p hp
    have := casts_unique hc (⟨n, hc'⟩ : Casts origin p bounds res ml r.1 r.2)
    exact .inr ⟨r, hr, this.1 ▸ hx⟩

/-- C28: `cast_rays` returns exactly if every one of its rays returns. -/
theorem C28_returns_iff : (∃ free occ, CastsRays origin cloud bounds res ml free occ) ↔
    ∀ p ∈ cloud.points, ∃ ray e, Casts origin p bounds res ml ray e := by
  constructor
  · rintro ⟨free, occ, n, h⟩ p hp
    obtain ⟨rs, f0, h1, -⟩ := castRays_ok h
    obtain ⟨r, -, hc⟩ := (forall₂_exists h1).2 p hp
    exact ⟨r.1, r.2, n, hc⟩
  · intro h
    -- one fuel for all rays
    have hN : ∀ ps : List (Point D F), (∀ p ∈ ps, ∃ ray e, Casts origin p bounds res ml ray e) →
        ∃ N rs, List.Forall₂ (fun p r => castRay N origin p bounds res ml = .ok r) ps rs := by
      intro ps
      induction ps with
      | nil => exact fun _ => ⟨0, [], .nil⟩
      | cons p ps ih =>
        intro hps
        obtain ⟨N, rs, h1⟩ := ih fun q hq => hps q (List.mem_cons_of_mem _ hq)
        obtain ⟨ray, e, m, h2⟩ := hps p List.mem_cons_self
        refine ⟨N + m, (ray, e) :: rs, .cons ?_ (h1.imp fun _ _ h => castRay_mono h m)⟩
        rw [Nat.add_comm]; exact castRay_mono h2 N
    obtain ⟨N, rs, h1⟩ := hN _ h
    cases hacc : rs.foldl castRaysStep (([] : List (Cell D)), ([] : List (Cell D))) with
    | mk f0 o0 =>
      refine ⟨o0.foldl (fun s c => hsRemove c s) f0, o0, N, ?_⟩
      unfold castRays
      rw [M.bind_eq_ok]
      exact ⟨(f0, o0), castRays_fold.mpr ⟨rs, h1, hacc⟩, rfl⟩

/-- C29: only the set of points matters: two clouds with the same points, in any order and with any
repetition, give the same free and the same occupied cells, and one returns if and only if the
other does. -/
theorem C29_order_irrelevant {cloud' : PointCloud D F}
    (hp : ∀ p, p ∈ cloud.points ↔ p ∈ cloud'.points)
    (h : CastsRays origin cloud bounds res ml free occ) :
    ∃ free' occ', CastsRays origin cloud' bounds res ml free' occ' ∧
      free.Perm free' ∧ occ.Perm occ' := by
  have h1 : ∃ free' occ', CastsRays origin cloud' bounds res ml free' occ' := by
    rw [C28_returns_iff]
    intro p hp'
    exact C28_returns_iff.mp ⟨free, occ, h⟩ p ((hp p).mpr hp')
  obtain ⟨free', occ', h'⟩ := h1
  have ho : ∀ x, x ∈ occ ↔ x ∈ occ' := by
    intro x
    rw [C28_occupied h, C28_occupied h']
    simp only [hp]
  refine ⟨free', occ', h', ?_, ?_⟩
  · rw [List.perm_ext_iff_of_nodup (castRays_nodup h).1 (castRays_nodup h').1]
    intro x
    rw [C28_free h, C28_free h', ho]
    simp only [hp]
  · rw [List.perm_ext_iff_of_nodup (castRays_nodup h).2 (castRays_nodup h').2]
    exact ho

/-- A cloud of two points for which `cast_rays` returns; the end of the shorter ray lies on the longer
one and is reported occupied only. -/
example : CastsRays (![Fp.lit 0, Fp.lit 0] : Point 2 F32)
    (PointCloud.fromPoints [![Fp.lit 3, Fp.lit 0], ![Fp.lit 1, Fp.lit 0]])
    ⟨![Fp.lit 0, Fp.lit 0], ![Fp.lit 9, Fp.lit 9]⟩ (Fp.lit 1) (Fp.lit 0)
    [![0, 0], ![2, 0]] [![3, 0], ![1, 0]] := ⟨4, by decide +kernel⟩

/-- Clouds with the same points. -/
example (a b : Point 2 F32) : ∀ p, p ∈ (PointCloud.fromPoints [a, b, a]).points ↔
    p ∈ (PointCloud.fromPoints [b, a]).points := by
  simp [C13_points_fromPoints]

end Props
end Verif
