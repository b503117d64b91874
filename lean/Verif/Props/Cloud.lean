import Verif.Model.Cloud
import Verif.Lemmas.F32
import Mathlib.LinearAlgebra.Matrix.Notation

/-!
# C13, C14, C15: point clouds
-/

namespace Verif.Props
open Spec

section C13
variable {F : Type} {D : ℕ}

lemma flatMap_ofFn_get (ps : List (Point D F)) (j : ℕ) (hj : j < ps.length) (i : Fin D)
    (h : j * D + i < (ps.flatMap List.ofFn).length) :
    (ps.flatMap List.ofFn)[j * D + i] = ps[j] i := by
  induction ps generalizing j with
  | nil => simp at hj
  | cons p ps ih =>
    cases j with
    | zero =>
      simp only [List.flatMap_cons, Nat.zero_mul, Nat.zero_add]
      rw [List.getElem_append_left (by simp)]
      simp
    | succ j =>
      have hj' : j < ps.length := by simpa using hj
      have hl : (List.ofFn p).length = D := List.length_ofFn
      have hle : (List.ofFn p).length ≤ (j + 1) * D + i := by
        rw [hl, Nat.succ_mul]; omega
      simp only [List.flatMap_cons]
      rw [List.getElem_append_right hle]
      have he : (j + 1) * D + i - (List.ofFn p).length = j * D + i := by
        rw [hl, Nat.succ_mul]; omega
      simp only [he]
      exact ih j hj' _

/-- C13: the points come out of the cloud as they went in, in the same order. -/
theorem C13_points_fromPoints (ps : List (Point D F)) : (PointCloud.fromPoints ps).points = ps := by
  apply List.ext_getElem
  · simp [PointCloud.points, PointCloud.fromPoints]
  · intro j h1 h2
    simp only [PointCloud.points, List.getElem_ofFn]
    funext i
    exact flatMap_ofFn_get ps j h2 i _

/-- C13: their number is reported. -/
theorem C13_numPoints_fromPoints (ps : List (Point D F)) :
    (PointCloud.fromPoints ps).numPoints = ps.length := rfl

/-- C13, for any cloud (for example one built by `from_data`): as many points as columns. -/
theorem C13_numPoints (c : PointCloud D F) : c.points.length = c.numPoints := by
  simp [PointCloud.points, PointCloud.numPoints]

/-- C13: rebuilding a cloud from its points gives the same matrix. -/
theorem C13_fromPoints_points (c : PointCloud D F) : PointCloud.fromPoints c.points = c := by
  obtain ⟨n, data, len⟩ := c
  have hn : (PointCloud.fromPoints (PointCloud.points ⟨n, data, len⟩)).ncols = n := by
    simp [PointCloud.fromPoints, PointCloud.points]
  have hd : (PointCloud.fromPoints (PointCloud.points ⟨n, data, len⟩)).data = data := by
    have hl : (PointCloud.fromPoints (PointCloud.points ⟨n, data, len⟩)).data.length = n * D := by
      rw [(PointCloud.fromPoints _).len, hn]
    apply List.ext_getElem (by rw [hl, len])
    intro k h1 h2
    have hk : k < n * D := by rwa [hl] at h1
    have hD : 0 < D := Nat.pos_of_ne_zero (by rintro rfl; simp at hk)
    have hj : k / D < n := Nat.div_lt_of_lt_mul (by rwa [Nat.mul_comm])
    have hi : k % D < D := Nat.mod_lt _ hD
    have hk' : k / D * D + k % D = k := by rw [Nat.mul_comm]; exact Nat.div_add_mod k D
    have hlen : (PointCloud.points ⟨n, data, len⟩).length = n := by simp [PointCloud.points]
    have := flatMap_ofFn_get (PointCloud.points ⟨n, data, len⟩) (k / D) (by rw [hlen]; exact hj)
      ⟨k % D, hi⟩ (by simp only [hk']; exact h1)
    simp only [hk'] at this
    refine this.trans ?_
    have hget : ∀ (g : Fin n → Point D F) (h : k / D < (List.ofFn g).length),
        (List.ofFn g)[k / D] = g ⟨k / D, hj⟩ := fun g h => by rw [List.getElem_ofFn]
    refine (congrFun (hget (PointCloud.column ⟨n, data, len⟩) _) _).trans ?_
    simp only [PointCloud.column, hk']
  have key : ∀ c : PointCloud D F, c.ncols = n → c.data = data → c = ⟨n, data, len⟩ := by
    rintro ⟨n', data', len'⟩ h h'
    subst h h'; rfl
  exact key _ hn hd

example : (PointCloud.fromPoints [![1, 2], ![3, 4], ![1, 2]] : PointCloud 2 ℕ).points
    = [![1, 2], ![3, 4], ![1, 2]] := by decide

end C13

section C14
variable {f : Fmt} {D : ℕ}

lemma boundsStep_min {b : Bounds D (Fp f)} {p : Point D (Fp f)} (i : Fin D)
    (hb : (b.min i).isNaN = false) :
    ((PointCloud.boundsStep b p).min i).isNaN = false ∧
    FLe ((PointCloud.boundsStep b p).min i) (b.min i) ∧
    ((p i).isNaN = false → FLe ((PointCloud.boundsStep b p).min i) (p i)) ∧
    ∀ lo, FLe lo (b.min i) → ((p i).isNaN = false → FLe lo (p i)) →
      FLe lo ((PointCloud.boundsStep b p).min i) := by
  simp only [PointCloud.boundsStep]
  by_cases h : Fp.lt (p i) (b.min i) = true
  · have h' : Scalar.lt (p i) (b.min i) = true := h
    rw [if_pos h']
    have hn := (Fp.lt_iff.mp h).1
    exact ⟨hn, Fp.FLe_of_lt h, fun _ => Fp.FLe_refl hn, fun lo _ h2 => h2 hn⟩
  · have h' : ¬ Scalar.lt (p i) (b.min i) = true := h
    rw [if_neg h']
    exact ⟨hb, Fp.FLe_refl hb, fun hp => Fp.FLe_of_not_lt hb hp h, fun lo h1 _ => h1⟩

lemma boundsStep_max {b : Bounds D (Fp f)} {p : Point D (Fp f)} (i : Fin D)
    (hb : (b.max i).isNaN = false) :
    ((PointCloud.boundsStep b p).max i).isNaN = false ∧
    FLe (b.max i) ((PointCloud.boundsStep b p).max i) ∧
    ((p i).isNaN = false → FLe (p i) ((PointCloud.boundsStep b p).max i)) ∧
    ∀ hi, FLe (b.max i) hi → ((p i).isNaN = false → FLe (p i) hi) →
      FLe ((PointCloud.boundsStep b p).max i) hi := by
  simp only [PointCloud.boundsStep]
  by_cases h : Fp.lt (b.max i) (p i) = true
  · have h' : Scalar.lt (b.max i) (p i) = true := h
    rw [if_pos h']
    have hn := (Fp.lt_iff.mp h).2.1
    exact ⟨hn, Fp.FLe_of_lt h, fun _ => Fp.FLe_refl hn, fun hi _ h2 => h2 hn⟩
  · have h' : ¬ Scalar.lt (b.max i) (p i) = true := h
    rw [if_neg h']
    exact ⟨hb, Fp.FLe_refl hb, fun hp => Fp.FLe_of_not_lt hp hb h, fun hi h1 _ => h1⟩

lemma boundsFold (ps : List (Point D (Fp f))) (b : Bounds D (Fp f)) (i : Fin D)
    (h1 : (b.min i).isNaN = false) (h2 : (b.max i).isNaN = false) :
    FLe ((ps.foldl PointCloud.boundsStep b).min i) (b.min i) ∧
    FLe (b.max i) ((ps.foldl PointCloud.boundsStep b).max i) ∧
    (∀ p ∈ ps, (p i).isNaN = false → FLe ((ps.foldl PointCloud.boundsStep b).min i) (p i) ∧
      FLe (p i) ((ps.foldl PointCloud.boundsStep b).max i)) ∧
    (∀ lo, FLe lo (b.min i) → (∀ p ∈ ps, (p i).isNaN = false → FLe lo (p i)) →
      FLe lo ((ps.foldl PointCloud.boundsStep b).min i)) ∧
    (∀ hi, FLe (b.max i) hi → (∀ p ∈ ps, (p i).isNaN = false → FLe (p i) hi) →
      FLe ((ps.foldl PointCloud.boundsStep b).max i) hi) := by
  induction ps generalizing b with
  | nil =>
    exact ⟨Fp.FLe_refl h1, Fp.FLe_refl h2, by simp, fun _ h _ => h, fun _ h _ => h⟩
  | cons p ps ih =>
    obtain ⟨m1, m2, m3, m4⟩ := boundsStep_min (p := p) i h1
    obtain ⟨n1, n2, n3, n4⟩ := boundsStep_max (p := p) i h2
    obtain ⟨i1, i2, i3, i4, i5⟩ := ih (PointCloud.boundsStep b p) m1 n1
    simp only [List.foldl_cons]
    refine ⟨Fp.FLe_trans i1 m2, Fp.FLe_trans n2 i2, ?_, ?_, ?_⟩
    · intro q hq hn
      rcases List.mem_cons.mp hq with rfl | hq
      · exact ⟨Fp.FLe_trans i1 (m3 hn), Fp.FLe_trans (n3 hn) i2⟩
      · exact i3 q hq hn
    · intro lo hlo hall
      exact i4 lo (m4 lo hlo (hall p List.mem_cons_self))
        fun q hq => hall q (List.mem_cons_of_mem _ hq)
    · intro hi hhi hall
      exact i5 hi (n4 hi hhi (hall p List.mem_cons_self))
        fun q hq => hall q (List.mem_cons_of_mem _ hq)

/-- Zero, as a coordinate. -/
def zeroF : Fp f := Fp.lit 0

lemma zeroF_notNaN : (zeroF : Fp f).isNaN = false := Fp.notNaN_ofRat

/-- C14: the bounds contain the origin and, coordinate by coordinate, every non-NaN coordinate of
every point. -/
theorem C14_bounds_contain (c : PointCloud D (Fp f)) (i : Fin D) :
    FLe (c.bounds.min i) zeroF ∧ FLe zeroF (c.bounds.max i) ∧
    ∀ p ∈ c.points, (p i).isNaN = false → FLe (c.bounds.min i) (p i) ∧ FLe (p i) (c.bounds.max i) := by
  obtain ⟨h1, h2, h3, -, -⟩ := boundsFold c.points Bounds.empty i zeroF_notNaN zeroF_notNaN
  exact ⟨h1, h2, h3⟩

/-- C14: they are the least such box. -/
theorem C14_bounds_least (c : PointCloud D (Fp f)) (i : Fin D) (lo hi : Fp f)
    (h0 : FLe lo zeroF ∧ FLe zeroF hi)
    (h : ∀ p ∈ c.points, (p i).isNaN = false → FLe lo (p i) ∧ FLe (p i) hi) :
    FLe lo (c.bounds.min i) ∧ FLe (c.bounds.max i) hi := by
  obtain ⟨-, -, -, h4, h5⟩ := boundsFold c.points Bounds.empty i zeroF_notNaN zeroF_notNaN
  exact ⟨h4 lo h0.1 fun p hp hn => (h p hp hn).1, h5 hi h0.2 fun p hp hn => (h p hp hn).2⟩

/-- C14: they are ordered, and every NaN-free point of the cloud is in them. -/
theorem C14_bounds_ordered (c : PointCloud D (Fp f)) :
    Ordered c.bounds ∧ ∀ p ∈ c.points, NoNaN p → InBox p c.bounds := by
  refine ⟨fun i => ?_, fun p hp hn i => ?_⟩
  · obtain ⟨h1, h2, -⟩ := C14_bounds_contain c i
    exact Fp.FLe_trans h1 h2
  · obtain ⟨-, -, h3⟩ := C14_bounds_contain c i
    exact h3 p hp (hn i)

/-- C14, against the doc comment "the bounds that encapsulates all the points": the box is not the
least box of the points alone; a cloud away from the origin still gets the origin. -/
theorem C14_bounds_include_origin : ∃ (c : PointCloud 2 F32) (b : Bounds 2 F32),
    c.points ≠ [] ∧ Ordered b ∧ (∀ p ∈ c.points, InBox p b) ∧ ¬ Sub c.bounds b := by
  refine ⟨PointCloud.fromPoints [![Fp.lit 5, Fp.lit 5], ![Fp.lit 6, Fp.lit 7]],
    ⟨![Fp.lit 5, Fp.lit 5], ![Fp.lit 6, Fp.lit 7]⟩, ?_, by decide +kernel, ?_, by decide +kernel⟩
  · rw [C13_points_fromPoints]; simp
  · rw [C13_points_fromPoints]; decide +kernel

example : ∀ p ∈ (PointCloud.fromPoints [![Fp.lit 5, .nan], ![Fp.lit 6, Fp.lit 7]] :
      PointCloud 2 F32).points, (p 1).isNaN = false → FLe (Fp.lit (-1) : F32) (p 1) ∧
        FLe (p 1) (Fp.lit 8) := by
  rw [C13_points_fromPoints]; decide +kernel

end C14

section C15
variable {F : Type} [Scalar F]

/-- C15, any arithmetic: `transform` maps the points one by one, in order; each output point is a
function of its input point and the matrix. -/
theorem C15_transform_pointwise (m : Fin 4 → Fin 4 → F) :
    ∃ g : Point 3 F → Point 3 F, ∀ c : PointCloud 3 F,
      (c.transform m).points = c.points.map g ∧ (c.transform m).numPoints = c.numPoints := by
  refine ⟨PointCloud.transformPoint m, fun c => ⟨C13_points_fromPoints _, ?_⟩⟩
  rw [← C13_numPoints, ← C13_numPoints]
  simp [PointCloud.transform, C13_points_fromPoints]

/-- C15, any arithmetic: the last row of the matrix is never used. -/
theorem C15_last_row_irrelevant (m m' : Fin 4 → Fin 4 → F) (h : ∀ i : Fin 3, m i.castSucc = m' i.castSucc)
    (c : PointCloud 3 F) : c.transform m = c.transform m' := by
  have : PointCloud.transformPoint m = PointCloud.transformPoint m' := by
    funext p i; simp [PointCloud.transformPoint, h]
  simp [PointCloud.transform, this]

/-- The cloud of exact points. -/
noncomputable def exactCloud (ps : List (Fin 3 → ℝ)) : PointCloud 3 XR :=
  PointCloud.fromPoints (ps.map fun p i => XR.fin (p i))

/-- The affine map of a 4x4 matrix: upper left block and translation column. -/
noncomputable def affine (A : Matrix (Fin 4) (Fin 4) ℝ) (p : Fin 3 → ℝ) : Fin 3 → ℝ :=
  fun i => (∑ j : Fin 3, A i.castSucc j.castSucc * p j) + A i.castSucc 3

/-- C15, exact arithmetic: `transform` is the affine map of the matrix. -/
theorem C15_transform_affine (A : Matrix (Fin 4) (Fin 4) ℝ) (ps : List (Fin 3 → ℝ)) :
    (exactCloud ps).transform (fun i j => XR.fin (A i j)) = exactCloud (ps.map (affine A)) := by
  unfold PointCloud.transform exactCloud
  rw [C13_points_fromPoints, List.map_map, List.map_map]
  congr 2
  funext p i
  simp only [Function.comp, PointCloud.transformPoint, Scalar.add, Scalar.mul, Scalar.lit, XR.op2,
    affine, Fin.sum_univ_three]
  congr 1
  have e0 : (0 : Fin 3).castSucc = (0 : Fin 4) := rfl
  have e1 : (1 : Fin 3).castSucc = (1 : Fin 4) := rfl
  have e2 : (2 : Fin 3).castSucc = (2 : Fin 4) := rfl
  rw [e0, e1, e2]
  push_cast
  ring

/-- C15, exact arithmetic: transforming by `B` and then by `A` is transforming by the product `A * B`,
when the last row of `B` is `0 0 0 1`; the unit matrix changes nothing. -/
theorem C15_transform_composes (A B : Matrix (Fin 4) (Fin 4) ℝ) (hB : B 3 = ![0, 0, 0, 1])
    (ps : List (Fin 3 → ℝ)) :
    ((exactCloud ps).transform (fun i j => XR.fin (B i j))).transform (fun i j => XR.fin (A i j))
      = (exactCloud ps).transform (fun i j => XR.fin ((A * B) i j)) ∧
    (exactCloud ps).transform (fun i j => XR.fin ((1 : Matrix (Fin 4) (Fin 4) ℝ) i j))
      = exactCloud ps := by
  constructor
  · rw [C15_transform_affine, C15_transform_affine, C15_transform_affine, List.map_map]
    congr 2
    funext p i
    have e0 : (0 : Fin 3).castSucc = (0 : Fin 4) := rfl
    have e1 : (1 : Fin 3).castSucc = (1 : Fin 4) := rfl
    have e2 : (2 : Fin 3).castSucc = (2 : Fin 4) := rfl
    simp only [Function.comp, affine, Fin.sum_univ_three, Matrix.mul_apply, Fin.sum_univ_four, hB,
      e0, e1, e2]
    simp
    ring
  · rw [C15_transform_affine]
    have : affine (1 : Matrix (Fin 4) (Fin 4) ℝ) = id := by
      funext p i
      fin_cases i <;> simp [affine, Fin.sum_univ_three, Matrix.one_apply]
    rw [this, List.map_id]

/-- The hypothesis on the last row holds for a rotation with translation, and cannot be dropped. -/
example : (!![0, -1, 0, 4; 1, 0, 0, 5; 0, 0, 1, 6; 0, 0, 0, 1] : Matrix (Fin 4) (Fin 4) ℝ) 3
    = ![0, 0, 0, 1] := by
  funext j; fin_cases j <;> rfl

end C15

section C15f32

lemma rnd_zero_add {x y : F32} {q : ℚ} (hx : x.Is q) (hy : y.Is 0) : (x.add y).Is q := by
  have h := hx.add hy (by rw [add_zero, Fmt.rnd_of_rep hx.rep]; exact Fmt.rep_abs_lt hx.rep)
  rwa [add_zero, Fmt.rnd_of_rep hx.rep] at h

lemma rnd_add_zero {x y : F32} {q : ℚ} (hx : x.Is 0) (hy : y.Is q) : (x.add y).Is q := by
  have h := hx.add hy (by rw [zero_add, Fmt.rnd_of_rep hy.rep]; exact Fmt.rep_abs_lt hy.rep)
  rwa [zero_add, Fmt.rnd_of_rep hy.rep] at h

lemma zero_mul_is {x y : F32} {q : ℚ} (hx : x.Is 0) (hy : y.Is q) : (x.mul y).Is 0 := by
  have h := hx.mul hy (by rw [zero_mul, Fmt.rnd_zero]; norm_num [b32])
  rwa [zero_mul, Fmt.rnd_zero] at h

lemma one_mul_is {x y : F32} {q : ℚ} (hx : x.Is 1) (hy : y.Is q) : (x.mul y).Is q := by
  have h := hx.mul hy (by rw [one_mul, Fmt.rnd_of_rep hy.rep]; exact Fmt.rep_abs_lt hy.rep)
  rwa [one_mul, Fmt.rnd_of_rep hy.rep] at h

lemma mul_one_is {x y : F32} {q : ℚ} (hx : x.Is q) (hy : y.Is 1) : (x.mul y).Is q := by
  have h := hx.mul hy (by rw [mul_one, Fmt.rnd_of_rep hx.rep]; exact Fmt.rep_abs_lt hx.rep)
  rwa [mul_one, Fmt.rnd_of_rep hx.rep] at h

/-- C15, f32: a pure translation by `t` moves every finite point by one correctly rounded addition
per coordinate; the zeros and ones of the matrix introduce no error. With `t = 0` (the identity
matrix) every coordinate keeps its value. -/
theorem C15_translation_f32 (m : Fin 4 → Fin 4 → F32) (p : Point 3 F32) (q t : Fin 3 → ℚ)
    (hp : ∀ i, (p i).Is (q i)) (ht : ∀ i : Fin 3, (m i.castSucc 3).Is (t i))
    (hm : ∀ i j : Fin 3, (m i.castSucc j.castSucc).Is (if i = j then 1 else 0))
    (hfin : ∀ i, |b32.rnd (t i + q i)| < 2 ^ 128) :
    ∃ p', ((PointCloud.fromPoints [p]).transform m).points = [p'] ∧
      ∀ i, (p' i).Is (b32.rnd (t i + q i)) := by
  refine ⟨PointCloud.transformPoint m p, ?_, fun i => ?_⟩
  · simp [PointCloud.transform, C13_points_fromPoints]
  · change (Fp.add (Fp.mul (m i.castSucc 3) (Fp.lit 1)) (Fp.add (Fp.mul (m i.castSucc 2) (p 2))
      (Fp.add (Fp.mul (m i.castSucc 1) (p 1)) (Fp.mul (m i.castSucc 0) (p 0))))).Is _
    have h1 := mul_one_is (ht i) F32.one_is
    have hb : |b32.rnd (t i + q i)| < 2 ^ b32.emax := by
      have := hfin i; simp only [b32]; exact_mod_cast this
    have m0 := hm i 0
    have m1 := hm i 1
    have m2 := hm i 2
    refine h1.add ?_ hb
    fin_cases i
    · exact rnd_add_zero (zero_mul_is m2 (hp 2)) (rnd_add_zero (zero_mul_is m1 (hp 1))
        (one_mul_is m0 (hp 0)))
    · exact rnd_add_zero (zero_mul_is m2 (hp 2)) (rnd_zero_add (one_mul_is m1 (hp 1))
        (zero_mul_is m0 (hp 0)))
    · exact rnd_zero_add (one_mul_is m2 (hp 2)) (rnd_zero_add (zero_mul_is m1 (hp 1))
        (zero_mul_is m0 (hp 0)))

example : ∀ i j : Fin 3, (((fun i j => if i = j then Fp.lit 1 else Fp.lit 0) : Fin 4 → Fin 4 → F32)
    i.castSucc j.castSucc).Is (if i = j then 1 else 0) := by
  intro i j
  by_cases h : i = j
  · simp [h, F32.one_is]
  · simp [h, F32.zero_is]

/-- C15, limit: an infinite coordinate spoils the other coordinates, even under the identity
(`0 · ∞` is NaN). -/
theorem C15_identity_infinite : ((PointCloud.fromPoints [![.inf false, Fp.lit 1, Fp.lit 2]] :
    PointCloud 3 F32).transform fun i j => if i = j then Fp.lit 1 else Fp.lit 0).points
      = [![.inf false, .nan, .nan]] := by
  unfold PointCloud.transform
  rw [C13_points_fromPoints, C13_points_fromPoints]
  decide +kernel

end C15f32
end Verif.Props
