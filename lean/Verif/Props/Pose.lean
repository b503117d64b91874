import Verif.Spec.Rigid
import Verif.Props.Cloud
import Verif.Lemmas.NearReal
import Mathlib.Tactic.LinearCombination
import Mathlib.Analysis.SpecialFunctions.Trigonometric.Bounds

/-!
# C59: the pose of a recording acts as a rigid motion
-/

namespace Verif.Props
open Spec Kitti

section Exact

/-- The pose with exact angles and translation. -/
noncomputable def exactPose (roll pitch yaw : ℝ) (t : Fin 3 → ℝ) : Pose XR (Quat XR) :=
  ⟨fun i => .fin (t i), Quat.fromEuler (.fin roll) (.fin pitch) (.fin yaw)⟩

/-- The nine entries of the product of the three rotations. -/
noncomputable def rpy (r p y : ℝ) : Matrix (Fin 3) (Fin 3) ℝ :=
  !![Real.cos y * Real.cos p, Real.cos y * Real.sin p * Real.sin r - Real.sin y * Real.cos r,
      Real.cos y * Real.sin p * Real.cos r + Real.sin y * Real.sin r;
    Real.sin y * Real.cos p, Real.sin y * Real.sin p * Real.sin r + Real.cos y * Real.cos r,
      Real.sin y * Real.sin p * Real.cos r - Real.cos y * Real.sin r;
    -Real.sin p, Real.cos p * Real.sin r, Real.cos p * Real.cos r]

lemma rpy_rot (r p y : ℝ) (v : Fin 3 → ℝ) (i : Fin 3) :
    rotZ y (rotY p (rotX r v)) i = ∑ j, rpy r p y i j * v j := by
  fin_cases i <;> simp [rotX, rotY, rotZ, rpy, Fin.sum_univ_three] <;> ring

/-- The components of the quaternion, as real numbers. -/
noncomputable def quatR (r p y : ℝ) : Quat ℝ :=
  let sr := Real.sin (r * (1/2)); let cr := Real.cos (r * (1/2))
  let sp := Real.sin (p * (1/2)); let cp := Real.cos (p * (1/2))
  let sy := Real.sin (y * (1/2)); let cy := Real.cos (y * (1/2))
  ⟨cr * cp * cy + sr * sp * sy, sr * cp * cy - cr * sp * sy,
   cr * sp * cy + sr * cp * sy, cr * cp * sy - sr * sp * cy⟩

lemma half_cos (a : ℝ) : Real.cos a = Real.cos (a * (1/2)) ^ 2 - Real.sin (a * (1/2)) ^ 2 := by
  have : a = 2 * (a * (1/2)) := by ring
  conv_lhs => rw [this]
  rw [Real.cos_two_mul', ]

lemma half_sin (a : ℝ) : Real.sin a = 2 * Real.sin (a * (1/2)) * Real.cos (a * (1/2)) := by
  have : a = 2 * (a * (1/2)) := by ring
  conv_lhs => rw [this]
  rw [Real.sin_two_mul]

lemma quatR_unit (r p y : ℝ) : (quatR r p y).w ^ 2 + (quatR r p y).i ^ 2 + (quatR r p y).j ^ 2
    + (quatR r p y).k ^ 2 = 1 := by
  simp only [quatR]
  have hr := Real.cos_sq_add_sin_sq (r * (1/2))
  have hp := Real.cos_sq_add_sin_sq (p * (1/2))
  have hy := Real.cos_sq_add_sin_sq (y * (1/2))
  generalize Real.cos (r * (1/2)) = cr at *
  generalize Real.sin (r * (1/2)) = sr at *
  generalize Real.cos (p * (1/2)) = cp at *
  generalize Real.sin (p * (1/2)) = sp at *
  generalize Real.cos (y * (1/2)) = cy at *
  generalize Real.sin (y * (1/2)) = sy at *
  linear_combination (cp ^ 2 + sp ^ 2) * (cy ^ 2 + sy ^ 2) * hr + (cy ^ 2 + sy ^ 2) * hp + hy

/-- The rotation matrix of the quaternion is the product of the three rotations. -/
lemma quatR_matrix (r p y : ℝ) :
    let q := quatR r p y
    q.w * q.w + q.i * q.i - q.j * q.j - q.k * q.k = rpy r p y 0 0 ∧
    q.i * q.j * 2 - q.w * q.k * 2 = rpy r p y 0 1 ∧
    q.w * q.j * 2 + q.i * q.k * 2 = rpy r p y 0 2 ∧
    q.w * q.k * 2 + q.i * q.j * 2 = rpy r p y 1 0 ∧
    q.w * q.w - q.i * q.i + q.j * q.j - q.k * q.k = rpy r p y 1 1 ∧
    q.j * q.k * 2 - q.w * q.i * 2 = rpy r p y 1 2 ∧
    q.i * q.k * 2 - q.w * q.j * 2 = rpy r p y 2 0 ∧
    q.w * q.i * 2 + q.j * q.k * 2 = rpy r p y 2 1 ∧
    q.w * q.w - q.i * q.i - q.j * q.j + q.k * q.k = rpy r p y 2 2 := by
  simp only [rpy, Matrix.of_apply, Matrix.cons_val, quatR]
  rw [half_cos r, half_cos p, half_cos y, half_sin r, half_sin p, half_sin y]
  have hr := Real.cos_sq_add_sin_sq (r * (1/2))
  have hp := Real.cos_sq_add_sin_sq (p * (1/2))
  have hy := Real.cos_sq_add_sin_sq (y * (1/2))
  generalize Real.cos (r * (1/2)) = cr at *
  generalize Real.sin (r * (1/2)) = sr at *
  generalize Real.cos (p * (1/2)) = cp at *
  generalize Real.sin (p * (1/2)) = sp at *
  generalize Real.cos (y * (1/2)) = cy at *
  generalize Real.sin (y * (1/2)) = sy at *
  refine ⟨?_, ?_, ?_, ?_, ?_, ?_, ?_, ?_, ?_⟩
  · linear_combination (cp ^ 2 - sp ^ 2) * (cy ^ 2 - sy ^ 2) * hr
  · linear_combination -(2 * sy * cy) * (cr ^ 2 - sr ^ 2) * hp
  · linear_combination (2 * sy * cy) * (2 * sr * cr) * hp
  · linear_combination (2 * sy * cy) * (cp ^ 2 - sp ^ 2) * hr
  · linear_combination (cy ^ 2 - sy ^ 2) * (cr ^ 2 - sr ^ 2) * hp
  · linear_combination -(cy ^ 2 - sy ^ 2) * (2 * sr * cr) * hp
  · linear_combination -(2 * sp * cp) * (cy ^ 2 + sy ^ 2) * hr - (2 * sp * cp) * hy
  · linear_combination (cp ^ 2 - sp ^ 2) * (2 * sr * cr) * hy
  · linear_combination (cp ^ 2 - sp ^ 2) * (cr ^ 2 - sr ^ 2) * hy

/-- The homogeneous matrix of a pose, in real numbers. -/
noncomputable def homR (r p y : ℝ) (t : Fin 3 → ℝ) : Matrix (Fin 4) (Fin 4) ℝ :=
  !![rpy r p y 0 0, rpy r p y 0 1, rpy r p y 0 2, t 0;
     rpy r p y 1 0, rpy r p y 1 1, rpy r p y 1 2, t 1;
     rpy r p y 2 0, rpy r p y 2 1, rpy r p y 2 2, t 2;
     0, 0, 0, 1]

lemma toHomogeneous_exact (r p y : ℝ) (t : Fin 3 → ℝ) :
    (exactPose r p y t).toHomogeneous = fun i j => XR.fin (homR r p y t i j) := by
  obtain ⟨h00, h01, h02, h10, h11, h12, h20, h21, h22⟩ := quatR_matrix r p y
  simp only [quatR] at h00 h01 h02 h10 h11 h12 h20 h21 h22
  funext i j
  fin_cases i <;> fin_cases j <;>
    simp [Pose.toHomogeneous, exactPose, Quat.toMatrix, Quat.fromEuler, Trig.sin, Trig.cos,
      Scalar.mul, Scalar.add, Scalar.sub, Scalar.lit, XR.op1, XR.op2, homR] <;>
    first
      | (rw [← h00]; ring_nf) | (rw [← h01]; ring_nf) | (rw [← h02]; ring_nf) | (rw [← h10]; ring_nf)
      | (rw [← h11]; ring_nf) | (rw [← h12]; ring_nf) | (rw [← h20]; ring_nf) | (rw [← h21]; ring_nf)
      | (rw [← h22]; ring_nf)

/-- C59, exact arithmetic: transforming a cloud by the matrix of a pose is the rigid motion "roll about
x, then pitch about y, then yaw about z, then the translation", point by point. -/
theorem C59_transform_is_rigid (roll pitch yaw : ℝ) (t : Fin 3 → ℝ) (ps : List (Fin 3 → ℝ)) :
    (exactCloud ps).transform (exactPose roll pitch yaw t).toHomogeneous
      = exactCloud (ps.map (rigid roll pitch yaw t)) := by
  rw [toHomogeneous_exact, C15_transform_affine]
  congr 2
  funext v i
  rw [rigid, rpy_rot]
  fin_cases i <;> simp [affine, homR, Fin.sum_univ_three]

lemma rotX_keeps (u : ℝ) (o a b c : Fin 3 → ℝ) : sqDist (rotX u a) (rotX u b) = sqDist a b ∧
    volume (rotX u o) (rotX u a) (rotX u b) (rotX u c) = volume o a b c := by
  have h := Real.cos_sq_add_sin_sq u
  simp only [rotX, sqDist, volume, Fin.sum_univ_three, Matrix.cons_val]
  generalize Real.cos u = x at *
  generalize Real.sin u = y at *
  constructor
  · linear_combination ((a 1 - b 1) ^ 2 + (a 2 - b 2) ^ 2) * h
  · linear_combination ((a 0 - o 0) * ((b 1 - o 1) * (c 2 - o 2) - (b 2 - o 2) * (c 1 - o 1))
      - (a 1 - o 1) * ((b 0 - o 0) * (c 2 - o 2) - (b 2 - o 2) * (c 0 - o 0))
      + (a 2 - o 2) * ((b 0 - o 0) * (c 1 - o 1) - (b 1 - o 1) * (c 0 - o 0))) * h

lemma rotY_keeps (u : ℝ) (o a b c : Fin 3 → ℝ) : sqDist (rotY u a) (rotY u b) = sqDist a b ∧
    volume (rotY u o) (rotY u a) (rotY u b) (rotY u c) = volume o a b c := by
  have h := Real.cos_sq_add_sin_sq u
  simp only [rotY, sqDist, volume, Fin.sum_univ_three, Matrix.cons_val]
  generalize Real.cos u = x at *
  generalize Real.sin u = y at *
  constructor
  · linear_combination ((a 0 - b 0) ^ 2 + (a 2 - b 2) ^ 2) * h
  · linear_combination ((a 0 - o 0) * ((b 1 - o 1) * (c 2 - o 2) - (b 2 - o 2) * (c 1 - o 1))
      - (a 1 - o 1) * ((b 0 - o 0) * (c 2 - o 2) - (b 2 - o 2) * (c 0 - o 0))
      + (a 2 - o 2) * ((b 0 - o 0) * (c 1 - o 1) - (b 1 - o 1) * (c 0 - o 0))) * h

lemma rotZ_keeps (u : ℝ) (o a b c : Fin 3 → ℝ) : sqDist (rotZ u a) (rotZ u b) = sqDist a b ∧
    volume (rotZ u o) (rotZ u a) (rotZ u b) (rotZ u c) = volume o a b c := by
  have h := Real.cos_sq_add_sin_sq u
  simp only [rotZ, sqDist, volume, Fin.sum_univ_three, Matrix.cons_val]
  generalize Real.cos u = x at *
  generalize Real.sin u = y at *
  constructor
  · linear_combination ((a 0 - b 0) ^ 2 + (a 1 - b 1) ^ 2) * h
  · linear_combination ((a 0 - o 0) * ((b 1 - o 1) * (c 2 - o 2) - (b 2 - o 2) * (c 1 - o 1))
      - (a 1 - o 1) * ((b 0 - o 0) * (c 2 - o 2) - (b 2 - o 2) * (c 0 - o 0))
      + (a 2 - o 2) * ((b 0 - o 0) * (c 1 - o 1) - (b 1 - o 1) * (c 0 - o 0))) * h

/-- C59: the motion keeps all distances and the orientation (no mirror image). -/
theorem C59_rigid (roll pitch yaw : ℝ) (t : Fin 3 → ℝ) (o a b c : Fin 3 → ℝ) :
    let g := rigid roll pitch yaw t
    sqDist (g a) (g b) = sqDist a b ∧ volume (g o) (g a) (g b) (g c) = volume o a b c := by
  obtain ⟨x1, x2⟩ := rotX_keeps roll o a b c
  obtain ⟨y1, y2⟩ := rotY_keeps pitch (rotX roll o) (rotX roll a) (rotX roll b) (rotX roll c)
  obtain ⟨z1, z2⟩ := rotZ_keeps yaw (rotY pitch (rotX roll o)) (rotY pitch (rotX roll a))
    (rotY pitch (rotX roll b)) (rotY pitch (rotX roll c))
  rw [← x1, ← y1, ← z1, ← x2, ← y2, ← z2]
  simp [rigid, sqDist, volume]

end Exact

section F32

lemma half_is {x : F32} {q : ℚ} (h : x.Is q) :
    ∃ r, (x.mul (Fp.lit (1 / 2))).Is r ∧ |r - q * (1 / 2)| ≤ 1 / 2 ^ 149 := by
  have hh : (Fp.lit (1 / 2) : F32).Is (1 / 2) := by
    apply Fp.ofRat_is_rep
    exact ⟨1, -1, by simp [b32], by simp [b32], by simp [b32], by norm_num⟩
  have hq := F32.rep_lt h.rep
  have hov : |b32.rnd (q * (1 / 2))| < 2 ^ b32.emax := F32.noOvf (by
    rw [abs_mul, abs_of_pos (by norm_num : (0 : ℚ) < 1 / 2)]
    norm_num at hq ⊢; linarith)
  refine ⟨_, h.mul hh hov, ?_⟩
  obtain ⟨m, e, h1, h2, h3, h4⟩ := h.rep
  simp only [b32] at h1 h2 h3
  rcases eq_or_lt_of_le h2 with h5 | h5
  · have hs : |q * (1 / 2)| ≤ 1 / 2 ^ 126 := by
      have hm : |(m : ℚ)| ≤ 2 ^ 24 := by exact_mod_cast h1.le
      rw [h4, ← h5, abs_mul, abs_mul, abs_of_pos (by positivity : (0 : ℚ) < 2 ^ (-149 : ℤ)),
        abs_of_pos (by norm_num : (0 : ℚ) < 1 / 2)]
      calc |(m : ℚ)| * 2 ^ (-149 : ℤ) * (1 / 2) ≤ 2 ^ 24 * 2 ^ (-149 : ℤ) * (1 / 2) := by gcongr
        _ = 1 / 2 ^ 126 := by norm_num [zpow_neg]
    have := F32.err (q * (1 / 2))
    norm_num at this hs ⊢
    linarith
  · have hrep : b32.Rep (q * (1 / 2)) := by
      refine ⟨m, e - 1, by simpa [b32] using h1, by simp only [b32]; omega,
        by simp only [b32]; omega, ?_⟩
      rw [h4, zpow_sub_one₀ (by norm_num)]
      ring
    rw [Fmt.rnd_of_rep hrep, sub_self, abs_zero]
    positivity

variable [T : Trig F32]

lemma sin_near (hT : AccurateTrig T) {x : F32} {q : ℚ} (h : x.Is q) :
    NearReal (Trig.sin (x.mul (Fp.lit (1 / 2)))) (Real.sin (q * (1 / 2))) (5 / 2 ^ 24) := by
  obtain ⟨r, h1, h2⟩ := half_is h
  obtain ⟨s, h3, h4⟩ := hT.sin _ _ h1
  refine ⟨s, h3, ?_⟩
  have h5 := Real.abs_sin_sub_sin_le (r : ℝ) (q * (1 / 2))
  have h6 : |(r : ℝ) - q * (1 / 2)| ≤ 1 / 2 ^ 149 := by
    have := (Rat.cast_le (K := ℝ)).mpr h2
    push_cast at this
    exact this
  have h7 := abs_sub_le (s : ℝ) (Real.sin r) (Real.sin (q * (1 / 2)))
  norm_num at *
  linarith

lemma cos_near (hT : AccurateTrig T) {x : F32} {q : ℚ} (h : x.Is q) :
    NearReal (Trig.cos (x.mul (Fp.lit (1 / 2)))) (Real.cos (q * (1 / 2))) (5 / 2 ^ 24) := by
  obtain ⟨r, h1, h2⟩ := half_is h
  obtain ⟨s, h3, h4⟩ := hT.cos _ _ h1
  refine ⟨s, h3, ?_⟩
  have h5 := Real.abs_cos_sub_cos_le (r : ℝ) (q * (1 / 2))
  have h6 : |(r : ℝ) - q * (1 / 2)| ≤ 1 / 2 ^ 149 := by
    have := (Rat.cast_le (K := ℝ)).mpr h2
    push_cast at this
    exact this
  have h7 := abs_sub_le (s : ℝ) (Real.cos r) (Real.cos (q * (1 / 2)))
  norm_num at *
  linarith

omit T in
lemma abs_mul_le_one {a b : ℝ} (ha : |a| ≤ 1) (hb : |b| ≤ 1) : |a * b| ≤ 1 := by
  rw [abs_mul]; exact mul_le_one₀ ha (abs_nonneg _) hb

omit T in
lemma quatR_le_one (r p y : ℝ) : |(quatR r p y).w| ≤ 1 ∧ |(quatR r p y).i| ≤ 1 ∧
    |(quatR r p y).j| ≤ 1 ∧ |(quatR r p y).k| ≤ 1 := by
  have h := quatR_unit r p y
  have := sq_nonneg (quatR r p y).w
  have := sq_nonneg (quatR r p y).i
  have := sq_nonneg (quatR r p y).j
  have := sq_nonneg (quatR r p y).k
  refine ⟨?_, ?_, ?_, ?_⟩ <;> rw [← sq_le_one_iff_abs_le_one] <;> linarith

/-- The quaternion is within 37 units of 2^-24 of the exact one. -/
lemma quat_near (hT : AccurateTrig T) {roll pitch yaw : F32} {r p y : ℚ} (hr : roll.Is r)
    (hp : pitch.Is p) (hy : yaw.Is y) :
    NearReal (Quat.fromEuler roll pitch yaw).w (quatR r p y).w ((145 / 4) / 2 ^ 24) ∧
    NearReal (Quat.fromEuler roll pitch yaw).i (quatR r p y).i ((145 / 4) / 2 ^ 24) ∧
    NearReal (Quat.fromEuler roll pitch yaw).j (quatR r p y).j ((145 / 4) / 2 ^ 24) ∧
    NearReal (Quat.fromEuler roll pitch yaw).k (quatR r p y).k ((145 / 4) / 2 ^ 24) := by
  obtain ⟨b1, b2, b3, b4⟩ := quatR_le_one r p y
  have t : ∀ {x1 x2 x3 : F32} {v1 v2 v3 : ℝ}, NearReal x1 v1 (5 / 2 ^ 24) → NearReal x2 v2 (5 / 2 ^ 24) →
      NearReal x3 v3 (5 / 2 ^ 24) → |v1| ≤ 1 → |v2| ≤ 1 → |v3| ≤ 1 →
      NearReal ((x1.mul x2).mul x3) (v1 * v2 * v3) ((35 / 2) / 2 ^ 24) := by
    intro x1 x2 x3 v1 v2 v3 h1 h2 h3 a1 a2 a3
    refine (NearReal.mul1 (NearReal.mul1 h1 h2 a1 a2 (by norm_num) (by norm_num)) h3
      (abs_mul_le_one a1 a2) a3 (by norm_num) (by norm_num)).mono ?_
    norm_num
  have sr := sin_near hT hr
  have cr := cos_near hT hr
  have sp := sin_near hT hp
  have cp := cos_near hT hp
  have sy := sin_near hT hy
  have cy := cos_near hT hy
  have s1 : ∀ x : ℝ, |Real.sin x| ≤ 1 := Real.abs_sin_le_one
  have c1 : ∀ x : ℝ, |Real.cos x| ≤ 1 := Real.abs_cos_le_one
  simp only [quatR] at b1 b2 b3 b4 ⊢
  refine ⟨?_, ?_, ?_, ?_⟩
  · refine (NearReal.add1 (t cr cp cy (c1 _) (c1 _) (c1 _)) (t sr sp sy (s1 _) (s1 _) (s1 _)) b1
      (by norm_num) (by norm_num)).mono (by norm_num)
  · refine (NearReal.sub1 (t sr cp cy (s1 _) (c1 _) (c1 _)) (t cr sp sy (c1 _) (s1 _) (s1 _)) b2
      (by norm_num) (by norm_num)).mono (by norm_num)
  · refine (NearReal.add1 (t cr sp cy (c1 _) (s1 _) (c1 _)) (t sr cp sy (s1 _) (c1 _) (s1 _)) b3
      (by norm_num) (by norm_num)).mono (by norm_num)
  · refine (NearReal.sub1 (t cr cp sy (c1 _) (c1 _) (s1 _)) (t sr sp cy (s1 _) (s1 _) (c1 _)) b4
      (by norm_num) (by norm_num)).mono (by norm_num)

set_option maxHeartbeats 1000000 in
lemma matrix_near {q : Quat F32} {Q : Quat ℝ} {u : ℝ} (hu : u = (145 / 4) / 2 ^ 24)
    (hw : NearReal q.w Q.w u) (hi : NearReal q.i Q.i u) (hj : NearReal q.j Q.j u)
    (hk : NearReal q.k Q.k u) (hQ : Q.w ^ 2 + Q.i ^ 2 + Q.j ^ 2 + Q.k ^ 2 = 1) :
    NearReal (q.toMatrix 0 0) (Q.w * Q.w + Q.i * Q.i - Q.j * Q.j - Q.k * Q.k) (301 / 2 ^ 24) ∧
    NearReal (q.toMatrix 0 1) (Q.i * Q.j * 2 - Q.w * Q.k * 2) (301 / 2 ^ 24) ∧
    NearReal (q.toMatrix 0 2) (Q.w * Q.j * 2 + Q.i * Q.k * 2) (301 / 2 ^ 24) ∧
    NearReal (q.toMatrix 1 0) (Q.w * Q.k * 2 + Q.i * Q.j * 2) (301 / 2 ^ 24) ∧
    NearReal (q.toMatrix 1 1) (Q.w * Q.w - Q.i * Q.i + Q.j * Q.j - Q.k * Q.k) (301 / 2 ^ 24) ∧
    NearReal (q.toMatrix 1 2) (Q.j * Q.k * 2 - Q.w * Q.i * 2) (301 / 2 ^ 24) ∧
    NearReal (q.toMatrix 2 0) (Q.i * Q.k * 2 - Q.w * Q.j * 2) (301 / 2 ^ 24) ∧
    NearReal (q.toMatrix 2 1) (Q.w * Q.i * 2 + Q.j * Q.k * 2) (301 / 2 ^ 24) ∧
    NearReal (q.toMatrix 2 2) (Q.w * Q.w - Q.i * Q.i - Q.j * Q.j + Q.k * Q.k) (301 / 2 ^ 24) := by
  subst hu
  obtain ⟨qw, qi, qj, qk⟩ := q
  obtain ⟨w, i, j, k⟩ := Q
  simp only [Quat.toMatrix, Matrix.cons_val] at *
  have w2 := sq_nonneg w
  have i2 := sq_nonneg i
  have j2 := sq_nonneg j
  have k2 := sq_nonneg k
  have aw : |w| ≤ 1 := by rw [← sq_le_one_iff_abs_le_one]; linarith
  have ai : |i| ≤ 1 := by rw [← sq_le_one_iff_abs_le_one]; linarith
  have aj : |j| ≤ 1 := by rw [← sq_le_one_iff_abs_le_one]; linarith
  have ak : |k| ≤ 1 := by rw [← sq_le_one_iff_abs_le_one]; linarith
  have two : ∀ a b : ℝ, -(a ^ 2 + b ^ 2) ≤ a * b * 2 ∧ a * b * 2 ≤ a ^ 2 + b ^ 2 := fun a b =>
    ⟨by linarith [sq_nonneg (a + b)], by linarith [sq_nonneg (a - b)]⟩
  obtain ⟨t1, t2⟩ := two i j
  obtain ⟨t3, t4⟩ := two w k
  obtain ⟨t5, t6⟩ := two w j
  obtain ⟨t7, t8⟩ := two i k
  obtain ⟨t9, t10⟩ := two j k
  obtain ⟨t11, t12⟩ := two w i
  have sq : ∀ {x : F32} {v : ℝ}, NearReal x v ((145 / 4) / 2 ^ 24) → |v| ≤ 1 →
      NearReal (x.mul x) (v * v) ((295 / 4) / 2 ^ 24) := by
    intro x v h a
    exact (NearReal.mul1 h h a a (by norm_num) (by norm_num)).mono (by norm_num)
  have db : ∀ {x x' : F32} {v v' : ℝ}, NearReal x v ((145 / 4) / 2 ^ 24) →
      NearReal x' v' ((145 / 4) / 2 ^ 24) → |v| ≤ 1 → |v'| ≤ 1 →
      NearReal ((x.mul x').mul (Fp.lit 2)) (v * v' * 2) ((599 / 4) / 2 ^ 24) := by
    intro x x' v v' h h' a a'
    exact (NearReal.dbl1 (NearReal.mul1 h h' a a' (by norm_num) (by norm_num))
      (abs_mul_le_one a a') (by norm_num)).mono (by norm_num)
  have d1 : ∀ {x1 x2 x3 x4 : F32} {v1 v2 v3 v4 : ℝ}, NearReal x1 v1 ((295 / 4) / 2 ^ 24) →
      NearReal x2 v2 ((295 / 4) / 2 ^ 24) → NearReal x3 v3 ((295 / 4) / 2 ^ 24) →
      NearReal x4 v4 ((295 / 4) / 2 ^ 24) → |v1 + v2| ≤ 1 → |v1 + v2 - v3| ≤ 1 →
      |v1 + v2 - v3 - v4| ≤ 1 →
      NearReal (((x1.add x2).sub x3).sub x4) (v1 + v2 - v3 - v4) (301 / 2 ^ 24) := by
    intro x1 x2 x3 x4 v1 v2 v3 v4 h1 h2 h3 h4 b1 b2 b3
    exact (NearReal.sub1 (NearReal.sub1 (NearReal.add1 h1 h2 b1 (by norm_num) (by norm_num)) h3 b2
      (by norm_num) (by norm_num)) h4 b3 (by norm_num) (by norm_num)).mono (by norm_num)
  have d2 : ∀ {x1 x2 x3 x4 : F32} {v1 v2 v3 v4 : ℝ}, NearReal x1 v1 ((295 / 4) / 2 ^ 24) →
      NearReal x2 v2 ((295 / 4) / 2 ^ 24) → NearReal x3 v3 ((295 / 4) / 2 ^ 24) →
      NearReal x4 v4 ((295 / 4) / 2 ^ 24) → |v1 - v2| ≤ 1 → |v1 - v2 + v3| ≤ 1 →
      |v1 - v2 + v3 - v4| ≤ 1 →
      NearReal (((x1.sub x2).add x3).sub x4) (v1 - v2 + v3 - v4) (301 / 2 ^ 24) := by
    intro x1 x2 x3 x4 v1 v2 v3 v4 h1 h2 h3 h4 b1 b2 b3
    exact (NearReal.sub1 (NearReal.add1 (NearReal.sub1 h1 h2 b1 (by norm_num) (by norm_num)) h3 b2
      (by norm_num) (by norm_num)) h4 b3 (by norm_num) (by norm_num)).mono (by norm_num)
  have d3 : ∀ {x1 x2 x3 x4 : F32} {v1 v2 v3 v4 : ℝ}, NearReal x1 v1 ((295 / 4) / 2 ^ 24) →
      NearReal x2 v2 ((295 / 4) / 2 ^ 24) → NearReal x3 v3 ((295 / 4) / 2 ^ 24) →
      NearReal x4 v4 ((295 / 4) / 2 ^ 24) → |v1 - v2| ≤ 1 → |v1 - v2 - v3| ≤ 1 →
      |v1 - v2 - v3 + v4| ≤ 1 →
      NearReal (((x1.sub x2).sub x3).add x4) (v1 - v2 - v3 + v4) (301 / 2 ^ 24) := by
    intro x1 x2 x3 x4 v1 v2 v3 v4 h1 h2 h3 h4 b1 b2 b3
    exact (NearReal.add1 (NearReal.sub1 (NearReal.sub1 h1 h2 b1 (by norm_num) (by norm_num)) h3 b2
      (by norm_num) (by norm_num)) h4 b3 (by norm_num) (by norm_num)).mono (by norm_num)
  have pl : ∀ {x x' : F32} {v v' : ℝ}, NearReal x v ((599 / 4) / 2 ^ 24) →
      NearReal x' v' ((599 / 4) / 2 ^ 24) → |v + v'| ≤ 1 →
      NearReal (x.add x') (v + v') (301 / 2 ^ 24) := by
    intro x x' v v' h h' a
    exact (NearReal.add1 h h' a (by norm_num) (by norm_num)).mono (by norm_num)
  have mi : ∀ {x x' : F32} {v v' : ℝ}, NearReal x v ((599 / 4) / 2 ^ 24) →
      NearReal x' v' ((599 / 4) / 2 ^ 24) → |v - v'| ≤ 1 →
      NearReal (x.sub x') (v - v') (301 / 2 ^ 24) := by
    intro x x' v v' h h' a
    exact (NearReal.sub1 h h' a (by norm_num) (by norm_num)).mono (by norm_num)
  refine ⟨d1 (sq hw aw) (sq hi ai) (sq hj aj) (sq hk ak) ?_ ?_ ?_,
    mi (db hi hj ai aj) (db hw hk aw ak) ?_, pl (db hw hj aw aj) (db hi hk ai ak) ?_,
    pl (db hw hk aw ak) (db hi hj ai aj) ?_,
    d2 (sq hw aw) (sq hi ai) (sq hj aj) (sq hk ak) ?_ ?_ ?_,
    mi (db hj hk aj ak) (db hw hi aw ai) ?_, mi (db hi hk ai ak) (db hw hj aw aj) ?_,
    pl (db hw hi aw ai) (db hj hk aj ak) ?_,
    d3 (sq hw aw) (sq hi ai) (sq hj aj) (sq hk ak) ?_ ?_ ?_⟩ <;> rw [abs_le] <;> constructor <;>
    linarith

/-- Every entry of the rotation part is within 301 units of 2^-24. -/
lemma rotation_near (hT : AccurateTrig T) {roll pitch yaw : F32} {r p y : ℚ} (hr : roll.Is r)
    (hp : pitch.Is p) (hy : yaw.Is y) (i j : Fin 3) :
    NearReal ((Quat.fromEuler roll pitch yaw).toMatrix i j) (rpy r p y i j) (301 / 2 ^ 24) := by
  obtain ⟨h1, h2, h3, h4⟩ := quat_near hT hr hp hy
  obtain ⟨m00, m01, m02, m10, m11, m12, m20, m21, m22⟩ :=
    matrix_near rfl h1 h2 h3 h4 (quatR_unit r p y)
  obtain ⟨e00, e01, e02, e10, e11, e12, e20, e21, e22⟩ := quatR_matrix r p y
  fin_cases i <;> fin_cases j
  · exact e00 ▸ m00
  · exact e01 ▸ m01
  · exact e02 ▸ m02
  · exact e10 ▸ m10
  · exact e11 ▸ m11
  · exact e12 ▸ m12
  · exact e20 ▸ m20
  · exact e21 ▸ m21
  · exact e22 ▸ m22

/-- C59, f32: with finite angles, every entry of the rotation part of the matrix of a pose is finite
and within 2^-15 of the true rotation; the last column is the translation. `Pi.single j 1` is the unit
vector along axis `j`. -/
theorem C59_matrix_f32 (hT : AccurateTrig T) (roll pitch yaw : F32) (r p y : ℚ) (hr : roll.Is r)
    (hp : pitch.Is p) (hy : yaw.Is y) (t : Point 3 F32) (i j : Fin 3) :
    let m := (⟨t, Quat.fromEuler roll pitch yaw⟩ : Pose F32 (Quat F32)).toHomogeneous
    NearReal (m i.castSucc j.castSucc) (rigid r p y 0 (Pi.single j 1) i) (1 / 2 ^ 15) ∧
      m i.castSucc 3 = t i := by
  constructor
  · have h := rotation_near hT hr hp hy i j
    have e : rigid r p y 0 (Pi.single j 1) i = rpy r p y i j := by
      rw [rigid, rpy_rot]
      simp [Pi.single_apply]
    have e' : (⟨t, Quat.fromEuler roll pitch yaw⟩ : Pose F32 (Quat F32)).toHomogeneous
        i.castSucc j.castSucc = (Quat.fromEuler roll pitch yaw).toMatrix i j := by
      fin_cases i <;> fin_cases j <;> rfl
    rw [e, e']
    exact h.mono (by norm_num)
  · fin_cases i <;> rfl

omit T in
lemma rpy_le_one (r p y : ℝ) (i j : Fin 3) : |rpy r p y i j| ≤ 1 := by
  obtain ⟨e00, e01, e02, e10, e11, e12, e20, e21, e22⟩ := quatR_matrix r p y
  have hQ := quatR_unit r p y
  generalize quatR r p y = Q at *
  obtain ⟨w, i', j', k⟩ := Q
  simp only at *
  have w2 := sq_nonneg w
  have i2 := sq_nonneg i'
  have j2 := sq_nonneg j'
  have k2 := sq_nonneg k
  have two : ∀ a b : ℝ, -(a ^ 2 + b ^ 2) ≤ a * b * 2 ∧ a * b * 2 ≤ a ^ 2 + b ^ 2 := fun a b =>
    ⟨by linarith [sq_nonneg (a + b)], by linarith [sq_nonneg (a - b)]⟩
  obtain ⟨t1, t2⟩ := two i' j'
  obtain ⟨t3, t4⟩ := two w k
  obtain ⟨t5, t6⟩ := two w j'
  obtain ⟨t7, t8⟩ := two i' k
  obtain ⟨t9, t10⟩ := two j' k
  obtain ⟨t11, t12⟩ := two w i'
  rw [abs_le]
  fin_cases i <;> fin_cases j <;>
    simp only [Fin.zero_eta, Fin.mk_one, Fin.reduceFinMk, ← e00, ← e01, ← e02, ← e10, ← e11, ← e12,
      ← e20, ← e21, ← e22] <;> constructor <;> linarith

omit T in
lemma transformPoint_near {m : Fin 4 → Fin 4 → F32} {R : Matrix (Fin 3) (Fin 3) ℝ} {x : Point 3 F32}
    {q t : Fin 3 → ℚ} {L S : ℝ} (hm : ∀ i j : Fin 3, NearReal (m i.castSucc j.castSucc) (R i j) (301 / 2 ^ 24))
    (hR : ∀ i j, |R i j| ≤ 1) (ht : ∀ i : Fin 3, (m i.castSucc 3).Is (t i)) (hx : ∀ i, (x i).Is (q i))
    (hL : ∀ i, |(q i : ℝ)| ≤ L) (hS : ∀ i, |(t i : ℝ)| ≤ S) (hL1 : 1 ≤ L) (hL2 : L ≤ 2 ^ 100)
    (hS2 : S ≤ 2 ^ 100) (i : Fin 3) :
    NearReal (PointCloud.transformPoint m x i) ((∑ j, R i j * q j) + t i) ((1000 * L + S) / 2 ^ 24) := by
  have hx' : ∀ j, NearReal (x j) (q j) 0 := fun j => ⟨q j, hx j, by simp⟩
  have hpr : ∀ j : Fin 3, NearReal ((m i.castSucc j.castSucc).mul (x j)) (R i j * q j)
      (303 * L / 2 ^ 24) := by
    intro j
    refine (NearReal.mul (hm i j) (hx' j) (hR i j) (hL j) ?_).mono ?_
    · norm_num at hL2 ⊢; linarith
    · norm_num at hL2 ⊢; linarith
  have hab : ∀ j : Fin 3, |R i j * q j| ≤ L := by
    intro j
    rw [abs_mul]
    calc |R i j| * |(q j : ℝ)| ≤ 1 * L := mul_le_mul (hR i j) (hL j) (abs_nonneg _) (by norm_num)
      _ = L := one_mul L
  have b1 := abs_le.mp (hab 0)
  have b2 := abs_le.mp (hab 1)
  have b3 := abs_le.mp (hab 2)
  have b4 := abs_le.mp (hS i)
  have s1 := NearReal.add (A := 2 * L) (hpr 1) (hpr 0) (abs_le.mpr ⟨by linarith, by linarith⟩)
    (by norm_num at hL2 ⊢; linarith)
  have s1' := s1.mono (f := 609 * L / 2 ^ 24) (by norm_num at hL2 ⊢; linarith)
  have s2 := NearReal.add (A := 3 * L) (hpr 2) s1' (abs_le.mpr ⟨by linarith, by linarith⟩)
    (by norm_num at hL2 ⊢; linarith)
  have s2' := s2.mono (f := 916 * L / 2 ^ 24) (by norm_num at hL2 ⊢; linarith)
  have ht' : NearReal ((m i.castSucc 3).mul (Fp.lit 1)) (t i) 0 :=
    ⟨t i, mul_one_is (ht i) F32.one_is, by simp⟩
  have s3 := NearReal.add (A := 3 * L + S) ht' s2' (abs_le.mpr ⟨by linarith, by linarith⟩)
    (by norm_num at hL2 hS2 ⊢; linarith)
  have e : (∑ j, R i j * q j) + (t i : ℝ) = t i + (R i 2 * q 2 + (R i 1 * q 1 + R i 0 * q 0)) := by
    rw [Fin.sum_univ_three]; ring
  rw [e]
  exact s3.mono (by norm_num at hL2 ⊢; linarith)

/-- C59, f32: a cloud with finite coordinates of size at most `L` is moved by a pose with finite angles
and a translation of size at most `S`: every coordinate of every point comes out finite and within
`(1000 L + S) / 2^24` of the exact rigid motion (6 mm for `L` = 100 m). -/
theorem C59_transform_f32 (hT : AccurateTrig T) (roll pitch yaw : F32) (r p y : ℚ) (hr : roll.Is r)
    (hp : pitch.Is p) (hy : yaw.Is y) (t : Point 3 F32) (ht : ∀ i, (t i).isFin = true) (L S : ℝ)
    (hS : ∀ i, |((t i).val : ℝ)| ≤ S) (hL1 : 1 ≤ L) (hL2 : L ≤ 2 ^ 100) (hS2 : S ≤ 2 ^ 100)
    (c : PointCloud 3 F32)
    (hc : ∀ x ∈ c.points, ∀ i, (x i).isFin = true ∧ |((x i).val : ℝ)| ≤ L) :
    List.Forall₂ (fun x x' : Point 3 F32 => ∀ i, NearReal (x' i)
        (rigid r p y (fun n => ((t n).val : ℝ)) (fun n => ((x n).val : ℝ)) i) ((1000 * L + S) / 2 ^ 24))
      c.points (c.transform (⟨t, Quat.fromEuler roll pitch yaw⟩ : Pose F32 (Quat F32)).toHomogeneous).points := by
  rw [PointCloud.transform, C13_points_fromPoints, List.forall₂_map_right_iff, List.forall₂_same]
  intro x hx i
  rw [rigid, rpy_rot]
  refine transformPoint_near (m := Pose.toHomogeneous ⟨t, Quat.fromEuler roll pitch yaw⟩)
    (R := rpy r p y) (q := fun n => (x n).val) (t := fun n => (t n).val) ?_
    (rpy_le_one _ _ _) ?_ (fun n => Fp.isFin_is (hc x hx n).1) (fun n => (hc x hx n).2) hS hL1 hL2 hS2 i
  · intro i j
    have := rotation_near hT hr hp hy i j
    fin_cases i <;> fin_cases j <;> exact this
  · intro i
    have := Fp.isFin_is (ht i)
    fin_cases i <;> exact this

/-- C59, f32: the origin of the sensor frame is moved to the translation of the pose, without any
rounding error. So the sensor position that the visualizer uses fits the moved cloud. -/
theorem C59_origin_f32 (hT : AccurateTrig T) (roll pitch yaw : F32) (hr : roll.isFin = true)
    (hp : pitch.isFin = true) (hy : yaw.isFin = true) (t : Point 3 F32) (ht : ∀ i, (t i).isFin = true) :
    ∃ x, ((PointCloud.fromPoints [fun _ => Fp.lit 0]).transform
        (⟨t, Quat.fromEuler roll pitch yaw⟩ : Pose F32 (Quat F32)).toHomogeneous).points = [x] ∧
      ∀ i, (x i).Is (t i).val := by
  set m := (⟨t, Quat.fromEuler roll pitch yaw⟩ : Pose F32 (Quat F32)).toHomogeneous with hm
  refine ⟨PointCloud.transformPoint m fun _ => Fp.lit 0, ?_, fun i => ?_⟩
  · simp [PointCloud.transform, C13_points_fromPoints]
  · have h : ∀ j : Fin 3, ∃ q, (m i.castSucc j.castSucc).Is q := by
      intro j
      obtain ⟨q, h, -⟩ := (C59_matrix_f32 hT roll pitch yaw _ _ _ (Fp.isFin_is hr) (Fp.isFin_is hp)
        (Fp.isFin_is hy) t i j).1
      exact ⟨q, h⟩
    have h3 : (m i.castSucc 3).Is (t i).val := by
      rw [hm, (C59_matrix_f32 hT roll pitch yaw _ _ _ (Fp.isFin_is hr) (Fp.isFin_is hp)
        (Fp.isFin_is hy) t i 0).2]
      exact Fp.isFin_is (ht i)
    have hz : ∀ j : Fin 3, ((m i.castSucc j.castSucc).mul (Fp.lit 0)).Is 0 := by
      intro j
      obtain ⟨q, hq⟩ := h j
      have := hq.mul F32.zero_is (by rw [mul_zero, Fmt.rnd_zero]; norm_num [b32])
      rwa [mul_zero, Fmt.rnd_zero] at this
    exact rnd_zero_add (mul_one_is h3 F32.one_is) (rnd_zero_add (hz 2) (rnd_zero_add (hz 1) (hz 0)))

/-- C59, limit: Rust parses `nan`; one NaN angle makes every coordinate of every point NaN. -/
theorem C59_nan_angle (hs : T.sin .nan = .nan) (hc : T.cos .nan = .nan) (roll pitch yaw : F32)
    (h : roll = .nan ∨ pitch = .nan ∨ yaw = .nan) (t : Point 3 F32) (c : PointCloud 3 F32) :
    ∀ x ∈ (c.transform (⟨t, Quat.fromEuler roll pitch yaw⟩ : Pose F32 (Quat F32)).toHomogeneous).points,
      ∀ i, x i = .nan := by
  have m1 : ∀ x : F32, Fp.mul .nan x = .nan := fun x => by cases x <;> rfl
  have m2 : ∀ x : F32, Fp.mul x .nan = .nan := fun x => by cases x <;> rfl
  have a1 : ∀ x : F32, Fp.add .nan x = .nan := fun x => by cases x <;> rfl
  have a2 : ∀ x : F32, Fp.add x .nan = .nan := fun x => by cases x <;> rfl
  have s1 : ∀ x : F32, Fp.sub .nan x = .nan := fun x => by cases x <;> rfl
  have s2 : ∀ x : F32, Fp.sub x .nan = .nan := fun x => by cases x <;> rfl
  have hq : Quat.fromEuler roll pitch yaw = ⟨.nan, .nan, .nan, .nan⟩ := by
    rcases h with rfl | rfl | rfl <;>
      simp [Quat.fromEuler, Scalar.mul, Scalar.add, Scalar.sub, hs, hc, m1, m2, a1, s1]
  intro x hx i
  rw [PointCloud.transform, C13_points_fromPoints, List.mem_map] at hx
  obtain ⟨y, -, rfl⟩ := hx
  rw [hq]
  fin_cases i <;>
    simp [PointCloud.transformPoint, Pose.toHomogeneous, Quat.toMatrix, Scalar.mul, Scalar.add,
      Scalar.sub, m1, a1, a2, s1]

end F32

section Witness

lemma exists_near (v : ℝ) (hv : |v| ≤ 1) : ∃ x : F32, NearReal x v (1 / 2 ^ 22) := by
  obtain ⟨q, h1, h2⟩ := exists_rat_btwn (show v - 1 / 2 ^ 30 < v by norm_num)
  have hq : |(q : ℝ) - v| ≤ 1 / 2 ^ 30 := abs_le.mpr ⟨by linarith, by linarith [show (0:ℝ) < 1 / 2 ^ 30 by positivity]⟩
  have hov := near_ovf hv hq (by norm_num)
  refine ⟨Fp.ofRat false q, _, Fp.ofRat_is hov, (rnd_near hv hq).trans (by norm_num)⟩

/-- A `sin` and a `cos` as accurate as asked. -/
@[instance_reducible] noncomputable def someTrig : Trig F32 where
  sin x := (exists_near (Real.sin x.val) (Real.abs_sin_le_one _)).choose
  cos x := (exists_near (Real.cos x.val) (Real.abs_cos_le_one _)).choose

lemma someTrig_accurate : AccurateTrig someTrig where
  sin x q h := by
    have := (exists_near (Real.sin x.val) (Real.abs_sin_le_one _)).choose_spec
    exact (congrArg (fun v : ℚ => NearReal _ (Real.sin v) _) h.val) ▸ this
  cos x q h := by
    have := (exists_near (Real.cos x.val) (Real.abs_cos_le_one _)).choose_spec
    exact (congrArg (fun v : ℚ => NearReal _ (Real.cos v) _) h.val) ▸ this

/-- The hypotheses of the f32 theorems are met by a pose at (100, 200, 5) m, angles (1/8, 0, -1) and a
cloud of two points up to 80 m away. -/
example : ∃ T : Trig F32, AccurateTrig T ∧
    (Fp.lit (1 / 8) : F32).Is (1 / 8) ∧ (Fp.lit (-1) : F32).Is (-1) ∧
    (∀ i, ((![Fp.lit 100, Fp.lit 200, Fp.lit 5] : Point 3 F32) i).isFin = true ∧
      |((![Fp.lit 100, Fp.lit 200, Fp.lit 5] : Point 3 F32) i).val| ≤ 200) ∧
    ∀ x ∈ (PointCloud.fromPoints [![Fp.lit 3, Fp.lit 4, Fp.lit (-1)], ![Fp.lit 80, Fp.lit (-7), Fp.lit 2]] :
      PointCloud 3 F32).points, ∀ i, (x i).isFin = true ∧ |(x i).val| ≤ 80 := by
  refine ⟨someTrig, someTrig_accurate, ?_, ?_, by decide +kernel, ?_⟩
  · apply Fp.ofRat_is_rep
    exact ⟨1, -3, by simp [b32], by simp [b32], by simp [b32], by norm_num⟩
  · simpa using F32.lit_int_is (n := -1) (by norm_num)
  · rw [C13_points_fromPoints]
    decide +kernel

end Witness

section Marker

/-- Rotating a vector by the quaternion is the product of the three rotations too. -/
lemma rotate_exact (roll pitch yaw : ℝ) (t v : Fin 3 → ℝ) :
    (exactPose roll pitch yaw t).rotation.rotate (fun i => XR.fin (v i))
      = fun i => XR.fin (rotZ yaw (rotY pitch (rotX roll v)) i) := by
  obtain ⟨e00, e01, e02, e10, e11, e12, e20, e21, e22⟩ := quatR_matrix roll pitch yaw
  have hQ := quatR_unit roll pitch yaw
  have hq : (exactPose roll pitch yaw t).rotation = ⟨.fin (quatR roll pitch yaw).w,
      .fin (quatR roll pitch yaw).i, .fin (quatR roll pitch yaw).j, .fin (quatR roll pitch yaw).k⟩ := by
    simp [exactPose, Quat.fromEuler, Trig.sin, Trig.cos, Scalar.mul, Scalar.add, Scalar.sub,
      Scalar.lit, XR.op1, XR.op2, quatR]
  rw [hq]
  generalize quatR roll pitch yaw = Q at *
  obtain ⟨w, x, y, z⟩ := Q
  simp only at *
  funext i
  rw [rpy_rot, Fin.sum_univ_three]
  fin_cases i
  · simp only [Fin.zero_eta, ← e00, ← e01, ← e02]
    simp [Quat.rotate, Quat.cross, Scalar.mul, Scalar.add, Scalar.sub, Scalar.lit, XR.op2]
    linear_combination -v 0 * hQ
  · simp only [Fin.mk_one, ← e10, ← e11, ← e12]
    simp [Quat.rotate, Quat.cross, Scalar.mul, Scalar.add, Scalar.sub, Scalar.lit, XR.op2]
    linear_combination -v 1 * hQ
  · simp only [Fin.reduceFinMk, ← e20, ← e21, ← e22]
    simp [Quat.rotate, Quat.cross, Scalar.mul, Scalar.add, Scalar.sub, Scalar.lit, XR.op2]
    linear_combination -v 2 * hQ

/-- C59, exact arithmetic: the marker drawn for a pose has its three lines from the translation of the
pose to the images of the points at distance `length` on the axes of the sensor frame, x first. -/
theorem C59_marker (roll pitch yaw length : ℝ) (t : Fin 3 → ℝ) :
    (exactPose roll pitch yaw t).frameMarker (.fin length) =
      List.ofFn fun a : Fin 3 => ((fun i => XR.fin (t i)),
        fun i => XR.fin (rigid roll pitch yaw t (Pi.single a length) i)) := by
  have z : (fun _ => Scalar.lit 0 : Point 3 XR) = fun i => XR.fin ((0 : Fin 3 → ℝ) i) := by
    funext i; simp [Scalar.lit]
  have v0 : (![.fin length, Scalar.lit 0, Scalar.lit 0] : Point 3 XR)
      = fun i => XR.fin ((Pi.single 0 length : Fin 3 → ℝ) i) := by
    funext i; fin_cases i <;> simp [Scalar.lit]
  have v1 : (![Scalar.lit 0, .fin length, Scalar.lit 0] : Point 3 XR)
      = fun i => XR.fin ((Pi.single 1 length : Fin 3 → ℝ) i) := by
    funext i; fin_cases i <;> simp [Scalar.lit]
  have v2 : (![Scalar.lit 0, Scalar.lit 0, .fin length] : Point 3 XR)
      = fun i => XR.fin ((Pi.single 2 length : Fin 3 → ℝ) i) := by
    funext i; fin_cases i <;> simp [Scalar.lit]
  have hz : rotZ yaw (rotY pitch (rotX roll 0)) = 0 := by
    funext i; fin_cases i <;> simp [rotX, rotY, rotZ]
  have hs : (exactPose roll pitch yaw t).transformPoint (fun _ => Scalar.lit 0)
      = fun i => XR.fin (t i) := by
    funext i
    rw [Pose.transformPoint, z, rotate_exact, hz]
    simp [exactPose, Scalar.add, XR.op2]
  simp only [Pose.frameMarker, hs, v0, v1, v2, rotate_exact]
  simp [List.ofFn_succ, Scalar.add, XR.op2, rigid, add_comm]

end Marker
end Verif.Props
