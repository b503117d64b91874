import Verif.Spec.Frame
import Verif.Props.Measured

/-!
# C95: what a frame draws
-/

namespace Verif.Props
open Spec Kitti Viz

section Marker

lemma t_near {u1 u2 v1 v2 : F32} {U1 U2 V1 V2 : ℝ} (h1 : NearReal u1 U1 ((145 / 4) / 2 ^ 24))
    (h2 : NearReal u2 U2 ((145 / 4) / 2 ^ 24)) (g1 : NearReal v1 V1 0) (g2 : NearReal v2 V2 0) (a1 : |U1| ≤ 1)
    (a2 : |U2| ≤ 1) (b1 : |V1| ≤ 1) (b2 : |V2| ≤ 1) (hc : |U1 * V2 - U2 * V1| ≤ 1) :
    NearReal (((u1.mul v2).sub (u2.mul v1)).mul (Fp.lit 2)) ((U1 * V2 - U2 * V1) * 2) (155 / 2 ^ 24) := by
  have e : (0 : ℝ) = 0 / 2 ^ 24 := by norm_num
  rw [e] at g1 g2
  have p1 := NearReal.mul1 h1 g2 a1 b2 (by norm_num) (by norm_num)
  have p2 := NearReal.mul1 h2 g1 a2 b1 (by norm_num) (by norm_num)
  exact (NearReal.dbl1 (NearReal.sub1 p1 p2 hc (by norm_num) (by norm_num)) hc (by norm_num)).mono (by norm_num)

lemma axis_near {tn t1 t2 u1 u2 w v : F32} {Tn T1 T2 U1 U2 W V : ℝ} (hn : NearReal tn Tn (155 / 2 ^ 24))
    (h1 : NearReal t1 T1 (155 / 2 ^ 24)) (h2 : NearReal t2 T2 (155 / 2 ^ 24)) (g1 : NearReal u1 U1 ((145 / 4) / 2 ^ 24))
    (g2 : NearReal u2 U2 ((145 / 4) / 2 ^ 24)) (gw : NearReal w W ((145 / 4) / 2 ^ 24)) (hv : NearReal v V 0)
    (an : |Tn| ≤ 2) (a1 : |T1| ≤ 2) (a2 : |T2| ≤ 2) (b1 : |U1| ≤ 1) (b2 : |U2| ≤ 1) (bw : |W| ≤ 1)
    (c1 : |U1 * T2 - U2 * T1| ≤ 2) (c2 : |Tn * W + (U1 * T2 - U2 * T1)| ≤ 2)
    (c3 : |Tn * W + (U1 * T2 - U2 * T1) + V| ≤ 1) :
    NearReal (((tn.mul w).add ((u1.mul t2).sub (u2.mul t1))).add v) (Tn * W + (U1 * T2 - U2 * T1) + V) (700 / 2 ^ 24) := by
  have p0 := (NearReal.mul hn gw an bw (by norm_num)).mono (f := 230 / 2 ^ 24) (by norm_num)
  have p1 := (NearReal.mul g1 h2 b1 a2 (by norm_num)).mono (f := 230 / 2 ^ 24) (by norm_num)
  have p2 := (NearReal.mul g2 h1 b2 a1 (by norm_num)).mono (f := 230 / 2 ^ 24) (by norm_num)
  have s1 := (NearReal.sub p1 p2 c1 (by norm_num)).mono (f := 463 / 2 ^ 24) (by norm_num)
  have s2 := (NearReal.add p0 s1 c2 (by norm_num)).mono (f := 696 / 2 ^ 24) (by norm_num)
  exact (NearReal.add s2 hv c3 (by norm_num)).mono (by norm_num)

/-- The unit vectors as the marker passes them. -/
def axisF (a : Fin 3) : Point 3 F32 :=
  ![![Fp.lit 1, Fp.lit 0, Fp.lit 0], ![Fp.lit 0, Fp.lit 1, Fp.lit 0], ![Fp.lit 0, Fp.lit 0, Fp.lit 1]] a

set_option maxHeartbeats 1600000 in
lemma rotate_near {q : Quat F32} {r p y : ℝ} (hw : NearReal q.w (quatR r p y).w ((145 / 4) / 2 ^ 24))
    (hi : NearReal q.i (quatR r p y).i ((145 / 4) / 2 ^ 24)) (hj : NearReal q.j (quatR r p y).j ((145 / 4) / 2 ^ 24))
    (hk : NearReal q.k (quatR r p y).k ((145 / 4) / 2 ^ 24)) (a i : Fin 3) :
    NearReal (q.rotate (axisF a) i) (rpy r p y i a) (700 / 2 ^ 24) := by
  obtain ⟨e00, e01, e02, e10, e11, e12, e20, e21, e22⟩ := quatR_matrix r p y
  have hR := rpy_le_one r p y
  have hQ := quatR_unit r p y
  generalize quatR r p y = Q at *
  generalize rpy r p y = R at *
  obtain ⟨qw, qi, qj, qk⟩ := q
  obtain ⟨w, x, y, z⟩ := Q
  simp only at *
  have w2 := sq_nonneg w
  have x2 := sq_nonneg x
  have y2 := sq_nonneg y
  have z2 := sq_nonneg z
  have aw : |w| ≤ 1 := by rw [← sq_le_one_iff_abs_le_one]; linarith
  have ax : |x| ≤ 1 := by rw [← sq_le_one_iff_abs_le_one]; linarith
  have ay : |y| ≤ 1 := by rw [← sq_le_one_iff_abs_le_one]; linarith
  have az : |z| ≤ 1 := by rw [← sq_le_one_iff_abs_le_one]; linarith
  have o0 : NearReal (Fp.lit 0 : F32) 0 0 := ⟨0, F32.zero_is, by simp⟩
  have o1 : NearReal (Fp.lit 1 : F32) 1 0 := ⟨1, F32.one_is, by simp⟩
  have n0 : |(0 : ℝ)| ≤ 1 := by norm_num
  have n1 : |(1 : ℝ)| ≤ 1 := by norm_num
  have two : ∀ a b : ℝ, -(a ^ 2 + b ^ 2) ≤ a * b * 2 ∧ a * b * 2 ≤ a ^ 2 + b ^ 2 := fun a b =>
    ⟨by linarith [sq_nonneg (a + b)], by linarith [sq_nonneg (a - b)]⟩
  obtain ⟨t1, t2⟩ := two x y
  obtain ⟨t3, t4⟩ := two w z
  obtain ⟨t5, t6⟩ := two w y
  obtain ⟨t7, t8⟩ := two x z
  obtain ⟨t9, t10⟩ := two y z
  obtain ⟨t11, t12⟩ := two w x
  have dbl : ∀ {s : ℝ}, |s| ≤ 1 → |s * 2| ≤ 2 := fun h => by rw [abs_mul, abs_of_pos (by norm_num : (0 : ℝ) < 2)]; linarith
  have key : ∀ (v : Point 3 F32) (V : Fin 3 → ℝ), (∀ n, NearReal (v n) (V n) 0) → (∀ n, |V n| ≤ 1) →
      |y * V 2 - z * V 1| ≤ 1 → |z * V 0 - x * V 2| ≤ 1 → |x * V 1 - y * V 0| ≤ 1 →
      (∀ E, (y * V 2 - z * V 1) * 2 * w + (y * ((x * V 1 - y * V 0) * 2) - z * ((z * V 0 - x * V 2) * 2)) + V 0 = E → |E| ≤ 1 → |y * ((x * V 1 - y * V 0) * 2) - z * ((z * V 0 - x * V 2) * 2)| ≤ 2 →
        NearReal (Quat.rotate ⟨qw, qi, qj, qk⟩ v 0) E (700 / 2 ^ 24)) ∧
      (∀ E, (z * V 0 - x * V 2) * 2 * w + (z * ((y * V 2 - z * V 1) * 2) - x * ((x * V 1 - y * V 0) * 2)) + V 1 = E → |E| ≤ 1 → |z * ((y * V 2 - z * V 1) * 2) - x * ((x * V 1 - y * V 0) * 2)| ≤ 2 →
        NearReal (Quat.rotate ⟨qw, qi, qj, qk⟩ v 1) E (700 / 2 ^ 24)) ∧
      (∀ E, (x * V 1 - y * V 0) * 2 * w + (x * ((z * V 0 - x * V 2) * 2) - y * ((y * V 2 - z * V 1) * 2)) + V 2 = E → |E| ≤ 1 → |x * ((z * V 0 - x * V 2) * 2) - y * ((y * V 2 - z * V 1) * 2)| ≤ 2 →
        NearReal (Quat.rotate ⟨qw, qi, qj, qk⟩ v 2) E (700 / 2 ^ 24)) := by
    intro v V hv hV c0 c1 c2
    have p0 := t_near hj hk (hv 1) (hv 2) ay az (hV 1) (hV 2) c0
    have p1 := t_near hk hi (hv 2) (hv 0) az ax (hV 2) (hV 0) c1
    have p2 := t_near hi hj (hv 0) (hv 1) ax ay (hV 0) (hV 1) c2
    have dif : ∀ {Z : ℝ} {n}, |Z + V n| ≤ 1 → |Z| ≤ 2 := fun {Z n} h => by
      have h1 := abs_sub (Z + V n) (V n)
      rw [add_sub_cancel_right] at h1
      linarith [hV n]
    refine ⟨?_, ?_, ?_⟩
    · rintro E rfl d1 d2
      exact axis_near p0 p1 p2 hj hk hw (hv 0) (dbl c0) (dbl c1) (dbl c2) ay az aw d2 (dif d1) d1
    · rintro E rfl d1 d2
      exact axis_near p1 p2 p0 hk hi hw (hv 1) (dbl c1) (dbl c2) (dbl c0) az ax aw d2 (dif d1) d1
    · rintro E rfl d1 d2
      exact axis_near p2 p0 p1 hi hj hw (hv 2) (dbl c2) (dbl c0) (dbl c1) ax ay aw d2 (dif d1) d1
  have hax : ∀ a n, NearReal (axisF a n) ((Pi.single a 1 : Fin 3 → ℝ) n) 0 := by
    intro a n
    fin_cases a <;> fin_cases n <;> first | exact o0 | exact o1
  have hab : ∀ a n, |(Pi.single a 1 : Fin 3 → ℝ) n| ≤ 1 := by
    intro a n
    fin_cases a <;> fin_cases n <;> first | exact n0 | exact n1
  have s0 : ∀ n : Fin 3, (Pi.single 0 1 : Fin 3 → ℝ) n = ![1, 0, 0] n := by intro n; fin_cases n <;> rfl
  have s1 : ∀ n : Fin 3, (Pi.single 1 1 : Fin 3 → ℝ) n = ![0, 1, 0] n := by intro n; fin_cases n <;> rfl
  have s2 : ∀ n : Fin 3, (Pi.single 2 1 : Fin 3 → ℝ) n = ![0, 0, 1] n := by intro n; fin_cases n <;> rfl
  have k0 := key _ _ (hax 0) (hab 0)
  have k1 := key _ _ (hax 1) (hab 1)
  have k2 := key _ _ (hax 2) (hab 2)
  simp only [s0, s1, s2, Matrix.cons_val, mul_zero, mul_one, zero_sub, sub_zero, abs_neg] at k0 k1 k2
  obtain ⟨k00, k10, k20⟩ := k0 n0 az ay
  obtain ⟨k01, k11, k21⟩ := k1 az n0 ax
  obtain ⟨k02, k12, k22⟩ := k2 ay ax n0
  fin_cases a <;> fin_cases i
  · refine k00 (R 0 0) (by rw [← e00]; linear_combination -hQ) (hR _ _) ?_
    rw [abs_le]; constructor <;> linarith
  · refine k10 (R 1 0) (by rw [← e10]; ring) (hR _ _) ?_
    rw [abs_le]; constructor <;> linarith
  · refine k20 (R 2 0) (by rw [← e20]; ring) (hR _ _) ?_
    rw [abs_le]; constructor <;> linarith
  · refine k01 (R 0 1) (by rw [← e01]; ring) (hR _ _) ?_
    rw [abs_le]; constructor <;> linarith
  · refine k11 (R 1 1) (by rw [← e11]; linear_combination -hQ) (hR _ _) ?_
    rw [abs_le]; constructor <;> linarith
  · refine k21 (R 2 1) (by rw [← e21]; ring) (hR _ _) ?_
    rw [abs_le]; constructor <;> linarith
  · refine k02 (R 0 2) (by rw [← e02]; ring) (hR _ _) ?_
    rw [abs_le]; constructor <;> linarith
  · refine k12 (R 1 2) (by rw [← e12]; ring) (hR _ _) ?_
    rw [abs_le]; constructor <;> linarith
  · refine k22 (R 2 2) (by rw [← e22]; linear_combination -hQ) (hR _ _) ?_
    rw [abs_le]; constructor <;> linarith

variable [T : Trig F32]

/-- C95: the marker of a pose with finite angles and position: three lines, red, green and blue, from the position to the
points at distance one on the axes of the sensor, the ends within `(702 + S) / 2^24`. -/
theorem C95_marker (hT : AccurateTrig T) {roll pitch yaw : F32} {r p y : ℚ} (hr : roll.Is r) (hp : pitch.Is p)
    (hy : yaw.Is y) {t : Point 3 F32} (ht : ∀ i, (t i).isFin = true) {S : ℝ} (hS : ∀ i, |((t i).val : ℝ)| ≤ S)
    (hS2 : S ≤ 2 ^ 100) :
    ∃ start stop, markerDraws ⟨t, Quat.fromEuler roll pitch yaw⟩ (Fp.lit 1) = threeLines start stop ∧
      AxesAt 0 ((702 + S) / 2 ^ 24) r p y (fun i => ((t i).val : ℝ)) start stop := by
  obtain ⟨h1, h2, h3, h4⟩ := quat_near hT hr hp hy
  set q := Quat.fromEuler roll pitch yaw with hq
  have hstart : ∀ i, ((⟨t, q⟩ : Pose F32 (Quat F32)).transformPoint (fun _ => Fp.lit 0) i).Is (t i).val := by
    intro i
    have hu : ∀ n : Fin 3, ∃ a, ((![q.i, q.j, q.k] : Point 3 F32) n).Is a := by
      intro n
      obtain ⟨_, a2, _⟩ := h2
      obtain ⟨_, a3, _⟩ := h3
      obtain ⟨_, a4, _⟩ := h4
      fin_cases n
      exacts [⟨_, a2⟩, ⟨_, a3⟩, ⟨_, a4⟩]
    obtain ⟨w, hw, -⟩ := h1
    have l2 : (Fp.lit 2 : F32).Is 2 := by simpa using F32.lit_int_is (n := 2) (by norm_num)
    have mz : ∀ {a b : F32} {x : ℚ}, a.Is x → b.Is 0 → (a.mul b).Is 0 := fun ha hb => by
      have h := ha.mul hb (by rw [mul_zero, Fmt.rnd_zero]; norm_num [b32])
      rwa [mul_zero, Fmt.rnd_zero] at h
    have sz : ∀ {a b : F32}, a.Is 0 → b.Is 0 → (a.sub b).Is 0 := fun ha hb => by
      have h := ha.sub hb (by rw [sub_zero, Fmt.rnd_zero]; norm_num [b32])
      rwa [sub_zero, Fmt.rnd_zero] at h
    have cz : ∀ {u v : Point 3 F32}, (∀ n, ∃ a, (u n).Is a) → (∀ n, (v n).Is 0) → ∀ n, (Quat.cross u v n).Is 0 := by
      intro u v hu hv n
      choose a ha using hu
      fin_cases n
      · exact sz (mz (ha 1) (hv 2)) (mz (ha 2) (hv 1))
      · exact sz (mz (ha 2) (hv 0)) (mz (ha 0) (hv 2))
      · exact sz (mz (ha 0) (hv 1)) (mz (ha 1) (hv 0))
    have tz : ∀ n, ((Quat.cross (![q.i, q.j, q.k] : Point 3 F32) (fun _ => Fp.lit 0) n).mul (Fp.lit 2)).Is 0 :=
      fun n => zero_mul_is (cz hu (fun _ => F32.zero_is) n) l2
    exact rnd_add_zero (rnd_zero_add (rnd_zero_add (zero_mul_is (tz i) hw) (cz hu tz i)) F32.zero_is)
      (Fp.isFin_is (ht i))
  refine ⟨(⟨t, q⟩ : Pose F32 (Quat F32)).transformPoint (fun _ => Fp.lit 0), fun a i =>
    ((⟨t, q⟩ : Pose F32 (Quat F32)).transformPoint (fun _ => Fp.lit 0) i).add (q.rotate (axisF a) i), rfl,
    fun i => ⟨_, hstart i, by simp⟩, fun a i => ?_⟩
  have h5 := rotate_near h1 h2 h3 h4 a i
  have h6 := rpy_le_one (r : ℝ) p y i a
  have e : rigid r p y (fun i => ((t i).val : ℝ)) (Pi.single a 1) i = (t i).val + rpy r p y i a := by
    rw [rigid, rpy_rot]
    simp [Pi.single_apply, add_comm]
  rw [e]
  have h7 := hS i
  have h8 : |((t i).val : ℝ) + rpy r p y i a| ≤ S + 1 := (abs_add_le _ _).trans (by linarith)
  refine (NearReal.add ⟨_, hstart i, by simp⟩ h5 (e := 0) h8 ?_).mono ?_
  · norm_num at hS2 ⊢; linarith
  · norm_num; linarith

omit T in
/-- A sensor at (1, -2, 3), rolled by a half and turned by one: the marker is where it should be, up to a twentieth of a
millimetre. -/
example : let _ := someTrig
    ∃ start stop, markerDraws ⟨![Fp.lit 1, Fp.lit (-2), Fp.lit 3], Quat.fromEuler (Fp.lit (1 / 2)) (Fp.lit 0) (Fp.lit 1)⟩
      (Fp.lit 1) = threeLines start stop ∧
    AxesAt 0 (1 / 20000) (1 / 2) 0 1 ![1, -2, 3] start stop := by
  intro _
  obtain ⟨start, stop, h1, h2, h3⟩ := C95_marker someTrig_accurate (roll := Fp.lit (1 / 2)) (pitch := Fp.lit 0)
    (yaw := Fp.lit 1) (r := 1 / 2) (p := 0) (y := 1) (by decide +kernel) F32.zero_is F32.one_is
    (t := ![Fp.lit 1, Fp.lit (-2), Fp.lit 3]) (by decide +kernel) (S := 3) (fun i => by
      have : |((![Fp.lit 1, Fp.lit (-2), Fp.lit 3] : Point 3 F32) i).val| ≤ 3 := by revert i; decide +kernel
      exact_mod_cast this) (by norm_num)
  have e : (fun i => (((![Fp.lit 1, Fp.lit (-2), Fp.lit 3] : Point 3 F32) i).val : ℝ)) = ![1, -2, 3] := by
    have : ∀ i, ((![Fp.lit 1, Fp.lit (-2), Fp.lit 3] : Point 3 F32) i).val = ![1, -2, 3] i := by decide +kernel
    funext i
    rw [this]
    fin_cases i <;> simp
  rw [e] at h3
  refine ⟨start, stop, h1, fun i => ?_, fun a i => ?_⟩
  · rw [← e]
    exact h2 i
  · obtain ⟨q, hq, hd⟩ := h3 a i
    push_cast at hd
    exact ⟨q, hq, hd.trans (by norm_num)⟩

end Marker

section Table
variable {D n : ℕ} {nm : LidarNoiseModel F32} {recs : ℕ → Point D F32 × PointCloud D F32} {m₀ : GridMap D F32 F32}
  {w w' : WState (GridMap D F32 F32) (Cell D) (Point D F32)}

lemma tracked_finite {Map Cell Pt : Type} [DecidableEq Cell] {ops : MapOps Map Cell Pt} {n : ℕ} {m₀ : Map}
    {s : State Map Cell Pt} (h : Reach ops n m₀ s) : {c | s.tracked c ≠ none}.Finite := by
  induction h with
  | init => simp [Viz.init]
  | step s s' hr hs ih =>
    cases hs
    case process t h1 h2 =>
      rcases processCells_by_set (ops := ops) (m := s.map) s.cells s.tracked with ⟨-, h3⟩ | ⟨-, h3⟩
      · rw [h3] at h2; cases h2
      · rw [h3] at h2
        cases h2
        refine (ih.union s.cells.finite_toSet).subset fun c hc => ?_
        by_cases h4 : c ∈ s.cells
        · exact .inr h4
        · exact .inl (by simpa [h4] using hc)
    all_goals exact ih

/-- C95: the table of drawn cells is finite, so that it can be run through. -/
theorem C95_table (h : AnyWReach nm recs n m₀ w) : ∃ order, Lists order w.prog.tracked := by
  have ho : ∀ r : ℕ, IsOrder ((fun _ l => l : ℕ → List (Cell D) → List (Cell D)) r) := fun _ l => .refl l
  obtain ⟨s, h1, h2⟩ := C90_reach ho h
  have e : w.prog.tracked = s.tracked := h2.tracked
  rw [e]
  exact ⟨(tracked_finite h1).toFinset.toList, Finset.nodup_toList _, fun c => by simp⟩

/-- C95: as long as no further scan is started, every frame finds the same table and the same index, and so draws the same,
whatever the worker does meanwhile. -/
theorem C95_still (h : Relation.ReflTransGen (AnyWStep nm recs n) w w')
    (h2 : w'.prog.main = .check) (h3 : w'.prog.workers.length = w.prog.workers.length) :
    w'.prog.tracked = w.prog.tracked ∧ w'.prog.index = w.prog.index := by
  have key : w.prog.workers.length ≤ w'.prog.workers.length ∧ (w'.prog.workers.length = w.prog.workers.length →
      w'.prog.main = .check → w'.prog.tracked = w.prog.tracked ∧ w'.prog.index = w.prog.index) := by
    clear h2 h3
    induction h with
    | refl => exact ⟨le_rfl, fun _ _ => ⟨rfl, rfl⟩⟩
    | tail _ hs ih =>
      obtain ⟨o, -, hs⟩ := hs
      obtain ⟨i1, i2⟩ := ih
      cases hs
      case spawn => exact ⟨i1.trans (by simp), fun h => by simp at h; omega⟩
      case check p b a1 a2 a3 => exact ⟨i1, fun h _ => i2 h a1⟩
      all_goals
        refine ⟨by simpa [setW, WState.store] using i1, fun h h' => ?_⟩
        first
        | cases h'
        | exact i2 (by simpa [setW, WState.store] using h) h'
  exact key.2 h3 h2

/-- While the only worker takes the lock and the render thread waits, the picture stays the same. -/
example : ∃ w w' : WState (GridMap 2 F32 F32) (Cell 2) (Point 2 F32), w ≠ w' ∧
    Relation.ReflTransGen (AnyWStep smallNM smallRecs 2) w w' ∧ w'.prog.main = .check ∧
    w'.prog.workers.length = w.prog.workers.length ∧ w.prog.tracked ![0, 0] = some (fun _ => Fp.lit 1) := by
  let s₀ : State (GridMap 2 F32 F32) (Cell 2) (Point 2 F32) := Viz.init smallMap
  let w : WState (GridMap 2 F32 F32) (Cell 2) (Point 2 F32) :=
    ⟨{ s₀ with workers := [(.lockMap, 0)], tracked := fun _ => some fun _ => Fp.lit 1 }, [true], 0, 0, 0, fun _ => 0⟩
  have h := WStep.wLockMap (ops := occOps smallNM smallRecs fun _ => id) (n := 2) w 0 0 rfl rfl rfl
  refine ⟨_, _, fun e => ?_, .single ⟨_, fun _ _ => .refl _, h⟩, rfl, rfl, rfl⟩
  have := congrArg (fun w => w.prog.workers) e
  simp [setW, w] at this

end Table

section Whole

/-- C95: a frame does not panic. It draws a point for each entry of the table, in the colour (0, 0.6, 0.8), in the order in
which the table is run through, and then the marker of the recording whose turn is next. -/
theorem C95_frame {n : ℕ} {nm : LidarNoiseModel F32} {recs : ℕ → Point 3 F32 × PointCloud 3 F32} {m₀ : GridMap 3 F32 F32}
    {w : WState (GridMap 3 F32 F32) (Cell 3) (Point 3 F32)} (h : AnyWReach nm recs n m₀ w) {rs : Recordings}
    (hn : 0 < n) (hl : rs.poses.length = n) {order : List (Cell 3)} (ho : Lists order w.prog.tracked) :
    ∃ pts pose, stepDraws rs order w.prog.tracked w.prog.index =
        .ok (pts.map (fun p => .point p (colour 0 (3 / 5) (4 / 5))) ++ markerDraws pose (Fp.lit 1)) ∧
      List.Forall₂ (fun c p => w.prog.tracked c = some p) order pts ∧
      rs.poses[w.prog.workers.length % n]? = some pose := by
  have hid : ∀ r : ℕ, IsOrder ((fun _ l => l : ℕ → List (Cell 3) → List (Cell 3)) r) := fun _ l => .refl l
  obtain ⟨s, h1, h2⟩ := C90_reach hid h
  obtain ⟨h4, h5, h6⟩ := C54_cyclic h1 hn
  have e1 : w.prog.index = s.index := h2.index
  have e2 : w.prog.workers = s.workers := h2.workers
  have hi : w.prog.index = w.prog.workers.length % n := by rw [e1, e2, h4]
  have hlt : w.prog.workers.length % n < rs.poses.length := by rw [hl]; exact Nat.mod_lt _ hn
  have hpts : ∀ l : List (Cell 3), (∀ c ∈ l, w.prog.tracked c ≠ none) → ∃ pts : List (Point 3 F32),
      List.Forall₂ (fun c p => w.prog.tracked c = some p) l pts ∧ ∀ color,
      (l.filterMap fun c => (w.prog.tracked c).map fun p => Draw.point p color) = pts.map (fun p => .point p color) := by
    intro l
    induction l with
    | nil => exact fun _ => ⟨[], .nil, fun _ => rfl⟩
    | cons c l ih =>
      intro hc
      obtain ⟨pts, a1, a2⟩ := ih fun c hc' => hc c (List.mem_cons_of_mem _ hc')
      obtain ⟨p, hp⟩ := Option.ne_none_iff_exists'.mp (hc c List.mem_cons_self)
      exact ⟨p :: pts, .cons hp a1, fun color => by simp [hp, a2]⟩
  obtain ⟨pts, a1, a2⟩ := hpts order fun c hc => (ho.2 c).mp hc
  refine ⟨pts, rs.poses[w.prog.workers.length % n], ?_, a1, List.getElem?_eq_getElem hlt⟩
  simp only [stepDraws, markerPose, hi, List.getElem?_eq_getElem hlt, a2, bind, Except.bind]
  rfl

section
variable [T : Trig F32]

/-- The poses read from a folder. -/
lemma folder_poses (hT : AccurateTrig T) {cos : F64 → F64} {radPerDeg : F64} {cast : F64 → F32}
    (he : AccurateEnv (parsingEnv cos radPerDeg cast (Quat.fromEuler (F := F32))))
    {w w' : ℕ} {ext ext' : List (Fin 256)} {idx : List ℕ} {po pv : List (List (Fin 256))}
    (ho : IndexFolder w ext idx po) (hv : IndexFolder w' ext' idx pv)
    {oxtBytes cloudBytes : List (Fin 256) → List (BitVec 8)} {place : ℕ → Place} {roll pitch yaw : ℕ → ℚ} {S : ℝ}
    (htext : ∀ i ∈ idx, ∃ text, oxtBytes (indexName w ext i) = utf8 text ∧ (place i).Ok ∧
      Says text (place i) (roll i) (pitch i) (yaw i))
    (hang : ∀ i ∈ idx, |roll i| ≤ 4 ∧ |pitch i| ≤ 4 ∧ |yaw i| ≤ 4)
    {i0 : ℕ} (hi0 : idx[0]? = some i0) (hS : ∀ i ∈ idx, ∀ n, |(place i).offset (place i0) n| ≤ S)
    {rs : Recordings} (hrs : main (parsingEnv cos radPerDeg cast Quat.fromEuler)
      (some (some (byteFolder po pv oxtBytes cloudBytes))) = .ok (.window rs)) :
    rs.poses.length = idx.length ∧ ∀ (k i : ℕ), idx[k]? = some i → ∃ pose start stop, rs.poses[k]? = some pose ∧
      markerDraws pose (Fp.lit 1) = threeLines start stop ∧
      AxesAt (S / 2 ^ 24 + 1 / 2 ^ 18) ((830 + 2 * S) / 2 ^ 24 + 1 / 2 ^ 18) (roll i) (pitch i) (yaw i)
        ((place i).offset (place i0)) start stop := by
  set d := byteFolder po pv oxtBytes cloudBytes with hd
  have hfile : ∀ i ∈ idx, ∃ text, d.oxtFile (indexName w ext i) = .ok text ∧ (place i).Ok ∧
      Says text (place i) (roll i) (pitch i) (yaw i) := by
    intro i hi
    obtain ⟨text, h1, h2, h3⟩ := htext i hi
    refine ⟨text, ?_, h2, h3⟩
    change readToString (.ok (oxtBytes (indexName w ext i))) = _
    unfold readToString
    simp only [h1, (C77_utf8 _ text).mpr rfl]
  obtain ⟨l1, l2, h3⟩ := C60_recordings (indexFolder_sorted ho) (indexFolder_sorted hv) rfl rfl hrs
  have hl : po.length = idx.length := by rw [ho.2.2.length_eq, List.length_map]
  refine ⟨l1.trans hl, fun k i hk => ?_⟩
  have hi : i ∈ idx := List.mem_of_getElem? hk
  have hi0' : i0 ∈ idx := List.mem_of_getElem? hi0
  obtain ⟨text, fix, rot, p0, text0, fix0, rot0, bytes, pose, e1, e2, e3, e4, e5, e6, e7, e8, e9, e10, e11, e12⟩ :=
    h3 k (indexName w ext i) (indexName w' ext' i) (by rw [List.getElem?_map, hk]; rfl)
      (by rw [List.getElem?_map, hk]; rfl)
  obtain rfl : indexName w ext i0 = p0 := by
    rw [List.getElem?_map, hi0] at e3
    simpa using e3
  obtain ⟨text', f1, f2, f3⟩ := hfile i hi
  obtain ⟨text0', g1, g2, g3⟩ := hfile i0 hi0'
  rw [f1] at e1
  rw [g1] at e4
  cases e1
  cases e4
  obtain ⟨fx, q1, z1, z2, z3, k1⟩ := fix_of he f2 f3
  obtain ⟨fo, q0, y1, y2, y3, k0⟩ := fix_of he g2 g3
  obtain ⟨rfl, rfl⟩ := record_unique e2 k1
  obtain ⟨rfl, rfl⟩ := record_unique e5 k0
  have near : ∀ n, NearReal (pose.translation n) ((place i).offset (place i0) n)
      (|(place i).offset (place i0) n| / 2 ^ 24 + 1 / 2 ^ 18) := by
    intro n
    rw [e10]
    split_ifs with hk0
    · subst hk0
      obtain rfl : i = i0 := by rw [hk] at hi0; simpa using hi0
      refine ⟨0, F32.zero_is, ?_⟩
      rw [offset_self]
      norm_num
    · exact gps_near he f2 g2 q1 q0 n
  obtain ⟨a1, a2, a3⟩ := hang i hi
  obtain ⟨r, b1, c1⟩ := angle_near z1 a1
  obtain ⟨p, b2, c2⟩ := angle_near z2 a2
  obtain ⟨y, b3, c3⟩ := angle_near z3 a3
  obtain ⟨t, rot⟩ := pose
  simp only at e9 near
  subst e9
  set S' := min S (2 ^ 26) with hS'
  have s0 : ∀ n, |(place i).offset (place i0) n| ≤ S' := fun n => le_min (hS i hi n) (offset_le f2 g2 n)
  have s1 : S' ≤ S := min_le_left _ _
  have s2 : S' ≤ 2 ^ 26 := min_le_right _ _
  have s3 : 0 ≤ S' := (abs_nonneg _).trans (s0 0)
  have tv : ∀ n, (t n).isFin = true ∧ |((t n).val : ℝ) - (place i).offset (place i0) n| ≤ S' / 2 ^ 24 + 1 / 2 ^ 18 := by
    intro n
    obtain ⟨q, hq, hd⟩ := near n
    obtain ⟨nz, hr, hz, e⟩ := hq
    rw [e]
    refine ⟨rfl, hd.trans ?_⟩
    have := s0 n
    gcongr
  obtain ⟨start, stop, m1, m2, m3⟩ := C95_marker hT b1 b2 b3 (fun n => (tv n).1) (S := S' + 5)
    (fun n => by
      have := abs_sub_abs_le_abs_sub ((t n).val : ℝ) ((place i).offset (place i0) n)
      have := (tv n).2
      have := s0 n
      norm_num at s2 ⊢ this
      linarith)
    (by norm_num at s2 ⊢; linarith)
  refine ⟨_, start, stop, e8, m1, fun n => ?_, fun a n => ?_⟩
  · obtain ⟨q, hq, hd⟩ := m2 n
    refine ⟨q, hq, ?_⟩
    have := abs_sub_le (q : ℝ) (t n).val ((place i).offset (place i0) n)
    have := (tv n).2
    have : S' / 2 ^ 24 ≤ S / 2 ^ 24 := by gcongr
    linarith
  · obtain ⟨q, hq, hd⟩ := m3 a n
    refine ⟨q, hq, ?_⟩
    have h5 := rigid_near (L := 1) (t := fun i => ((t i).val : ℝ)) (t' := (place i).offset (place i0)) (x := Pi.single a 1) c1 c2 c3 (fun m => by
      rw [Pi.single_apply]; split_ifs <;> norm_num) n (tv n).2
    have h6 := abs_sub_le (q : ℝ) (rigid r p y (fun i => ((t i).val : ℝ)) (Pi.single a 1) n)
      (rigid (roll i) (pitch i) (yaw i) ((place i).offset (place i0)) (Pi.single a 1) n)
    norm_num at h5 hd ⊢
    linarith

variable [Lb : Libm F32]

/-- C95, from the bytes of the files: in whatever way the threads run and the hash tables are ordered, each frame draws
points in the colour (0, 0.6, 0.8), each within little more than half a cell and `ε` of a point of a file already played,
moved by the pose that its text file says; then red, green and blue the three axes of the sensor at the pose that the text
file of the next recording says, the origin within `S / 2^24 + 2^-18` and the ends within `(830 + 2S) / 2^24 + 2^-18`
metres. -/
theorem C95_folder (hl : TestedLn) (hT : AccurateTrig T) {cos : F64 → F64} {radPerDeg : F64} {cast : F64 → F32}
    (he : AccurateEnv (parsingEnv cos radPerDeg cast (Quat.fromEuler (F := F32))))
    {w₁ w₂ : ℕ} {ext ext' : List (Fin 256)} {idx : List ℕ} {po pv : List (List (Fin 256))}
    (ho : IndexFolder w₁ ext idx po) (hv : IndexFolder w₂ ext' idx pv)
    {oxtBytes cloudBytes : List (Fin 256) → List (BitVec 8)} {place : ℕ → Place} {roll pitch yaw : ℕ → ℚ} {L S ε : ℝ}
    (htext : ∀ i ∈ idx, ∃ text, oxtBytes (indexName w₁ ext i) = utf8 text ∧ (place i).Ok ∧
      Says text (place i) (roll i) (pitch i) (yaw i))
    (hang : ∀ i ∈ idx, |roll i| ≤ 4 ∧ |pitch i| ≤ 4 ∧ |yaw i| ≤ 4)
    (hcloud : ∀ i ∈ idx, 16 ∣ (cloudBytes (indexName w₂ ext' i)).length ∧
      ∀ j < (cloudBytes (indexName w₂ ext' i)).length / 16, ∀ n : Fin 3,
        (f32OfBits (wordAt (cloudBytes (indexName w₂ ext' i)) (16 * j + 4 * n.val))).isFin = true ∧
        |((f32OfBits (wordAt (cloudBytes (indexName w₂ ext' i)) (16 * j + 4 * n.val))).val : ℝ)| ≤ L)
    {i0 : ℕ} (hi0 : idx[0]? = some i0) (hS : ∀ i ∈ idx, ∀ n, |(place i).offset (place i0) n| ≤ S)
    (hL1 : 1 ≤ L) (hL2 : L ≤ 2 ^ 100) (hε : ε = (1130 * L + 2 * S) / 2 ^ 24 + 1 / 2 ^ 18)
    {X : ℕ → Fin 3 → ℝ} (hX : ∀ i, X i = (place i).offset (place i0)) {pts : ℕ → List (Fin 3 → ℝ)}
    (hpts : ∀ i, pts i = movedPoints (roll i) (pitch i) (yaw i) (X i) (cloudBytes (indexName w₂ ext' i)))
    {M N : ℕ} (hM1 : 1 ≤ M) (hN : N = M + 101) (hN18 : N ≤ 2 ^ 18)
    {ρ : ℚ} (hρ : ρ = (Fp.lit 0.1 : F32).val) (hB : ∀ i ∈ idx, ∀ Y ∈ pts i, ∀ n, |Y n| + ε ≤ M * ρ)
    {o : OccupancyGridMap 3 F32} (hdef : OccupancyGridMap.default_ = .ok o) :
    ∃ rs, main (parsingEnv cos radPerDeg cast Quat.fromEuler) (some (some (byteFolder po pv oxtBytes cloudBytes))) =
        .ok (.window rs) ∧
      ∀ w, AnyWReach o.noiseModel rs.get rs.clouds.length o.gridMap w → ∀ order, Lists order w.prog.tracked →
        ∃ (ps : List (Point 3 F32)) (start : Point 3 F32) (stop : Fin 3 → Point 3 F32),
          stepDraws rs order w.prog.tracked w.prog.index =
            .ok (ps.map (fun p => .point p (colour 0 (3 / 5) (4 / 5))) ++ threeLines start stop) ∧
        ps.length = order.length ∧ ps.length ≤ (2 * N) ^ 3 ∧
        (∀ p ∈ ps, ∃ j < w.prog.workers.length, ∃ i, idx[j % idx.length]? = some i ∧
          ∃ Y ∈ pts i, ∀ n, NearReal (p n) (Y n) ((1 / 2 + (16 * N + 8) / 2 ^ 24) * ρ + ε)) ∧
        ∃ i, idx[w.prog.workers.length % idx.length]? = some i ∧
          AxesAt (S / 2 ^ 24 + 1 / 2 ^ 18) ((830 + 2 * S) / 2 ^ 24 + 1 / 2 ^ 18) (roll i) (pitch i) (yaw i) (X i)
            start stop := by
  obtain ⟨rs, h1, hlen, h2⟩ := C92_folder hl hT he ho hv htext hang hcloud hi0 hS hL1 hL2 hε hX hpts hM1 hN hN18 hρ hB hdef
  obtain ⟨l1, h3⟩ := folder_poses hT he ho hv htext hang hi0 hS h1
  refine ⟨rs, h1, fun w hw order hord => ?_⟩
  have hidx : 0 < idx.length := (List.getElem?_eq_some_iff.mp hi0).1
  obtain ⟨h4, h5⟩ := h2 w hw
  rw [hlen] at hw
  obtain ⟨ps, pose, d1, d2, d3⟩ := C95_frame hw hidx l1 hord
  have hk : idx[w.prog.workers.length % idx.length]? = some (idx[w.prog.workers.length % idx.length]'(Nat.mod_lt _ hidx)) :=
    List.getElem?_eq_getElem (Nat.mod_lt _ hidx)
  obtain ⟨pose', start, stop, p1, p2, p3⟩ := h3 _ _ hk
  obtain rfl : pose = pose' := Option.some.inj (d3.symm.trans p1)
  refine ⟨ps, start, stop, by rw [d1, p2], d2.length_eq.symm, ?_, fun p hp => ?_, _, hk, by rw [hX]; exact p3⟩
  · obtain ⟨fin, card⟩ := h4.tracked
    rw [← d2.length_eq, ← List.toFinset_card_of_nodup hord.1]
    refine le_trans (le_of_eq ?_) card
    rw [← Set.ncard_coe_finset]
    congr 1
    ext c
    simpa using hord.2 c
  · obtain ⟨c, hc, hcp⟩ := forall₂_left (List.Forall₂.flip (R := fun p c => w.prog.tracked c = some p) d2) hp
    obtain ⟨j, hj, i, hi, Y, hY, hn⟩ := h5 c p hcp
    exact ⟨j, hj, i, hi, Y, hY, fun n => by obtain ⟨a, ha, hd⟩ := hn n; exact ⟨a, ha, hd⟩⟩

end
section
open Kitti

/-- A folder with one recording, at rest: in a fair run with a relaxed flag, at a moment when nine scans have been played,
the frame draws at least one point, less than 6 cm from one of the two points of the file, and then the three lines of the
marker, the red one from the origin to `(1, 0, 0)`, up to a tenth of a millimetre. -/
example : ∃ (rs : _) (τ : _) (o : OccupancyGridMap 3 F32),
    main (parsingEnv someEnv.cos someEnv.radPerDeg someEnv.cast (@Quat.fromEuler F32 _ someTrig))
      (some (some (byteFolder [indexName 10 (ascii ".txt") 0] [indexName 10 (ascii ".bin") 0]
        (fun _ => utf8 "49 8.4 116.4 0 0 0".toList) fun _ => nearPoints))) = .ok (.window rs) ∧
    @OccupancyGridMap.default_ F32 _ 3 testedLibm = .ok o ∧
    AnyWExecution o.noiseModel rs.get rs.clouds.length o.gridMap τ ∧ AnyWFair o.noiseModel rs.get rs.clouds.length τ ∧
    ∃ (i : ℕ) (order : List (Cell 3)) (ps : List (Point 3 F32)) (start : Point 3 F32) (stop : Fin 3 → Point 3 F32),
      (τ i).prog.workers.length = 9 ∧ Lists order (τ i).prog.tracked ∧ ps ≠ [] ∧
      stepDraws rs order (τ i).prog.tracked (τ i).prog.index =
        .ok (ps.map (fun p => .point p (colour 0 (3 / 5) (4 / 5))) ++ threeLines start stop) ∧
      (∀ p ∈ ps, ∃ Y ∈ nearRealPts, ∀ n, ∃ a, (p n).Is a ∧ |(a : ℝ) - Y n| ≤ 6 / 100) ∧
      (∀ n, NearReal (start n) 0 (1 / 10000)) ∧ ∀ n, NearReal (stop 0 n) (![1, 0, 0] n) (1 / 10000) := by
  let _ := someTrig
  let _ := testedLibm
  have hl : TestedLn := by constructor <;> decide +kernel
  have hok : (⟨49, 42 / 5, 582 / 5⟩ : Place).Ok := ⟨by norm_num, by norm_num [abs_le], by norm_num [abs_le]⟩
  have hoff : (⟨49, 42 / 5, 582 / 5⟩ : Place).offset ⟨49, 42 / 5, 582 / 5⟩ = ![0, 0, 0] := by
    funext n; fin_cases n <;> simp [Place.offset]
  have hdef : ∃ o : OccupancyGridMap 3 F32, OccupancyGridMap.default_ = .ok o := by
    obtain ⟨m0, e1, -⟩ := new_empty_placed (D := 3) (ρ := 13421773 / 2 ^ 27) (r := (Fp.lit 0.1 : F32)) (by norm_num)
      (by refine ⟨by decide +kernel, ?_, ?_⟩ <;> norm_num) (t := 100) (by norm_num) (by norm_num) (Fp.lit 0 : F32)
    refine ⟨⟨m0, defaultNM⟩, ((C42_default_model hl).2.1 _).mpr ?_⟩
    unfold OccupancyGridMap.new
    rw [Verif.M.bind_eq_ok]
    exact ⟨m0, e1, rfl⟩
  obtain ⟨o, ho⟩ := hdef
  have htext : ∀ i ∈ [0], ∃ text, utf8 "49 8.4 116.4 0 0 0".toList = utf8 text ∧ (⟨49, 42 / 5, 582 / 5⟩ : Place).Ok ∧
      Says text ⟨49, 42 / 5, 582 / 5⟩ 0 0 0 := fun i _ =>
    ⟨_, rfl, hok, "49".toList, "8.4".toList, "116.4".toList, "0".toList, "0".toList, "0".toList, [],
      fields_iff.mpr (by decide +kernel), by decide +kernel, by decide +kernel, by decide +kernel, by decide +kernel,
      by decide +kernel, by decide +kernel⟩
  have hcloud : ∀ i ∈ [0], 16 ∣ nearPoints.length ∧ ∀ j < nearPoints.length / 16, ∀ n : Fin 3,
      (f32OfBits (wordAt nearPoints (16 * j + 4 * n.val))).isFin = true ∧
      |((f32OfBits (wordAt nearPoints (16 * j + 4 * n.val))).val : ℝ)| ≤ 1 := by
    have key : ∀ j < nearPoints.length / 16, ∀ n : Fin 3, (f32OfBits (wordAt nearPoints (16 * j + 4 * n.val))).isFin =
        true ∧ |(f32OfBits (wordAt nearPoints (16 * j + 4 * n.val))).val| ≤ 1 := by decide +kernel
    exact fun i _ => ⟨by decide, fun j hj n => ⟨(key j hj n).1, by exact_mod_cast (key j hj n).2⟩⟩
  have hε : (1130 / 2 ^ 24 + 1 / 2 ^ 18 : ℝ) = (1130 * 1 + 2 * 0) / 2 ^ 24 + 1 / 2 ^ 18 := by norm_num
  have hT := someTrig_accurate
  have he := C76_accurate (euler := Quat.fromEuler (F := F32)) someEnv_accurate.cos someEnv_accurate.radPerDeg
    someEnv_accurate.cast
  obtain ⟨rs, h1, hlen, h2, h3⟩ := C90_folder (w₁ := 10) (w₂ := 10) (ext := ascii ".txt") (ext' := ascii ".bin") hl hT he
    (idx := [0]) (po := [indexName 10 (ascii ".txt") 0]) (pv := [indexName 10 (ascii ".bin") 0])
    (oxtBytes := fun _ => utf8 "49 8.4 116.4 0 0 0".toList) (cloudBytes := fun _ => nearPoints)
    (place := fun _ => ⟨49, 42 / 5, 582 / 5⟩) (roll := fun _ => 0) (pitch := fun _ => 0) (yaw := fun _ => 0)
    (X := fun _ => ![0, 0, 0]) (pts := fun _ => nearRealPts)
    ⟨by simp, by decide, by simp⟩ ⟨by simp, by decide, by simp⟩ htext (by simp) hcloud (i0 := 0) rfl
    (fun i _ n => by simp only [hoff]; fin_cases n <;> simp) (by norm_num) (by norm_num) hε (fun _ => hoff.symm)
    (fun _ => nearPoints_moved.symm) (M := 30) (by norm_num) rfl (by norm_num) (K := 30)
    side_val.symm (fun _ _ => by push_cast; exact nearReal_alive)
    (fun _ _ => by push_cast; exact nearReal_rays) ho (fun _ => rfl)
  obtain ⟨τ, h4, h5⟩ := anyWFair_exists fun w hw => (h2 w hw).2.1
  obtain ⟨-, h6⟩ := h3 (fun _ => -1) (by push_cast; exact nearReal_lowest)
  obtain ⟨i, h7, h8⟩ := h6 τ h4 h5 9
  obtain ⟨rs', h1', h9⟩ := C95_folder (w₁ := 10) (w₂ := 10) (ext := ascii ".txt") (ext' := ascii ".bin") hl hT he
    (idx := [0]) (po := [indexName 10 (ascii ".txt") 0]) (pv := [indexName 10 (ascii ".bin") 0])
    (oxtBytes := fun _ => utf8 "49 8.4 116.4 0 0 0".toList) (cloudBytes := fun _ => nearPoints)
    (place := fun _ => ⟨49, 42 / 5, 582 / 5⟩) (roll := fun _ => 0) (pitch := fun _ => 0) (yaw := fun _ => 0)
    (X := fun _ => ![0, 0, 0]) (pts := fun _ => nearRealPts)
    ⟨by simp, by decide, by simp⟩ ⟨by simp, by decide, by simp⟩ htext (by simp) hcloud (i0 := 0) rfl
    (fun i _ n => by simp only [hoff]; fin_cases n <;> simp) (by norm_num) (by norm_num) hε (fun _ => hoff.symm)
    (fun _ => nearPoints_moved.symm) (M := 30) (by norm_num) rfl (by norm_num)
    side_val.symm (fun _ _ Y hY n => by
      have := (nearReal_alive.points Y hY n).1
      push_cast
      exact this) ho
  obtain rfl : rs = rs' := by simpa using h1.symm.trans h1'
  have e := ho
  obtain ⟨m0, rfl, -⟩ := default_start hl side_val.symm e
  obtain ⟨p, hp, -⟩ := (h8 ![4, 2, 1] (by decide)).2 (by
      simp only [geoFoldReal, List.foldl_map, near_hit]
      decide +kernel)
  obtain ⟨order, hord⟩ := C95_table (anyW_reach h4 i)
  obtain ⟨ps, start, stop, d1, d2, -, d3, k, d4, d5, d6⟩ := h9 _ (anyW_reach h4 i) order hord
  have hc := (hord.2 _).mpr (by rw [hp]; simp)
  refine ⟨rs, τ, _, h1, ho, h4, h5, i, order, ps, start, stop, h7, hord, ?_, d1, fun p hp => ?_, fun n => ?_, fun n => ?_⟩
  · rintro rfl
    rw [List.length_nil] at d2
    rw [List.eq_nil_of_length_eq_zero d2.symm] at hc
    cases hc
  · obtain ⟨j, -, k, -, Y, hY, hd⟩ := d3 p hp
    refine ⟨Y, hY, fun n => ?_⟩
    obtain ⟨a, ha, hd⟩ := hd n
    exact ⟨a, ha, hd.trans (by push_cast; norm_num)⟩
  · obtain ⟨a, ha, hd⟩ := d5 n
    refine ⟨a, ha, ?_⟩
    have e : (![0, 0, 0] : Fin 3 → ℝ) n = 0 := by fin_cases n <;> rfl
    rw [e] at hd
    exact hd.trans (by norm_num)
  · obtain ⟨a, ha, hd⟩ := d6 0 n
    refine ⟨a, ha, ?_⟩
    have e : rigid ((0 : ℚ) : ℝ) ((0 : ℚ) : ℝ) ((0 : ℚ) : ℝ) ![0, 0, 0] (Pi.single 0 1) n = ![1, 0, 0] n := by
      fin_cases n <;> simp [rigid, rotX, rotY, rotZ]
    rw [e] at hd
    exact hd.trans (by norm_num)

end

end Whole
end Verif.Props
