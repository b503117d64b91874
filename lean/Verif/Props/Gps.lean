import Verif.Props.Kitti
import Verif.Props.Pose
import Verif.Spec.Gps
import Mathlib.Analysis.Real.Pi.Bounds

/-!
# C73: from the text of a recording to its place in metres
-/

namespace Verif.Props
open Spec Kitti

/-! ## f64 arithmetic -/

lemma F64.err (q : ℚ) : |b64.rnd q - q| ≤ |q| * (1 / 2 ^ 53) + 1 / 2 ^ 200 := by
  have := Fmt.rnd_err_add (f := b64) q
  simp only [b64] at this ⊢
  refine this.trans ?_
  have h : (2 : ℚ) ^ (-1074 - 1 : ℤ) ≤ 1 / 2 ^ 200 := by
    rw [one_div, ← zpow_natCast, ← zpow_neg]
    exact zpow_le_zpow_right₀ (by norm_num) (by norm_num)
  have h2 : (2 : ℚ) ^ (-((53 : ℕ) : ℤ)) = 1 / 2 ^ 53 := by norm_num
  rw [h2]
  linarith

lemma F64.noOvf {q : ℚ} (h : |q| ≤ 2 ^ 100) : |b64.rnd q| < 2 ^ b64.emax := by
  apply Fmt.rnd_lt_of_le_pow
  refine h.trans ?_
  simp only [b64]
  rw [← zpow_natCast]
  exact zpow_le_zpow_right₀ (by norm_num) (by norm_num)

/-- An f64 value within `e` of the real number `v`. -/
def Near64 (x : F64) (v e : ℝ) : Prop := ∃ q : ℚ, x.Is q ∧ |(q : ℝ) - v| ≤ e

lemma rnd64_near {q : ℚ} {v e B : ℝ} (h : |(q : ℝ) - v| ≤ e) (hB : |v| + e ≤ B) :
    |((b64.rnd q : ℚ) : ℝ) - v| ≤ e + B / 2 ^ 53 + 1 / 2 ^ 200 := by
  have h1 := (Rat.cast_le (K := ℝ)).mpr (F64.err q)
  push_cast at h1
  have h2 := abs_sub_le ((b64.rnd q : ℚ) : ℝ) q v
  have h3 : |(q : ℝ)| ≤ B := by
    have := abs_sub_abs_le_abs_sub (q : ℝ) v
    linarith
  norm_num at h1 ⊢
  linarith

lemma ovf64 {q : ℚ} {v e B : ℝ} (h : |(q : ℝ) - v| ≤ e) (hB : |v| + e ≤ B) (hB2 : B ≤ 2 ^ 100) :
    |b64.rnd q| < 2 ^ b64.emax := by
  apply F64.noOvf
  have h3 : |(q : ℝ)| ≤ 2 ^ 100 := by
    have := abs_sub_abs_le_abs_sub (q : ℝ) v
    linarith
  exact_mod_cast h3

lemma Near64.add {x y : F64} {v w e d B : ℝ} (hx : Near64 x v e) (hy : Near64 y w d) (hB : |v + w| + (e + d) ≤ B)
    (hB2 : B ≤ 2 ^ 100) : Near64 (x.add y) (v + w) (e + d + B / 2 ^ 53 + 1 / 2 ^ 200) := by
  obtain ⟨q, hq, h1⟩ := hx
  obtain ⟨r, hr, h2⟩ := hy
  have h : |((q + r : ℚ) : ℝ) - (v + w)| ≤ e + d := by
    push_cast
    have := abs_add_le ((q : ℝ) - v) (r - w)
    rw [show (q : ℝ) + r - (v + w) = q - v + (r - w) by ring]
    linarith
  exact ⟨_, hq.add hr (ovf64 h hB hB2), rnd64_near h hB⟩

lemma Near64.sub {x y : F64} {v w e d B : ℝ} (hx : Near64 x v e) (hy : Near64 y w d) (hB : |v - w| + (e + d) ≤ B)
    (hB2 : B ≤ 2 ^ 100) : Near64 (x.sub y) (v - w) (e + d + B / 2 ^ 53 + 1 / 2 ^ 200) := by
  obtain ⟨q, hq, h1⟩ := hx
  obtain ⟨r, hr, h2⟩ := hy
  have h : |((q - r : ℚ) : ℝ) - (v - w)| ≤ e + d := by
    push_cast
    have := abs_sub ((q : ℝ) - v) (r - w)
    rw [show (q : ℝ) - r - (v - w) = q - v - (r - w) by ring]
    linarith
  exact ⟨_, hq.sub hr (ovf64 h hB hB2), rnd64_near h hB⟩

lemma Near64.mul {x y : F64} {v w e d V W B : ℝ} (hx : Near64 x v e) (hy : Near64 y w d) (hV : |v| ≤ V)
    (hW : |w| ≤ W) (hB : V * W + (e * (W + d) + V * d) ≤ B) (hB2 : B ≤ 2 ^ 100) :
    Near64 (x.mul y) (v * w) (e * (W + d) + V * d + B / 2 ^ 53 + 1 / 2 ^ 200) := by
  obtain ⟨q, hq, h1⟩ := hx
  obtain ⟨r, hr, h2⟩ := hy
  have hr2 : |(r : ℝ)| ≤ W + d := by
    have := abs_sub_abs_le_abs_sub (r : ℝ) w
    linarith
  have h : |((q * r : ℚ) : ℝ) - v * w| ≤ e * (W + d) + V * d := by
    push_cast
    rw [show (q : ℝ) * r - v * w = (q - v) * r + v * (r - w) by ring]
    refine (abs_add_le _ _).trans ?_
    rw [abs_mul, abs_mul]
    have he : 0 ≤ e := (abs_nonneg _).trans h1
    have hV0 : 0 ≤ V := (abs_nonneg _).trans hV
    gcongr
  have hb : |v * w| + (e * (W + d) + V * d) ≤ B := by
    refine le_trans ?_ hB
    rw [abs_mul]
    have hV0 : 0 ≤ V := (abs_nonneg _).trans hV
    gcongr
  exact ⟨_, hq.mul hr (ovf64 h hb hB2), rnd64_near h hb⟩

lemma near64_lit {n : ℤ} (h : |n| ≤ 2 ^ 53) : Near64 (Fp.lit n) n 0 := by
  refine ⟨n, Fp.ofRat_is_rep (Fmt.rep_int (f := b64) (by simpa [b64] using h)), by simp⟩

lemma Near64.div {x : F64} {v e B : ℝ} (n : ℕ) (hn : 0 < n) (hn2 : n ≤ 2 ^ 53) (hx : Near64 x v e)
    (hB : |v / n| + e / n ≤ B) (hB2 : B ≤ 2 ^ 100) :
    Near64 (x.div (Fp.lit n)) (v / n) (e / n + B / 2 ^ 53 + 1 / 2 ^ 200) := by
  obtain ⟨q, hq, h1⟩ := hx
  have hl : (Fp.lit (n : ℚ) : F64).Is (n : ℚ) := by
    have := Fp.ofRat_is_rep (zs := false) (Fmt.rep_int (f := b64) (n := (n : ℤ)) (by
      simp only [b64]
      rw [abs_of_nonneg (by positivity)]
      exact_mod_cast hn2))
    rw [Int.cast_natCast] at this
    exact this
  have hnr : (0 : ℝ) < n := by exact_mod_cast hn
  have h : |((q / n : ℚ) : ℝ) - v / n| ≤ e / n := by
    push_cast
    rw [← sub_div, abs_div, abs_of_pos hnr]
    gcongr
  exact ⟨_, hq.div hl (by positivity) (ovf64 h hB hB2), rnd64_near h hB⟩

lemma Near64.mono {x : F64} {v e d : ℝ} (h : Near64 x v e) (hd : e ≤ d) : Near64 x v d := by
  obtain ⟨q, h1, h2⟩ := h
  exact ⟨q, h1, h2.trans hd⟩

lemma near64_ofRat (zs : Bool) {q : ℚ} {B : ℝ} (h : |(q : ℝ)| ≤ B) (hB2 : B ≤ 2 ^ 100) :
    Near64 (Fp.ofRat zs q) q (B / 2 ^ 53 + 1 / 2 ^ 200) := by
  have h0 : |(q : ℝ) - q| ≤ 0 := by simp
  refine ⟨_, Fp.ofRat_is (ovf64 h0 (by simpa using h) hB2), ?_⟩
  have := rnd64_near h0 (B := B) (by simpa using h)
  simpa using this

/-! ## The offset -/

variable {R : Type} {env : OxtEnv F64 F32 R}

/-- The conversion to f32. -/
lemma cast_near32 (he : AccurateEnv env) {x : F64} {v e : ℝ} (hx : Near64 x v e) (h1 : |v| + e ≤ 2 ^ 30)
    (hs : e ≤ 1) : NearReal (env.cast x) v (|v| / 2 ^ 24 + 2 * e + 1 / 2 ^ 100) := by
  obtain ⟨q, hq, h2⟩ := hx
  obtain ⟨zs, hc⟩ := he.cast x q hq
  have h3 : |(q : ℝ)| ≤ |v| + e := by
    have := abs_sub_abs_le_abs_sub (q : ℝ) v
    linarith
  have h4 : |q| ≤ 2 ^ 127 := by
    have : |(q : ℝ)| ≤ 2 ^ 127 := h3.trans (h1.trans (by norm_num))
    exact_mod_cast this
  rw [hc]
  refine ⟨_, Fp.ofRat_is (F32.noOvf h4), ?_⟩
  have h5 := (Rat.cast_le (K := ℝ)).mpr (F32.err q)
  push_cast at h5
  have h6 := abs_sub_le ((b32.rnd q : ℚ) : ℝ) q v
  have h7 : 0 ≤ e := (abs_nonneg _).trans h2
  norm_num at h5 ⊢
  linarith

/-- A fix read from decimal texts. -/
structure FixOf (fix : Gps F64) (p : Place) : Prop where
  lat : Near64 fix.lat p.lat (1 / 2 ^ 46)
  lon : Near64 fix.lon p.lon (1 / 2 ^ 45)
  alt : Near64 fix.alt p.alt (1 / 2 ^ 33)

lemma gps_near (he : AccurateEnv env) {fix org : Gps F64} {p o : Place} (hp : p.Ok) (ho : o.Ok) (h : FixOf fix p)
    (h' : FixOf org o) (i : Fin 3) :
    NearReal (gpsToMeters env fix org i) (p.offset o i) (|p.offset o i| / 2 ^ 24 + 1 / 2 ^ 18) := by
  have c1 : ∀ {a b : ℚ}, |a| ≤ b → |(a : ℝ)| ≤ (b : ℝ) := fun h => by exact_mod_cast h
  have lat1 := c1 hp.lat
  have lat2 := c1 ho.lat
  have lon1 := c1 hp.lon
  have lon2 := c1 ho.lon
  have alt1 := c1 hp.alt
  have alt2 := c1 ho.alt
  push_cast at lat1 lat2 lon1 lon2 alt1 alt2
  have vlat : |(p.lat : ℝ) - o.lat| ≤ 180 := (abs_sub _ _).trans (by linarith)
  have vlon : |(p.lon : ℝ) - o.lon| ≤ 360 := (abs_sub _ _).trans (by linarith)
  have valt : |(p.alt : ℝ) - o.alt| ≤ 2 * 10 ^ 6 := (abs_sub _ _).trans (by linarith)
  have dlat : Near64 (fix.lat.sub org.lat) (p.lat - o.lat) (1 / 2 ^ 44) :=
    (h.lat.sub h'.lat (B := 181) (by norm_num; linarith) (by norm_num)).mono (by norm_num)
  have dlon : Near64 (fix.lon.sub org.lon) (p.lon - o.lon) (1 / 2 ^ 43) :=
    (h.lon.sub h'.lon (B := 361) (by norm_num; linarith) (by norm_num)).mono (by norm_num)
  have dalt : Near64 (fix.alt.sub org.alt) (p.alt - o.alt) (1 / 2 ^ 30) :=
    (h.alt.sub h'.alt (B := 2 ^ 21) (by norm_num at valt ⊢; linarith) (by norm_num)).mono (by norm_num)
  have lit1 : Near64 (Fp.lit 40075160) 40075160 0 := by
    have := near64_lit (n := 40075160) (by norm_num)
    norm_num at this
    exact this
  have lit2 : Near64 (Fp.lit 40008000) 40008000 0 := by
    have := near64_lit (n := 40008000) (by norm_num)
    norm_num at this
    exact this
  have hpi := Real.pi_lt_d2
  have hpi0 := Real.pi_gt_three
  have rpd : |Real.pi / 180| ≤ 1 / 57 := by
    rw [abs_of_pos (by positivity)]
    norm_num at hpi ⊢
    linarith
  obtain ⟨k, hk, hk2⟩ := he.radPerDeg
  have rad : Near64 ((fix.lat.sub org.lat).mul env.radPerDeg) ((p.lat - o.lat) * (Real.pi / 180)) (1 / 2 ^ 48) :=
    (dlat.mul ⟨k, hk, hk2⟩ vlat rpd (B := 4) (by norm_num) (by norm_num)).mono (by norm_num)
  have hcos : Near64 (env.cos ((fix.lat.sub org.lat).mul env.radPerDeg))
      (Real.cos ((p.lat - o.lat) * (Real.pi / 180))) (1 / 2 ^ 47) := by
    obtain ⟨q, hq, hq2⟩ := rad
    have hq4 : |q| ≤ 4 := by
      have h1 : |(p.lat - o.lat : ℝ) * (Real.pi / 180)| ≤ 180 * (1 / 57) := by
        rw [abs_mul]
        gcongr
      have h2 := abs_sub_abs_le_abs_sub (q : ℝ) ((p.lat - o.lat) * (Real.pi / 180))
      have h3 : (180 : ℝ) * (1 / 57) + 1 / 2 ^ 48 ≤ 4 := by norm_num
      have : |(q : ℝ)| ≤ 4 := by linarith
      exact_mod_cast this
    obtain ⟨c, hc, hc2⟩ := he.cos _ q hq hq4
    refine ⟨c, hc, ?_⟩
    have h1 := Real.abs_cos_sub_cos_le (q : ℝ) ((p.lat - o.lat) * (Real.pi / 180))
    have h2 := abs_sub_le (c : ℝ) (Real.cos q) (Real.cos ((p.lat - o.lat) * (Real.pi / 180)))
    norm_num at hc2 hq2 ⊢
    linarith
  have circ := (lit1.mul hcos (V := 40075160) (W := 1) (by norm_num) (Real.abs_cos_le_one _) (B := 40075161)
    (by norm_num) (by norm_num)).mono (d := 1 / 2 ^ 21) (by norm_num)
  have hcv : |40075160 * Real.cos ((p.lat - o.lat) * (Real.pi / 180))| ≤ 40075160 := by
    rw [abs_mul]
    have := Real.abs_cos_le_one ((p.lat - o.lat : ℝ) * (Real.pi / 180))
    norm_num
    linarith
  have east1 := (dlon.mul circ vlon hcv (B := 360 * 40075161) (by norm_num) (by norm_num)).mono
    (d := 1 / 2 ^ 12) (by norm_num)
  have ev : |(p.lon - o.lon : ℝ) * (40075160 * Real.cos ((p.lat - o.lat) * (Real.pi / 180)))| ≤ 360 * 40075160 := by
    rw [abs_mul]
    gcongr
  have east2 := (east1.div 360 (by norm_num) (by norm_num) (B := 40075161) (by
    rw [abs_div]
    norm_num at ev ⊢
    linarith) (by norm_num)).mono (d := 1 / 2 ^ 20) (by norm_num)
  have nv : |(p.lat - o.lat : ℝ) * 40008000| ≤ 180 * 40008000 := by
    rw [abs_mul]
    norm_num
    linarith
  have north1 := (dlat.mul lit2 vlat (W := 40008000) (by norm_num) (B := 180 * 40008001) (by norm_num)
    (by norm_num)).mono (d := 1 / 2 ^ 17) (by norm_num)
  have north2 := (north1.div 360 (by norm_num) (by norm_num) (B := 40008001) (by
    rw [abs_div]
    norm_num at nv ⊢
    linarith) (by norm_num)).mono (d := 1 / 2 ^ 20) (by norm_num)
  have ev2 : |(p.lon - o.lon : ℝ) * (40075160 * Real.cos ((p.lat - o.lat) * (Real.pi / 180))) / 360| ≤ 40075160 := by
    rw [abs_div, div_le_iff₀ (by norm_num)]
    norm_num at ev ⊢
    linarith
  have nv2 : |(p.lat - o.lat : ℝ) * 40008000 / 360| ≤ 40008000 := by
    rw [abs_div, div_le_iff₀ (by norm_num)]
    norm_num at nv ⊢
    linarith
  simp only [Nat.cast_ofNat] at east2 north2
  have fin : ∀ {x : F32} {v e : ℝ}, NearReal x v (|v| / 2 ^ 24 + 2 * e + 1 / 2 ^ 100) → e ≤ 1 / 2 ^ 20 →
      NearReal x v (|v| / 2 ^ 24 + 1 / 2 ^ 18) := by
    rintro x v e ⟨q, h1, h2⟩ h3
    refine ⟨q, h1, h2.trans ?_⟩
    have : 2 * e + 1 / 2 ^ 100 ≤ 1 / 2 ^ 18 := by
      norm_num at h3 ⊢
      linarith
    linarith
  fin_cases i
  · have := cast_near32 he east2 (by linarith [show (40075160 : ℝ) + 1 / 2 ^ 20 ≤ 2 ^ 30 by norm_num]) (by norm_num)
    exact fin this le_rfl
  · have := cast_near32 he north2 (by linarith [show (40008000 : ℝ) + 1 / 2 ^ 20 ≤ 2 ^ 30 by norm_num]) (by norm_num)
    exact fin this le_rfl
  · have := cast_near32 he dalt (by linarith [show (2 * 10 ^ 6 : ℝ) + 1 / 2 ^ 30 ≤ 2 ^ 30 by norm_num]) (by norm_num)
    exact fin this (by norm_num)

/-! ## From the text -/

lemma fix_of (he : AccurateEnv env) {text : List Char} {p : Place} {roll pitch yaw : ℚ} (hp : p.Ok)
    (h : Says text p roll pitch yaw) :
    ∃ fix : Gps F64, FixOf fix p ∧ ∃ z1 z2 z3, Record env text fix
      (env.euler (Fp.ofRat z1 roll) (Fp.ofRat z2 pitch) (Fp.ofRat z3 yaw)) := by
  obtain ⟨a, b, c, d, e, g, rest, hf, h1, h2, h3, h4, h5, h6⟩ := h
  obtain ⟨s1, e1⟩ := he.parseG a _ h1
  obtain ⟨s2, e2⟩ := he.parseG b _ h2
  obtain ⟨s3, e3⟩ := he.parseG c _ h3
  obtain ⟨s4, e4⟩ := he.parseF d _ h4
  obtain ⟨s5, e5⟩ := he.parseF e _ h5
  obtain ⟨s6, e6⟩ := he.parseF g _ h6
  have c1 : ∀ {a b : ℚ}, |a| ≤ b → |(a : ℝ)| ≤ (b : ℝ) := fun h => by exact_mod_cast h
  refine ⟨⟨_, _, _⟩, ⟨(near64_ofRat s1 (c1 hp.lat) (by norm_num)).mono (by norm_num),
    (near64_ofRat s2 (c1 hp.lon) (by norm_num)).mono (by norm_num),
    (near64_ofRat s3 (c1 hp.alt) (by norm_num)).mono (by norm_num)⟩, s4, s5, s6,
    a, b, c, d, e, g, rest, _, _, _, hf, e1, e2, e3, e4, e5, e6, rfl⟩

/-- C73: the place of a recording. Both texts are decimal records on the globe. The first one, read without an
origin, gives the translation zero and an origin with which the second one gives east, north and up in metres:
each coordinate finite and within a relative 2^-24 and four micrometres of the exact number from the decimals. The
rotation comes from the angles in the text, each rounded to f32. -/
theorem C73_place (he : AccurateEnv env) {first text : List Char} {o p : Place} {r0 p0 y0 roll pitch yaw : ℚ}
    (ho : o.Ok) (hp : p.Ok) (h0 : Says first o r0 p0 y0) (h : Says text p roll pitch yaw) :
    ∃ pose0 pose org z1 z2 z3, readOxt env (.ok first) none = .ok (pose0, org) ∧
      (∀ i, (pose0.translation i).Is 0) ∧
      readOxt env (.ok text) (some org) = .ok (pose, org) ∧
      pose.rotation = env.euler (Fp.ofRat z1 roll) (Fp.ofRat z2 pitch) (Fp.ofRat z3 yaw) ∧
      ∀ i, NearReal (pose.translation i) (p.offset o i) (|p.offset o i| / 2 ^ 24 + 1 / 2 ^ 18) := by
  obtain ⟨f0, g0, _, _, _, k0⟩ := fix_of he ho h0
  obtain ⟨f1, g1, z1, z2, z3, k1⟩ := fix_of he hp h
  exact ⟨_, _, _, z1, z2, z3, (C50_read k0).1, fun _ => F32.zero_is, (C50_read k1).2 f0, rfl,
    fun i => gps_near he hp ho g1 g0 i⟩

lemma forall₂_get {A B : Type} {r : A → B → Prop} {l : List A} {l' : List B} (h : List.Forall₂ r l l') {k : ℕ} {b : B}
    (hb : l'[k]? = some b) : ∃ a, l[k]? = some a ∧ r a b := by
  induction h generalizing k with
  | nil => simp at hb
  | cons h1 h2 ih =>
    cases k with
    | zero =>
      simp only [List.getElem?_cons_zero, Option.some.injEq] at hb
      exact ⟨_, rfl, hb ▸ h1⟩
    | succ k => exact ih (by simpa using hb)

lemma fixes_of {P : Type} (he : AccurateEnv env) {s : List P} {contents : P → Io (List Char)}
    {places : List (Place × ℚ × ℚ × ℚ)}
    (h : List.Forall₂ (fun f (x : Place × ℚ × ℚ × ℚ) => ∃ text, contents f = .ok text ∧ x.1.Ok ∧
      Says text x.1 x.2.1 x.2.2.1 x.2.2.2) s places) :
    ∃ fixes : List (Gps F64 × R), Recorded env contents s fixes ∧
      List.Forall₂ (fun (f : Gps F64 × R) (x : Place × ℚ × ℚ × ℚ) => (x.1.Ok ∧ FixOf f.1 x.1) ∧ ∃ z1 z2 z3,
        f.2 = env.euler (Fp.ofRat z1 x.2.1) (Fp.ofRat z2 x.2.2.1) (Fp.ofRat z3 x.2.2.2)) fixes places := by
  induction h with
  | nil => exact ⟨[], .nil, .nil⟩
  | cons h1 h2 ih =>
    obtain ⟨fixes, i1, i2⟩ := ih
    obtain ⟨text, t1, t2, t3⟩ := h1
    obtain ⟨fix, g0, z1, z2, z3, k0⟩ := fix_of he t2 t3
    exact ⟨(fix, _) :: fixes, .cons ⟨text, t1, k0⟩ i1, .cons ⟨⟨t2, g0⟩, z1, z2, z3, rfl⟩ i2⟩

/-- C73: a whole folder of decimal records on the globe is read; the first translation is zero and every other one
is within the same error of the offset of its place from the first. -/
theorem C73_folder {P : Type} [LinearOrder P] (he : AccurateEnv env) {s paths : List P}
    {contents : P → Io (List Char)} (hs : SortedListing s paths) {places : List (Place × ℚ × ℚ × ℚ)}
    (h : List.Forall₂ (fun f (x : Place × ℚ × ℚ × ℚ) => ∃ text, contents f = .ok text ∧ x.1.Ok ∧
      Says text x.1 x.2.1 x.2.2.1 x.2.2.2) s places) :
    ∃ poses, readOxtDir env (.ok (paths.map .ok)) contents = .ok poses ∧ poses.length = paths.length ∧
      (∀ pose, poses[0]? = some pose → ∀ i, (pose.translation i).Is 0) ∧
      ∀ (k : ℕ) pose x o, 0 < k → poses[k]? = some pose → places[k]? = some x → places[0]? = some o →
        (∃ z1 z2 z3, pose.rotation = env.euler (Fp.ofRat z1 x.2.1) (Fp.ofRat z2 x.2.2.1) (Fp.ofRat z3 x.2.2.2)) ∧
        ∀ i, NearReal (pose.translation i) (x.1.offset o.1 i) (|x.1.offset o.1 i| / 2 ^ 24 + 1 / 2 ^ 18) := by
  obtain ⟨fixes, hr, hf⟩ := fixes_of he h
  obtain ⟨poses, e1, e2, e3, e4, e5⟩ := C51_poses hs hr
  refine ⟨poses, e1, e2, fun pose hp i => by rw [e4 pose hp i]; exact F32.zero_is, ?_⟩
  intro k pose x o hk hp hx ho
  obtain ⟨fx, hfx, g1, z1, z2, z3, g2⟩ := forall₂_get hf hx
  obtain ⟨fo, hfo, g3, -⟩ := forall₂_get hf ho
  refine ⟨⟨z1, z2, z3, (e3 k pose fx hp hfx).trans g2⟩, fun i => ?_⟩
  rw [e5 k pose fx fo hk hp hfx hfo]
  exact gps_near he g1.1 g3.1 g1.2 g3.2 i

/-- C73 (deviation): due east the code goes as far as on the equator. For two places at the same latitude the
reported distance, times the cosine of the latitude, is the true length of the arc (up to the error); so at 60
degrees and more it is at least twice the true length. -/
theorem C73_east_overstated (he : AccurateEnv env) {first text : List Char} {o p : Place}
    {r0 p0 y0 roll pitch yaw : ℚ} (ho : o.Ok) (hp : p.Ok) (h0 : Says first o r0 p0 y0)
    (h : Says text p roll pitch yaw) (hsame : p.lat = o.lat) :
    ∃ pose0 pose org q, readOxt env (.ok first) none = .ok (pose0, org) ∧
      readOxt env (.ok text) (some org) = .ok (pose, org) ∧ (pose.translation 0).Is q ∧
      |q * Real.cos (o.lat * (Real.pi / 180)) - p.east o| ≤ |p.east o| / 2 ^ 24 + 1 / 2 ^ 18 ∧
      (60 ≤ |o.lat| → 2 * |p.east o| * (1 - 1 / 2 ^ 24) - 1 / 2 ^ 18 ≤ |(q : ℝ)|) := by
  obtain ⟨pose0, pose, org, -, -, -, e1, -, e2, -, e3⟩ := C73_place he ho hp h0 h
  obtain ⟨q, h1, h2⟩ := e3 0
  refine ⟨pose0, pose, org, q, e1, e2, h1, ?_⟩
  have hv : p.offset o 0 = (p.lon - o.lon : ℝ) * 40075160 / 360 := by simp [Place.offset, hsame]
  rw [hv] at h2
  set v : ℝ := (p.lon - o.lon : ℝ) * 40075160 / 360 with hvd
  set c : ℝ := Real.cos (o.lat * (Real.pi / 180)) with hc
  have hev : p.east o = v * c := by
    rw [hvd, hc, Place.east]
    ring
  have hlat : |(o.lat : ℝ)| ≤ 90 := by exact_mod_cast ho.lat
  have hpi := Real.pi_pos
  have habs : |(o.lat : ℝ) * (Real.pi / 180)| = |(o.lat : ℝ)| * (Real.pi / 180) := by
    rw [abs_mul, abs_of_pos (by positivity : (0 : ℝ) < Real.pi / 180)]
  have hc0 : 0 ≤ c := by
    apply Real.cos_nonneg_of_mem_Icc
    rw [Set.mem_Icc, ← abs_le, habs]
    nlinarith
  have hc1 : c ≤ 1 := Real.cos_le_one _
  rw [hev, abs_mul, abs_of_nonneg hc0]
  have hv0 := abs_nonneg v
  constructor
  · rw [← sub_mul, abs_mul, abs_of_nonneg hc0]
    have := mul_le_mul_of_nonneg_right h2 hc0
    have : c * (1 / 2 ^ 18) ≤ 1 / 2 ^ 18 := by
      have : (0 : ℝ) ≤ 1 / 2 ^ 18 := by norm_num
      nlinarith
    linarith
  · intro h60
    have h60' : (60 : ℝ) ≤ |(o.lat : ℝ)| := by exact_mod_cast h60
    have hc2 : c ≤ 1 / 2 := by
      rw [hc, ← Real.cos_abs, habs, ← Real.cos_pi_div_three]
      apply Real.cos_le_cos_of_nonneg_of_le_pi
      · positivity
      · nlinarith
      · nlinarith
    have h3 : |v| ≤ |(q : ℝ)| + (|v| / 2 ^ 24 + 1 / 2 ^ 18) := by
      have := abs_sub_abs_le_abs_sub v (q : ℝ)
      rw [abs_sub_comm] at this
      linarith
    have h4 : |v| * c ≤ |v| * (1 / 2) := mul_le_mul_of_nonneg_left hc2 hv0
    have h5 : 2 * (|v| * c) * (1 - 1 / 2 ^ 24) ≤ |v| * (1 - 1 / 2 ^ 24) := by
      have : (0 : ℝ) ≤ 1 - 1 / 2 ^ 24 := by norm_num
      nlinarith
    linarith

/-! ## The points of the recording -/

section Points
variable [T : Trig F32]

omit T in
/-- One coordinate of a plane rotation, when angle and arguments change a little. -/
lemma turn_near {c s c' s' u v u' v' d D K : ℝ} (h1 : |c - c'| ≤ d) (h2 : |s - s'| ≤ d) (hc : |c'| ≤ 1)
    (hs : |s'| ≤ 1) (hu : |u| ≤ K) (hv : |v| ≤ K) (hu' : |u - u'| ≤ D) (hv' : |v - v'| ≤ D) :
    |(c * u + s * v) - (c' * u' + s' * v')| ≤ 2 * d * K + 2 * D := by
  have e : (c * u + s * v) - (c' * u' + s' * v') = (c - c') * u + (s - s') * v + c' * (u - u') + s' * (v - v') := by
    ring
  have hK : 0 ≤ K := (abs_nonneg _).trans hu
  have hd : 0 ≤ d := (abs_nonneg _).trans h1
  have a1 : |(c - c') * u| ≤ d * K := by rw [abs_mul]; gcongr
  have a2 : |(s - s') * v| ≤ d * K := by rw [abs_mul]; gcongr
  have a3 : |c' * (u - u')| ≤ 1 * D := by rw [abs_mul]; gcongr
  have a4 : |s' * (v - v')| ≤ 1 * D := by rw [abs_mul]; gcongr
  rw [e]
  have := abs_add_le ((c - c') * u + (s - s') * v + c' * (u - u')) (s' * (v - v'))
  have := abs_add_le ((c - c') * u + (s - s') * v) (c' * (u - u'))
  have := abs_add_le ((c - c') * u) ((s - s') * v)
  linarith

omit T in
lemma turn_size {c s u v K : ℝ} (hc : |c| ≤ 1) (hs : |s| ≤ 1) (hu : |u| ≤ K) (hv : |v| ≤ K) :
    |c * u + s * v| ≤ 2 * K := by
  have a1 : |c * u| ≤ 1 * K := by rw [abs_mul]; gcongr
  have a2 : |s * v| ≤ 1 * K := by rw [abs_mul]; gcongr
  have := abs_add_le (c * u) (s * v)
  linarith

omit T in
lemma rotX_near {a a' d D K : ℝ} {p p' : Fin 3 → ℝ} (ha : |a - a'| ≤ d) (hK : ∀ i, |p i| ≤ K)
    (hD : ∀ i, |p i - p' i| ≤ D) (i : Fin 3) :
    |rotX a p i - rotX a' p' i| ≤ 2 * d * K + 2 * D ∧ |rotX a p i| ≤ 2 * K := by
  have c1 := (Real.abs_cos_sub_cos_le a a').trans ha
  have s1 := (Real.abs_sin_sub_sin_le a a').trans ha
  have s2 : |-Real.sin a - -Real.sin a'| ≤ d := by rwa [neg_sub_neg, abs_sub_comm]
  have bc := Real.abs_cos_le_one
  have bs := Real.abs_sin_le_one
  have bn : ∀ x, |-Real.sin x| ≤ 1 := fun x => by rw [abs_neg]; exact bs x
  have hK0 : 0 ≤ K := (abs_nonneg _).trans (hK 0)
  have hd0 : 0 ≤ d := (abs_nonneg _).trans ha
  have hD0 : 0 ≤ D := (abs_nonneg _).trans (hD 0)
  have hdK := mul_nonneg hd0 hK0
  fin_cases i
  · exact ⟨(hD 0).trans (by linarith), (hK 0).trans (by linarith)⟩
  · have := turn_near c1 s2 (bc _) (bn _) (hK 1) (hK 2) (hD 1) (hD 2)
    have h2 := turn_size (bc a) (bn a) (hK 1) (hK 2)
    simp only [rotX, sub_eq_add_neg, ← neg_mul] at this h2 ⊢
    exact ⟨this, h2⟩
  · exact ⟨turn_near s1 c1 (bs _) (bc _) (hK 1) (hK 2) (hD 1) (hD 2), turn_size (bs a) (bc a) (hK 1) (hK 2)⟩

omit T in
lemma rotY_near {a a' d D K : ℝ} {p p' : Fin 3 → ℝ} (ha : |a - a'| ≤ d) (hK : ∀ i, |p i| ≤ K)
    (hD : ∀ i, |p i - p' i| ≤ D) (i : Fin 3) :
    |rotY a p i - rotY a' p' i| ≤ 2 * d * K + 2 * D ∧ |rotY a p i| ≤ 2 * K := by
  have c1 := (Real.abs_cos_sub_cos_le a a').trans ha
  have s1 := (Real.abs_sin_sub_sin_le a a').trans ha
  have s2 : |-Real.sin a - -Real.sin a'| ≤ d := by rwa [neg_sub_neg, abs_sub_comm]
  have bc := Real.abs_cos_le_one
  have bs := Real.abs_sin_le_one
  have bn : ∀ x, |-Real.sin x| ≤ 1 := fun x => by rw [abs_neg]; exact bs x
  have hK0 : 0 ≤ K := (abs_nonneg _).trans (hK 0)
  have hd0 : 0 ≤ d := (abs_nonneg _).trans ha
  have hD0 : 0 ≤ D := (abs_nonneg _).trans (hD 0)
  have hdK := mul_nonneg hd0 hK0
  fin_cases i
  · exact ⟨turn_near c1 s1 (bc _) (bs _) (hK 0) (hK 2) (hD 0) (hD 2), turn_size (bc a) (bs a) (hK 0) (hK 2)⟩
  · exact ⟨(hD 1).trans (by linarith), (hK 1).trans (by linarith)⟩
  · exact ⟨turn_near s2 c1 (bn _) (bc _) (hK 0) (hK 2) (hD 0) (hD 2), turn_size (bn a) (bc a) (hK 0) (hK 2)⟩

omit T in
lemma rotZ_near {a a' d D K : ℝ} {p p' : Fin 3 → ℝ} (ha : |a - a'| ≤ d) (hK : ∀ i, |p i| ≤ K)
    (hD : ∀ i, |p i - p' i| ≤ D) (i : Fin 3) :
    |rotZ a p i - rotZ a' p' i| ≤ 2 * d * K + 2 * D ∧ |rotZ a p i| ≤ 2 * K := by
  have c1 := (Real.abs_cos_sub_cos_le a a').trans ha
  have s1 := (Real.abs_sin_sub_sin_le a a').trans ha
  have s2 : |-Real.sin a - -Real.sin a'| ≤ d := by rwa [neg_sub_neg, abs_sub_comm]
  have bc := Real.abs_cos_le_one
  have bs := Real.abs_sin_le_one
  have bn : ∀ x, |-Real.sin x| ≤ 1 := fun x => by rw [abs_neg]; exact bs x
  have hK0 : 0 ≤ K := (abs_nonneg _).trans (hK 0)
  have hd0 : 0 ≤ d := (abs_nonneg _).trans ha
  have hD0 : 0 ≤ D := (abs_nonneg _).trans (hD 0)
  have hdK := mul_nonneg hd0 hK0
  fin_cases i
  · have := turn_near c1 s2 (bc _) (bn _) (hK 0) (hK 1) (hD 0) (hD 1)
    have h2 := turn_size (bc a) (bn a) (hK 0) (hK 1)
    simp only [rotZ, sub_eq_add_neg, ← neg_mul] at this h2 ⊢
    exact ⟨this, h2⟩
  · exact ⟨turn_near s1 c1 (bs _) (bc _) (hK 0) (hK 1) (hD 0) (hD 1), turn_size (bs a) (bc a) (hK 0) (hK 1)⟩
  · exact ⟨(hD 2).trans (by linarith), (hK 2).trans (by linarith)⟩

omit T in
/-- A rigid motion changes little with its angles and its shift. -/
lemma rigid_near {r r' p p' y y' d e L : ℝ} {t t' x : Fin 3 → ℝ} (hr : |r - r'| ≤ d) (hp : |p - p'| ≤ d)
    (hy : |y - y'| ≤ d) (hx : ∀ i, |x i| ≤ L) (i : Fin 3) (ht : |t i - t' i| ≤ e) :
    |rigid r p y t x i - rigid r' p' y' t' x i| ≤ 24 * d * L + e := by
  have h1 := fun i => rotX_near (p' := x) (D := 0) hr hx (fun i => by simp) i
  have h2 := fun i => rotY_near hp (fun i => (h1 i).2) (fun i => (h1 i).1) i
  have h3 := (rotZ_near hy (fun i => (h2 i).2) (fun i => (h2 i).1) i).1
  have e1 : rigid r p y t x i - rigid r' p' y' t' x i =
      (rotZ y (rotY p (rotX r x)) i - rotZ y' (rotY p' (rotX r' x)) i) + (t i - t' i) := by
    simp only [rigid]; ring
  rw [e1]
  have := abs_add_le (rotZ y (rotY p (rotX r x)) i - rotZ y' (rotY p' (rotX r' x)) i) (t i - t' i)
  linarith

omit T in
lemma forall₂_mem {A B : Type} {r r' : A → B → Prop} {l : List A} {l' : List B} (h : List.Forall₂ r l l')
    (hi : ∀ a ∈ l, ∀ b, r a b → r' a b) : List.Forall₂ r' l l' := by
  induction h with
  | nil => exact .nil
  | cons h1 h2 ih =>
    exact .cons (hi _ (by simp) _ h1) (ih fun a ha b hb => hi a (by simp [ha]) b hb)

omit T in
lemma angle_near (zs : Bool) {q : ℚ} (h : |q| ≤ 4) :
    ∃ q' : ℚ, (Fp.ofRat zs q : F32).Is q' ∧ |(q' : ℝ) - q| ≤ 5 / 2 ^ 24 := by
  refine ⟨_, Fp.ofRat_is (F32.noOvf (h.trans (by norm_num))), ?_⟩
  have : |b32.rnd q - q| ≤ 5 / 2 ^ 24 := by
    refine (F32.err q).trans ?_
    linarith [show (4 : ℚ) * (1 / 2 ^ 24) + 1 / 2 ^ 150 ≤ 5 / 2 ^ 24 by norm_num]
  have := (Rat.cast_le (K := ℝ)).mpr this
  push_cast at this
  exact this

lemma moved_near (hT : AccurateTrig T) {t : Point 3 F32} {v : Fin 3 → ℝ} {roll pitch yaw : ℚ} (z1 z2 z3 : Bool)
    (h4 : ∀ i, NearReal (t i) (v i) (|v i| / 2 ^ 24 + 1 / 2 ^ 18))
    (a1 : |roll| ≤ 4) (a2 : |pitch| ≤ 4) (a3 : |yaw| ≤ 4) (L S : ℝ) (hS : ∀ i, |v i| ≤ S)
    (hS2 : S ≤ 2 ^ 26) (hL1 : 1 ≤ L) (hL2 : L ≤ 2 ^ 100) (c : PointCloud 3 F32)
    (hc : ∀ x ∈ c.points, ∀ i, (x i).isFin = true ∧ |((x i).val : ℝ)| ≤ L) :
    List.Forall₂ (fun x x' : Point 3 F32 => ∀ i, NearReal (x' i)
        (rigid roll pitch yaw v (fun n => ((x n).val : ℝ)) i)
        ((1130 * L + 2 * S) / 2 ^ 24 + 1 / 2 ^ 18))
      c.points (c.transform (⟨t, Quat.fromEuler (Fp.ofRat z1 roll) (Fp.ofRat z2 pitch) (Fp.ofRat z3 yaw)⟩ :
        Pose F32 (Quat F32)).toHomogeneous).points := by
  obtain ⟨q1, b1, d1⟩ := angle_near z1 a1
  obtain ⟨q2, b2, d2⟩ := angle_near z2 a2
  obtain ⟨q3, b3, d3⟩ := angle_near z3 a3
  have hfin : ∀ i, (t i).isFin = true := fun i => by
    obtain ⟨q, hq, -⟩ := h4 i
    exact hq.isFin
  have hval : ∀ i, |((t i).val : ℝ) - v i| ≤ S / 2 ^ 24 + 1 / 2 ^ 18 := fun i => by
    obtain ⟨q, hq, h2⟩ := h4 i
    rw [hq.val]
    have := hS i
    exact h2.trans (by gcongr)
  have hS' : ∀ i, |((t i).val : ℝ)| ≤ S + 5 := fun i => by
    have h1 := abs_sub_abs_le_abs_sub ((t i).val : ℝ) (v i)
    have h2 := hval i
    have h3 := hS i
    have : S / 2 ^ 24 + 1 / 2 ^ 18 ≤ 5 := by
      norm_num at hS2 ⊢
      linarith
    linarith
  have key := C59_transform_f32 hT _ _ _ q1 q2 q3 b1 b2 b3 t hfin L (S + 5) hS' hL1 hL2
    (by norm_num at hS2 ⊢; linarith) c hc
  refine forall₂_mem key fun x hx x' hxx i => ?_
  obtain ⟨q, hq, h1⟩ := hxx i
  refine ⟨q, hq, ?_⟩
  have h2 := rigid_near (t := fun n => ((t n).val : ℝ)) (t' := v) d1 d2 d3 (fun n => (hc x hx n).2) i (hval i)
  have h3 := abs_sub_le (q : ℝ) (rigid q1 q2 q3 (fun n => ((t n).val : ℝ)) (fun n => ((x n).val : ℝ)) i)
    (rigid roll pitch yaw (v) (fun n => ((x n).val : ℝ)) i)
  have h5 : (1000 * L + (S + 5)) / 2 ^ 24 + (24 * (5 / 2 ^ 24) * L + (S / 2 ^ 24 + 1 / 2 ^ 18)) ≤
      (1130 * L + 2 * S) / 2 ^ 24 + 1 / 2 ^ 18 := by
    norm_num
    linarith
  linarith

lemma points_near {env : OxtEnv F64 F32 (Quat F32)} (hT : AccurateTrig T) (he : AccurateEnv env)
    (heul : env.euler = Quat.fromEuler) {first text : List Char} {o p : Place} {r0 p0 y0 roll pitch yaw : ℚ}
    (ho : o.Ok) (hp : p.Ok) (h0 : Says first o r0 p0 y0) (h : Says text p roll pitch yaw)
    (a1 : |roll| ≤ 4) (a2 : |pitch| ≤ 4) (a3 : |yaw| ≤ 4) (L S : ℝ) (hS : ∀ i, |p.offset o i| ≤ S)
    (hS2 : S ≤ 2 ^ 26) (hL1 : 1 ≤ L) (hL2 : L ≤ 2 ^ 100) (c : PointCloud 3 F32)
    (hc : ∀ x ∈ c.points, ∀ i, (x i).isFin = true ∧ |((x i).val : ℝ)| ≤ L) :
    ∃ pose0 pose org, readOxt env (.ok first) none = .ok (pose0, org) ∧
      readOxt env (.ok text) (some org) = .ok (pose, org) ∧
      List.Forall₂ (fun x x' : Point 3 F32 => ∀ i, NearReal (x' i)
          (rigid roll pitch yaw (p.offset o) (fun n => ((x n).val : ℝ)) i)
          ((1130 * L + 2 * S) / 2 ^ 24 + 1 / 2 ^ 18))
        c.points (c.transform pose.toHomogeneous).points := by
  obtain ⟨pose0, ⟨t, rot⟩, org, z1, z2, z3, e1, -, e2, e3, e4⟩ := C73_place he ho hp h0 h
  refine ⟨pose0, ⟨t, rot⟩, org, e1, e2, ?_⟩
  simp only at e3 e4
  subst e3
  rw [heul]
  exact moved_near hT z1 z2 z3 e4 a1 a2 a3 L S hS hS2 hL1 hL2 c hc

omit T in
lemma offset_le {p o : Place} (hp : p.Ok) (ho : o.Ok) (i : Fin 3) : |p.offset o i| ≤ 2 ^ 26 := by
  have c1 : ∀ {a b : ℚ}, |a| ≤ b → |(a : ℝ)| ≤ (b : ℝ) := fun h => by exact_mod_cast h
  have lat1 := abs_le.mp (c1 hp.lat)
  have lat2 := abs_le.mp (c1 ho.lat)
  have lon1 := abs_le.mp (c1 hp.lon)
  have lon2 := abs_le.mp (c1 ho.lon)
  have alt1 := abs_le.mp (c1 hp.alt)
  have alt2 := abs_le.mp (c1 ho.alt)
  push_cast at lat1 lat2 lon1 lon2 alt1 alt2
  fin_cases i
  · have hc := Real.abs_cos_le_one (((p.lat : ℝ) - o.lat) * (Real.pi / 180))
    have hl : |(p.lon : ℝ) - o.lon| ≤ 360 := abs_le.mpr ⟨by linarith, by linarith⟩
    have : |((p.lon : ℝ) - o.lon) * (40075160 * Real.cos (((p.lat : ℝ) - o.lat) * (Real.pi / 180)))| ≤
        360 * (40075160 * 1) := by
      rw [abs_mul, abs_mul, abs_of_pos (by norm_num : (0 : ℝ) < 40075160)]
      gcongr
    change |_ / (360 : ℝ)| ≤ _
    rw [abs_div, abs_of_pos (by norm_num : (0 : ℝ) < 360), div_le_iff₀ (by norm_num)]
    exact this.trans (by norm_num)
  · change |((p.lat : ℝ) - o.lat) * 40008000 / 360| ≤ _
    rw [abs_le]
    constructor <;> norm_num <;> linarith
  · change |(p.alt : ℝ) - o.alt| ≤ _
    rw [abs_le]
    constructor <;> norm_num at alt1 alt2 ⊢ <;> linarith

/-- C73: the points of a recording, from the texts to the map frame. Read with the origin of the first text, a
decimal record on the globe with angles of at most 4 radians moves a cloud of finite points of size at most `L` by
the exact rigid motion with the angles and the offset of the record, up to `(1130 L + 2 S) / 2^24` and four
micrometres in each coordinate, where `S` bounds the offset. -/
theorem C73_points {env : OxtEnv F64 F32 (Quat F32)} (hT : AccurateTrig T) (he : AccurateEnv env)
    (heul : env.euler = Quat.fromEuler) {first text : List Char} {o p : Place} {r0 p0 y0 roll pitch yaw : ℚ}
    (ho : o.Ok) (hp : p.Ok) (h0 : Says first o r0 p0 y0) (h : Says text p roll pitch yaw)
    (a1 : |roll| ≤ 4) (a2 : |pitch| ≤ 4) (a3 : |yaw| ≤ 4) (L S : ℝ) (hS : ∀ i, |p.offset o i| ≤ S) (hL1 : 1 ≤ L) (hL2 : L ≤ 2 ^ 100) (c : PointCloud 3 F32)
    (hc : ∀ x ∈ c.points, ∀ i, (x i).isFin = true ∧ |((x i).val : ℝ)| ≤ L) :
    ∃ pose0 pose org, readOxt env (.ok first) none = .ok (pose0, org) ∧
      readOxt env (.ok text) (some org) = .ok (pose, org) ∧
      List.Forall₂ (fun x x' : Point 3 F32 => ∀ i, NearReal (x' i)
          (rigid roll pitch yaw (p.offset o) (fun n => ((x n).val : ℝ)) i)
          ((1130 * L + 2 * S) / 2 ^ 24 + 1 / 2 ^ 18))
        c.points (c.transform pose.toHomogeneous).points := by
  have key := points_near hT he heul ho hp h0 h a1 a2 a3 L (min S (2 ^ 26)) (fun i => le_min (hS i) (offset_le hp ho i))
    (min_le_right _ _) hL1 hL2 c hc
  obtain ⟨pose0, pose, org, e1, e2, e3⟩ := key
  refine ⟨pose0, pose, org, e1, e2, forall₂_mem e3 fun x _ x' hxx i => ?_⟩
  obtain ⟨q, hq, h1⟩ := hxx i
  refine ⟨q, hq, h1.trans ?_⟩
  have := min_le_left S (2 ^ 26)
  gcongr

end Points

/-! ## The hypotheses are met -/

section Witness

lemma exists_near64 (v : ℝ) (hv : |v| ≤ 1) : ∃ x : F64, ∃ c : ℚ, x.Is c ∧ |(c : ℝ) - v| ≤ 1 / 2 ^ 50 := by
  obtain ⟨q, h1, h2⟩ := exists_rat_btwn (show v - 1 / 2 ^ 60 < v by norm_num)
  have hq : |(q : ℝ) - v| ≤ 1 / 2 ^ 60 := abs_le.mpr ⟨by linarith, by linarith [show (0:ℝ) < 1 / 2 ^ 60 by positivity]⟩
  have hB : |v| + 1 / 2 ^ 60 ≤ 2 := by
    norm_num at hv ⊢
    linarith
  exact ⟨Fp.ofRat false q, _, Fp.ofRat_is (ovf64 hq hB (by norm_num)), (rnd64_near hq hB).trans (by norm_num)⟩

lemma exists_radPerDeg : ∃ x : F64, ∃ c : ℚ, x.Is c ∧ |(c : ℝ) - Real.pi / 180| ≤ 1 / 2 ^ 57 := by
  have hpi := Real.pi_lt_d2
  have hpi0 := Real.pi_gt_three
  obtain ⟨q, h1, h2⟩ := exists_rat_btwn (show Real.pi / 180 - 1 / 2 ^ 80 < Real.pi / 180 by norm_num)
  have hq : |(q : ℝ) - Real.pi / 180| ≤ 1 / 2 ^ 80 :=
    abs_le.mpr ⟨by linarith, by linarith [show (0:ℝ) < 1 / 2 ^ 80 by positivity]⟩
  have hB : |Real.pi / 180| + 1 / 2 ^ 80 ≤ 1 / 2 ^ 5 := by
    rw [abs_of_pos (by positivity)]
    norm_num at hpi ⊢
    linarith
  exact ⟨Fp.ofRat false q, _, Fp.ofRat_is (ovf64 hq hB (by norm_num)), (rnd64_near hq hB).trans (by norm_num)⟩

/-- Correct rounding, an accurate cosine. -/
noncomputable def someEnv : OxtEnv F64 F32 (Quat F32) where
  parseG s := (decimal s).map (Fp.ofRat false)
  parseF s := (decimal s).map (Fp.ofRat false)
  cos x := (exists_near64 (Real.cos x.val) (Real.abs_cos_le_one _)).choose
  radPerDeg := exists_radPerDeg.choose
  cast x := Fp.ofRat false x.val
  euler := @Quat.fromEuler _ _ someTrig

lemma someEnv_accurate : AccurateEnv someEnv where
  parseG s q h := ⟨false, by simp [someEnv, h]⟩
  parseF s q h := ⟨false, by simp [someEnv, h]⟩
  cos x q h _ := by
    have := (exists_near64 (Real.cos x.val) (Real.abs_cos_le_one _)).choose_spec
    obtain ⟨c, h1, h2⟩ := this
    exact ⟨c, h1, by rw [← h.val]; exact h2⟩
  radPerDeg := exists_radPerDeg.choose_spec
  cast x q h := ⟨false, by simp [someEnv, h.val]⟩

/-- Two records as in the KITTI data, their places and angles. -/
example : AccurateEnv someEnv ∧ AccurateTrig someTrig ∧ someEnv.euler = @Quat.fromEuler _ _ someTrig ∧
    Says "49.015 8.434 116.4 0.03 0.009 -2.6 0.1".toList ⟨9803 / 200, 4217 / 500, 582 / 5⟩ (3 / 100) (9 / 1000) (-13 / 5) ∧
    Says "4.9016e1 +8.435 -1.5E-2 .5 1. -0".toList ⟨6127 / 125, 1687 / 200, -3 / 200⟩ (1 / 2) 1 0 ∧
    (⟨9803 / 200, 4217 / 500, 582 / 5⟩ : Place).Ok ∧ (⟨6127 / 125, 1687 / 200, -3 / 200⟩ : Place).Ok := by
  refine ⟨someEnv_accurate, someTrig_accurate, rfl,
    ⟨"49.015".toList, "8.434".toList, "116.4".toList, "0.03".toList, "0.009".toList, "-2.6".toList, ["0.1".toList], fields_iff.mpr (by decide +kernel), by decide +kernel, by decide +kernel, by decide +kernel,
      by decide +kernel, by decide +kernel, by decide +kernel⟩,
    ⟨"4.9016e1".toList, "+8.435".toList, "-1.5E-2".toList, ".5".toList, "1.".toList, "-0".toList, [], fields_iff.mpr (by decide +kernel), by decide +kernel, by decide +kernel, by decide +kernel,
      by decide +kernel, by decide +kernel, by decide +kernel⟩,
    ⟨by norm_num [abs_le], by norm_num [abs_le], by norm_num [abs_le]⟩,
    ⟨by norm_num [abs_le], by norm_num [abs_le], by norm_num [abs_le]⟩⟩

/-- Two records at 60 degrees north, in a folder that lists them in the wrong order. -/
example : ∃ (contents : ℕ → Io (List Char)) (places : List (Place × ℚ × ℚ × ℚ)), SortedListing [1, 2] [2, 1] ∧
    List.Forall₂ (fun f (x : Place × ℚ × ℚ × ℚ) => ∃ text, contents f = .ok text ∧ x.1.Ok ∧
      Says text x.1 x.2.1 x.2.2.1 x.2.2.2) [1, 2] places ∧ ∀ x ∈ places, 60 ≤ |x.1.lat| := by
  refine ⟨fun n => .ok (if n = 1 then "60 10 0 0 0 1 x".toList else "60 11 5 0 0 2 y".toList),
    [(⟨60, 10, 0⟩, 0, 0, 1), (⟨60, 11, 5⟩, 0, 0, 2)], ⟨by decide, by decide⟩,
    .cons ⟨_, rfl, ⟨by norm_num [abs_le], by norm_num [abs_le], by norm_num [abs_le]⟩, "60".toList, "10".toList,
      ['0'], ['0'], ['0'], ['1'], [['x']], fields_iff.mpr (by decide +kernel), by decide +kernel, by decide +kernel,
      by decide +kernel, by decide +kernel, by decide +kernel, by decide +kernel⟩
    (.cons ⟨_, rfl, ⟨by norm_num [abs_le], by norm_num [abs_le], by norm_num [abs_le]⟩, "60".toList, "11".toList,
      ['5'], ['0'], ['0'], ['2'], [['y']], fields_iff.mpr (by decide +kernel), by decide +kernel, by decide +kernel,
      by decide +kernel, by decide +kernel, by decide +kernel, by decide +kernel⟩ .nil), by simp [abs_of_pos]⟩

end Witness

end Verif.Props
