import Verif.Spec.Wrong
import Verif.Props.LostFile

/-!
# C100: angles that are not finite, and infinite places
-/

namespace Verif.Props
open Spec Kitti Viz Scalar

/-! ## NaN in a pose -/

lemma fmul_nan {f : Fmt} {x y : Fp f} (h : x = .nan ∨ y = .nan) : Fp.mul x y = .nan := by
  rcases h with rfl | rfl
  · cases y <;> rfl
  · cases x <;> rfl

lemma fadd_nan {f : Fmt} {x y : Fp f} (h : x = .nan ∨ y = .nan) : Fp.add x y = .nan := by
  rcases h with rfl | rfl
  · exact Fp.nan_add
  · exact Fp.add_nan

lemma fsub_nan {f : Fmt} {x y : Fp f} (h : x = .nan ∨ y = .nan) : Fp.sub x y = .nan := by
  rcases h with rfl | rfl
  · exact Fp.nan_sub
  · exact Fp.sub_nan

/-- A quaternion of NaNs. -/
def nanQuat : Quat F32 := ⟨.nan, .nan, .nan, .nan⟩

lemma nanQuat_matrix (i j : Fin 3) : nanQuat.toMatrix i j = .nan := by
  fin_cases i <;> fin_cases j <;> rfl

/-- A point moved by a pose of which the rotation is not known. -/
lemma nanQuat_point (t p : Point 3 F32) (n : Fin 3) :
    PointCloud.transformPoint (⟨t, nanQuat⟩ : Pose F32 (Quat F32)).toHomogeneous p n = .nan := by
  rw [transform_row, nanQuat_matrix]
  exact fadd_nan (.inr (fadd_nan (.inl (fmul_nan (.inl rfl)))))

lemma half_bad {x : F32} (h : x.isFin = false) : (Fp.mul x (Fp.lit (1 / 2))).isFin = false := by
  cases x with
  | nan => rfl
  | inf s =>
    have : (Fp.lit (1 / 2) : F32).Is (1 / 2) := by decide +kernel
    obtain ⟨a, b, c, hq⟩ := this
    rw [hq]
    unfold Fp.mul
    dsimp only
    split_ifs <;> rfl
  | fin _ _ _ _ => cases h

section
variable [T : Trig F32]

/-- One angle that is not finite, and nothing is left of the rotation. -/
lemma euler_bad (hbad : ∀ x : F32, x.isFin = false → T.sin x = .nan ∧ T.cos x = .nan) {roll pitch yaw : F32}
    (h : roll.isFin = false ∨ pitch.isFin = false ∨ yaw.isFin = false) : Quat.fromEuler roll pitch yaw = nanQuat := by
  unfold Quat.fromEuler nanQuat
  dsimp only
  simp only [show ∀ a b : F32, a *. b = Fp.mul a b from fun _ _ => rfl,
    show ∀ a b : F32, a +. b = Fp.add a b from fun _ _ => rfl,
    show ∀ a b : F32, a -. b = Fp.sub a b from fun _ _ => rfl,
    show (lit (1 / 2) : F32) = Fp.lit (1 / 2) from rfl]
  rcases h with h | h | h <;> obtain ⟨h1, h2⟩ := hbad _ (half_bad h) <;> rw [h1, h2] <;>
    simp [fmul_nan, fadd_nan, fsub_nan]

end

/-! ## Infinite offsets -/

section
variable {f : Fmt}

lemma inf_sub_fin {s : Bool} {y : Fp f} {q : ℚ} (h : y.Is q) : Fp.sub (.inf s) y = .inf s := by
  obtain ⟨_, _, _, rfl⟩ := h; rfl

lemma inf_mul_fin {s : Bool} {y : Fp f} {q : ℚ} (h : y.Is q) (hq : q ≠ 0) : ∃ t, Fp.mul (.inf s) y = .inf t := by
  obtain ⟨_, _, _, rfl⟩ := h
  unfold Fp.mul
  dsimp only
  rw [if_neg hq]
  exact ⟨_, rfl⟩

lemma inf_div_fin {s : Bool} {y : Fp f} {q : ℚ} (h : y.Is q) : ∃ t, Fp.div (.inf s) y = .inf t := by
  obtain ⟨_, _, _, rfl⟩ := h
  exact ⟨_, rfl⟩

lemma inf_add_fin {s : Bool} {y : Fp f} (h : y.isFin = true) : Fp.add (.inf s) y = .inf s := by
  cases y <;> first | rfl | cases h

end

lemma numeral_parse {f : Fmt} {s : List Char} (h : Numeral s) : ∃ v, parseFloat (f := f) s = some v := by
  have h1 := not_congr (C76_rejects (f := f) s)
  rw [not_and_or, not_not] at h1
  rw [← Option.ne_none_iff_exists']
  exact h1.mpr (h.imp (fun ⟨q, hq⟩ => by rw [hq]; simp) id)

lemma inf_parse {f : Fmt} {s : List Char} (h : InfWord s) : ∃ neg, parseFloat s = some (Fp.inf (f := f) neg) := by
  unfold InfWord at h
  rw [List.mem_pair] at h
  cases s with
  | nil => rcases h with h | h <;> cases h
  | cons c r =>
    by_cases h1 : c = '-'
    · subst h1
      exact ⟨_, (C76_words (w := r) (neg := true) (.inr (.inr ⟨rfl, rfl⟩))).1 h⟩
    · by_cases h2 : c = '+'
      · subst h2
        exact ⟨_, (C76_words (w := r) (neg := false) (.inr (.inl ⟨rfl, rfl⟩))).1 h⟩
      · refine ⟨_, (C76_words (w := c :: r) (neg := false) (.inl ⟨rfl, rfl⟩)).1 ?_⟩
        have : signed (c :: r) = (1, c :: r) := by
          unfold signed
          split
          · rename_i h3; exact absurd (List.cons.inj h3).1 h1
          · rename_i h3; exact absurd (List.cons.inj h3).1 h2
          · rfl
        rw [this] at h
        exact h

lemma special_parse {f : Fmt} {s : List Char} (h : Special s) :
    ∃ v, parseFloat s = some v ∧ (v : Fp f).isFin = false := by
  unfold Special at h
  simp only [List.mem_cons, List.not_mem_nil, or_false] at h
  rcases h with h | h | h
  · obtain ⟨n, hn⟩ := inf_parse (f := f) (s := s) (List.mem_pair.mpr (.inl h))
    exact ⟨_, hn, rfl⟩
  · obtain ⟨n, hn⟩ := inf_parse (f := f) (s := s) (List.mem_pair.mpr (.inr h))
    exact ⟨_, hn, rfl⟩
  · exact ⟨_, parse_nan h, rfl⟩

section
variable {R : Type} {cos : F64 → F64} {radPerDeg : F64} {cast : F64 → F32} {euler : F32 → F32 → F32 → R}

lemma record_numerals {text : List Char} (h : SixNumerals text) :
    ∃ fix rot, Record (parsingEnv cos radPerDeg cast euler) text fix rot := by
  obtain ⟨a, b, c, d, e, g, rest, hf, h1, h2, h3, h4, h5, h6⟩ := h
  obtain ⟨v1, p1⟩ := numeral_parse (f := b64) h1
  obtain ⟨v2, p2⟩ := numeral_parse (f := b64) h2
  obtain ⟨v3, p3⟩ := numeral_parse (f := b64) h3
  obtain ⟨v4, p4⟩ := numeral_parse (f := b32) h4
  obtain ⟨v5, p5⟩ := numeral_parse (f := b32) h5
  obtain ⟨v6, p6⟩ := numeral_parse (f := b32) h6
  exact ⟨⟨v1, v2, v3⟩, _, a, b, c, d, e, g, rest, v4, v5, v6, hf, p1, p2, p3, p4, p5, p6, rfl⟩

lemma says_numerals {text : List Char} {p : Place} {roll pitch yaw : ℚ} (h : Says text p roll pitch yaw) :
    SixNumerals text := by
  obtain ⟨a, b, c, d, e, g, rest, hf, h1, h2, h3, h4, h5, h6⟩ := h
  exact ⟨a, b, c, d, e, g, rest, hf, .inl ⟨_, h1⟩, .inl ⟨_, h2⟩, .inl ⟨_, h3⟩, .inl ⟨_, h4⟩, .inl ⟨_, h5⟩, .inl ⟨_, h6⟩⟩

lemma angle_numerals {text : List Char} {p : Place} (h : WrongAngle text p) : SixNumerals text := by
  obtain ⟨a, b, c, d, e, g, rest, hf, h1, h2, h3, h4, h5, h6, -⟩ := h
  exact ⟨a, b, c, d, e, g, rest, hf, .inl ⟨_, h1⟩, .inl ⟨_, h2⟩, .inl ⟨_, h3⟩, h4, h5, h6⟩

lemma place_numerals {text : List Char} {lat0 roll pitch yaw : ℚ} (h : InfinitePlace text lat0 roll pitch yaw) :
    SixNumerals text := by
  obtain ⟨a, b, c, d, e, g, rest, hf, h1, h2, h3, h4, h5, h6, -⟩ := h
  exact ⟨a, b, c, d, e, g, rest, hf, h1, h2, h3, .inl ⟨_, h4⟩, .inl ⟨_, h5⟩, .inl ⟨_, h6⟩⟩

/-- The record of a place and angles of which one is not finite. -/
lemma record_angle {text : List Char} {p : Place} (hp : p.Ok) (h : WrongAngle text p) :
    ∃ fix : Gps F64, FixOf fix p ∧ ∃ r q y : F32, (r.isFin = false ∨ q.isFin = false ∨ y.isFin = false) ∧
      Record (parsingEnv cos radPerDeg cast euler) text fix (euler r q y) := by
  obtain ⟨a, b, c, d, e, g, rest, hf, h1, h2, h3, h4, h5, h6, h7⟩ := h
  obtain ⟨s1, e1⟩ := C76_reads_decimals (f := b64) a _ h1
  obtain ⟨s2, e2⟩ := C76_reads_decimals (f := b64) b _ h2
  obtain ⟨s3, e3⟩ := C76_reads_decimals (f := b64) c _ h3
  obtain ⟨v4, p4⟩ := numeral_parse (f := b32) h4
  obtain ⟨v5, p5⟩ := numeral_parse (f := b32) h5
  obtain ⟨v6, p6⟩ := numeral_parse (f := b32) h6
  have c1 : ∀ {a b : ℚ}, |a| ≤ b → |(a : ℝ)| ≤ (b : ℝ) := fun h => by exact_mod_cast h
  have bad : ∀ {s : List Char} {v : F32}, Special s → parseFloat s = some v → v.isFin = false := by
    intro s v hs hv
    obtain ⟨w, hw, hb⟩ := special_parse (f := b32) hs
    rw [hv] at hw
    cases hw
    exact hb
  exact ⟨⟨_, _, _⟩, ⟨(near64_ofRat s1 (c1 hp.lat) (by norm_num)).mono (by norm_num),
    (near64_ofRat s2 (c1 hp.lon) (by norm_num)).mono (by norm_num),
    (near64_ofRat s3 (c1 hp.alt) (by norm_num)).mono (by norm_num)⟩, v4, v5, v6,
    h7.imp (fun h => bad h p4) (Or.imp (fun h => bad h p5) (fun h => bad h p6)),
    a, b, c, d, e, g, rest, _, _, _, hf, e1, e2, e3, p4, p5, p6, rfl⟩

/-- The circle of latitude of a place within 80 degrees has a length. -/
lemma circle_ne_zero (he : AccurateEnv (parsingEnv cos radPerDeg cast euler)) {x y : F64} {lat lat0 : ℚ}
    (hx : Near64 x lat (1 / 2 ^ 46)) (hy : Near64 y lat0 (1 / 2 ^ 46)) (h : |lat - lat0| ≤ 80) :
    ∃ q : ℚ, (Fp.mul (Fp.lit 40075160) (cos (Fp.mul (Fp.sub x y) radPerDeg))).Is q ∧ q ≠ 0 := by
  have hv : |(lat : ℝ) - lat0| ≤ 80 := by exact_mod_cast h
  have dlat : Near64 (x.sub y) (lat - lat0) (1 / 2 ^ 44) :=
    (hx.sub hy (B := 81) (by norm_num; linarith) (by norm_num)).mono (by norm_num)
  have lit1 : Near64 (Fp.lit 40075160) 40075160 0 := by
    have := near64_lit (n := 40075160) (by norm_num)
    norm_num at this
    exact this
  have hpi := Real.pi_lt_d2
  have hpi0 := Real.pi_gt_three
  have rpd : |Real.pi / 180| ≤ 1 / 57 := by
    rw [abs_of_pos (by positivity)]
    norm_num at hpi ⊢
    linarith
  obtain ⟨k, hk, hk2⟩ := he.radPerDeg
  obtain ⟨q, hq, hq2⟩ : Near64 ((x.sub y).mul radPerDeg) ((lat - lat0) * (Real.pi / 180)) (1 / 2 ^ 48) :=
    (dlat.mul ⟨k, hk, hk2⟩ hv rpd (B := 4) (by norm_num) (by norm_num)).mono (by norm_num)
  have hb : |(lat - lat0 : ℝ) * (Real.pi / 180)| ≤ 80 * (1 / 57) := by
    rw [abs_mul]
    gcongr
  have h2 := abs_sub_abs_le_abs_sub (q : ℝ) ((lat - lat0) * (Real.pi / 180))
  have h3 : (80 : ℝ) * (1 / 57) + 1 / 2 ^ 48 ≤ 141 / 100 := by norm_num
  have hqb : |(q : ℝ)| ≤ 141 / 100 := by linarith
  obtain ⟨c, hc, hc2⟩ := he.cos _ q hq (by
    have : |(q : ℝ)| ≤ 4 := by linarith
    exact_mod_cast this)
  have hcos : (1 : ℝ) / 1000 ≤ c := by
    have h4 := Real.one_sub_sq_div_two_le_cos (x := (q : ℝ))
    have h5 : (q : ℝ) ^ 2 ≤ (141 / 100) ^ 2 := sq_le_sq' (by linarith [(abs_le.mp hqb).1]) (abs_le.mp hqb).2
    have h6 := (abs_le.mp hc2).1
    norm_num at h5 h6
    linarith
  have hc1 : |(c : ℝ)| ≤ 2 := by
    have h4 := abs_sub_abs_le_abs_sub (c : ℝ) (Real.cos q)
    have h5 := Real.abs_cos_le_one (q : ℝ)
    norm_num at hc2
    linarith
  obtain ⟨w, hw, hw2⟩ := lit1.mul (y := cos (Fp.mul (Fp.sub x y) radPerDeg)) (w := (c : ℝ)) (d := 0) ⟨c, hc, by simp⟩
    (V := 40075160) (W := 2) (by norm_num) hc1 (B := 2 * 40075160) (by norm_num) (by norm_num)
  refine ⟨w, hw, ?_⟩
  rintro rfl
  have := (abs_le.mp hw2).1
  norm_num at this
  linarith

/-- The record of an infinite place; its offset from a place on the globe is infinite. -/
lemma record_infinite (he : AccurateEnv (parsingEnv cos radPerDeg cast euler)) (hcast : ∀ s, cast (.inf s) = .inf s)
    {text : List Char} {o : Place} {org : Gps F64} (ho : FixOf org o) {roll pitch yaw : ℚ}
    (h : InfinitePlace text o.lat roll pitch yaw) :
    ∃ (fix : Gps F64) (z1 z2 z3 : Bool), Record (parsingEnv cos radPerDeg cast euler) text fix
        (euler (Fp.ofRat z1 roll) (Fp.ofRat z2 pitch) (Fp.ofRat z3 yaw)) ∧
      ∃ n s, gpsToMeters (parsingEnv cos radPerDeg cast euler) fix org n = .inf s := by
  obtain ⟨a, b, c, d, e, g, rest, hf, h1, h2, h3, h4, h5, h6, h7⟩ := h
  obtain ⟨v1, p1⟩ := numeral_parse (f := b64) h1
  obtain ⟨v2, p2⟩ := numeral_parse (f := b64) h2
  obtain ⟨v3, p3⟩ := numeral_parse (f := b64) h3
  obtain ⟨s4, e4⟩ := C76_reads_decimals (f := b32) d _ h4
  obtain ⟨s5, e5⟩ := C76_reads_decimals (f := b32) e _ h5
  obtain ⟨s6, e6⟩ := C76_reads_decimals (f := b32) g _ h6
  refine ⟨⟨v1, v2, v3⟩, s4, s5, s6, ⟨a, b, c, d, e, g, rest, _, _, _, hf, p1, p2, p3, e4, e5, e6, rfl⟩, ?_⟩
  have l360 : (Fp.lit 360 : F64).Is 360 := by
    have := (near64_lit (n := 360) (by norm_num))
    obtain ⟨q, hq, hd⟩ := this
    norm_num at hq hd
    obtain rfl : q = 360 := by
      have : (q : ℝ) = 360 := by linarith
      exact_mod_cast this
    exact hq
  have lpole : (Fp.lit 40008000 : F64).Is 40008000 := by
    have := (near64_lit (n := 40008000) (by norm_num))
    obtain ⟨q, hq, hd⟩ := this
    norm_num at hq hd
    obtain rfl : q = 40008000 := by
      have : (q : ℝ) = 40008000 := by linarith
      exact_mod_cast this
    exact hq
  obtain ⟨q1, o1, -⟩ := ho.lat
  obtain ⟨q2, o2, -⟩ := ho.lon
  obtain ⟨q3, o3, -⟩ := ho.alt
  rcases h7 with h7 | h7 | ⟨h7, lat, l1, l2, l3⟩
  · obtain ⟨s, hs⟩ := inf_parse (f := b64) h7
    rw [p1] at hs
    cases hs
    refine ⟨1, ?_⟩
    change ∃ s', cast (Fp.div (Fp.mul (Fp.sub (.inf s) org.lat) (Fp.lit 40008000)) (Fp.lit 360)) = .inf s'
    rw [inf_sub_fin o1]
    obtain ⟨t, ht⟩ := inf_mul_fin (s := s) lpole (by norm_num)
    rw [ht]
    obtain ⟨u, hu⟩ := inf_div_fin (s := t) l360
    rw [hu, hcast]
    exact ⟨_, rfl⟩
  · obtain ⟨s, hs⟩ := inf_parse (f := b64) h7
    rw [p3] at hs
    cases hs
    refine ⟨2, ?_⟩
    change ∃ s', cast (Fp.sub (.inf s) org.alt) = .inf s'
    rw [inf_sub_fin o3, hcast]
    exact ⟨_, rfl⟩
  · obtain ⟨s, hs⟩ := inf_parse (f := b64) h7
    rw [p2] at hs
    cases hs
    obtain ⟨z, hz⟩ := C76_reads_decimals (f := b64) a _ l1
    rw [p1] at hz
    cases hz
    refine ⟨0, ?_⟩
    change ∃ s', cast (Fp.div (Fp.mul (Fp.sub (.inf s) org.lon) (Fp.mul (Fp.lit 40075160)
      (cos (Fp.mul (Fp.sub (Fp.ofRat z lat) org.lat) radPerDeg)))) (Fp.lit 360)) = .inf s'
    obtain ⟨w, hw, hw0⟩ := circle_ne_zero he (x := Fp.ofRat z lat) (lat := lat)
      ((near64_ofRat z (B := 90) (by exact_mod_cast l2) (by norm_num)).mono (by norm_num)) ho.lat l3
    rw [inf_sub_fin o2]
    obtain ⟨t, ht⟩ := inf_mul_fin (s := s) hw hw0
    rw [ht]
    obtain ⟨u, hu⟩ := inf_div_fin (s := t) l360
    rw [hu, hcast]
    exact ⟨_, rfl⟩

end

/-! ## The folder -/

lemma utf8_inj {s t : List Char} (h : utf8 s = utf8 t) : s = t := by
  have h1 := (C77_utf8 _ s).mpr rfl
  rw [h, (C77_utf8 _ t).mpr rfl] at h1
  exact (Option.some.inj h1).symm

/-- A folder of readable records: the window opens, and this is what scan `k` is. -/
lemma folder_records {cos : F64 → F64} {radPerDeg : F64} {cast : F64 → F32} {euler : F32 → F32 → F32 → Quat F32}
    {w₁ w₂ : ℕ} {ext ext' : List (Fin 256)} {idx : List ℕ} {po pv : List (List (Fin 256))}
    (ho : IndexFolder w₁ ext idx po) (hv : IndexFolder w₂ ext' idx pv)
    {oxtBytes cloudBytes : List (Fin 256) → List (BitVec 8)}
    (htext : ∀ i ∈ idx, ∃ text, oxtBytes (indexName w₁ ext i) = utf8 text ∧ SixNumerals text)
    (hcloud : ∀ i ∈ idx, 16 ∣ (cloudBytes (indexName w₂ ext' i)).length) :
    ∃ rs, main (parsingEnv cos radPerDeg cast euler) (some (some (byteFolder po pv oxtBytes cloudBytes))) =
        .ok (.window rs) ∧ rs.clouds.length = idx.length ∧
      ∀ k i i0, idx[k]? = some i → idx[0]? = some i0 → ∀ text text0, oxtBytes (indexName w₁ ext i) = utf8 text →
        oxtBytes (indexName w₁ ext i0) = utf8 text0 → ∀ fix rot fix0 rot0,
        Record (parsingEnv cos radPerDeg cast euler) text fix rot →
        Record (parsingEnv cos radPerDeg cast euler) text0 fix0 rot0 →
        (rs.get k).1 = (if k = 0 then fun _ => Fp.lit 0 else gpsToMeters (parsingEnv cos radPerDeg cast euler) fix fix0) ∧
        (rs.get k).2.points.length = (cloudBytes (indexName w₂ ext' i)).length / 16 ∧
        ∀ (j : ℕ) x, (rs.get k).2.points[j]? = some x → x = PointCloud.transformPoint
          (⟨(rs.get k).1, rot⟩ : Pose F32 (Quat F32)).toHomogeneous
          (fun n : Fin 3 => f32OfBits (wordAt (cloudBytes (indexName w₂ ext' i)) (16 * j + 4 * n.val))) := by
  set d := byteFolder po pv oxtBytes cloudBytes with hd
  have hfile : ∀ i text, oxtBytes (indexName w₁ ext i) = utf8 text → d.oxtFile (indexName w₁ ext i) = .ok text := by
    intro i text h1
    change readToString (.ok (oxtBytes (indexName w₁ ext i))) = _
    unfold readToString
    simp only [h1, (C77_utf8 _ text).mpr rfl]
  have hpo : ∀ p ∈ po, ∃ i ∈ idx, indexName w₁ ext i = p := fun p hp => by
    simpa using ho.2.2.mem_iff.mp hp
  have hpv : ∀ p ∈ pv, ∃ i ∈ idx, indexName w₂ ext' i = p := fun p hp => by
    simpa using hv.2.2.mem_iff.mp hp
  obtain ⟨rs, hrs⟩ := (C60_window_iff (env := parsingEnv cos radPerDeg cast euler) (d := d) (po := po)
    (pv := pv) rfl rfl).1.mpr ⟨fun p hp => by
      obtain ⟨i, hi, rfl⟩ := hpo p hp
      obtain ⟨text, h1, h2⟩ := htext i hi
      obtain ⟨fix, rot, h4⟩ := record_numerals (cos := cos) (radPerDeg := radPerDeg) (cast := cast) (euler := euler) h2
      exact ⟨text, fix, _, hfile i text h1, h4⟩, fun p hp => by
      obtain ⟨i, hi, rfl⟩ := hpv p hp
      exact ⟨_, rfl, hcloud i hi⟩, by
      rw [ho.2.2.length_eq, hv.2.2.length_eq, List.length_map, List.length_map]⟩
  obtain ⟨l1, l2, h3⟩ := C60_recordings (indexFolder_sorted ho) (indexFolder_sorted hv) rfl rfl hrs
  have hl : po.length = idx.length := by rw [ho.2.2.length_eq, List.length_map]
  refine ⟨rs, hrs, l2.trans hl, fun k i i0 hk hi0 tx tx0 ht ht0 fx rt fx0 rt0 hr hr0 => ?_⟩
  obtain ⟨text, fix, rot, p0, text0, fix0, rot0, bytes, pose, e1, e2, e3, e4, e5, e6, e7, e8, e9, e10, e11, e12⟩ :=
    h3 k (indexName w₁ ext i) (indexName w₂ ext' i) (by rw [List.getElem?_map, hk]; rfl)
      (by rw [List.getElem?_map, hk]; rfl)
  obtain rfl : indexName w₁ ext i0 = p0 := by
    rw [List.getElem?_map, hi0] at e3
    simpa using e3
  obtain rfl : cloudBytes (indexName w₂ ext' i) = bytes := Except.ok.inj e6
  rw [hfile i tx ht] at e1
  rw [hfile i0 tx0 ht0] at e4
  cases e1
  cases e4
  obtain ⟨rfl, rfl⟩ := record_unique e2 hr
  obtain ⟨rfl, rfl⟩ := record_unique e5 hr0
  refine ⟨e11.trans e10, ?_, fun j x hx => ?_⟩
  · rw [e12]
    simp [fileCloud, PointCloud.transform, C13_points_fromPoints]
  · rw [e12] at hx
    unfold fileCloud PointCloud.transform at hx
    rw [C13_points_fromPoints, List.getElem?_map, C13_points_fromPoints, List.getElem?_map] at hx
    obtain ⟨y, hy, rfl⟩ := Option.map_eq_some_iff.mp hx
    obtain ⟨j', hj', rfl⟩ := Option.map_eq_some_iff.mp hy
    obtain ⟨hlt, hj'⟩ := List.getElem?_eq_some_iff.mp hj'
    rw [List.getElem_range] at hj'
    subst hj'
    rw [e11, ← e9]

end Verif.Props
