import Verif.Props.LostViz
import Verif.Props.BadFile

/-!
# C99: from the bytes of a recording folder
-/

namespace Verif.Props
open Spec Kitti Viz Scalar

/-- A coordinate of a moved point, from that of the translation. -/
lemma transform_row {F : Type} [Scalar F] (t : Point 3 F) (rot : Quat F) (n : Fin 3) (p : Point 3 F) :
    PointCloud.transformPoint (⟨t, rot⟩ : Pose F (Quat F)).toHomogeneous p n =
      t n *. lit 1 +. (rot.toMatrix n 2 *. p 2 +. (rot.toMatrix n 1 *. p 1 +. rot.toMatrix n 0 *. p 0)) := by
  unfold PointCloud.transformPoint Pose.toHomogeneous
  generalize rot.toMatrix = m
  obtain rfl | rfl | rfl : n = 0 ∨ n = 1 ∨ n = 2 := by fin_cases n <;> decide
  · simp
  · simp
  · simp

lemma transform_axis {F : Type} [Scalar F] {t t' : Point 3 F} {rot : Quat F} {p : Point 3 F} {n : Fin 3}
    (h : t n = t' n) :
    PointCloud.transformPoint (⟨t, rot⟩ : Pose F (Quat F)).toHomogeneous p n =
      PointCloud.transformPoint (⟨t', rot⟩ : Pose F (Quat F)).toHomogeneous p n := by
  rw [transform_row, transform_row, h]

section
variable [T : Trig F32] [Libm F32]

omit T [Libm F32] in
lemma parse_nan {f : Fmt} {s : List Char} (h : (signed s).2.map Char.toLower = "nan".toList) :
    parseFloat s = some (Fp.nan (f := f)) := by
  cases s with
  | nil => cases h
  | cons c r =>
    by_cases h1 : c = '-'
    · subst h1
      exact (C76_words (w := r) (neg := true) (.inr (.inr ⟨rfl, rfl⟩))).2 h
    · by_cases h2 : c = '+'
      · subst h2
        exact (C76_words (w := r) (neg := false) (.inr (.inl ⟨rfl, rfl⟩))).2 h
      · refine (C76_words (w := c :: r) (neg := false) (.inl ⟨rfl, rfl⟩)).2 ?_
        have : signed (c :: r) = (1, c :: r) := by
          unfold signed
          split
          · rename_i h3; exact absurd (List.cons.inj h3).1 h1
          · rename_i h3; exact absurd (List.cons.inj h3).1 h2
          · rfl
        rw [this] at h
        exact h

omit [Libm F32] T in
/-- What is read for a number that may be missing, and what might have been read. -/
lemma parse_known {s : List Char} {v : Option ℚ} {B : ℝ} (h : NumberOrNan s v) (hB : ∀ q, v = some q → |(q : ℝ)| ≤ B)
    (hB0 : 0 ≤ B) (hB2 : B ≤ 2 ^ 100) :
    ∃ x y : F64, parseFloat s = some x ∧ Near64 y (v.getD 0 : ℚ) (B / 2 ^ 53 + 1 / 2 ^ 200) ∧
      (v = none → x = .nan) ∧ (v ≠ none → x = y) := by
  cases v with
  | none =>
    exact ⟨.nan, Fp.ofRat false 0, parse_nan h, near64_ofRat false (by simpa using hB0) hB2, fun _ => rfl,
      fun h => absurd rfl h⟩
  | some q =>
    obtain ⟨z, hz⟩ := C76_reads_decimals (f := b64) s q h
    exact ⟨_, _, hz, near64_ofRat z (hB q rfl) hB2, (by rintro ⟨⟩), fun _ => rfl⟩

omit [Libm F32] T in
/-- The fix of a record with missing numbers, and one it might have been. -/
lemma fix_known {R : Type} {cos : F64 → F64} {radPerDeg : F64} {cast : F64 → F32} {euler : F32 → F32 → F32 → R}
    {text : List Char} {p : Known} {roll pitch yaw : ℚ} (hp : p.Ok) (h : SaysKnown text p roll pitch yaw) :
    ∃ fix alt : Gps F64, FixOf alt p.place ∧
      (p.lat = none → fix.lat = .nan) ∧ (p.lat ≠ none → fix.lat = alt.lat) ∧
      (p.lon = none → fix.lon = .nan) ∧ (p.lon ≠ none → fix.lon = alt.lon) ∧
      (p.alt = none → fix.alt = .nan) ∧ (p.alt ≠ none → fix.alt = alt.alt) ∧
      ∃ z1 z2 z3, Record (parsingEnv cos radPerDeg cast euler) text fix
        (euler (Fp.ofRat z1 roll) (Fp.ofRat z2 pitch) (Fp.ofRat z3 yaw)) := by
  obtain ⟨a, b, c, d, e, g, rest, hf, h1, h2, h3, h4, h5, h6⟩ := h
  have c1 : ∀ {a b : ℚ}, |a| ≤ b → |(a : ℝ)| ≤ (b : ℝ) := fun h => by exact_mod_cast h
  obtain ⟨x1, y1, p1, n1, l1, r1⟩ := parse_known h1 (fun q hq => c1 (hp.lat q hq)) (by norm_num) (by norm_num)
  obtain ⟨x2, y2, p2, n2, l2, r2⟩ := parse_known h2 (fun q hq => c1 (hp.lon q hq)) (by norm_num) (by norm_num)
  obtain ⟨x3, y3, p3, n3, l3, r3⟩ := parse_known h3 (fun q hq => c1 (hp.alt q hq)) (by norm_num) (by norm_num)
  obtain ⟨s4, e4⟩ := C76_reads_decimals (f := b32) d _ h4
  obtain ⟨s5, e5⟩ := C76_reads_decimals (f := b32) e _ h5
  obtain ⟨s6, e6⟩ := C76_reads_decimals (f := b32) g _ h6
  exact ⟨⟨x1, x2, x3⟩, ⟨y1, y2, y3⟩, ⟨n1.mono (by norm_num), n2.mono (by norm_num), n3.mono (by norm_num)⟩, l1, r1, l2, r2,
    l3, r3, s4, s5, s6, a, b, c, d, e, g, rest, _, _, _, hf, p1, p2, p3, e4, e5, e6, rfl⟩

omit [Libm F32] T in
lemma known_place_ok {p : Known} (hp : p.Ok) : p.place.Ok := by
  refine ⟨?_, ?_, ?_⟩
  · change |p.lat.getD 0| ≤ _
    cases h : p.lat with
    | none => norm_num
    | some q => exact hp.lat q h
  · change |p.lon.getD 0| ≤ _
    cases h : p.lon with
    | none => norm_num
    | some q => exact hp.lon q h
  · change |p.alt.getD 0| ≤ _
    cases h : p.alt with
    | none => norm_num
    | some q => exact hp.alt q h

omit [Libm F32] T in
/-- The translation from one fix to another with missing numbers. -/
lemma meters_known {R : Type} {cos : F64 → F64} {radPerDeg : F64} {cast : F64 → F32} {euler : F32 → F32 → F32 → R}
    (he : AccurateEnv (parsingEnv cos radPerDeg cast euler)) (hcos : cos .nan = .nan) (hcast : cast .nan = .nan)
    {p o : Known} (hp : p.Ok) (ho : o.Ok) {fix alt fix' alt' : Gps F64}
    (h1 : FixOf alt p.place ∧ (p.lat = none → fix.lat = .nan) ∧ (p.lat ≠ none → fix.lat = alt.lat) ∧
      (p.lon = none → fix.lon = .nan) ∧ (p.lon ≠ none → fix.lon = alt.lon) ∧
      (p.alt = none → fix.alt = .nan) ∧ (p.alt ≠ none → fix.alt = alt.alt))
    (h2 : FixOf alt' o.place ∧ (o.lat = none → fix'.lat = .nan) ∧ (o.lat ≠ none → fix'.lat = alt'.lat) ∧
      (o.lon = none → fix'.lon = .nan) ∧ (o.lon ≠ none → fix'.lon = alt'.lon) ∧
      (o.alt = none → fix'.alt = .nan) ∧ (o.alt ≠ none → fix'.alt = alt'.alt)) (n : Fin 3) :
    (p.Missing o n → gpsToMeters (parsingEnv cos radPerDeg cast euler) fix fix' n = .nan) ∧
    (¬ p.Missing o n → NearReal (gpsToMeters (parsingEnv cos radPerDeg cast euler) fix fix' n)
      (p.place.offset o.place n) (|p.place.offset o.place n| / 2 ^ 24 + 1 / 2 ^ 18)) := by
  obtain ⟨f1, a1, b1, a2, b2, a3, b3⟩ := h1
  obtain ⟨f2, c1, d1, c2, d2, c3, d3⟩ := h2
  have near := gps_near he (known_place_ok hp) (known_place_ok ho) f1 f2 n
  have sub : ∀ {x y : F64}, x = .nan ∨ y = .nan → Fp.sub x y = .nan := by
    rintro x y (rfl | rfl)
    · exact Fp.nan_sub
    · exact Fp.sub_nan
  have mul : ∀ {x y : F64}, x = .nan ∨ y = .nan → Fp.mul x y = .nan := by
    rintro x y (rfl | rfl)
    · cases y <;> rfl
    · cases x <;> rfl
  have div : ∀ {y : F64}, Fp.div .nan y = .nan := by intro y; cases y <;> rfl
  have hlat : p.lat = none ∨ o.lat = none → Fp.sub fix.lat fix'.lat = .nan := fun h => sub (h.imp a1 c1)
  fin_cases n
  · constructor
    · intro h
      change cast (Fp.div (Fp.mul (Fp.sub fix.lon fix'.lon)
        (Fp.mul (EARTH_EQUATOR_CIRCUMFERENCE) (cos (Fp.mul (Fp.sub fix.lat fix'.lat) radPerDeg)))) (Fp.lit 360)) = _
      rcases h with h | h
      · rw [hlat h, mul (.inl rfl), hcos, mul (y := .nan) (.inr rfl), mul (y := .nan) (.inr rfl), div, hcast]
      · rw [sub (h.imp a2 c2), mul (.inl rfl), div, hcast]
    · intro h
      change ¬ ((_ ∨ _) ∨ (_ ∨ _)) at h
      push Not at h
      obtain ⟨⟨h1, h2⟩, h3, h4⟩ := h
      unfold gpsToMeters at near ⊢
      rw [b1 h1, d1 h2, b2 h3, d2 h4]
      exact near
  · constructor
    · intro h
      change cast (Fp.div (Fp.mul (Fp.sub fix.lat fix'.lat) (EARTH_POLE_CIRCUMFERENCE)) (Fp.lit 360)) = _
      rw [hlat h, mul (.inl rfl), div, hcast]
    · intro h
      change ¬ (_ ∨ _) at h
      push Not at h
      obtain ⟨h1, h2⟩ := h
      unfold gpsToMeters at near ⊢
      rw [b1 h1, d1 h2]
      exact near
  · constructor
    · intro h
      change cast (Fp.sub fix.alt fix'.alt) = _
      rw [sub (h.imp a3 c3), hcast]
    · intro h
      change ¬ (_ ∨ _) at h
      push Not at h
      obtain ⟨h1, h2⟩ := h
      unfold gpsToMeters at near ⊢
      rw [b3 h1, d3 h2]
      exact near

omit [Libm F32] in
/-- C99, the files: the folder is as in C98, but latitudes, longitudes and altitudes may be written `nan`. The window
opens. From the second scan on, where a number needed for the position is missing in the record of the scan or in the
first record, that coordinate of the sensor and of every point is NaN; the other coordinates are as they would be
without. -/
theorem C99_records (hT : AccurateTrig T) {cos : F64 → F64} {radPerDeg : F64} {cast : F64 → F32}
    (he : AccurateEnv (parsingEnv cos radPerDeg cast (Quat.fromEuler (F := F32))))
    (hcos : cos .nan = .nan) (hcast : cast .nan = .nan)
    {w₁ w₂ : ℕ} {ext ext' : List (Fin 256)} {idx : List ℕ} {po pv : List (List (Fin 256))}
    (ho : IndexFolder w₁ ext idx po) (hv : IndexFolder w₂ ext' idx pv)
    {oxtBytes cloudBytes : List (Fin 256) → List (BitVec 8)} {known : ℕ → Known} {roll pitch yaw : ℕ → ℚ} {L S ε : ℝ}
    (htext : ∀ i ∈ idx, ∃ text, oxtBytes (indexName w₁ ext i) = utf8 text ∧ (known i).Ok ∧
      SaysKnown text (known i) (roll i) (pitch i) (yaw i))
    (hang : ∀ i ∈ idx, |roll i| ≤ 4 ∧ |pitch i| ≤ 4 ∧ |yaw i| ≤ 4)
    (hcloud : ∀ i ∈ idx, 16 ∣ (cloudBytes (indexName w₂ ext' i)).length ∧
      ∀ j < (cloudBytes (indexName w₂ ext' i)).length / 16, FiniteRecord (cloudBytes (indexName w₂ ext' i)) j →
        ∀ n : Fin 3, |((f32OfBits (wordAt (cloudBytes (indexName w₂ ext' i)) (16 * j + 4 * n.val))).val : ℝ)| ≤ L)
    {i0 : ℕ} (hi0 : idx[0]? = some i0)
    (hS : ∀ i ∈ idx, ∀ n, ¬ (known i).Missing (known i0) n → |(known i).place.offset (known i0).place n| ≤ S)
    (hS0 : 0 ≤ S) (hL1 : 1 ≤ L) (hL2 : L ≤ 2 ^ 100) (hε : ε = (1130 * L + 2 * S) / 2 ^ 24 + 1 / 2 ^ 18)
    {X : ℕ → Fin 3 → ℝ} (hX : ∀ i, X i = (known i).place.offset (known i0).place) :
    ∃ rs, main (parsingEnv cos radPerDeg cast Quat.fromEuler) (some (some (byteFolder po pv oxtBytes cloudBytes))) =
        .ok (.window rs) ∧ rs.clouds.length = idx.length ∧
      ∀ k i, idx[k]? = some i → (rs.get k).2.points.length = (cloudBytes (indexName w₂ ext' i)).length / 16 ∧
        ∀ n, (0 < k ∧ (known i).Missing (known i0) n →
            (rs.get k).1 n = .nan ∧ ∀ x ∈ (rs.get k).2.points, x n = .nan) ∧
          (¬ (0 < k ∧ (known i).Missing (known i0) n) → NearReal ((rs.get k).1 n) (X i n) ε ∧
            ∀ (j : ℕ) x, (rs.get k).2.points[j]? = some x →
              (FiniteRecord (cloudBytes (indexName w₂ ext' i)) j → NearReal (x n)
                (rigid (roll i) (pitch i) (yaw i) (X i)
                  (fun m => ((f32OfBits (wordAt (cloudBytes (indexName w₂ ext' i)) (16 * j + 4 * m.val))).val : ℝ)) n) ε) ∧
              (¬ FiniteRecord (cloudBytes (indexName w₂ ext' i)) j → x n = .nan ∨ ∃ s, x n = .inf s)) := by
  set d := byteFolder po pv oxtBytes cloudBytes with hd
  have hfile : ∀ i ∈ idx, ∃ text, d.oxtFile (indexName w₁ ext i) = .ok text ∧ (known i).Ok ∧
      SaysKnown text (known i) (roll i) (pitch i) (yaw i) := by
    intro i hi
    obtain ⟨text, h1, h2, h3⟩ := htext i hi
    refine ⟨text, ?_, h2, h3⟩
    change readToString (.ok (oxtBytes (indexName w₁ ext i))) = _
    unfold readToString
    simp only [h1, (C77_utf8 _ text).mpr rfl]
  have hpo : ∀ p ∈ po, ∃ i ∈ idx, indexName w₁ ext i = p := fun p hp => by
    simpa using ho.2.2.mem_iff.mp hp
  have hpv : ∀ p ∈ pv, ∃ i ∈ idx, indexName w₂ ext' i = p := fun p hp => by
    simpa using hv.2.2.mem_iff.mp hp
  obtain ⟨rs, hrs⟩ := (C60_window_iff (env := parsingEnv cos radPerDeg cast Quat.fromEuler) (d := d) (po := po)
    (pv := pv) rfl rfl).1.mpr ⟨fun p hp => by
      obtain ⟨i, hi, rfl⟩ := hpo p hp
      obtain ⟨text, h1, h2, h3⟩ := hfile i hi
      obtain ⟨fix, _, -, -, -, -, -, -, -, z1, z2, z3, h4⟩ := fix_known (cos := cos) (radPerDeg := radPerDeg)
        (cast := cast) (euler := Quat.fromEuler) h2 h3
      exact ⟨text, fix, _, h1, h4⟩, fun p hp => by
      obtain ⟨i, hi, rfl⟩ := hpv p hp
      exact ⟨_, rfl, (hcloud i hi).1⟩, by
      rw [ho.2.2.length_eq, hv.2.2.length_eq, List.length_map, List.length_map]⟩
  obtain ⟨l1, l2, h3⟩ := C60_recordings (indexFolder_sorted ho) (indexFolder_sorted hv) rfl rfl hrs
  have hl : po.length = idx.length := by rw [ho.2.2.length_eq, List.length_map]
  refine ⟨rs, hrs, l2.trans hl, fun k i hk => ?_⟩
  have hi : i ∈ idx := List.mem_of_getElem? hk
  have hii0 : i0 ∈ idx := List.mem_of_getElem? hi0
  obtain ⟨text, fix, rot, p0, text0, fix0, rot0, bytes, pose, e1, e2, e3, e4, e5, e6, e7, e8, e9, e10, e11, e12⟩ :=
    h3 k (indexName w₁ ext i) (indexName w₂ ext' i) (by rw [List.getElem?_map, hk]; rfl)
      (by rw [List.getElem?_map, hk]; rfl)
  obtain rfl : indexName w₁ ext i0 = p0 := by
    rw [List.getElem?_map, hi0] at e3
    simpa using e3
  obtain rfl : cloudBytes (indexName w₂ ext' i) = bytes := Except.ok.inj e6
  obtain ⟨text', f1, f2, f3⟩ := hfile i hi
  obtain ⟨text0', g1, g2, g3⟩ := hfile i0 hii0
  rw [f1] at e1
  rw [g1] at e4
  cases e1
  cases e4
  obtain ⟨fx, ax, q1, q2, q3, q4, q5, q6, q7, z1, z2, z3, k1⟩ := fix_known (cos := cos) (radPerDeg := radPerDeg)
    (cast := cast) (euler := Quat.fromEuler) f2 f3
  obtain ⟨fo, ao, u1, u2, u3, u4, u5, u6, u7, y1, y2, y3, k0⟩ := fix_known (cos := cos) (radPerDeg := radPerDeg)
    (cast := cast) (euler := Quat.fromEuler) g2 g3
  obtain ⟨rfl, rfl⟩ := record_unique e2 k1
  obtain ⟨rfl, rfl⟩ := record_unique e5 k0
  have tr : ∀ n, (0 < k ∧ (known i).Missing (known i0) n → pose.translation n = .nan) ∧
      (¬ (0 < k ∧ (known i).Missing (known i0) n) → NearReal (pose.translation n) (X i n)
        (|X i n| / 2 ^ 24 + 1 / 2 ^ 18) ∧ |X i n| ≤ min S (2 ^ 26)) := by
    intro n
    rw [e10, hX]
    by_cases hk0 : k = 0
    · subst hk0
      obtain rfl : i = i0 := by rw [hk] at hi0; simpa using hi0
      refine ⟨fun h => absurd h.1 (lt_irrefl 0), fun _ => ?_⟩
      rw [if_pos rfl, offset_self]
      refine ⟨⟨0, F32.zero_is, by norm_num⟩, ?_⟩
      rw [abs_zero]
      exact le_min hS0 (by norm_num)
    · rw [if_neg hk0]
      obtain ⟨m1, m2⟩ := meters_known he hcos hcast f2 g2 ⟨q1, q2, q3, q4, q5, q6, q7⟩ ⟨u1, u2, u3, u4, u5, u6, u7⟩ n
      refine ⟨fun h => m1 h.2, fun h => ?_⟩
      have hm : ¬ (known i).Missing (known i0) n := fun hm => h ⟨Nat.pos_of_ne_zero hk0, hm⟩
      exact ⟨m2 hm, le_min (hS i hi n hm) (offset_le (known_place_ok f2) (known_place_ok g2) n)⟩
  have hpt : ∀ (j : ℕ) x, (rs.get k).2.points[j]? = some x →
      x = PointCloud.transformPoint pose.toHomogeneous
        (fun n : Fin 3 => f32OfBits (wordAt (cloudBytes (indexName w₂ ext' i)) (16 * j + 4 * n.val))) ∧
      j < (cloudBytes (indexName w₂ ext' i)).length / 16 := by
    intro j x hx
    rw [e12] at hx
    unfold fileCloud PointCloud.transform at hx
    rw [C13_points_fromPoints, List.getElem?_map, C13_points_fromPoints, List.getElem?_map] at hx
    obtain ⟨y, hy, rfl⟩ := Option.map_eq_some_iff.mp hx
    obtain ⟨j', hj', rfl⟩ := Option.map_eq_some_iff.mp hy
    obtain ⟨hlt, hj'⟩ := List.getElem?_eq_some_iff.mp hj'
    rw [List.getElem_range] at hj'
    subst hj'
    exact ⟨rfl, by simpa using hlt⟩
  have hrow : ∀ n : Fin 3, pose.toHomogeneous n.castSucc 3 = pose.translation n := by
    intro n; fin_cases n <;> rfl
  refine ⟨?_, fun n => ⟨fun hm => ⟨?_, fun x hx => ?_⟩, fun hm => ⟨?_, fun j x hx => ?_⟩⟩⟩
  · rw [e12]
    simp [fileCloud, PointCloud.transform, C13_points_fromPoints]
  · rw [e11]; exact (tr n).1 hm
  · obtain ⟨j, hj⟩ := List.getElem?_of_mem hx
    rw [(hpt j x hj).1]
    change Fp.add (Fp.mul (pose.toHomogeneous n.castSucc 3) (Fp.lit 1)) _ = _
    rw [hrow, (tr n).1 hm]
    exact Fp.nan_add
  · rw [e11]
    obtain ⟨⟨q, hq, hqd⟩, hb⟩ := (tr n).2 hm
    refine ⟨q, hq, hqd.trans ?_⟩
    rw [hε]
    have := hb.trans (min_le_left _ _)
    have := abs_nonneg (X i n)
    gcongr
    linarith
  · obtain ⟨hx1, hx2⟩ := hpt j x hx
    refine ⟨fun hfin => ?_, fun hbad => ?_⟩
    · obtain ⟨a1, a2, a3⟩ := hang i hi
      -- the pose with zero for what is missing
      classical
      set t' : Point 3 F32 := fun m => if 0 < k ∧ (known i).Missing (known i0) m then Fp.lit 0 else pose.translation m
        with ht'
      set v' : Fin 3 → ℝ := fun m => if 0 < k ∧ (known i).Missing (known i0) m then 0 else X i m with hv'
      have near : ∀ m, NearReal (t' m) (v' m) (|v' m| / 2 ^ 24 + 1 / 2 ^ 18) := by
        intro m
        rw [ht', hv']
        dsimp only
        split_ifs with hmm
        · exact ⟨0, F32.zero_is, by norm_num⟩
        · exact ((tr m).2 hmm).1
      have bnd : ∀ m, |v' m| ≤ min S (2 ^ 26) := by
        intro m
        rw [hv']
        dsimp only
        split_ifs with hmm
        · rw [abs_zero]; exact le_min hS0 (by norm_num)
        · exact ((tr m).2 hmm).2
      have key := moved_near hT z1 z2 z3 near a1 a2 a3 L (min S (2 ^ 26)) bnd (min_le_right _ _) hL1 hL2
        (PointCloud.fromPoints [fun n : Fin 3 => f32OfBits (wordAt (cloudBytes (indexName w₂ ext' i)) (16 * j + 4 * n.val))])
        (fun y' hy' m => by
          rw [C13_points_fromPoints, List.mem_singleton] at hy'
          subst hy'
          exact ⟨hfin m, (hcloud i hi).2 j hx2 hfin m⟩)
      unfold PointCloud.transform at key
      rw [C13_points_fromPoints, C13_points_fromPoints, List.map_singleton] at key
      obtain ⟨hxy, -⟩ := List.forall₂_cons.mp key
      obtain ⟨q, hq, hqd⟩ := hxy n
      have hvn : v' n = X i n := if_neg hm
      have htn : t' n = pose.translation n := if_neg hm
      refine ⟨q, ?_, ?_⟩
      · have : x n = PointCloud.transformPoint (⟨t', Quat.fromEuler (Fp.ofRat z1 (roll i)) (Fp.ofRat z2 (pitch i))
            (Fp.ofRat z3 (yaw i))⟩ : Pose F32 (Quat F32)).toHomogeneous
            (fun n : Fin 3 => f32OfBits (wordAt (cloudBytes (indexName w₂ ext' i)) (16 * j + 4 * n.val))) n := by
          rw [hx1]
          obtain ⟨t, rt⟩ := pose
          dsimp only at e9 htn
          subst e9
          exact transform_axis htn.symm
        rw [this]
        exact hq
      · have hr : rigid (roll i) (pitch i) (yaw i) (X i)
            (fun m => ((f32OfBits (wordAt (cloudBytes (indexName w₂ ext' i)) (16 * j + 4 * m.val))).val : ℝ)) n =
          rigid (roll i) (pitch i) (yaw i) v'
            (fun m => ((f32OfBits (wordAt (cloudBytes (indexName w₂ ext' i)) (16 * j + 4 * m.val))).val : ℝ)) n := by
          unfold rigid
          rw [hvn]
        rw [hr]
        refine hqd.trans ?_
        rw [hε]
        have := min_le_left S (2 ^ 26)
        gcongr
    · unfold FiniteRecord at hbad
      push Not at hbad
      obtain ⟨n', hn'⟩ := hbad
      have := transformPoint_bad (f := pose.toHomogeneous) (p := fun n : Fin 3 =>
        f32OfBits (wordAt (cloudBytes (indexName w₂ ext' i)) (16 * j + 4 * n.val))) ⟨n', by simpa using hn'⟩ n
      rw [← hx1] at this
      cases hxn : x n with
      | nan => exact .inl rfl
      | inf s => exact .inr ⟨s, rfl⟩
      | fin q _ _ _ => rw [hxn] at this; cases this

omit [Libm F32] in
/-- The recordings of such a folder: scan `r` is the first from a lost sensor. -/
lemma lost_folder (hT : AccurateTrig T) {cos : F64 → F64} {radPerDeg : F64} {cast : F64 → F32}
    (he : AccurateEnv (parsingEnv cos radPerDeg cast (Quat.fromEuler (F := F32))))
    (hcos : cos .nan = .nan) (hcast : cast .nan = .nan)
    {w₁ w₂ : ℕ} {ext ext' : List (Fin 256)} {idx : List ℕ} {po pv : List (List (Fin 256))}
    (ho : IndexFolder w₁ ext idx po) (hv : IndexFolder w₂ ext' idx pv)
    {oxtBytes cloudBytes : List (Fin 256) → List (BitVec 8)} {known : ℕ → Known} {roll pitch yaw : ℕ → ℚ} {L S ε : ℝ}
    (htext : ∀ i ∈ idx, ∃ text, oxtBytes (indexName w₁ ext i) = utf8 text ∧ (known i).Ok ∧
      SaysKnown text (known i) (roll i) (pitch i) (yaw i))
    (hang : ∀ i ∈ idx, |roll i| ≤ 4 ∧ |pitch i| ≤ 4 ∧ |yaw i| ≤ 4)
    (hcloud : ∀ i ∈ idx, 16 ∣ (cloudBytes (indexName w₂ ext' i)).length ∧
      ∀ j < (cloudBytes (indexName w₂ ext' i)).length / 16, FiniteRecord (cloudBytes (indexName w₂ ext' i)) j ∧
        ∀ n : Fin 3, |((f32OfBits (wordAt (cloudBytes (indexName w₂ ext' i)) (16 * j + 4 * n.val))).val : ℝ)| ≤ L)
    {i0 : ℕ} (hi0 : idx[0]? = some i0)
    (hS : ∀ i ∈ idx, ∀ n, ¬ (known i).Missing (known i0) n → |(known i).place.offset (known i0).place n| ≤ S)
    (hS0 : 0 ≤ S) (hL1 : 1 ≤ L) (hL2 : L ≤ 2 ^ 100) (hε : ε = (1130 * L + 2 * S) / 2 ^ 24 + 1 / 2 ^ 18)
    {X : ℕ → Fin 3 → ℝ} (hX : ∀ i, X i = (known i).place.offset (known i0).place) {pts : ℕ → (Fin 3 → ℝ) → Prop}
    (hpts : ∀ i, pts i = FinitePoint (roll i) (pitch i) (yaw i) (X i) (cloudBytes (indexName w₂ ext' i)))
    {M : ℕ} (hM1 : 600 ≤ M) (hM : M + 101 ≤ 2 ^ 18) {ρ : ℚ} (hρ : ρ = (Fp.lit 0.1 : F32).val)
    {r ir : ℕ} (hr0 : 0 < r) (hr : idx[r]? = some ir) (hlost : ∃ n, (known ir).Missing (known i0) n)
    (hfirst : ∀ k, 0 < k → k < r → ∀ i, idx[k]? = some i → ∀ n, ¬ (known i).Missing (known i0) n)
    (hscan : ∀ k < r, ∀ i, idx[k]? = some i → ∃ b, RealScan M ρ ε b (X i) (pts i))
    (hscan' : KnownScan M ρ ε ((known ir).Missing (known i0)) (X ir) (pts ir)) :
    ∃ rs, main (parsingEnv cos radPerDeg cast Quat.fromEuler) (some (some (byteFolder po pv oxtBytes cloudBytes))) =
        .ok (.window rs) ∧ rs.clouds.length = idx.length ∧ LostPlay M 100 ρ 60 (2 : Fin 3) r rs.get := by
  obtain ⟨rs, hmain, hlen, hrec⟩ := C99_records hT he hcos hcast ho hv htext hang
    (fun i hi => ⟨(hcloud i hi).1, fun j hj _ => ((hcloud i hi).2 j hj).2⟩) hi0 hS hS0 hL1 hL2 hε hX
  refine ⟨rs, hmain, hlen, ?_⟩
  have hrlt : r < idx.length := (List.getElem?_eq_some_iff.mp hr).1
  have hrlo : (1 : ℚ) / 2 ^ 20 ≤ ρ := by rw [hρ]; decide +kernel
  have hrhi : ρ ≤ (2 : ℚ) ^ 20 := by rw [hρ]; decide +kernel
  have hρ60 : (60 : ℚ) ≤ 600 * ρ := by rw [hρ]; decide +kernel
  have hpos : 0 < ρ := lt_of_lt_of_le (by norm_num) hrlo
  refine ⟨by decide, by omega, by omega, fun k hk => ?_, .inl ⟨⟨?_, fun n => ?_, fun p hp n => ?_⟩, ?_⟩, by norm_num, ?_⟩
  · have hki : idx[k]? = some idx[k] := List.getElem?_eq_getElem (by omega)
    obtain ⟨g1, g2⟩ := hrec k _ hki
    have hnm : ∀ n, ¬ (0 < k ∧ (known idx[k]).Missing (known i0) n) := fun n h => hfirst k h.1 hk _ hki n h.2
    obtain ⟨b, hb⟩ := hscan k hk _ hki
    obtain ⟨x, hx, -⟩ := nanScan_of_real hrlo hrhi (fun n => ((g2 n).2 (hnm n)).1) hb (fun p hp => by
      obtain ⟨j, hj⟩ := List.getElem?_of_mem hp
      have hjlt := (List.getElem?_eq_some_iff.mp hj).1
      have hf := ((hcloud _ (List.mem_of_getElem? hki)).2 j (by rw [← g1]; exact hjlt)).1
      left
      rw [hpts]
      exact ⟨_, ⟨j, by rw [← g1]; exact hjlt, hf, rfl⟩, fun n => (((g2 n).2 (hnm n)).2 j p hj).1 hf⟩)
    exact ⟨x, hx⟩
  · obtain ⟨n, hn⟩ := hlost
    exact ⟨n, (((hrec r ir hr).2 n).1 ⟨hr0, hn⟩).1⟩
  · by_cases hn : (known ir).Missing (known i0) n
    · exact .inl (((hrec r ir hr).2 n).1 ⟨hr0, hn⟩).1
    · obtain ⟨x, hx, hd⟩ := (((hrec r ir hr).2 n).2 fun h => hn h.2).1
      refine .inr ⟨x, hx, ?_⟩
      have h2 := abs_sub_abs_le_abs_sub (x : ℝ) (X ir n)
      have : |(x : ℝ)| ≤ M * ρ := by linarith [hscan'.sensor_near n hn]
      exact_mod_cast this
  · by_cases hn : (known ir).Missing (known i0) n
    · exact .inl ((((hrec r ir hr).2 n).1 ⟨hr0, hn⟩).2 p hp)
    · obtain ⟨j, hj⟩ := List.getElem?_of_mem hp
      have hjlt := (List.getElem?_eq_some_iff.mp hj).1
      have hjlt' : j < (cloudBytes (indexName w₂ ext' ir)).length / 16 := by rw [← (hrec r ir hr).1]; exact hjlt
      have hf := ((hcloud _ (List.mem_of_getElem? hr)).2 j hjlt').1
      obtain ⟨y, hy, hd⟩ := ((((hrec r ir hr).2 n).2 fun h => hn h.2).2 j p hj).1 hf
      refine .inr ⟨y, hy, ?_⟩
      have h2 := hscan'.points_near n hn _ (by rw [hpts]; exact ⟨j, hjlt', hf, rfl⟩)
      have h3 := abs_sub_abs_le_abs_sub (y : ℝ) (rigid (roll ir) (pitch ir) (yaw ir) (X ir)
        (fun m => ((f32OfBits (wordAt (cloudBytes (indexName w₂ ext' ir)) (16 * j + 4 * m.val))).val : ℝ)) n)
      have : |(y : ℝ)| ≤ M * ρ := by linarith
      exact_mod_cast this
  · obtain ⟨Y, hY, hE⟩ := hscan'.elsewhere
    rw [hpts] at hY
    obtain ⟨j, hj, hf, rfl⟩ := hY
    have hjl : j < (rs.get r).2.points.length := by rw [(hrec r ir hr).1]; exact hj
    have hjp : (rs.get r).2.points[j]? = some (rs.get r).2.points[j] := List.getElem?_eq_getElem hjl
    refine ⟨_, List.mem_of_getElem? hjp, ?_⟩
    rcases hE with ⟨n, hn2, hn, hE⟩ | ⟨hn, hE⟩
    · obtain ⟨⟨x, hx, hxd⟩, hp⟩ := ((hrec r ir hr).2 n).2 fun h => hn h.2
      obtain ⟨y, hy, hyd⟩ := (hp j _ hjp).1 hf
      refine .inl ⟨n, hn2, x, y, hx, hy, ?_⟩
      set Yn := rigid (roll ir) (pitch ir) (yaw ir) (X ir)
        (fun m => ((f32OfBits (wordAt (cloudBytes (indexName w₂ ext' ir)) (16 * j + 4 * m.val))).val : ℝ)) n with hYn
      have hdd : |Yn - X ir n - ((y : ℝ) - x)| ≤ 2 * ε := by
        rw [show Yn - X ir n - ((y : ℝ) - x) = (x - X ir n) - (y - Yn) by ring]
        have := abs_sub ((x : ℝ) - X ir n) (y - Yn)
        linarith
      have h6 := abs_sub_abs_le_abs_sub (Yn - X ir n) ((y : ℝ) - x)
      have : 2 * (ρ : ℝ) ≤ |(y : ℝ) - x| := by linarith
      exact_mod_cast this
    · obtain ⟨⟨x, hx, hxd⟩, hp⟩ := ((hrec r ir hr).2 2).2 fun h => hn h.2
      obtain ⟨y, hy, hyd⟩ := (hp j _ hjp).1 hf
      refine .inr ⟨x, y, hx, hy, ?_⟩
      have h5 := abs_le.mp hxd
      have h6 := abs_le.mp hyd
      have : (x : ℝ) + 2 * ρ ≤ y := by linarith [h5.2, h6.1]
      exact_mod_cast this
  · have : (600 : ℚ) ≤ M := by exact_mod_cast hM1
    nlinarith

/-- C99: from the bytes of a recording folder. The folder is as in C80, but latitudes, longitudes and altitudes may be
written `nan`. Scan `r` is the first one of which a coordinate of the position is missing, for a `nan` in its record
or, if `r = 1`, in the first record. The scans before it are in the working range, and so is scan `r` on the axes
that are not missing, with a point two cells or more aside, or above the sensor. Then the window opens and the program
freezes: in every run, scan `r` is the last that is started and its worker never gets past integrating; in every fair
run a moment comes from which on nothing new is drawn and no scan is started, while the window stays open. -/
theorem C99_folder (hl : TestedLn) (hT : AccurateTrig T) {cos : F64 → F64} {radPerDeg : F64} {cast : F64 → F32}
    (he : AccurateEnv (parsingEnv cos radPerDeg cast (Quat.fromEuler (F := F32))))
    (hcos : cos .nan = .nan) (hcast : cast .nan = .nan)
    {w₁ w₂ : ℕ} {ext ext' : List (Fin 256)} {idx : List ℕ} {po pv : List (List (Fin 256))}
    (ho : IndexFolder w₁ ext idx po) (hv : IndexFolder w₂ ext' idx pv)
    {oxtBytes cloudBytes : List (Fin 256) → List (BitVec 8)} {known : ℕ → Known} {roll pitch yaw : ℕ → ℚ} {L S ε : ℝ}
    (htext : ∀ i ∈ idx, ∃ text, oxtBytes (indexName w₁ ext i) = utf8 text ∧ (known i).Ok ∧
      SaysKnown text (known i) (roll i) (pitch i) (yaw i))
    (hang : ∀ i ∈ idx, |roll i| ≤ 4 ∧ |pitch i| ≤ 4 ∧ |yaw i| ≤ 4)
    (hcloud : ∀ i ∈ idx, 16 ∣ (cloudBytes (indexName w₂ ext' i)).length ∧
      ∀ j < (cloudBytes (indexName w₂ ext' i)).length / 16, FiniteRecord (cloudBytes (indexName w₂ ext' i)) j ∧
        ∀ n : Fin 3, |((f32OfBits (wordAt (cloudBytes (indexName w₂ ext' i)) (16 * j + 4 * n.val))).val : ℝ)| ≤ L)
    {i0 : ℕ} (hi0 : idx[0]? = some i0)
    (hS : ∀ i ∈ idx, ∀ n, ¬ (known i).Missing (known i0) n → |(known i).place.offset (known i0).place n| ≤ S)
    (hS0 : 0 ≤ S) (hL1 : 1 ≤ L) (hL2 : L ≤ 2 ^ 100) (hε : ε = (1130 * L + 2 * S) / 2 ^ 24 + 1 / 2 ^ 18)
    {X : ℕ → Fin 3 → ℝ} (hX : ∀ i, X i = (known i).place.offset (known i0).place) {pts : ℕ → (Fin 3 → ℝ) → Prop}
    (hpts : ∀ i, pts i = FinitePoint (roll i) (pitch i) (yaw i) (X i) (cloudBytes (indexName w₂ ext' i)))
    {M : ℕ} (hM1 : 600 ≤ M) (hM : M + 101 ≤ 2 ^ 18) {ρ : ℚ} (hρ : ρ = (Fp.lit 0.1 : F32).val)
    {r ir : ℕ} (hr0 : 0 < r) (hr : idx[r]? = some ir) (hlost : ∃ n, (known ir).Missing (known i0) n)
    (hfirst : ∀ k, 0 < k → k < r → ∀ i, idx[k]? = some i → ∀ n, ¬ (known i).Missing (known i0) n)
    (hscan : ∀ k < r, ∀ i, idx[k]? = some i → ∃ b, RealScan M ρ ε b (X i) (pts i))
    (hscan' : KnownScan M ρ ε ((known ir).Missing (known i0)) (X ir) (pts ir))
    {o : OccupancyGridMap 3 F32} (hdef : OccupancyGridMap.default_ = .ok o) :
    ∃ rs, main (parsingEnv cos radPerDeg cast Quat.fromEuler) (some (some (byteFolder po pv oxtBytes cloudBytes))) =
        .ok (.window rs) ∧ rs.clouds.length = idx.length ∧
      ∀ ord : ℕ → List (Verif.Cell 3) → List (Verif.Cell 3), (∀ r, IsOrder (ord r)) →
        (∀ s, Reach (occOps o.noiseModel rs.get ord) rs.clouds.length o.gridMap s →
          s.workers.length ≤ r + 1 ∧ (∀ (k : ℕ) pc, s.workers[k]? = some (pc, r) → NotPast pc) ∧ s.main ≠ .dead) ∧
        ∀ σ, Execution (occOps o.noiseModel rs.get ord) rs.clouds.length o.gridMap σ →
          Fair (occOps o.noiseModel rs.get ord) rs.clouds.length σ →
          ∃ i : ℕ, ∀ j, i ≤ j → (σ j).main = .check ∧ (σ j).finished = false ∧ (σ j).tracked = (σ i).tracked ∧
            (σ j).workers.length = (σ i).workers.length := by
  obtain ⟨rs, hmain, hlen, hplay⟩ := lost_folder hT he hcos hcast ho hv htext hang hcloud hi0 hS hS0 hL1 hL2 hε hX hpts hM1
    hM hρ hr0 hr hlost hfirst hscan hscan'
  refine ⟨rs, hmain, hlen, fun ord hord => ?_⟩
  have hrlt : r < idx.length := (List.getElem?_eq_some_iff.mp hr).1
  obtain ⟨m0, rfl, e2, e3, e4⟩ := default_start hl hρ hdef
  have hml : defaultNM.maxRange.Is 60 := by decide +kernel
  rw [hlen]
  refine ⟨fun s hs => ?_, fun σ h1 h2 => C99_freezes (.inr rfl) hrlt e2 e4 e3 hord hml hplay h1 h2⟩
  obtain ⟨a1, a2, a3, -⟩ := C99_visualizer (.inr rfl) hrlt e2 e4 e3 hord hplay hs
  exact ⟨a1, a2, a3⟩

end

/-! ## An example -/

open Classical in
/-- Functions as asked for, that keep NaN. -/
noncomputable def nanCos (x : F64) : F64 := if x = .nan then .nan else someEnv.cos x

open Classical in
noncomputable def nanCast (x : F64) : F32 := if x = .nan then .nan else someEnv.cast x

lemma is_ne_nan {x : F64} {q : ℚ} (h : x.Is q) : x ≠ .nan := by
  rintro rfl
  obtain ⟨_, _, _, h⟩ := h
  cases h

lemma twoPoints_finite (X Y : Fin 3 → ℝ) : FinitePoint (0 : ℚ) (0 : ℚ) (0 : ℚ) X twoPoints Y ↔
    Y = ![2 + X 0, 1 + X 1, 1 / 2 + X 2] ∨ Y = ![-2 + X 0, -1 + X 1, -1 / 2 + X 2] := by
  have h0 : ∀ m : Fin 3, (f32OfBits (wordAt twoPoints (16 * 0 + 4 * m.val))).val = ![2, 1, 1 / 2] m := by decide +kernel
  have h1 : ∀ m : Fin 3, (f32OfBits (wordAt twoPoints (16 * 1 + 4 * m.val))).val = ![-2, -1, -1 / 2] m := by
    decide +kernel
  have f0 : FiniteRecord twoPoints 0 := by unfold FiniteRecord; decide +kernel
  have f1 : FiniteRecord twoPoints 1 := by unfold FiniteRecord; decide +kernel
  have e0 : (rigid (0 : ℚ) (0 : ℚ) (0 : ℚ) X fun m =>
      ((f32OfBits (wordAt twoPoints (16 * 0 + 4 * m.val))).val : ℝ)) = ![2 + X 0, 1 + X 1, 1 / 2 + X 2] := by
    simp only [h0]
    funext i; fin_cases i <;> simp [rigid, rotX, rotY, rotZ]
  have e1 : (rigid (0 : ℚ) (0 : ℚ) (0 : ℚ) X fun m =>
      ((f32OfBits (wordAt twoPoints (16 * 1 + 4 * m.val))).val : ℝ)) = ![-2 + X 0, -1 + X 1, -1 / 2 + X 2] := by
    simp only [h1]
    funext i; fin_cases i <;> simp [rigid, rotX, rotY, rotZ]
  unfold FinitePoint
  rw [show twoPoints.length / 16 = 2 by decide]
  constructor
  · rintro ⟨j, hj, hf, rfl⟩
    obtain rfl | rfl : j = 0 ∨ j = 1 := by omega
    · exact .inl e0
    · exact .inr e1
  · rintro (rfl | rfl)
    · exact ⟨0, by norm_num, f0, e0.symm⟩
    · exact ⟨1, by norm_num, f1, e1.symm⟩

/-- A folder with two recordings, the altitude of the second missing: the window opens, and no run gets past the
second scan. -/
example : ∃ (rs : _) (o : OccupancyGridMap 3 F32),
    main (parsingEnv nanCos someEnv.radPerDeg nanCast (@Quat.fromEuler F32 _ someTrig))
      (some (some (byteFolder [indexName 10 (ascii ".txt") 0, indexName 10 (ascii ".txt") 1]
        [indexName 10 (ascii ".bin") 0, indexName 10 (ascii ".bin") 1]
        (fun p => utf8 (if p = indexName 10 (ascii ".txt") 0 then "49 8.4 116.4 0 0 0".toList else
          "49 8.4 NaN 0 0 0".toList)) fun _ => twoPoints))) = .ok (.window rs) ∧
    @OccupancyGridMap.default_ F32 _ 3 testedLibm = .ok o ∧
    ∀ s, Reach (occOps o.noiseModel rs.get fun _ l => l) rs.clouds.length o.gridMap s →
      s.workers.length ≤ 2 ∧ (∀ (k : ℕ) pc, s.workers[k]? = some (pc, 1) → NotPast pc) ∧ s.main ≠ .dead := by
  let _ := someTrig
  let _ := testedLibm
  have hl : TestedLn := by constructor <;> decide +kernel
  have hdef : ∃ o : OccupancyGridMap 3 F32, OccupancyGridMap.default_ = .ok o := by
    obtain ⟨m0, e1, -⟩ := new_empty_placed (D := 3) (ρ := 13421773 / 2 ^ 27) (r := (Fp.lit 0.1 : F32)) (by norm_num)
      (by refine ⟨by decide +kernel, ?_, ?_⟩ <;> norm_num) (t := 100) (by norm_num) (by norm_num) (Fp.lit 0 : F32)
    refine ⟨⟨m0, defaultNM⟩, ((C42_default_model hl).2.1 _).mpr ?_⟩
    unfold OccupancyGridMap.new
    rw [Verif.M.bind_eq_ok]
    exact ⟨m0, e1, rfl⟩
  obtain ⟨o, ho⟩ := hdef
  set known : ℕ → Known := fun i => ⟨some 49, some (42 / 5), if i = 0 then some (582 / 5) else none⟩ with hkn
  have hok : ∀ i, (known i).Ok := by
    intro i
    refine ⟨?_, ?_, ?_⟩
    · rintro q ⟨⟩; norm_num
    · rintro q ⟨⟩; norm_num [abs_le]
    · intro q hq
      rw [hkn] at hq
      dsimp only at hq
      split_ifs at hq
      cases hq
      norm_num [abs_le]
  have hoff : ∀ i, (known i).place.offset (known 0).place = ![0, 0, if i = 0 then 0 else -(582 / 5)] := by
    intro i
    funext n
    by_cases hi : i = 0 <;> fin_cases n <;> simp [Place.offset, Known.place, hkn, hi]
  have hmiss : ∀ i n, (known i).Missing (known 0) n ↔ i ≠ 0 ∧ n = 2 := by
    intro i n
    by_cases hi : i = 0 <;> fin_cases n <;> simp [Known.Missing, hkn, hi]
  have htext : ∀ i ∈ [0, 1], ∃ text, utf8 (if indexName 10 (ascii ".txt") i = indexName 10 (ascii ".txt") 0 then
        "49 8.4 116.4 0 0 0".toList else "49 8.4 NaN 0 0 0".toList) = utf8 text ∧ (known i).Ok ∧
      SaysKnown text (known i) 0 0 0 := by
    intro i hi
    refine ⟨_, rfl, hok i, ?_⟩
    rcases List.mem_pair.mp hi with rfl | rfl
    · rw [if_pos rfl]
      exact ⟨"49".toList, "8.4".toList, "116.4".toList, "0".toList, "0".toList, "0".toList, [],
        fields_iff.mpr (by decide +kernel), by change decimal _ = some _; decide +kernel,
        by change decimal _ = some _; decide +kernel, by change decimal _ = some _; decide +kernel, by decide +kernel,
        by decide +kernel, by decide +kernel⟩
    · rw [if_neg (by decide +kernel)]
      exact ⟨"49".toList, "8.4".toList, "NaN".toList, "0".toList, "0".toList, "0".toList, [],
        fields_iff.mpr (by decide +kernel), by change decimal _ = some _; decide +kernel,
        by change decimal _ = some _; decide +kernel, by change List.map _ _ = _; decide +kernel, by decide +kernel,
        by decide +kernel, by decide +kernel⟩
  have hcloud : ∀ i ∈ [0, 1], 16 ∣ twoPoints.length ∧ ∀ j < twoPoints.length / 16, FiniteRecord twoPoints j ∧
      ∀ n : Fin 3, |((f32OfBits (wordAt twoPoints (16 * j + 4 * n.val))).val : ℝ)| ≤ 2 := by
    have key : ∀ j < twoPoints.length / 16, ∀ n : Fin 3,
        |(f32OfBits (wordAt twoPoints (16 * j + 4 * n.val))).val| ≤ 2 := by decide +kernel
    have key' : ∀ j < twoPoints.length / 16, FiniteRecord twoPoints j := by unfold FiniteRecord; decide +kernel
    exact fun i _ => ⟨by decide, fun j hj => ⟨key' j hj, fun n => by exact_mod_cast key j hj n⟩⟩
  have hε : (2260 / 2 ^ 24 + 1 / 2 ^ 18 : ℝ) = (1130 * 2 + 2 * 0) / 2 ^ 24 + 1 / 2 ^ 18 := by norm_num
  have he := C76_accurate (cos := nanCos) (radPerDeg := someEnv.radPerDeg) (cast := nanCast)
    (euler := Quat.fromEuler (F := F32))
    (fun x q h h4 => by rw [nanCos, if_neg (is_ne_nan h)]; exact someEnv_accurate.cos x q h h4)
    someEnv_accurate.radPerDeg
    (fun x q h => by rw [nanCast, if_neg (is_ne_nan h)]; exact someEnv_accurate.cast x q h)
  have third : ∀ a b c : ℝ, (![a, b, c] : Fin 3 → ℝ) 2 = c := fun _ _ _ => rfl
  obtain ⟨rs, h1, hlen, h2⟩ := C99_folder (w₁ := 10) (w₂ := 10) (ext := ascii ".txt") (ext' := ascii ".bin") hl
    someTrig_accurate he (if_pos rfl) (if_pos rfl)
    (idx := [0, 1]) (po := [indexName 10 (ascii ".txt") 0, indexName 10 (ascii ".txt") 1])
    (pv := [indexName 10 (ascii ".bin") 0, indexName 10 (ascii ".bin") 1])
    (oxtBytes := fun p => utf8 (if p = indexName 10 (ascii ".txt") 0 then "49 8.4 116.4 0 0 0".toList else
          "49 8.4 NaN 0 0 0".toList)) (cloudBytes := fun _ => twoPoints)
    (known := known) (roll := fun _ => 0) (pitch := fun _ => 0) (yaw := fun _ => 0)
    (X := fun i => ![0, 0, if i = 0 then 0 else -(582 / 5)])
    (pts := fun i => FinitePoint (0 : ℚ) (0 : ℚ) (0 : ℚ) ![0, 0, if i = 0 then 0 else -(582 / 5)] twoPoints)
    ⟨by simp, by decide, by simp⟩ ⟨by simp, by decide, by simp⟩ htext (by simp) hcloud (i0 := 0) rfl
    (S := 0) (fun i hi n hn => by
      rw [hmiss] at hn
      rw [hoff]
      rcases List.mem_pair.mp hi with rfl | rfl
      · fin_cases n <;> simp
      · fin_cases n <;> simp at hn ⊢) le_rfl (by norm_num) (by norm_num) hε (fun i => (hoff i).symm)
    (fun i => rfl) (M := 600) (by norm_num) (by norm_num) side_val.symm
    (r := 1) (ir := 1) (by norm_num) rfl ⟨2, by rw [hmiss]; simp⟩ (fun k h1 h2 => by omega)
    (fun k hk i hi => by
      obtain rfl : k = 0 := by omega
      obtain rfl : (0 : ℕ) = i := by simpa using hi
      refine ⟨-5, by intro i; fin_cases i <;> norm_num, fun Y hY n => ?_, fun Y hY => ?_⟩
      · rw [twoPoints_finite] at hY
        rcases hY with rfl | rfl <;> fin_cases n <;> norm_num [← le_sub_iff_add_le, le_abs, abs_le, third]
      · rw [twoPoints_finite] at hY
        rcases hY with rfl | rfl
        · rw [third, third]; norm_num
        · rw [third, third]; norm_num)
    ⟨fun i hi => by
      rw [hmiss] at hi
      fin_cases i
      · norm_num
      · norm_num
      · exact absurd ⟨one_ne_zero, rfl⟩ hi,
    fun i hi Y hY => by
      rw [hmiss] at hi
      rw [twoPoints_finite] at hY
      rcases hY with rfl | rfl <;> fin_cases i
      · norm_num [← le_sub_iff_add_le, abs_le]
      · norm_num [← le_sub_iff_add_le, abs_le]
      · exact absurd ⟨one_ne_zero, rfl⟩ hi
      · norm_num [← le_sub_iff_add_le, abs_le]
      · norm_num [← le_sub_iff_add_le, abs_le]
      · exact absurd ⟨one_ne_zero, rfl⟩ hi,
    _, (twoPoints_finite _ _).mpr (.inl rfl), .inl ⟨0, by decide, by rw [hmiss]; simp, by
      norm_num [le_abs]⟩⟩ ho
  exact ⟨rs, o, h1, ho, fun s hs => (h2 _ fun _ l => List.Perm.refl l).1 s hs⟩

end Verif.Props
