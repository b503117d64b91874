import Verif.Props.First
import Verif.Props.WrongFile

/-!
# C102: from the bytes of a recording folder
-/

namespace Verif.Props
open Spec Kitti Viz Scalar

section
variable {cos : F64 → F64} {radPerDeg : F64} {cast : F64 → F32} {euler : F32 → F32 → F32 → Quat F32}

lemma fin_sub_inf {f : Fmt} {s : Bool} {y : Fp f} {q : ℚ} (h : y.Is q) : ∃ t, Fp.sub y (.inf s) = .inf t := by
  obtain ⟨_, _, _, rfl⟩ := h
  exact ⟨_, rfl⟩

/-- The first record has an infinite place; the offset of a place on the globe from it is infinite. -/
lemma first_infinite (he : AccurateEnv (parsingEnv cos radPerDeg cast euler)) (hcast : ∀ s, cast (.inf s) = .inf s)
    {text : List Char} {p : Place} {fix : Gps F64} (hp : FixOf fix p) {roll pitch yaw : ℚ}
    (h : InfinitePlace text p.lat roll pitch yaw) :
    ∃ (org : Gps F64) (z1 z2 z3 : Bool), Record (parsingEnv cos radPerDeg cast euler) text org
        (euler (Fp.ofRat z1 roll) (Fp.ofRat z2 pitch) (Fp.ofRat z3 yaw)) ∧
      ∃ n s, gpsToMeters (parsingEnv cos radPerDeg cast euler) fix org n = .inf s := by
  obtain ⟨a, b, c, d, e, g, rest, hf, h1, h2, h3, h4, h5, h6, h7⟩ := h
  obtain ⟨v1, p1⟩ := numeral_parse (f := b64) h1
  obtain ⟨v2, p2⟩ := numeral_parse (f := b64) h2
  obtain ⟨v3, p3⟩ := numeral_parse (f := b64) h3
  obtain ⟨s4, e4⟩ := C76_reads_decimals (f := b32) d _ h4
  obtain ⟨s5, e5⟩ := C76_reads_decimals (f := b32) e _ h5
  obtain ⟨s6, e6⟩ := C76_reads_decimals (f := b32) g _ h6
  refine ⟨⟨v1, v2, v3⟩, s4, s5, s6, ⟨a, b, c, d, e, g, rest, _, _, _, hf, p1, p2, p3, e4, e5, e6, rfl⟩, ?_⟩
  have l360 : (Fp.lit 360 : F64).Is 360 := by
    have := (near64_lit (n := 360) (by norm_num))
    obtain ⟨q, hq, hd⟩ := this
    norm_num at hq hd
    obtain rfl : q = 360 := by
      have : (q : ℝ) = 360 := by linarith
      exact_mod_cast this
    exact hq
  have lpole : (Fp.lit 40008000 : F64).Is 40008000 := by
    have := (near64_lit (n := 40008000) (by norm_num))
    obtain ⟨q, hq, hd⟩ := this
    norm_num at hq hd
    obtain rfl : q = 40008000 := by
      have : (q : ℝ) = 40008000 := by linarith
      exact_mod_cast this
    exact hq
  obtain ⟨q1, o1, -⟩ := hp.lat
  obtain ⟨q2, o2, -⟩ := hp.lon
  obtain ⟨q3, o3, -⟩ := hp.alt
  rcases h7 with h7 | h7 | ⟨h7, lat, l1, l2, l3⟩
  · obtain ⟨s, hs⟩ := inf_parse (f := b64) h7
    rw [p1] at hs
    cases hs
    refine ⟨1, ?_⟩
    change ∃ s', cast (Fp.div (Fp.mul (Fp.sub fix.lat (.inf s)) (Fp.lit 40008000)) (Fp.lit 360)) = .inf s'
    obtain ⟨s', hs'⟩ := fin_sub_inf (s := s) o1
    obtain ⟨t, ht⟩ := inf_mul_fin (s := s') lpole (by norm_num)
    rw [hs', ht]
    obtain ⟨u, hu⟩ := inf_div_fin (s := t) l360
    rw [hu, hcast]
    exact ⟨_, rfl⟩
  · obtain ⟨s, hs⟩ := inf_parse (f := b64) h7
    rw [p3] at hs
    cases hs
    refine ⟨2, ?_⟩
    change ∃ s', cast (Fp.sub fix.alt (.inf s)) = .inf s'
    obtain ⟨s', hs'⟩ := fin_sub_inf (s := s) o3
    rw [hs', hcast]
    exact ⟨_, rfl⟩
  · obtain ⟨s, hs⟩ := inf_parse (f := b64) h7
    rw [p2] at hs
    cases hs
    obtain ⟨z, hz⟩ := C76_reads_decimals (f := b64) a _ l1
    rw [p1] at hz
    cases hz
    refine ⟨0, ?_⟩
    change ∃ s', cast (Fp.div (Fp.mul (Fp.sub fix.lon (.inf s)) (Fp.mul (Fp.lit 40075160)
      (cos (Fp.mul (Fp.sub fix.lat (Fp.ofRat z lat)) radPerDeg)))) (Fp.lit 360)) = .inf s'
    obtain ⟨w, hw, hw0⟩ := circle_ne_zero he (y := Fp.ofRat z lat) (lat0 := lat) hp.lat
      ((near64_ofRat z (B := 90) (by exact_mod_cast l2) (by norm_num)).mono (by norm_num)) (by rw [abs_sub_comm]; exact l3)
    obtain ⟨s', hs'⟩ := fin_sub_inf (s := s) o2
    obtain ⟨t, ht⟩ := inf_mul_fin (s := s') hw hw0
    rw [hs', ht]
    obtain ⟨u, hu⟩ := inf_div_fin (s := t) l360
    rw [hu, hcast]
    exact ⟨_, rfl⟩

end

section
variable [T : Trig F32] [Libm F32]

/-- C102, the angles: from the bytes of a recording folder. The first record holds a place in decimal, but an angle that is
`inf` or `nan`, and its cloud file has a record; the others hold a place and angles of at most 4 in decimal. The other
scans are in the working range and above tile border `b`, which is within the range limit of the first sensor; and some
point of theirs is two cells or more west or south of the first sensor. Then the window opens; until the second scan is
started the cell of the first sensor is drawn, and no other; and the program freezes at the latest when the first scan
comes round again. -/
theorem C102_folder (hl : TestedLn) (hT : AccurateTrig T)
    (hbad : ∀ x : F32, x.isFin = false → T.sin x = .nan ∧ T.cos x = .nan)
    {cos : F64 → F64} {radPerDeg : F64} {cast : F64 → F32}
    (he : AccurateEnv (parsingEnv cos radPerDeg cast (Quat.fromEuler (F := F32))))
    {w₁ w₂ : ℕ} {ext ext' : List (Fin 256)} {idx : List ℕ} {po pv : List (List (Fin 256))}
    (ho : IndexFolder w₁ ext idx po) (hv : IndexFolder w₂ ext' idx pv)
    {oxtBytes cloudBytes : List (Fin 256) → List (BitVec 8)} {place : ℕ → Place} {roll pitch yaw : ℕ → ℚ} {L S ε : ℝ}
    {i0 : ℕ} (hi0 : idx[0]? = some i0)
    (hplace : ∀ i ∈ idx, (place i).Ok ∧ ∀ n, |(place i).offset (place i0) n| ≤ S)
    (hwrong : ∃ text, oxtBytes (indexName w₁ ext i0) = utf8 text ∧ WrongAngle text (place i0))
    (htext : ∀ k, 0 < k → ∀ i, idx[k]? = some i → ∃ text, oxtBytes (indexName w₁ ext i) = utf8 text ∧
      Says text (place i) (roll i) (pitch i) (yaw i) ∧ |roll i| ≤ 4 ∧ |pitch i| ≤ 4 ∧ |yaw i| ≤ 4)
    (hcloud : ∀ i ∈ idx, 16 ∣ (cloudBytes (indexName w₂ ext' i)).length)
    (hsome : 16 ≤ (cloudBytes (indexName w₂ ext' i0)).length)
    (hfin : ∀ k, 0 < k → ∀ i, idx[k]? = some i → ∀ j < (cloudBytes (indexName w₂ ext' i)).length / 16,
      FiniteRecord (cloudBytes (indexName w₂ ext' i)) j ∧
      ∀ n : Fin 3, |((f32OfBits (wordAt (cloudBytes (indexName w₂ ext' i)) (16 * j + 4 * n.val))).val : ℝ)| ≤ L)
    (hL1 : 1 ≤ L) (hL2 : L ≤ 2 ^ 100) (hε : ε = (1130 * L + 2 * S) / 2 ^ 24 + 1 / 2 ^ 18)
    {X : ℕ → Fin 3 → ℝ} (hX : ∀ i, X i = (place i).offset (place i0))
    {M : ℕ} (hM1 : 600 ≤ M) (hM : M + 101 ≤ 2 ^ 18) {ρ : ℚ} (hρ : ρ = (Fp.lit 0.1 : F32).val) {b : ℤ} (hb : b ≤ 0)
    (hscan : ∀ k, 0 < k → ∀ i, idx[k]? = some i → RealScan M ρ ε (b * 100 * ρ) (X i)
      (FinitePoint (roll i) (pitch i) (yaw i) (X i) (cloudBytes (indexName w₂ ext' i))))
    (hlow : ∃ k i, 0 < k ∧ idx[k]? = some i ∧
      ∃ Y, FinitePoint (roll i) (pitch i) (yaw i) (X i) (cloudBytes (indexName w₂ ext' i)) Y ∧
        ∃ n : Fin 3, n ≠ 2 ∧ Y n + ε ≤ -2 * ρ)
    (hdeep : -(b * 100 * ρ : ℝ) + 5 * ρ ≤ 60 * (1 - 1 / 2 ^ 20))
    {o : OccupancyGridMap 3 F32} (hdef : OccupancyGridMap.default_ = .ok o) :
    ∃ rs, main (parsingEnv cos radPerDeg cast Quat.fromEuler) (some (some (byteFolder po pv oxtBytes cloudBytes))) =
        .ok (.window rs) ∧ rs.clouds.length = idx.length ∧
      (∀ p ∈ (rs.get 0).2.points, ∀ n, p n = .nan) ∧
      ∀ ord : ℕ → List (Verif.Cell 3) → List (Verif.Cell 3), (∀ r, IsOrder (ord r)) →
        (∀ s, Reach (occOps o.noiseModel rs.get ord) rs.clouds.length o.gridMap s →
          s.workers.length ≤ idx.length + 1 ∧ (∀ pc r, s.workers[idx.length]? = some (pc, r) → r = 0 ∧ NotPast pc) ∧
          s.main ≠ .dead ∧ (∀ r, s.workers[0]? ≠ some (.dead, r)) ∧
          (s.workers.length ≤ 1 → ∀ c, s.tracked c ≠ none → c = fun _ => 0) ∧
          (s.workers.length = 1 → s.main = .clearFlag ∨ s.main = .spawn → s.tracked (fun _ => 0) ≠ none)) ∧
        ∀ σ, Execution (occOps o.noiseModel rs.get ord) rs.clouds.length o.gridMap σ →
          Fair (occOps o.noiseModel rs.get ord) rs.clouds.length σ →
          ∃ i : ℕ, (∃ k r' : ℕ, 0 < k ∧ k ≤ idx.length ∧ (σ i).workers[k]? = some (.dead, r')) ∧ ∀ j, i ≤ j →
            (σ j).main = .check ∧ (σ j).finished = false ∧ (σ j).tracked = (σ i).tracked ∧
            (σ j).workers.length = (σ i).workers.length := by
  have hmem : ∀ {k i : ℕ}, idx[k]? = some i → i ∈ idx := fun h => List.mem_of_getElem? h
  obtain ⟨rs, hmain, hlen, hrec⟩ := folder_records (cos := cos) (radPerDeg := radPerDeg) (cast := cast)
    (euler := Quat.fromEuler) ho hv (fun i hi => by
      obtain ⟨k, hk⟩ := List.getElem?_of_mem hi
      rcases Nat.eq_zero_or_pos k with rfl | h0
      · rw [hi0] at hk
        cases hk
        obtain ⟨text, h1, h2⟩ := hwrong
        exact ⟨text, h1, angle_numerals h2⟩
      · obtain ⟨text, h1, h2, -⟩ := htext k h0 i hk
        exact ⟨text, h1, says_numerals h2⟩) hcloud
  have hrlo : (1 : ℚ) / 2 ^ 20 ≤ ρ := by rw [hρ]; decide +kernel
  have hrhi : ρ ≤ (2 : ℚ) ^ 20 := by rw [hρ]; decide +kernel
  have hρ60 : (60 : ℚ) ≤ 600 * ρ := by rw [hρ]; decide +kernel
  obtain ⟨text0, t0, w0⟩ := hwrong
  obtain ⟨ok0, -⟩ := hplace i0 (hmem hi0)
  obtain ⟨fix0, g1, a1, a2, a3, hang, g2⟩ := record_angle (cos := cos) (radPerDeg := radPerDeg) (cast := cast)
    (euler := Quat.fromEuler) ok0 w0
  obtain ⟨h1, h2, h3⟩ := hrec 0 i0 i0 hi0 hi0 text0 text0 t0 t0 _ _ _ _ g2 g2
  have hnan : ∀ p ∈ (rs.get 0).2.points, ∀ n, p n = .nan := by
    intro p hp n
    obtain ⟨j, hj⟩ := List.getElem?_of_mem hp
    rw [h3 j p hj]
    exact C100_rotation hbad hang _ _ n
  refine ⟨rs, hmain, hlen, hnan, fun ord hord => ?_⟩
  obtain ⟨m0, rfl, e2, e3, e4⟩ := default_start hl hρ hdef
  have hnear : ∀ k, 0 < k → ∀ i, idx[k]? = some i → ∃ x, NanScan M ρ (rs.get k).1 (rs.get k).2 x ∧
      (∀ c : ℚ, (c : ℝ) ≤ b * 100 * ρ → Spec.Above 2 c (rs.get k).2) ∧
      ∀ Y, FinitePoint (roll i) (pitch i) (yaw i) (X i) (cloudBytes (indexName w₂ ext' i)) Y →
        ∃ p ∈ (rs.get k).2.points, ∀ n, NearReal (p n) (Y n) ε := by
    intro k hk i hki
    obtain ⟨tx, u1, u2, u3⟩ := htext k hk i hki
    obtain ⟨okk, hSk⟩ := hplace i (hmem hki)
    obtain ⟨fix, f1, z1, z2, z3, f2⟩ := fix_of he okk u2
    obtain ⟨k1, k2, k3⟩ := hrec k i i0 hki hi0 tx text0 u1 t0 _ _ _ _ f2 g2
    exact scan_known hT z1 z2 z3 u3 (fun n => by rw [hX]; exact le_min (hSk n) (offset_le okk ok0 n)) hL1 hL2 hε
      (hfin k hk i hki) (fun n => by rw [hX]; exact near_of_fix he okk ok0 f1 g1 (fun h => by omega) k1 n) k2 k3 hrlo hrhi
      (hscan k hk i hki)
  have hplay : FirstLost M 100 ρ 60 (2 : Fin 3) b idx.length rs.get := by
    refine ⟨by decide, by omega, by omega, hb, fun i => ?_, ⟨?_, hnan⟩, fun k hk hkn => ?_, ?_, ?_, by norm_num, ?_⟩
    · rw [h1]; exact F32.zero_is
    · intro h
      rw [h] at h2
      simp only [List.length_nil] at h2
      omega
    · obtain ⟨x, x1, x2, -⟩ := hnear k hk _ (List.getElem?_eq_getElem hkn)
      exact ⟨x, x1, x2 _ (by push_cast; exact le_refl _)⟩
    · obtain ⟨k, i, hk, hki, Y, hY, n, hn2, hn⟩ := hlow
      obtain ⟨x, -, -, x3⟩ := hnear k hk i hki
      obtain ⟨p, hp, hpn⟩ := x3 Y hY
      obtain ⟨y, hy, hd⟩ := hpn n
      refine ⟨k, hk, (List.getElem?_eq_some_iff.mp hki).1, p, hp, n, hn2, y, hy, ?_⟩
      have hd := abs_le.mp hd
      rw [← Rat.cast_le (K := ℝ)]
      push_cast
      linarith [hd.2]
    · rw [← Rat.cast_le (K := ℝ)]
      push_cast
      linarith
    · have : (600 : ℚ) ≤ M := by exact_mod_cast hM1
      nlinarith
  have hml : defaultNM.maxRange.Is 60 := by decide +kernel
  have hn : 0 < idx.length := (List.getElem?_eq_some_iff.mp hi0).1
  rw [hlen]
  refine ⟨fun s hs => ?_, fun σ h1 h2 => C102_freezes (.inr rfl) e2 e4 e3 hord hml hplay h1 h2⟩
  obtain ⟨b1, b2, b3, b4⟩ := C102_visualizer (.inr rfl) e2 e4 e3 hord hml hplay hs
  refine ⟨b1, b2, b3, b4, fun hl => ?_, fun hl hm => ?_⟩
  · exact (C102_shown (.inr rfl) hn e2 e4 hord hplay.sensor hplay.first hs hl b3).1
  · refine ((C102_shown (.inr rfl) hn e2 e4 hord hplay.sensor hplay.first hs hl.le b3).2 hl hm).mpr ?_
    change defaultNM.threshold.lt (((Fp.lit 0 : F32).add defaultNM.hit).min defaultNM.max) = true
    decide +kernel

/-- C102, the position: from the bytes of a recording folder. The first record has a latitude or an altitude that is `inf`, or
such a longitude and a decimal latitude within 80 degrees of the second one, and angles of at most 4 in decimal; the second
record holds a place and angles of at most 4 in decimal; what comes after it are any numerals. The first scan is in the
working range and above tile border `b`, and the second cloud file has a finite record. Then the window opens and the program
freezes, as in C98, on the second scan: the first sensor counts as the origin, and everything is infinitely far from it. -/
theorem C102_place (hl : TestedLn) (hT : AccurateTrig T) {cos : F64 → F64} {radPerDeg : F64} {cast : F64 → F32}
    (he : AccurateEnv (parsingEnv cos radPerDeg cast (Quat.fromEuler (F := F32))))
    (hcast : ∀ s, cast (.inf s) = .inf s)
    {w₁ w₂ : ℕ} {ext ext' : List (Fin 256)} {idx : List ℕ} {po pv : List (List (Fin 256))}
    (ho : IndexFolder w₁ ext idx po) (hv : IndexFolder w₂ ext' idx pv)
    {oxtBytes cloudBytes : List (Fin 256) → List (BitVec 8)} {p : Place} {roll pitch yaw : ℕ → ℚ} {L ε : ℝ}
    {i0 i1 : ℕ} (hi0 : idx[0]? = some i0) (hi1 : idx[1]? = some i1) (hp : p.Ok)
    (hang : ∀ i, i = i0 ∨ i = i1 → |roll i| ≤ 4 ∧ |pitch i| ≤ 4 ∧ |yaw i| ≤ 4)
    (hwrong : ∃ text, oxtBytes (indexName w₁ ext i0) = utf8 text ∧
      InfinitePlace text p.lat (roll i0) (pitch i0) (yaw i0))
    (htext : ∃ text, oxtBytes (indexName w₁ ext i1) = utf8 text ∧ Says text p (roll i1) (pitch i1) (yaw i1))
    (hrest : ∀ i ∈ idx, ∃ text, oxtBytes (indexName w₁ ext i) = utf8 text ∧ SixNumerals text)
    (hcloud : ∀ i ∈ idx, 16 ∣ (cloudBytes (indexName w₂ ext' i)).length)
    (hfin : ∀ j < (cloudBytes (indexName w₂ ext' i0)).length / 16, FiniteRecord (cloudBytes (indexName w₂ ext' i0)) j ∧
      ∀ n : Fin 3, |((f32OfBits (wordAt (cloudBytes (indexName w₂ ext' i0)) (16 * j + 4 * n.val))).val : ℝ)| ≤ L)
    (hsome : ∃ j < (cloudBytes (indexName w₂ ext' i1)).length / 16, FiniteRecord (cloudBytes (indexName w₂ ext' i1)) j ∧
      ∀ n : Fin 3, |((f32OfBits (wordAt (cloudBytes (indexName w₂ ext' i1)) (16 * j + 4 * n.val))).val : ℝ)| ≤ L)
    (hL1 : 1 ≤ L) (hL2 : L ≤ 2 ^ 100) (hε : ε = (1130 * L + 2 * 0) / 2 ^ 24 + 1 / 2 ^ 18)
    {M : ℕ} (hM1 : 600 ≤ M) (hM : M + 101 ≤ 2 ^ 18) {ρ : ℚ} (hρ : ρ = (Fp.lit 0.1 : F32).val) {b : ℤ} (hb : b ≤ 0)
    (hscan : RealScan M ρ ε (b * 100 * ρ) (fun _ => 0)
      (FinitePoint (roll i0) (pitch i0) (yaw i0) (fun _ => 0) (cloudBytes (indexName w₂ ext' i0))))
    {o : OccupancyGridMap 3 F32} (hdef : OccupancyGridMap.default_ = .ok o) :
    ∃ rs, main (parsingEnv cos radPerDeg cast Quat.fromEuler) (some (some (byteFolder po pv oxtBytes cloudBytes))) =
        .ok (.window rs) ∧ rs.clouds.length = idx.length ∧
      (∃ n s, (rs.get 1).1 n = .inf s ∧ ∃ p ∈ (rs.get 1).2.points, p n = .inf s) ∧
      ∀ ord : ℕ → List (Verif.Cell 3) → List (Verif.Cell 3), (∀ r, IsOrder (ord r)) →
        (∀ s, Reach (occOps o.noiseModel rs.get ord) rs.clouds.length o.gridMap s →
          s.workers.length ≤ 2 ∧ (∀ (k : ℕ) pc, s.workers[k]? = some (pc, 1) → NotPast pc) ∧ s.main ≠ .dead) ∧
        ∀ σ, Execution (occOps o.noiseModel rs.get ord) rs.clouds.length o.gridMap σ →
          Fair (occOps o.noiseModel rs.get ord) rs.clouds.length σ →
          ∃ i : ℕ, (∃ k r' : ℕ, r' ≤ 1 ∧ (σ i).workers[k]? = some (.dead, r')) ∧ ∀ j, i ≤ j → (σ j).main = .check ∧
            (σ j).finished = false ∧ (σ j).tracked = (σ i).tracked ∧ (σ j).workers.length = (σ i).workers.length := by
  obtain ⟨rs, hmain, hlen, hrec⟩ := folder_records (cos := cos) (radPerDeg := radPerDeg) (cast := cast)
    (euler := Quat.fromEuler) ho hv hrest hcloud
  have hrlt : 1 < idx.length := (List.getElem?_eq_some_iff.mp hi1).1
  have hrlo : (1 : ℚ) / 2 ^ 20 ≤ ρ := by rw [hρ]; decide +kernel
  have hrhi : ρ ≤ (2 : ℚ) ^ 20 := by rw [hρ]; decide +kernel
  have hρ60 : (60 : ℚ) ≤ 600 * ρ := by rw [hρ]; decide +kernel
  obtain ⟨text0, t0, w0⟩ := hwrong
  obtain ⟨text1, t1, s1⟩ := htext
  obtain ⟨fix, f1, x1, x2, x3, f2⟩ := fix_of he hp s1
  obtain ⟨org, z1, z2, z3, g2, n, s, hns⟩ := first_infinite he hcast f1 w0
  obtain ⟨h1, h2, h3⟩ := hrec 1 i1 i0 hi1 hi0 text1 text0 t1 t0 _ _ _ _ f2 g2
  obtain ⟨k1, k2, k3⟩ := hrec 0 i0 i0 hi0 hi0 text0 text0 t0 t0 _ _ _ _ g2 g2
  rw [if_neg (by omega)] at h1
  have hs : (rs.get 1).1 n = .inf s := by rw [h1]; exact hns
  have hinf : ∃ p ∈ (rs.get 1).2.points, p n = .inf s := by
    obtain ⟨j, hj, hf, hb⟩ := hsome
    have hjl : j < (rs.get 1).2.points.length := by rw [h2]; exact hj
    have hjp : (rs.get 1).2.points[j]? = some (rs.get 1).2.points[j] := List.getElem?_eq_getElem hjl
    refine ⟨_, List.mem_of_getElem? hjp, ?_⟩
    rw [h3 j _ hjp]
    exact C100_position hT x1 x2 x3 (hang i1 (.inr rfl)) hs hL1 hL2 (fun i => ⟨hf i, hb i⟩)
  refine ⟨rs, hmain, hlen, ⟨n, s, hs, hinf⟩, fun ord hord => ?_⟩
  obtain ⟨m0, rfl, e2, e3, e4⟩ := default_start hl hρ hdef
  have hplay : BadPlay M 100 ρ 60 (2 : Fin 3) b 1 rs.get := by
    refine ⟨by decide, by omega, by omega, hb, fun k hk => ?_, ?_, by norm_num, ?_⟩
    · obtain rfl : k = 0 := by omega
      obtain ⟨x, x1, x2, -⟩ := scan_known hT (v := fun _ => 0) (S := 0) z1 z2 z3 (hang i0 (.inl rfl)) (fun n => by norm_num) hL1 hL2 hε
        hfin (fun n => by rw [k1]; exact ⟨0, F32.zero_is, by norm_num⟩) k2 k3 hrlo hrhi hscan
      exact ⟨x, x1, x2 _ (by push_cast; exact le_refl _)⟩
    · obtain ⟨p, hp, hpn⟩ := hinf
      exact .inr ⟨by norm_num, by norm_num, p, hp, n, s, hpn⟩
    · have : (600 : ℚ) ≤ M := by exact_mod_cast hM1
      nlinarith
  have hml : defaultNM.maxRange.Is 60 := by decide +kernel
  rw [hlen]
  exact ⟨fun s hs => C98_visualizer (.inr rfl) hrlt e2 e4 e3 hord hml hplay hs,
    fun σ h1 h2 => C98_freezes (.inr rfl) hrlt e2 e4 e3 hord hml hplay h1 h2⟩

end

/-- The two record files, the first one as given. -/
def firstTexts (first : String) (p : List (Fin 256)) : List (BitVec 8) :=
  utf8 (if p = indexName 10 (ascii ".txt") 0 then first.toList else "49 8.4 116.4 0 0 0".toList)

lemma firstTexts_first (first : String) :
    firstTexts first (indexName 10 (ascii ".txt") 0) = utf8 first.toList := by
  unfold firstTexts
  rw [if_pos rfl]

lemma firstTexts_second (first : String) : ∃ text, firstTexts first (indexName 10 (ascii ".txt") 1) = utf8 text ∧
    Says text (twoPlaces 0) 0 0 0 := by
  refine ⟨_, rfl, ?_⟩
  rw [if_neg (by decide +kernel)]
  exact ⟨"49".toList, "8.4".toList, "116.4".toList, "0".toList, "0".toList, "0".toList, [],
    fields_iff.mpr (by decide +kernel), by decide +kernel, by decide +kernel, by decide +kernel, by decide +kernel,
    by decide +kernel, by decide +kernel⟩

lemma twoPoints_real : RealScan 600 ((13421773 / 2 ^ 27 : ℚ) : ℝ) ((1130 * 2 + 2 * 0) / 2 ^ 24 + 1 / 2 ^ 18)
    ((-1 : ℤ) * 100 * ((13421773 / 2 ^ 27 : ℚ) : ℝ)) (fun _ => 0)
    (FinitePoint (0 : ℚ) (0 : ℚ) (0 : ℚ) (fun _ => 0) twoPoints) := by
  have third : ∀ a b c : ℝ, (![a, b, c] : Fin 3 → ℝ) 2 = c := fun _ _ _ => rfl
  refine ⟨by intro i; fin_cases i <;> norm_num, fun Y hY n => ?_, fun Y hY => ?_⟩
  · rw [twoPoints_finite] at hY
    rcases hY with rfl | rfl <;> fin_cases n <;> norm_num [← le_sub_iff_add_le, le_abs, abs_le, third]
  · rw [twoPoints_finite] at hY
    rcases hY with rfl | rfl
    · rw [third]; norm_num
    · rw [third]; norm_num

/-- A folder with two recordings at one place, the roll of the first not a number: the window opens, and no run gets past
the first recording the second time. -/
example : ∃ (rs : _) (o : OccupancyGridMap 3 F32),
    main (parsingEnv someEnv.cos someEnv.radPerDeg someEnv.cast (@Quat.fromEuler F32 _ strictTrig))
      (some (some (byteFolder [indexName 10 (ascii ".txt") 0, indexName 10 (ascii ".txt") 1]
        [indexName 10 (ascii ".bin") 0, indexName 10 (ascii ".bin") 1]
        (firstTexts "49 8.4 116.4 nan 0 0") fun _ => twoPoints))) = .ok (.window rs) ∧
    @OccupancyGridMap.default_ F32 _ 3 testedLibm = .ok o ∧
    ∀ s, Reach (occOps o.noiseModel rs.get fun _ l => l) rs.clouds.length o.gridMap s →
      s.workers.length ≤ 3 ∧ (∀ pc r, s.workers[2]? = some (pc, r) → r = 0 ∧ NotPast pc) := by
  let _ := strictTrig
  let _ := testedLibm
  have hl : TestedLn := by constructor <;> decide +kernel
  obtain ⟨o, ho⟩ := someDefault hl
  have hwrong : WrongAngle "49 8.4 116.4 nan 0 0".toList (twoPlaces 0) :=
    ⟨"49".toList, "8.4".toList, "116.4".toList, "nan".toList, "0".toList, "0".toList, [],
      fields_iff.mpr (by decide +kernel), by decide +kernel, by decide +kernel, by decide +kernel,
      .inr (by unfold Special; decide +kernel), .inl ⟨0, by decide +kernel⟩, .inl ⟨0, by decide +kernel⟩,
      .inl (by unfold Special; decide +kernel)⟩
  have hoff : (twoPlaces 0).offset (twoPlaces 0) = fun _ => 0 := by
    rw [twoPlaces_offset]
    funext n
    fin_cases n <;> rfl
  obtain ⟨rs, h1, hlen, -, h2⟩ := C102_folder (w₁ := 10) (w₂ := 10) (ext := ascii ".txt") (ext' := ascii ".bin") hl
    strictTrig_accurate strictTrig_bad
    (C76_accurate (euler := Quat.fromEuler (F := F32)) someEnv_accurate.cos someEnv_accurate.radPerDeg
      someEnv_accurate.cast)
    (idx := [0, 1]) (po := [indexName 10 (ascii ".txt") 0, indexName 10 (ascii ".txt") 1])
    (pv := [indexName 10 (ascii ".bin") 0, indexName 10 (ascii ".bin") 1])
    (oxtBytes := firstTexts "49 8.4 116.4 nan 0 0") (cloudBytes := fun _ => twoPoints)
    (place := fun _ => twoPlaces 0) (roll := fun _ => 0) (pitch := fun _ => 0) (yaw := fun _ => 0)
    (X := fun _ _ => 0)
    ⟨by simp, by decide, by simp⟩ ⟨by simp, by decide, by simp⟩ (i0 := 0) rfl (S := 0)
    (fun i _ => ⟨twoPlaces_ok 0, fun n => by rw [hoff]; norm_num⟩)
    ⟨_, firstTexts_first _, hwrong⟩
    (fun k hk i hi => by
      have hk1 : k < 2 := (List.getElem?_eq_some_iff.mp hi).1
      obtain rfl : k = 1 := by omega
      obtain rfl : (1 : ℕ) = i := by simpa using hi
      obtain ⟨text, a1, a2⟩ := firstTexts_second "49 8.4 116.4 nan 0 0"
      exact ⟨text, a1, a2, by norm_num⟩)
    (fun i _ => by decide) (by decide) (L := 2) (fun k _ i _ => twoPoints_ok) (by norm_num) (by norm_num) rfl
    (fun i => hoff.symm) (M := 600) (by norm_num) (by norm_num) side_val.symm (b := -1) (by norm_num)
    (fun k hk i hi => twoPoints_real)
    ⟨1, 1, one_pos, rfl, ![-2 + 0, -1 + 0, -1 / 2 + 0], (twoPoints_finite _ _).mpr (.inr rfl), 0, by decide, by norm_num⟩
    (by norm_num) ho
  exact ⟨rs, o, h1, ho, fun s hs => ⟨((h2 _ fun _ l => List.Perm.refl l).1 s hs).1,
    ((h2 _ fun _ l => List.Perm.refl l).1 s hs).2.1⟩⟩

/-- A folder with two recordings, the longitude of the first infinite: the window opens, and no run gets past the second
scan. -/
example : ∃ (rs : _) (o : OccupancyGridMap 3 F32),
    main (parsingEnv someEnv.cos someEnv.radPerDeg infCast (@Quat.fromEuler F32 _ someTrig))
      (some (some (byteFolder [indexName 10 (ascii ".txt") 0, indexName 10 (ascii ".txt") 1]
        [indexName 10 (ascii ".bin") 0, indexName 10 (ascii ".bin") 1]
        (firstTexts "49 inf 116.4 0 0 0") fun _ => twoPoints))) = .ok (.window rs) ∧
    @OccupancyGridMap.default_ F32 _ 3 testedLibm = .ok o ∧
    ∀ s, Reach (occOps o.noiseModel rs.get fun _ l => l) rs.clouds.length o.gridMap s →
      s.workers.length ≤ 2 ∧ (∀ (k : ℕ) pc, s.workers[k]? = some (pc, 1) → NotPast pc) ∧ s.main ≠ .dead := by
  let _ := someTrig
  let _ := testedLibm
  have hl : TestedLn := by constructor <;> decide +kernel
  obtain ⟨o, ho⟩ := someDefault hl
  have hwrong : InfinitePlace "49 inf 116.4 0 0 0".toList (twoPlaces 0).lat 0 0 0 :=
    ⟨"49".toList, "inf".toList, "116.4".toList, "0".toList, "0".toList, "0".toList, [],
      fields_iff.mpr (by decide +kernel), .inl ⟨49, by decide +kernel⟩,
      .inr (by unfold Special; decide +kernel), .inl ⟨582 / 5, by decide +kernel⟩,
      by decide +kernel, by decide +kernel, by decide +kernel,
      .inr (.inr ⟨by unfold InfWord; decide +kernel, 49, by decide +kernel, by norm_num [abs_le], by
        norm_num [abs_le, twoPlaces]⟩)⟩
  obtain ⟨rs, h1, hlen, -, h2⟩ := C102_place (w₁ := 10) (w₂ := 10) (ext := ascii ".txt") (ext' := ascii ".bin") hl
    someTrig_accurate
    (C76_accurate (euler := Quat.fromEuler (F := F32)) someEnv_accurate.cos someEnv_accurate.radPerDeg infCast_accurate)
    (fun _ => rfl)
    (idx := [0, 1]) (po := [indexName 10 (ascii ".txt") 0, indexName 10 (ascii ".txt") 1])
    (pv := [indexName 10 (ascii ".bin") 0, indexName 10 (ascii ".bin") 1])
    (oxtBytes := firstTexts "49 inf 116.4 0 0 0") (cloudBytes := fun _ => twoPoints)
    (p := twoPlaces 0) (roll := fun _ => 0) (pitch := fun _ => 0) (yaw := fun _ => 0)
    ⟨by simp, by decide, by simp⟩ ⟨by simp, by decide, by simp⟩ (i0 := 0) (i1 := 1) rfl rfl (twoPlaces_ok 0)
    (fun _ _ => by norm_num)
    ⟨_, firstTexts_first _, hwrong⟩ (firstTexts_second _)
    (fun i hi => by
      rcases List.mem_pair.mp hi with rfl | rfl
      · exact ⟨_, firstTexts_first _, place_numerals hwrong⟩
      · obtain ⟨text, a1, a2⟩ := firstTexts_second "49 inf 116.4 0 0 0"
        exact ⟨text, a1, says_numerals a2⟩)
    (fun i _ => by decide) (L := 2) twoPoints_ok ⟨0, by decide, twoPoints_ok 0 (by decide)⟩
    (by norm_num) (by norm_num) rfl (M := 600) (by norm_num) (by norm_num) side_val.symm (b := -1) (by norm_num)
    twoPoints_real ho
  exact ⟨rs, o, h1, ho, fun s hs => (h2 _ fun _ l => List.Perm.refl l).1 s hs⟩

end Verif.Props
