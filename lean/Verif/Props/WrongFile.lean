import Verif.Props.Wrong

/-!
# C100: the folder and the visualizer
-/

namespace Verif.Props
open Spec Kitti Viz Scalar

section
variable [T : Trig F32]

omit T in
/-- The sensor of a scan between two places on the globe. -/
lemma near_of_fix {cos : F64 → F64} {radPerDeg : F64} {cast : F64 → F32} {euler : F32 → F32 → F32 → Quat F32}
    (he : AccurateEnv (parsingEnv cos radPerDeg cast euler)) {p o : Place} (hp : p.Ok) (ho : o.Ok)
    {fix fix0 : Gps F64} (h : FixOf fix p) (h0 : FixOf fix0 o) {k : ℕ} (hk : k = 0 → p = o) {t : Point 3 F32}
    (ht : t = if k = 0 then fun _ => Fp.lit 0 else gpsToMeters (parsingEnv cos radPerDeg cast euler) fix fix0)
    (n : Fin 3) : NearReal (t n) (p.offset o n) (|p.offset o n| / 2 ^ 24 + 1 / 2 ^ 18) := by
  subst ht
  split_ifs with h1
  · obtain rfl := hk h1
    refine ⟨0, F32.zero_is, ?_⟩
    rw [offset_self]
    norm_num
  · exact gps_near he hp ho h h0 n

/-- A finite point moved by a pose that is known. -/
lemma point_near (hT : AccurateTrig T) {t : Point 3 F32} {v : Fin 3 → ℝ} {roll pitch yaw : ℚ} (z1 z2 z3 : Bool)
    (h4 : ∀ i, NearReal (t i) (v i) (|v i| / 2 ^ 24 + 1 / 2 ^ 18))
    (ha : |roll| ≤ 4 ∧ |pitch| ≤ 4 ∧ |yaw| ≤ 4) {L S : ℝ} (hS : ∀ i, |v i| ≤ min S (2 ^ 26)) (hL1 : 1 ≤ L)
    (hL2 : L ≤ 2 ^ 100) {p : Point 3 F32} (hp : ∀ i, (p i).isFin = true ∧ |((p i).val : ℝ)| ≤ L) (n : Fin 3) :
    NearReal (PointCloud.transformPoint (⟨t, Quat.fromEuler (Fp.ofRat z1 roll) (Fp.ofRat z2 pitch) (Fp.ofRat z3 yaw)⟩ :
        Pose F32 (Quat F32)).toHomogeneous p n) (rigid roll pitch yaw v (fun n => ((p n).val : ℝ)) n)
      ((1130 * L + 2 * S) / 2 ^ 24 + 1 / 2 ^ 18) := by
  have key := moved_near hT z1 z2 z3 h4 ha.1 ha.2.1 ha.2.2 L (min S (2 ^ 26)) hS (min_le_right _ _) hL1 hL2
    (PointCloud.fromPoints [p]) (fun y hy m => by
      rw [C13_points_fromPoints, List.mem_singleton] at hy
      subst hy
      exact hp m)
  unfold PointCloud.transform at key
  rw [C13_points_fromPoints, C13_points_fromPoints, List.map_singleton] at key
  obtain ⟨hxy, -⟩ := List.forall₂_cons.mp key
  obtain ⟨q, hq, hd⟩ := hxy n
  refine ⟨q, hq, hd.trans ?_⟩
  have := min_le_left S (2 ^ 26)
  gcongr

/-- C100, one point: an angle that is not finite makes every coordinate of every point NaN, whatever the position and
the point. -/
theorem C100_rotation (hbad : ∀ x : F32, x.isFin = false → T.sin x = .nan ∧ T.cos x = .nan) {roll pitch yaw : F32}
    (h : roll.isFin = false ∨ pitch.isFin = false ∨ yaw.isFin = false) (t p : Point 3 F32) (n : Fin 3) :
    PointCloud.transformPoint (⟨t, Quat.fromEuler roll pitch yaw⟩ : Pose F32 (Quat F32)).toHomogeneous p n = .nan := by
  rw [euler_bad hbad h]
  exact nanQuat_point t p n

/-- C100, one point: an infinite coordinate of the position makes that coordinate of every moved point infinite; the
angles are at most 4 and the point is finite. -/
theorem C100_position (hT : AccurateTrig T) {roll pitch yaw : ℚ} (z1 z2 z3 : Bool)
    (ha : |roll| ≤ 4 ∧ |pitch| ≤ 4 ∧ |yaw| ≤ 4) {t p : Point 3 F32} {n : Fin 3} {s : Bool} (ht : t n = .inf s) {L : ℝ}
    (hL1 : 1 ≤ L) (hL2 : L ≤ 2 ^ 100) (hp : ∀ i, (p i).isFin = true ∧ |((p i).val : ℝ)| ≤ L) :
    PointCloud.transformPoint (⟨t, Quat.fromEuler (Fp.ofRat z1 roll) (Fp.ofRat z2 pitch) (Fp.ofRat z3 yaw)⟩ :
      Pose F32 (Quat F32)).toHomogeneous p n = .inf s := by
  obtain ⟨q, hq, -⟩ := point_near hT (t := fun _ => Fp.lit 0) (v := fun _ => 0) z1 z2 z3
    (fun _ => ⟨0, F32.zero_is, by norm_num⟩) ha (S := 0) (fun _ => by norm_num) hL1 hL2 hp n
  rw [transform_row] at hq ⊢
  generalize Quat.fromEuler (Fp.ofRat z1 roll : F32) (Fp.ofRat z2 pitch) (Fp.ofRat z3 yaw) = rot at hq ⊢
  generalize rot.toMatrix n 2 *. p 2 +. (rot.toMatrix n 1 *. p 1 +. rot.toMatrix n 0 *. p 0) = row at hq ⊢
  have hrow : row.isFin = true := by
    cases row with
    | fin _ _ _ _ => rfl
    | nan =>
      obtain ⟨_, _, _, hq⟩ := hq
      have : (Fp.nan : F32) = _ := (fadd_nan (.inr rfl)).symm.trans hq
      cases this
    | inf s =>
      have h1 : Fp.mul (Fp.lit 0) (Fp.lit 1) = (Fp.lit 0 : F32) := by decide +kernel
      obtain ⟨_, _, _, hq⟩ := hq
      change Fp.add (Fp.mul (Fp.lit 0) (Fp.lit 1)) (.inf s) = _ at hq
      rw [h1] at hq
      obtain ⟨_, _, _, h0⟩ := F32.zero_is
      rw [h0] at hq
      cases hq
  rw [ht]
  have h1 : Fp.mul (.inf s) (Fp.lit 1) = (Fp.inf s : F32) := by cases s <;> decide +kernel
  change Fp.add (Fp.mul (.inf s) (Fp.lit 1)) row = _
  rw [h1]
  exact inf_add_fin hrow

end

section
variable [T : Trig F32] [Libm F32]

omit [Libm F32] in
/-- A scan with a known pose. -/
lemma scan_known (hT : AccurateTrig T) {v : Fin 3 → ℝ} {roll pitch yaw : ℚ} (z1 z2 z3 : Bool)
    (ha : |roll| ≤ 4 ∧ |pitch| ≤ 4 ∧ |yaw| ≤ 4) {bytes : List (BitVec 8)} {L S ε : ℝ} (hS : ∀ n, |v n| ≤ min S (2 ^ 26))
    (hL1 : 1 ≤ L) (hL2 : L ≤ 2 ^ 100) (hε : ε = (1130 * L + 2 * S) / 2 ^ 24 + 1 / 2 ^ 18)
    (hc : ∀ j < bytes.length / 16, FiniteRecord bytes j ∧ ∀ n : Fin 3,
      |((f32OfBits (wordAt bytes (16 * j + 4 * n.val))).val : ℝ)| ≤ L) {rec : Point 3 F32 × PointCloud 3 F32}
    (near : ∀ n, NearReal (rec.1 n) (v n) (|v n| / 2 ^ 24 + 1 / 2 ^ 18))
    (h2 : rec.2.points.length = bytes.length / 16)
    (h3 : ∀ (j : ℕ) x, rec.2.points[j]? = some x → x = PointCloud.transformPoint
      (⟨rec.1, Quat.fromEuler (Fp.ofRat z1 roll) (Fp.ofRat z2 pitch) (Fp.ofRat z3 yaw)⟩ : Pose F32 (Quat F32)).toHomogeneous
      (fun n : Fin 3 => f32OfBits (wordAt bytes (16 * j + 4 * n.val))))
    {M : ℕ} {ρ : ℚ} {b : ℝ} (hlo : 1 / 2 ^ 20 ≤ ρ) (hhi : ρ ≤ 2 ^ 20)
    (hscan : RealScan M ρ ε b v (FinitePoint roll pitch yaw v bytes)) :
    ∃ x, NanScan M ρ rec.1 rec.2 x ∧ (∀ c : ℚ, (c : ℝ) ≤ b → Above 2 c rec.2) ∧
      ∀ Y, FinitePoint roll pitch yaw v bytes Y → ∃ p ∈ rec.2.points, ∀ n, NearReal (p n) (Y n) ε := by
  have hpt : ∀ j (hj : j < bytes.length / 16) x, rec.2.points[j]? = some x → ∀ n, NearReal (x n) (rigid roll pitch yaw v
      (fun m => ((f32OfBits (wordAt bytes (16 * j + 4 * m.val))).val : ℝ)) n) ε := by
    intro j hjl x hj n
    obtain ⟨hf, hb⟩ := hc j hjl
    rw [h3 j x hj, hε]
    exact point_near hT z1 z2 z3 near ha hS hL1 hL2
      (p := fun n : Fin 3 => f32OfBits (wordAt bytes (16 * j + 4 * n.val))) (fun i => ⟨hf i, hb i⟩) n
  obtain ⟨x, k1, -, k3⟩ := nanScan_of_real hlo hhi (fun n => by
      obtain ⟨q, hq, hd⟩ := near n
      refine ⟨q, hq, hd.trans ?_⟩
      rw [hε]
      have := (hS n).trans (min_le_left _ _)
      gcongr
      linarith [abs_nonneg (v n)]) hscan (fun x hx => by
      obtain ⟨j, hj⟩ := List.getElem?_of_mem hx
      have hjl : j < bytes.length / 16 := by rw [← h2]; exact (List.getElem?_eq_some_iff.mp hj).1
      exact .inl ⟨_, ⟨j, hjl, (hc j hjl).1, rfl⟩, hpt j hjl x hj⟩)
  refine ⟨x, k1, k3, ?_⟩
  rintro _ ⟨j, hj, -, rfl⟩
  have hjp : rec.2.points[j]? = some (rec.2.points[j]'(by rw [h2]; exact hj)) := List.getElem?_eq_getElem _
  exact ⟨_, List.mem_of_getElem? hjp, hpt j hj _ hjp⟩

omit [Libm F32] in
/-- The scans before the wrong record. -/
lemma scans_before (hT : AccurateTrig T) {cos : F64 → F64} {radPerDeg : F64} {cast : F64 → F32}
    (he : AccurateEnv (parsingEnv cos radPerDeg cast (Quat.fromEuler (F := F32)))) {p o : Place} {roll pitch yaw : ℚ}
    (hp : p.Ok) (ho : o.Ok) {text text0 : List Char} (hs : Says text p roll pitch yaw) {r0 p0 y0 : ℚ}
    (hs0 : Says text0 o r0 p0 y0) {k : ℕ} (hk : k = 0 → p = o) (ha : |roll| ≤ 4 ∧ |pitch| ≤ 4 ∧ |yaw| ≤ 4)
    {bytes : List (BitVec 8)} {L S ε : ℝ} (hS : ∀ n, |p.offset o n| ≤ S) (hL1 : 1 ≤ L) (hL2 : L ≤ 2 ^ 100)
    (hε : ε = (1130 * L + 2 * S) / 2 ^ 24 + 1 / 2 ^ 18)
    (hc : ∀ j < bytes.length / 16, FiniteRecord bytes j ∧ ∀ n : Fin 3,
      |((f32OfBits (wordAt bytes (16 * j + 4 * n.val))).val : ℝ)| ≤ L) {rec : Point 3 F32 × PointCloud 3 F32}
    (hrec : ∀ fix rot fix0 rot0, Record (parsingEnv cos radPerDeg cast Quat.fromEuler) text fix rot →
        Record (parsingEnv cos radPerDeg cast Quat.fromEuler) text0 fix0 rot0 →
        rec.1 = (if k = 0 then fun _ => Fp.lit 0 else
          gpsToMeters (parsingEnv cos radPerDeg cast (Quat.fromEuler (F := F32))) fix fix0) ∧
        rec.2.points.length = bytes.length / 16 ∧
        ∀ (j : ℕ) x, rec.2.points[j]? = some x → x = PointCloud.transformPoint
          (⟨rec.1, rot⟩ : Pose F32 (Quat F32)).toHomogeneous
          (fun n : Fin 3 => f32OfBits (wordAt bytes (16 * j + 4 * n.val))))
    {M : ℕ} {ρ : ℚ} {b : ℝ} (hlo : 1 / 2 ^ 20 ≤ ρ) (hhi : ρ ≤ 2 ^ 20)
    (hscan : RealScan M ρ ε b (p.offset o) (FinitePoint roll pitch yaw (p.offset o) bytes)) :
    ∃ x, NanScan M ρ rec.1 rec.2 x ∧ ∀ c : ℚ, (c : ℝ) ≤ b → Above 2 c rec.2 := by
  obtain ⟨fix, f1, z1, z2, z3, f2⟩ := fix_of he hp hs
  obtain ⟨fix0, g1, y1, y2, y3, g2⟩ := fix_of he ho hs0
  obtain ⟨h1, h2, h3⟩ := hrec _ _ _ _ f2 g2
  obtain ⟨x, k1, k3, -⟩ := scan_known hT z1 z2 z3 ha (fun i => le_min (hS i) (offset_le hp ho i)) hL1 hL2 hε hc
    (near_of_fix he hp ho f1 g1 hk h1) h2 h3 hlo hhi hscan
  exact ⟨x, k1, k3⟩

/-- C100, the angles: from the bytes of a recording folder. The records before number `r` hold a place and angles of at
most 4 in decimal; record `r` holds a place in decimal, but an angle that is `inf` or `nan`; what comes after it are
any numerals. The scans before number `r` are in the working range and above tile border `b`; the sensor of scan `r`
is too, at least two cells east or north of the first one, with the border within its range limit; and cloud file `r`
has a record. Then the window opens and the program freezes, as in C98. -/
theorem C100_angle (hl : TestedLn) (hT : AccurateTrig T)
    (hbad : ∀ x : F32, x.isFin = false → T.sin x = .nan ∧ T.cos x = .nan)
    {cos : F64 → F64} {radPerDeg : F64} {cast : F64 → F32}
    (he : AccurateEnv (parsingEnv cos radPerDeg cast (Quat.fromEuler (F := F32))))
    {w₁ w₂ : ℕ} {ext ext' : List (Fin 256)} {idx : List ℕ} {po pv : List (List (Fin 256))}
    (ho : IndexFolder w₁ ext idx po) (hv : IndexFolder w₂ ext' idx pv)
    {oxtBytes cloudBytes : List (Fin 256) → List (BitVec 8)} {place : ℕ → Place} {roll pitch yaw : ℕ → ℚ} {L S ε : ℝ}
    {r ir i0 : ℕ} (hr : idx[r]? = some ir) (hr0 : 0 < r) (hi0 : idx[0]? = some i0)
    (hplace : ∀ k ≤ r, ∀ i, idx[k]? = some i → (place i).Ok ∧ ∀ n, |(place i).offset (place i0) n| ≤ S)
    (htext : ∀ k < r, ∀ i, idx[k]? = some i → ∃ text, oxtBytes (indexName w₁ ext i) = utf8 text ∧
      Says text (place i) (roll i) (pitch i) (yaw i) ∧ |roll i| ≤ 4 ∧ |pitch i| ≤ 4 ∧ |yaw i| ≤ 4)
    (hwrong : ∃ text, oxtBytes (indexName w₁ ext ir) = utf8 text ∧ WrongAngle text (place ir))
    (hrest : ∀ i ∈ idx, ∃ text, oxtBytes (indexName w₁ ext i) = utf8 text ∧ SixNumerals text)
    (hcloud : ∀ i ∈ idx, 16 ∣ (cloudBytes (indexName w₂ ext' i)).length)
    (hfin : ∀ k < r, ∀ i, idx[k]? = some i → ∀ j < (cloudBytes (indexName w₂ ext' i)).length / 16,
      FiniteRecord (cloudBytes (indexName w₂ ext' i)) j ∧
      ∀ n : Fin 3, |((f32OfBits (wordAt (cloudBytes (indexName w₂ ext' i)) (16 * j + 4 * n.val))).val : ℝ)| ≤ L)
    (hsome : 16 ≤ (cloudBytes (indexName w₂ ext' ir)).length)
    (hL1 : 1 ≤ L) (hL2 : L ≤ 2 ^ 100) (hε : ε = (1130 * L + 2 * S) / 2 ^ 24 + 1 / 2 ^ 18)
    {X : ℕ → Fin 3 → ℝ} (hX : ∀ i, X i = (place i).offset (place i0))
    {M : ℕ} (hM1 : 600 ≤ M) (hM : M + 101 ≤ 2 ^ 18) {ρ : ℚ} (hρ : ρ = (Fp.lit 0.1 : F32).val) {b : ℤ} (hb : b ≤ 0)
    (hscan : ∀ k < r, ∀ i, idx[k]? = some i → RealScan M ρ ε (b * 100 * ρ) (X i)
      (FinitePoint (roll i) (pitch i) (yaw i) (X i) (cloudBytes (indexName w₂ ext' i))))
    (hnear : ∀ n, |X ir n| + ε ≤ M * ρ) (hside : ∃ n : Fin 3, n ≠ 2 ∧ 2 * ρ + ε ≤ X ir n)
    (hdeep : X ir 2 + ε - b * 100 * ρ + 5 * ρ ≤ 60 * (1 - 1 / 2 ^ 20))
    {o : OccupancyGridMap 3 F32} (hdef : OccupancyGridMap.default_ = .ok o) :
    ∃ rs, main (parsingEnv cos radPerDeg cast Quat.fromEuler) (some (some (byteFolder po pv oxtBytes cloudBytes))) =
        .ok (.window rs) ∧ rs.clouds.length = idx.length ∧
      (∀ p ∈ (rs.get r).2.points, ∀ n, p n = .nan) ∧
      ∀ ord : ℕ → List (Verif.Cell 3) → List (Verif.Cell 3), (∀ r, IsOrder (ord r)) →
        (∀ s, Reach (occOps o.noiseModel rs.get ord) rs.clouds.length o.gridMap s →
          s.workers.length ≤ r + 1 ∧ (∀ (k : ℕ) pc, s.workers[k]? = some (pc, r) → NotPast pc) ∧ s.main ≠ .dead) ∧
        ∀ σ, Execution (occOps o.noiseModel rs.get ord) rs.clouds.length o.gridMap σ →
          Fair (occOps o.noiseModel rs.get ord) rs.clouds.length σ →
          ∃ i : ℕ, (∃ k r' : ℕ, r' ≤ r ∧ (σ i).workers[k]? = some (.dead, r')) ∧ ∀ j, i ≤ j → (σ j).main = .check ∧
            (σ j).finished = false ∧ (σ j).tracked = (σ i).tracked ∧ (σ j).workers.length = (σ i).workers.length := by
  obtain ⟨rs, hmain, hlen, hrec⟩ := folder_records (cos := cos) (radPerDeg := radPerDeg) (cast := cast)
    (euler := Quat.fromEuler) ho hv hrest hcloud
  have hrlt : r < idx.length := (List.getElem?_eq_some_iff.mp hr).1
  have hrlo : (1 : ℚ) / 2 ^ 20 ≤ ρ := by rw [hρ]; decide +kernel
  have hrhi : ρ ≤ (2 : ℚ) ^ 20 := by rw [hρ]; decide +kernel
  have hρ60 : (60 : ℚ) ≤ 600 * ρ := by rw [hρ]; decide +kernel
  have hpos : 0 < ρ := lt_of_lt_of_le (by norm_num) hrlo
  obtain ⟨text0, t0, s0, -⟩ := htext 0 hr0 i0 hi0
  have ok0 := (hplace 0 (by omega) i0 hi0).1
  obtain ⟨text, tr, wr⟩ := hwrong
  obtain ⟨okr, hSr⟩ := hplace r le_rfl ir hr
  obtain ⟨fix, f1, a1, a2, a3, hang, f2⟩ := record_angle (cos := cos) (radPerDeg := radPerDeg) (cast := cast)
    (euler := Quat.fromEuler) okr wr
  obtain ⟨fix0, g1, y1, y2, y3, g2⟩ := fix_of he ok0 s0
  obtain ⟨h1, h2, h3⟩ := hrec r ir i0 hr hi0 text text0 tr t0 _ _ _ _ f2 g2
  have hnan : ∀ p ∈ (rs.get r).2.points, ∀ n, p n = .nan := by
    intro p hp n
    obtain ⟨j, hj⟩ := List.getElem?_of_mem hp
    rw [h3 j p hj]
    exact C100_rotation hbad hang _ _ n
  refine ⟨rs, hmain, hlen, hnan, fun ord hord => ?_⟩
  obtain ⟨m0, rfl, e2, e3, e4⟩ := default_start hl hρ hdef
  have near : ∀ n, NearReal ((rs.get r).1 n) (X ir n) ε := by
    intro n
    obtain ⟨q, hq, hd⟩ := near_of_fix he okr ok0 f1 g1 (fun h => by omega) h1 n
    rw [hX]
    refine ⟨q, hq, hd.trans ?_⟩
    rw [hε]
    have := hSr n
    gcongr
    linarith [abs_nonneg ((place ir).offset (place i0) n)]
  have hplay : BadPlay M 100 ρ 60 (2 : Fin 3) b r rs.get := by
    refine ⟨by decide, by omega, by omega, hb, fun k hk => ?_, ?_, by norm_num, ?_⟩
    · have hki : idx[k]? = some idx[k] := List.getElem?_eq_getElem (by omega)
      obtain ⟨tx, u1, u2, u3⟩ := htext k hk _ hki
      obtain ⟨okk, hSk⟩ := hplace k hk.le _ hki
      obtain ⟨x, x1, x2⟩ := scans_before hT he okk ok0 u2 s0 (k := k) (fun h => by
        subst h; rw [hki] at hi0; rw [Option.some.inj hi0]) u3 hSk hL1 hL2 hε (hfin k hk _ hki)
        (hrec k _ i0 hki hi0 tx text0 u1 t0) hrlo hrhi (by rw [← hX]; exact hscan k hk _ hki)
      exact ⟨x, x1, x2 _ (by push_cast; exact le_refl _)⟩
    · left
      choose x hx using near
      refine ⟨x, ⟨hrlo, hrhi, fun n => (hx n).1, fun n => ?_, fun p hp n => .inl (hnan p hp n),
        fun p hp hnb => absurd ⟨0, hnan p hp 0⟩ hnb⟩, fun p hp y hy => ?_, ?_, ?_⟩
      · have h2 := abs_sub_abs_le_abs_sub (x n : ℝ) (X ir n)
        have : |(x n : ℝ)| ≤ M * ρ := by linarith [hnear n, (hx n).2]
        exact_mod_cast this
      · rw [hnan p hp 2] at hy
        obtain ⟨_, _, _, hy⟩ := hy
        cases hy
      · have hl0 : 0 < (rs.get r).2.points.length := by rw [h2]; omega
        have hm := List.getElem_mem hl0
        obtain ⟨n, hn2, hn⟩ := hside
        refine ⟨_, hm, ⟨0, hnan _ hm 0⟩, n, hn2, .inl ⟨hnan _ hm n, .inl ?_⟩⟩
        have hxn := abs_le.mp (hx n).2
        have : 2 * (ρ : ℝ) ≤ x n := by linarith [hxn.1]
        exact_mod_cast this
      · have hx2 := abs_le.mp (hx 2).2
        rw [← Rat.cast_le (K := ℝ)]
        push_cast
        linarith [hx2.2]
    · have : (600 : ℚ) ≤ M := by exact_mod_cast hM1
      nlinarith
  have hml : defaultNM.maxRange.Is 60 := by decide +kernel
  rw [hlen]
  exact ⟨fun s hs => C98_visualizer (.inr rfl) hrlt e2 e4 e3 hord hml hplay hs,
    fun σ h1 h2 => C98_freezes (.inr rfl) hrlt e2 e4 e3 hord hml hplay h1 h2⟩

/-- C100, the position: from the bytes of a recording folder. The records before number `r` hold a place and angles of
at most 4 in decimal; record `r`, not the first, has a latitude or an altitude that is `inf`, or such a longitude and
a decimal latitude within 80 degrees of the first one; what comes after it are any numerals. The scans before number
`r` are in the working range and above tile border `b`, and cloud file `r` has a finite record. Then the window opens
and the program freezes, as in C98. -/
theorem C100_place (hl : TestedLn) (hT : AccurateTrig T) {cos : F64 → F64} {radPerDeg : F64} {cast : F64 → F32}
    (he : AccurateEnv (parsingEnv cos radPerDeg cast (Quat.fromEuler (F := F32))))
    (hcast : ∀ s, cast (.inf s) = .inf s)
    {w₁ w₂ : ℕ} {ext ext' : List (Fin 256)} {idx : List ℕ} {po pv : List (List (Fin 256))}
    (ho : IndexFolder w₁ ext idx po) (hv : IndexFolder w₂ ext' idx pv)
    {oxtBytes cloudBytes : List (Fin 256) → List (BitVec 8)} {place : ℕ → Place} {roll pitch yaw : ℕ → ℚ} {L S ε : ℝ}
    {r ir i0 : ℕ} (hr : idx[r]? = some ir) (hr0 : 0 < r) (hi0 : idx[0]? = some i0)
    (hplace : ∀ k < r, ∀ i, idx[k]? = some i → (place i).Ok ∧ ∀ n, |(place i).offset (place i0) n| ≤ S)
    (htext : ∀ k < r, ∀ i, idx[k]? = some i → ∃ text, oxtBytes (indexName w₁ ext i) = utf8 text ∧
      Says text (place i) (roll i) (pitch i) (yaw i))
    (hang : ∀ k ≤ r, ∀ i, idx[k]? = some i → |roll i| ≤ 4 ∧ |pitch i| ≤ 4 ∧ |yaw i| ≤ 4)
    (hwrong : ∃ text, oxtBytes (indexName w₁ ext ir) = utf8 text ∧
      InfinitePlace text (place i0).lat (roll ir) (pitch ir) (yaw ir))
    (hrest : ∀ i ∈ idx, ∃ text, oxtBytes (indexName w₁ ext i) = utf8 text ∧ SixNumerals text)
    (hcloud : ∀ i ∈ idx, 16 ∣ (cloudBytes (indexName w₂ ext' i)).length)
    (hfin : ∀ k < r, ∀ i, idx[k]? = some i → ∀ j < (cloudBytes (indexName w₂ ext' i)).length / 16,
      FiniteRecord (cloudBytes (indexName w₂ ext' i)) j ∧
      ∀ n : Fin 3, |((f32OfBits (wordAt (cloudBytes (indexName w₂ ext' i)) (16 * j + 4 * n.val))).val : ℝ)| ≤ L)
    (hsome : ∃ j < (cloudBytes (indexName w₂ ext' ir)).length / 16, FiniteRecord (cloudBytes (indexName w₂ ext' ir)) j ∧
      ∀ n : Fin 3, |((f32OfBits (wordAt (cloudBytes (indexName w₂ ext' ir)) (16 * j + 4 * n.val))).val : ℝ)| ≤ L)
    (hL1 : 1 ≤ L) (hL2 : L ≤ 2 ^ 100) (hε : ε = (1130 * L + 2 * S) / 2 ^ 24 + 1 / 2 ^ 18)
    {X : ℕ → Fin 3 → ℝ} (hX : ∀ i, X i = (place i).offset (place i0))
    {M : ℕ} (hM1 : 600 ≤ M) (hM : M + 101 ≤ 2 ^ 18) {ρ : ℚ} (hρ : ρ = (Fp.lit 0.1 : F32).val) {b : ℤ} (hb : b ≤ 0)
    (hscan : ∀ k < r, ∀ i, idx[k]? = some i → RealScan M ρ ε (b * 100 * ρ) (X i)
      (FinitePoint (roll i) (pitch i) (yaw i) (X i) (cloudBytes (indexName w₂ ext' i))))
    {o : OccupancyGridMap 3 F32} (hdef : OccupancyGridMap.default_ = .ok o) :
    ∃ rs, main (parsingEnv cos radPerDeg cast Quat.fromEuler) (some (some (byteFolder po pv oxtBytes cloudBytes))) =
        .ok (.window rs) ∧ rs.clouds.length = idx.length ∧
      (∃ n s, (rs.get r).1 n = .inf s ∧ ∃ p ∈ (rs.get r).2.points, p n = .inf s) ∧
      ∀ ord : ℕ → List (Verif.Cell 3) → List (Verif.Cell 3), (∀ r, IsOrder (ord r)) →
        (∀ s, Reach (occOps o.noiseModel rs.get ord) rs.clouds.length o.gridMap s →
          s.workers.length ≤ r + 1 ∧ (∀ (k : ℕ) pc, s.workers[k]? = some (pc, r) → NotPast pc) ∧ s.main ≠ .dead) ∧
        ∀ σ, Execution (occOps o.noiseModel rs.get ord) rs.clouds.length o.gridMap σ →
          Fair (occOps o.noiseModel rs.get ord) rs.clouds.length σ →
          ∃ i : ℕ, (∃ k r' : ℕ, r' ≤ r ∧ (σ i).workers[k]? = some (.dead, r')) ∧ ∀ j, i ≤ j → (σ j).main = .check ∧
            (σ j).finished = false ∧ (σ j).tracked = (σ i).tracked ∧ (σ j).workers.length = (σ i).workers.length := by
  obtain ⟨rs, hmain, hlen, hrec⟩ := folder_records (cos := cos) (radPerDeg := radPerDeg) (cast := cast)
    (euler := Quat.fromEuler) ho hv hrest hcloud
  have hrlt : r < idx.length := (List.getElem?_eq_some_iff.mp hr).1
  have hrlo : (1 : ℚ) / 2 ^ 20 ≤ ρ := by rw [hρ]; decide +kernel
  have hrhi : ρ ≤ (2 : ℚ) ^ 20 := by rw [hρ]; decide +kernel
  have hρ60 : (60 : ℚ) ≤ 600 * ρ := by rw [hρ]; decide +kernel
  obtain ⟨text0, t0, s0⟩ := htext 0 hr0 i0 hi0
  have ok0 := (hplace 0 hr0 i0 hi0).1
  obtain ⟨text, tr, wr⟩ := hwrong
  obtain ⟨fix0, g1, y1, y2, y3, g2⟩ := fix_of he ok0 s0
  obtain ⟨fix, z1, z2, z3, f2, n, s, hns⟩ := record_infinite he hcast g1 wr
  obtain ⟨h1, h2, h3⟩ := hrec r ir i0 hr hi0 text text0 tr t0 _ _ _ _ f2 g2
  rw [if_neg (by omega)] at h1
  have hs : (rs.get r).1 n = .inf s := by rw [h1]; exact hns
  have hinf : ∃ p ∈ (rs.get r).2.points, p n = .inf s := by
    obtain ⟨j, hj, hf, hb⟩ := hsome
    have hjl : j < (rs.get r).2.points.length := by rw [h2]; exact hj
    have hjp : (rs.get r).2.points[j]? = some (rs.get r).2.points[j] := List.getElem?_eq_getElem hjl
    refine ⟨_, List.mem_of_getElem? hjp, ?_⟩
    rw [h3 j _ hjp]
    exact C100_position hT z1 z2 z3 (hang r le_rfl ir hr) hs hL1 hL2 (fun i => ⟨hf i, hb i⟩)
  refine ⟨rs, hmain, hlen, ⟨n, s, hs, hinf⟩, fun ord hord => ?_⟩
  obtain ⟨m0, rfl, e2, e3, e4⟩ := default_start hl hρ hdef
  have hplay : BadPlay M 100 ρ 60 (2 : Fin 3) b r rs.get := by
    refine ⟨by decide, by omega, by omega, hb, fun k hk => ?_, ?_, by norm_num, ?_⟩
    · have hki : idx[k]? = some idx[k] := List.getElem?_eq_getElem (by omega)
      obtain ⟨tx, u1, u2⟩ := htext k hk _ hki
      obtain ⟨okk, hSk⟩ := hplace k hk _ hki
      obtain ⟨x, x1, x2⟩ := scans_before hT he okk ok0 u2 s0 (k := k) (fun h => by
        subst h; rw [hki] at hi0; rw [Option.some.inj hi0]) (hang k hk.le _ hki) hSk hL1 hL2 hε (hfin k hk _ hki)
        (hrec k _ i0 hki hi0 tx text0 u1 t0) hrlo hrhi (by rw [← hX]; exact hscan k hk _ hki)
      exact ⟨x, x1, x2 _ (by push_cast; exact le_refl _)⟩
    · obtain ⟨p, hp, hpn⟩ := hinf
      exact .inr ⟨by norm_num, by norm_num, p, hp, n, s, hpn⟩
    · have : (600 : ℚ) ≤ M := by exact_mod_cast hM1
      nlinarith
  have hml : defaultNM.maxRange.Is 60 := by decide +kernel
  rw [hlen]
  exact ⟨fun s hs => C98_visualizer (.inr rfl) hrlt e2 e4 e3 hord hml hplay hs,
    fun σ h1 h2 => C98_freezes (.inr rfl) hrlt e2 e4 e3 hord hml hplay h1 h2⟩

end

/-! ## Examples -/

/-- Sine and cosine as asked for, that have no value where the angle is not finite. -/
@[instance_reducible] noncomputable def strictTrig : Trig F32 where
  sin x := if x.isFin then someTrig.sin x else .nan
  cos x := if x.isFin then someTrig.cos x else .nan

lemma strictTrig_accurate : AccurateTrig strictTrig where
  sin x q h := by
    change NearReal (if x.isFin then someTrig.sin x else .nan) _ _
    rw [if_pos h.isFin]
    exact someTrig_accurate.sin x q h
  cos x q h := by
    change NearReal (if x.isFin then someTrig.cos x else .nan) _ _
    rw [if_pos h.isFin]
    exact someTrig_accurate.cos x q h

lemma strictTrig_bad (x : F32) (h : x.isFin = false) : strictTrig.sin x = .nan ∧ strictTrig.cos x = .nan :=
  ⟨if_neg (by rw [h]; simp), if_neg (by rw [h]; simp)⟩

/-- A conversion as asked for, that keeps infinity. -/
noncomputable def infCast : F64 → F32
  | .inf s => .inf s
  | x => someEnv.cast x

lemma infCast_accurate (x : F64) (q : ℚ) (h : x.Is q) : ∃ zs, infCast x = Fp.ofRat zs q := by
  have := someEnv_accurate.cast x q h
  obtain ⟨_, _, _, rfl⟩ := h
  exact this

/-- An infinite pitch. -/
example (n : Fin 3) : PointCloud.transformPoint (⟨![Fp.lit 1, Fp.lit 2, Fp.lit 3],
    @Quat.fromEuler F32 _ strictTrig (Fp.lit 0) (.inf true) (Fp.lit 1)⟩ : Pose F32 (Quat F32)).toHomogeneous
      ![Fp.lit 4, Fp.lit 5, Fp.lit 6] n = .nan :=
  @C100_rotation strictTrig strictTrig_bad _ _ _ (.inr (.inl rfl)) _ _ n

/-- A position infinitely far down. -/
example : PointCloud.transformPoint (⟨![Fp.lit 1, .nan, .inf true],
    @Quat.fromEuler F32 _ someTrig (Fp.ofRat false (1 / 8)) (Fp.ofRat false 0) (Fp.ofRat false (-1))⟩ :
      Pose F32 (Quat F32)).toHomogeneous ![Fp.lit 4, Fp.lit 5, Fp.lit 6] 2 = .inf true := by
  refine @C100_position someTrig someTrig_accurate _ _ _ false false false (by norm_num [abs_le]) _ _ 2 true rfl 6
    (by norm_num) (by norm_num) fun i => ?_
  have h : ∀ i, ((![Fp.lit 4, Fp.lit 5, Fp.lit 6] : Point 3 F32) i).isFin = true ∧
      |((![Fp.lit 4, Fp.lit 5, Fp.lit 6] : Point 3 F32) i).val| ≤ 6 := by decide +kernel
  exact ⟨(h i).1, by exact_mod_cast (h i).2⟩

/-- Two places ten metres apart. -/
def twoPlaces (i : ℕ) : Place := if i = 0 then ⟨49, 42 / 5, 582 / 5⟩ else ⟨49 + 9 / 100000, 42 / 5, 582 / 5⟩

lemma twoPlaces_ok (i : ℕ) : (twoPlaces i).Ok := by
  unfold twoPlaces
  split_ifs
  · exact ⟨by norm_num, by norm_num [abs_le], by norm_num [abs_le]⟩
  · exact ⟨by norm_num [abs_le], by norm_num [abs_le], by norm_num [abs_le]⟩

lemma twoPlaces_offset (i : ℕ) : (twoPlaces i).offset (twoPlaces 0) = ![0, if i = 0 then 0 else 5001 / 500, 0] := by
  funext n
  by_cases hi : i = 0 <;> fin_cases n <;> simp [Place.offset, twoPlaces, hi]
  norm_num

/-- The two record files, the second one as given. -/
def twoTexts (second : String) (p : List (Fin 256)) : List (BitVec 8) :=
  utf8 (if p = indexName 10 (ascii ".txt") 0 then "49 8.4 116.4 0 0 0".toList else second.toList)

lemma twoTexts_first (second : String) : ∃ text, twoTexts second (indexName 10 (ascii ".txt") 0) = utf8 text ∧
    Says text (twoPlaces 0) 0 0 0 := by
  refine ⟨_, rfl, ?_⟩
  rw [if_pos rfl]
  exact ⟨"49".toList, "8.4".toList, "116.4".toList, "0".toList, "0".toList, "0".toList, [],
    fields_iff.mpr (by decide +kernel), by decide +kernel, by decide +kernel, by decide +kernel, by decide +kernel,
    by decide +kernel, by decide +kernel⟩

lemma twoTexts_second (second : String) :
    twoTexts second (indexName 10 (ascii ".txt") 1) = utf8 second.toList := by
  unfold twoTexts
  rw [if_neg (by decide +kernel)]

lemma twoPoints_ok : ∀ j < twoPoints.length / 16, FiniteRecord twoPoints j ∧
    ∀ n : Fin 3, |((f32OfBits (wordAt twoPoints (16 * j + 4 * n.val))).val : ℝ)| ≤ 2 := by
  have key : ∀ j < twoPoints.length / 16, ∀ n : Fin 3,
      |(f32OfBits (wordAt twoPoints (16 * j + 4 * n.val))).val| ≤ 2 := by decide +kernel
  have key' : ∀ j < twoPoints.length / 16, FiniteRecord twoPoints j := by unfold FiniteRecord; decide +kernel
  exact fun j hj => ⟨key' j hj, fun n => by exact_mod_cast key j hj n⟩

lemma someDefault (hl : @TestedLn testedLibm) :
    ∃ o : OccupancyGridMap 3 F32, @OccupancyGridMap.default_ F32 _ 3 testedLibm = .ok o := by
  let _ := testedLibm
  obtain ⟨m0, e1, -⟩ := new_empty_placed (D := 3) (ρ := 13421773 / 2 ^ 27) (r := (Fp.lit 0.1 : F32)) (by norm_num)
    (by refine ⟨by decide +kernel, ?_, ?_⟩ <;> norm_num) (t := 100) (by norm_num) (by norm_num) (Fp.lit 0 : F32)
  refine ⟨⟨m0, defaultNM⟩, ((C42_default_model hl).2.1 _).mpr ?_⟩
  unfold OccupancyGridMap.new
  rw [Verif.M.bind_eq_ok]
  exact ⟨m0, e1, rfl⟩

lemma firstScan_real : RealScan 600 ((13421773 / 2 ^ 27 : ℚ) : ℝ) ((1130 * 2 + 2 * 11) / 2 ^ 24 + 1 / 2 ^ 18)
    ((-1 : ℤ) * 100 * ((13421773 / 2 ^ 27 : ℚ) : ℝ)) ![0, if 0 = 0 then 0 else 5001 / 500, 0]
    (FinitePoint (0 : ℚ) (0 : ℚ) (0 : ℚ) ![0, if 0 = 0 then 0 else 5001 / 500, 0] twoPoints) := by
  have third : ∀ a b c : ℝ, (![a, b, c] : Fin 3 → ℝ) 2 = c := fun _ _ _ => rfl
  refine ⟨by intro i; fin_cases i <;> norm_num, fun Y hY n => ?_, fun Y hY => ?_⟩
  · rw [twoPoints_finite] at hY
    rcases hY with rfl | rfl <;> fin_cases n <;> norm_num [← le_sub_iff_add_le, le_abs, abs_le, third]
  · rw [twoPoints_finite] at hY
    rcases hY with rfl | rfl
    · rw [third, third]; norm_num
    · rw [third, third]; norm_num

/-- A folder with two recordings, the pitch of the second not a number: the window opens, no point of the second scan
is left, and no run gets past it. -/
example : ∃ (rs : _) (o : OccupancyGridMap 3 F32),
    main (parsingEnv someEnv.cos someEnv.radPerDeg someEnv.cast (@Quat.fromEuler F32 _ strictTrig))
      (some (some (byteFolder [indexName 10 (ascii ".txt") 0, indexName 10 (ascii ".txt") 1]
        [indexName 10 (ascii ".bin") 0, indexName 10 (ascii ".bin") 1]
        (twoTexts "49.00009 8.4 116.4 0 nan 0") fun _ => twoPoints))) = .ok (.window rs) ∧
    @OccupancyGridMap.default_ F32 _ 3 testedLibm = .ok o ∧
    ∀ s, Reach (occOps o.noiseModel rs.get fun _ l => l) rs.clouds.length o.gridMap s →
      s.workers.length ≤ 2 ∧ (∀ (k : ℕ) pc, s.workers[k]? = some (pc, 1) → NotPast pc) ∧ s.main ≠ .dead := by
  let _ := strictTrig
  let _ := testedLibm
  have hl : TestedLn := by constructor <;> decide +kernel
  obtain ⟨o, ho⟩ := someDefault hl
  have third : ∀ a b c : ℝ, (![a, b, c] : Fin 3 → ℝ) 2 = c := fun _ _ _ => rfl
  have hwrong : WrongAngle "49.00009 8.4 116.4 0 nan 0".toList (twoPlaces 1) :=
    ⟨"49.00009".toList, "8.4".toList, "116.4".toList, "0".toList, "nan".toList, "0".toList, [],
      fields_iff.mpr (by decide +kernel), by decide +kernel, by decide +kernel, by decide +kernel,
      .inl ⟨0, by decide +kernel⟩, .inr (by unfold Special; decide +kernel), .inl ⟨0, by decide +kernel⟩,
      .inr (.inl (by unfold Special; decide +kernel))⟩
  obtain ⟨rs, h1, hlen, -, h2⟩ := C100_angle (w₁ := 10) (w₂ := 10) (ext := ascii ".txt") (ext' := ascii ".bin") hl
    strictTrig_accurate strictTrig_bad
    (C76_accurate (euler := Quat.fromEuler (F := F32)) someEnv_accurate.cos someEnv_accurate.radPerDeg
      someEnv_accurate.cast)
    (idx := [0, 1]) (po := [indexName 10 (ascii ".txt") 0, indexName 10 (ascii ".txt") 1])
    (pv := [indexName 10 (ascii ".bin") 0, indexName 10 (ascii ".bin") 1])
    (oxtBytes := twoTexts "49.00009 8.4 116.4 0 nan 0") (cloudBytes := fun _ => twoPoints)
    (place := twoPlaces) (roll := fun _ => 0) (pitch := fun _ => 0) (yaw := fun _ => 0)
    (X := fun i => ![0, if i = 0 then 0 else 5001 / 500, 0])
    ⟨by simp, by decide, by simp⟩ ⟨by simp, by decide, by simp⟩ (r := 1) (ir := 1) (i0 := 0) rfl one_pos rfl (S := 11)
    (fun k _ i _ => ⟨twoPlaces_ok i, fun n => by
      rw [twoPlaces_offset]
      by_cases hi : i = 0 <;> fin_cases n <;> norm_num [hi, abs_le]⟩)
    (fun k hk i hi => by
      obtain rfl : k = 0 := by omega
      obtain rfl : (0 : ℕ) = i := by simpa using hi
      obtain ⟨text, a1, a2⟩ := twoTexts_first "49.00009 8.4 116.4 0 nan 0"
      exact ⟨text, a1, a2, by norm_num⟩)
    ⟨_, twoTexts_second _, hwrong⟩
    (fun i hi => by
      rcases List.mem_pair.mp hi with rfl | rfl
      · obtain ⟨text, a1, a2⟩ := twoTexts_first "49.00009 8.4 116.4 0 nan 0"
        exact ⟨text, a1, says_numerals a2⟩
      · exact ⟨_, twoTexts_second _, angle_numerals hwrong⟩)
    (fun i _ => by decide) (L := 2) (fun k _ i _ => twoPoints_ok) (by decide) (by norm_num) (by norm_num) rfl
    (fun i => (twoPlaces_offset i).symm) (M := 600) (by norm_num) (by norm_num) side_val.symm (b := -1) (by norm_num)
    (fun k hk i hi => by
      obtain rfl : k = 0 := by omega
      obtain rfl : (0 : ℕ) = i := by simpa using hi
      exact firstScan_real)
    (by intro n; fin_cases n <;> norm_num [← le_sub_iff_add_le, abs_le])
    ⟨1, by decide, by norm_num⟩ (by rw [third]; norm_num) ho
  exact ⟨rs, o, h1, ho, fun s hs => (h2 _ fun _ l => List.Perm.refl l).1 s hs⟩

/-- A folder with two recordings, the longitude of the second infinite: the window opens, and no run gets past the
second scan. -/
example : ∃ (rs : _) (o : OccupancyGridMap 3 F32),
    main (parsingEnv someEnv.cos someEnv.radPerDeg infCast (@Quat.fromEuler F32 _ someTrig))
      (some (some (byteFolder [indexName 10 (ascii ".txt") 0, indexName 10 (ascii ".txt") 1]
        [indexName 10 (ascii ".bin") 0, indexName 10 (ascii ".bin") 1]
        (twoTexts "49.00009 -Inf 116.4 0 0 0") fun _ => twoPoints))) = .ok (.window rs) ∧
    @OccupancyGridMap.default_ F32 _ 3 testedLibm = .ok o ∧
    ∀ s, Reach (occOps o.noiseModel rs.get fun _ l => l) rs.clouds.length o.gridMap s →
      s.workers.length ≤ 2 ∧ (∀ (k : ℕ) pc, s.workers[k]? = some (pc, 1) → NotPast pc) ∧ s.main ≠ .dead := by
  let _ := someTrig
  let _ := testedLibm
  have hl : TestedLn := by constructor <;> decide +kernel
  obtain ⟨o, ho⟩ := someDefault hl
  have hwrong : InfinitePlace "49.00009 -Inf 116.4 0 0 0".toList (twoPlaces 0).lat 0 0 0 :=
    ⟨"49.00009".toList, "-Inf".toList, "116.4".toList, "0".toList, "0".toList, "0".toList, [],
      fields_iff.mpr (by decide +kernel), .inl ⟨49 + 9 / 100000, by decide +kernel⟩,
      .inr (by unfold Special; decide +kernel), .inl ⟨582 / 5, by decide +kernel⟩,
      by decide +kernel, by decide +kernel, by decide +kernel,
      .inr (.inr ⟨by unfold InfWord; decide +kernel, 49 + 9 / 100000, by decide +kernel, by norm_num [abs_le], by
        norm_num [abs_le, twoPlaces]⟩)⟩
  obtain ⟨rs, h1, hlen, -, h2⟩ := C100_place (w₁ := 10) (w₂ := 10) (ext := ascii ".txt") (ext' := ascii ".bin") hl
    someTrig_accurate
    (C76_accurate (euler := Quat.fromEuler (F := F32)) someEnv_accurate.cos someEnv_accurate.radPerDeg infCast_accurate)
    (fun _ => rfl)
    (idx := [0, 1]) (po := [indexName 10 (ascii ".txt") 0, indexName 10 (ascii ".txt") 1])
    (pv := [indexName 10 (ascii ".bin") 0, indexName 10 (ascii ".bin") 1])
    (oxtBytes := twoTexts "49.00009 -Inf 116.4 0 0 0") (cloudBytes := fun _ => twoPoints)
    (place := twoPlaces) (roll := fun _ => 0) (pitch := fun _ => 0) (yaw := fun _ => 0)
    (X := fun i => ![0, if i = 0 then 0 else 5001 / 500, 0])
    ⟨by simp, by decide, by simp⟩ ⟨by simp, by decide, by simp⟩ (r := 1) (ir := 1) (i0 := 0) rfl one_pos rfl (S := 11)
    (fun k _ i _ => ⟨twoPlaces_ok i, fun n => by
      rw [twoPlaces_offset]
      by_cases hi : i = 0 <;> fin_cases n <;> norm_num [hi, abs_le]⟩)
    (fun k hk i hi => by
      obtain rfl : k = 0 := by omega
      obtain rfl : (0 : ℕ) = i := by simpa using hi
      exact twoTexts_first _)
    (fun _ _ _ _ => by norm_num)
    ⟨_, twoTexts_second _, hwrong⟩
    (fun i hi => by
      rcases List.mem_pair.mp hi with rfl | rfl
      · obtain ⟨text, a1, a2⟩ := twoTexts_first "49.00009 -Inf 116.4 0 0 0"
        exact ⟨text, a1, says_numerals a2⟩
      · exact ⟨_, twoTexts_second _, place_numerals hwrong⟩)
    (fun i _ => by decide) (L := 2) (fun k _ i _ => twoPoints_ok) ⟨0, by decide, twoPoints_ok 0 (by decide)⟩
    (by norm_num) (by norm_num) rfl
    (fun i => (twoPlaces_offset i).symm) (M := 600) (by norm_num) (by norm_num) side_val.symm (b := -1) (by norm_num)
    (fun k hk i hi => by
      obtain rfl : k = 0 := by omega
      obtain rfl : (0 : ℕ) = i := by simpa using hi
      exact firstScan_real) ho
  exact ⟨rs, o, h1, ho, fun s hs => (h2 _ fun _ l => List.Perm.refl l).1 s hs⟩

end Verif.Props
