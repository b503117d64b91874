import Verif.Props.Text
import Verif.Props.Names

/-!
# C80: from the bytes of a recording folder to moved points
-/

namespace Verif.Props
open Spec Kitti Viz

lemma offset_self (p : Place) (i : Fin 3) : p.offset p i = 0 := by
  fin_cases i <;> simp [Place.offset]

/-- A recording folder as bytes: the files of `oxts/data` are read as text. -/
def byteFolder {P : Type} (po pv : List P) (oxtBytes cloudBytes : P → List (BitVec 8)) : Folder P :=
  ⟨.ok (po.map .ok), fun p => readToString (.ok (oxtBytes p)), .ok (pv.map .ok), fun p => .ok (cloudBytes p)⟩

section
variable [T : Trig F32]

omit T in
/-- A point with a coordinate that is not finite has no finite coordinate after a transformation. -/
lemma transformPoint_bad {f : Fin 4 → Fin 4 → F32} {p : Point 3 F32} (h : ∃ n, (p n).isFin = false) (n : Fin 3) :
    (PointCloud.transformPoint f p n).isFin = false := by
  have mul_bad : ∀ {a b : F32}, b.isFin = false → (Fp.mul a b).isFin = false := by
    intro a b h
    cases b with
    | nan => cases a <;> rfl
    | inf s =>
      cases a with
      | nan => rfl
      | inf t => rfl
      | fin q _ _ _ =>
        unfold Fp.mul
        dsimp only
        split_ifs <;> rfl
    | fin q _ _ _ => cases h
  have add_bad : ∀ {a b : F32}, a.isFin = false ∨ b.isFin = false → (Fp.add a b).isFin = false := by
    intro a b h
    cases a <;> cases b <;> first
      | rfl
      | (unfold Fp.add; dsimp only; split_ifs <;> rfl)
      | (rcases h with h | h <;> cases h)
  obtain ⟨k, hk⟩ := h
  change (Fp.add (Fp.mul (f n.castSucc 3) (Fp.lit 1)) (Fp.add (Fp.mul (f n.castSucc 2) (p 2))
    (Fp.add (Fp.mul (f n.castSucc 1) (p 1)) (Fp.mul (f n.castSucc 0) (p 0))))).isFin = false
  refine add_bad (.inr (add_bad ?_))
  fin_cases k
  · exact .inr (add_bad (.inr (mul_bad hk)))
  · exact .inr (add_bad (.inl (mul_bad hk)))
  · exact .inl (mul_bad hk)

/-- C80 and C98: what becomes of each record of the files. -/
lemma scans_any (hT : AccurateTrig T) {cos : F64 → F64} {radPerDeg : F64} {cast : F64 → F32}
    (he : AccurateEnv (parsingEnv cos radPerDeg cast (Quat.fromEuler (F := F32))))
    {w w' : ℕ} {ext ext' : List (Fin 256)} {idx : List ℕ} {po pv : List (List (Fin 256))}
    (ho : IndexFolder w ext idx po) (hv : IndexFolder w' ext' idx pv)
    {oxtBytes cloudBytes : List (Fin 256) → List (BitVec 8)} {place : ℕ → Place} {roll pitch yaw : ℕ → ℚ} {L S : ℝ}
    (htext : ∀ i ∈ idx, ∃ text, oxtBytes (indexName w ext i) = utf8 text ∧ (place i).Ok ∧
      Says text (place i) (roll i) (pitch i) (yaw i))
    (hang : ∀ i ∈ idx, |roll i| ≤ 4 ∧ |pitch i| ≤ 4 ∧ |yaw i| ≤ 4)
    (hcloud : ∀ i ∈ idx, 16 ∣ (cloudBytes (indexName w' ext' i)).length)
    (hS : ∀ i ∈ idx, ∀ i0, idx[0]? = some i0 → ∀ n, |(place i).offset (place i0) n| ≤ S)
    (hL1 : 1 ≤ L) (hL2 : L ≤ 2 ^ 100) :
    ∃ rs, main (parsingEnv cos radPerDeg cast Quat.fromEuler) (some (some (byteFolder po pv oxtBytes cloudBytes))) =
        .ok (.window rs) ∧
      rs.poses.length = idx.length ∧ rs.clouds.length = idx.length ∧
      ∀ (k i i0 : ℕ), idx[k]? = some i → idx[0]? = some i0 →
        (∀ n, NearReal ((rs.get k).1 n) ((place i).offset (place i0) n)
          (|(place i).offset (place i0) n| / 2 ^ 24 + 1 / 2 ^ 18)) ∧
        (rs.get k).2.points.length = (cloudBytes (indexName w' ext' i)).length / 16 ∧
        ∀ (j : ℕ) x, (rs.get k).2.points[j]? = some x →
          ((∀ n : Fin 3, (f32OfBits (wordAt (cloudBytes (indexName w' ext' i)) (16 * j + 4 * n.val))).isFin = true ∧
              |((f32OfBits (wordAt (cloudBytes (indexName w' ext' i)) (16 * j + 4 * n.val))).val : ℝ)| ≤ L) →
            ∀ n, NearReal (x n)
              (rigid (roll i) (pitch i) (yaw i) ((place i).offset (place i0))
                (fun m => ((f32OfBits (wordAt (cloudBytes (indexName w' ext' i)) (16 * j + 4 * m.val))).val : ℝ)) n)
              ((1130 * L + 2 * S) / 2 ^ 24 + 1 / 2 ^ 18)) ∧
          ((∃ n : Fin 3, (f32OfBits (wordAt (cloudBytes (indexName w' ext' i)) (16 * j + 4 * n.val))).isFin = false) →
            ∀ n, (x n).isFin = false) := by
  set d := byteFolder po pv oxtBytes cloudBytes with hd
  have hfile : ∀ i ∈ idx, ∃ text, d.oxtFile (indexName w ext i) = .ok text ∧ (place i).Ok ∧
      Says text (place i) (roll i) (pitch i) (yaw i) := by
    intro i hi
    obtain ⟨text, h1, h2, h3⟩ := htext i hi
    refine ⟨text, ?_, h2, h3⟩
    change readToString (.ok (oxtBytes (indexName w ext i))) = _
    unfold readToString
    simp only [h1, (C77_utf8 _ text).mpr rfl]
  have hpo : ∀ p ∈ po, ∃ i ∈ idx, indexName w ext i = p := fun p hp => by
    simpa using ho.2.2.mem_iff.mp hp
  have hpv : ∀ p ∈ pv, ∃ i ∈ idx, indexName w' ext' i = p := fun p hp => by
    simpa using hv.2.2.mem_iff.mp hp
  obtain ⟨rs, hrs⟩ := (C60_window_iff (env := parsingEnv cos radPerDeg cast Quat.fromEuler) (d := d) (po := po)
    (pv := pv) rfl rfl).1.mpr ⟨fun p hp => by
      obtain ⟨i, hi, rfl⟩ := hpo p hp
      obtain ⟨text, h1, h2, h3⟩ := hfile i hi
      obtain ⟨fix, -, z1, z2, z3, h4⟩ := fix_of he h2 h3
      exact ⟨text, fix, _, h1, h4⟩, fun p hp => by
      obtain ⟨i, hi, rfl⟩ := hpv p hp
      exact ⟨_, rfl, hcloud i hi⟩, by
      rw [ho.2.2.length_eq, hv.2.2.length_eq, List.length_map, List.length_map]⟩
  obtain ⟨l1, l2, h3⟩ := C60_recordings (indexFolder_sorted ho) (indexFolder_sorted hv) rfl rfl hrs
  have hl : po.length = idx.length := by rw [ho.2.2.length_eq, List.length_map]
  refine ⟨rs, hrs, l1.trans hl, l2.trans hl, fun k i i0 hk h0 => ?_⟩
  have hi : i ∈ idx := List.mem_of_getElem? hk
  have hi0 : i0 ∈ idx := List.mem_of_getElem? h0
  obtain ⟨text, fix, rot, p0, text0, fix0, rot0, bytes, pose, e1, e2, e3, e4, e5, e6, e7, e8, e9, e10, e11, e12⟩ :=
    h3 k (indexName w ext i) (indexName w' ext' i) (by rw [List.getElem?_map, hk]; rfl)
      (by rw [List.getElem?_map, hk]; rfl)
  obtain rfl : indexName w ext i0 = p0 := by
    rw [List.getElem?_map, h0] at e3
    simpa using e3
  obtain rfl : cloudBytes (indexName w' ext' i) = bytes := Except.ok.inj e6
  obtain ⟨text', f1, f2, f3⟩ := hfile i hi
  obtain ⟨text0', g1, g2, g3⟩ := hfile i0 hi0
  rw [f1] at e1
  rw [g1] at e4
  cases e1
  cases e4
  obtain ⟨fx, q1, z1, z2, z3, k1⟩ := fix_of he f2 f3
  obtain ⟨fo, q0, y1, y2, y3, k0⟩ := fix_of he g2 g3
  obtain ⟨rfl, rfl⟩ := record_unique e2 k1
  obtain ⟨rfl, rfl⟩ := record_unique e5 k0
  have near : ∀ n, NearReal (pose.translation n) ((place i).offset (place i0) n)
      (|(place i).offset (place i0) n| / 2 ^ 24 + 1 / 2 ^ 18) := by
    intro n
    rw [e10]
    split_ifs with hk0
    · subst hk0
      obtain rfl : i = i0 := by rw [hk] at h0; simpa using h0
      refine ⟨0, F32.zero_is, ?_⟩
      rw [offset_self]
      norm_num
    · exact gps_near he f2 g2 q1 q0 n
  refine ⟨fun n => by rw [e11]; exact near n, ?_, ?_⟩
  · rw [e12]
    simp [fileCloud, PointCloud.transform, C13_points_fromPoints]
  · intro j x hx
    rw [e12] at hx
    obtain ⟨y, hy, rfl⟩ : ∃ y, (fun n : Fin 3 => f32OfBits (wordAt (cloudBytes (indexName w' ext' i)) (16 * j + 4 * n.val))) = y ∧
        PointCloud.transformPoint pose.toHomogeneous y = x := by
      unfold fileCloud PointCloud.transform at hx
      rw [C13_points_fromPoints, List.getElem?_map, C13_points_fromPoints, List.getElem?_map] at hx
      obtain ⟨y, hy, rfl⟩ := Option.map_eq_some_iff.mp hx
      obtain ⟨j', hj', rfl⟩ := Option.map_eq_some_iff.mp hy
      obtain ⟨hlt, hj'⟩ := List.getElem?_eq_some_iff.mp hj'
      rw [List.getElem_range] at hj'
      subst hj'
      exact ⟨_, rfl, rfl⟩
    refine ⟨fun hfin n => ?_, fun hbad => transformPoint_bad (by rw [← hy]; exact hbad)⟩
    obtain ⟨a1, a2, a3⟩ := hang i hi
    obtain ⟨t, rot⟩ := pose
    simp only at e9 near
    subst e9
    have key := moved_near hT z1 z2 z3 near a1 a2 a3 L (min S (2 ^ 26))
      (fun n => le_min (hS i hi i0 h0 n) (offset_le f2 g2 n)) (min_le_right _ _) hL1 hL2
      (PointCloud.fromPoints [y])
      (fun y' hy' m => by
        rw [C13_points_fromPoints, List.mem_singleton] at hy'
        subst hy'
        rw [← hy]
        exact hfin m)
    unfold PointCloud.transform at key
    rw [C13_points_fromPoints, C13_points_fromPoints, List.map_singleton] at key
    obtain ⟨hxy, -⟩ := List.forall₂_cons.mp key
    obtain ⟨q, hq, hd⟩ := hxy n
    rw [← hy] at hd
    refine ⟨q, hq, hd.trans ?_⟩
    have := min_le_left S (2 ^ 26)
    gcongr

/-- C80: a recording folder, as bytes. Its two subfolders hold the same indices, each padded to one width, listed in
any order; every record is UTF-8 and begins with six decimal numbers, the place on the globe and the angles at most
4 radians; every cloud file consists of 16-byte points, finite and at most `L`. Then the window opens. Scan `k`
comes from the files with the `k`-th index; its sensor position is the offset of its place from that of the first
index, within a relative 2^-24 and four micrometres; it has a point per 16 bytes, in file order, within
`(1130 L + 2 S) / 2^24` and four micrometres of the exact rigid motion, by the numbers of the record, of the numbers
of the file. -/
theorem C80_scans (hT : AccurateTrig T) {cos : F64 → F64} {radPerDeg : F64} {cast : F64 → F32}
    (he : AccurateEnv (parsingEnv cos radPerDeg cast (Quat.fromEuler (F := F32))))
    {w w' : ℕ} {ext ext' : List (Fin 256)} {idx : List ℕ} {po pv : List (List (Fin 256))}
    (ho : IndexFolder w ext idx po) (hv : IndexFolder w' ext' idx pv)
    {oxtBytes cloudBytes : List (Fin 256) → List (BitVec 8)} {place : ℕ → Place} {roll pitch yaw : ℕ → ℚ} {L S : ℝ}
    (htext : ∀ i ∈ idx, ∃ text, oxtBytes (indexName w ext i) = utf8 text ∧ (place i).Ok ∧
      Says text (place i) (roll i) (pitch i) (yaw i))
    (hang : ∀ i ∈ idx, |roll i| ≤ 4 ∧ |pitch i| ≤ 4 ∧ |yaw i| ≤ 4)
    (hcloud : ∀ i ∈ idx, 16 ∣ (cloudBytes (indexName w' ext' i)).length ∧
      ∀ j < (cloudBytes (indexName w' ext' i)).length / 16, ∀ n : Fin 3,
        (f32OfBits (wordAt (cloudBytes (indexName w' ext' i)) (16 * j + 4 * n.val))).isFin = true ∧
        |((f32OfBits (wordAt (cloudBytes (indexName w' ext' i)) (16 * j + 4 * n.val))).val : ℝ)| ≤ L)
    (hS : ∀ i ∈ idx, ∀ i0, idx[0]? = some i0 → ∀ n, |(place i).offset (place i0) n| ≤ S)
    (hL1 : 1 ≤ L) (hL2 : L ≤ 2 ^ 100) :
    ∃ rs, main (parsingEnv cos radPerDeg cast Quat.fromEuler) (some (some (byteFolder po pv oxtBytes cloudBytes))) =
        .ok (.window rs) ∧
      rs.poses.length = idx.length ∧ rs.clouds.length = idx.length ∧
      ∀ (k i i0 : ℕ), idx[k]? = some i → idx[0]? = some i0 →
        (∀ n, NearReal ((rs.get k).1 n) ((place i).offset (place i0) n)
          (|(place i).offset (place i0) n| / 2 ^ 24 + 1 / 2 ^ 18)) ∧
        (rs.get k).2.points.length = (cloudBytes (indexName w' ext' i)).length / 16 ∧
        ∀ (j : ℕ) x, (rs.get k).2.points[j]? = some x → ∀ n, NearReal (x n)
          (rigid (roll i) (pitch i) (yaw i) ((place i).offset (place i0))
            (fun m => ((f32OfBits (wordAt (cloudBytes (indexName w' ext' i)) (16 * j + 4 * m.val))).val : ℝ)) n)
          ((1130 * L + 2 * S) / 2 ^ 24 + 1 / 2 ^ 18) := by
  obtain ⟨rs, h1, h2, h3, h4⟩ := scans_any hT he ho hv htext hang (fun i hi => (hcloud i hi).1) hS hL1 hL2
  refine ⟨rs, h1, h2, h3, fun k i i0 hk h0 => ?_⟩
  obtain ⟨g1, g2, g3⟩ := h4 k i i0 hk h0
  refine ⟨g1, g2, fun j x hx => (g3 j x hx).1 fun n => (hcloud i (List.mem_of_getElem? hk)).2 j ?_ n⟩
  rw [← g2]
  exact (List.getElem?_eq_some_iff.mp hx).1

end

/-- A folder of two recordings as in C80. -/
example : ∃ (cos : F64 → F64) (radPerDeg : F64) (cast : F64 → F32) (oxtBytes cloudBytes : List (Fin 256) → List (BitVec 8))
    (place : ℕ → Place) (po pv : List (List (Fin 256))), AccurateTrig someTrig ∧
    AccurateEnv (parsingEnv cos radPerDeg cast (@Quat.fromEuler F32 _ someTrig)) ∧
    IndexFolder 10 (ascii ".txt") [8, 9] po ∧ IndexFolder 10 (ascii ".bin") [8, 9] pv ∧
    (∀ i ∈ [8, 9], ∃ text, oxtBytes (indexName 10 (ascii ".txt") i) = utf8 text ∧ (place i).Ok ∧
      Says text (place i) (1 / 2) 0 (-13 / 5)) ∧
    (∀ i ∈ [8, 9], 16 ∣ (cloudBytes (indexName 10 (ascii ".bin") i)).length ∧
      ∀ j < (cloudBytes (indexName 10 (ascii ".bin") i)).length / 16, ∀ n : Fin 3,
        (f32OfBits (wordAt (cloudBytes (indexName 10 (ascii ".bin") i)) (16 * j + 4 * n.val))).isFin = true ∧
        |((f32OfBits (wordAt (cloudBytes (indexName 10 (ascii ".bin") i)) (16 * j + 4 * n.val))).val : ℝ)| ≤ 1) ∧
    ∀ i ∈ [8, 9], ∀ i0, [8, 9][0]? = some i0 → ∀ n, |(place i).offset (place i0) n| ≤ 2 ^ 26 := by
  have hok : ∀ i : ℕ, (if i = 8 then ⟨9803 / 200, 4217 / 500, 582 / 5⟩ else ⟨6127 / 125, 1687 / 200, -3 / 200⟩ :
      Place).Ok := by
    intro i
    split_ifs
    · exact ⟨by norm_num [abs_le], by norm_num [abs_le], by norm_num [abs_le]⟩
    · exact ⟨by norm_num [abs_le], by norm_num [abs_le], by norm_num [abs_le]⟩
  refine ⟨someEnv.cos, someEnv.radPerDeg, someEnv.cast,
    fun p => utf8 (if p = indexName 10 (ascii ".txt") 8 then "49.015 8.434 116.4 .5 0 -2.6 1 x".toList
      else "4.9016e1 +8.435 -1.5E-2 .5 -0 -2.6".toList),
    fun _ => List.replicate 32 0x3F,
    fun i => if i = 8 then ⟨9803 / 200, 4217 / 500, 582 / 5⟩ else ⟨6127 / 125, 1687 / 200, -3 / 200⟩,
    [indexName 10 (ascii ".txt") 9, indexName 10 (ascii ".txt") 8],
    [indexName 10 (ascii ".bin") 8, indexName 10 (ascii ".bin") 9],
    someTrig_accurate, C76_accurate someEnv_accurate.cos someEnv_accurate.radPerDeg someEnv_accurate.cast,
    ⟨by decide, by decide, by decide +kernel⟩, ⟨by decide, by decide, by decide +kernel⟩, ?_, ?_, ?_⟩
  · intro i hi
    have h98 : indexName 10 (ascii ".txt") 9 ≠ indexName 10 (ascii ".txt") 8 := by decide +kernel
    simp only [List.mem_cons, List.not_mem_nil, or_false] at hi
    rcases hi with rfl | rfl
    · refine ⟨_, rfl, hok 8, ?_⟩
      rw [if_pos rfl]
      exact ⟨"49.015".toList, "8.434".toList, "116.4".toList, ".5".toList, "0".toList, "-2.6".toList, [['1'], ['x']],
        fields_iff.mpr (by decide +kernel), by decide +kernel, by decide +kernel, by decide +kernel, by decide +kernel,
        by decide +kernel, by decide +kernel⟩
    · refine ⟨_, rfl, hok 9, ?_⟩
      rw [if_neg h98]
      exact ⟨"4.9016e1".toList, "+8.435".toList, "-1.5E-2".toList, ".5".toList, "-0".toList, "-2.6".toList, [],
        fields_iff.mpr (by decide +kernel), by decide +kernel, by decide +kernel, by decide +kernel, by decide +kernel,
        by decide +kernel, by decide +kernel⟩
  · intro i _
    refine ⟨show 16 ∣ (List.replicate 32 (0x3F : BitVec 8)).length by decide, ?_⟩
    have key : ∀ j < (List.replicate 32 (0x3F : BitVec 8)).length / 16, ∀ n : Fin 3,
        (f32OfBits (wordAt (List.replicate 32 0x3F) (16 * j + 4 * n.val))).isFin = true ∧
        |(f32OfBits (wordAt (List.replicate 32 0x3F) (16 * j + 4 * n.val))).val| ≤ 1 := by decide +kernel
    intro j hj n
    obtain ⟨h1, h2⟩ := key j hj n
    exact ⟨h1, by exact_mod_cast h2⟩
  · intro i _ i0 _ n
    exact offset_le (hok i) (hok i0) n

end Verif.Props
