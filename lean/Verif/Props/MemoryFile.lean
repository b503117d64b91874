import Verif.Props.MemoryViz
import Verif.Props.LostFile

/-!
# C101: from the bytes of a folder to the end of the process
-/

namespace Verif.Props
open Spec Viz Scalar Kitti

section
variable [T : Trig F32] [Libm F32]

/-- C101: from the bytes of a recording folder, on a machine with limited memory. The folder is as in C80, but latitudes, longitudes and altitudes may be
written `nan`. Scan `r` is the first one of which a coordinate of the position is missing, for a `nan` in its record
or, if `r = 1`, in the first record. The scans before it are in the working range, and so is scan `r` on the axes
that are not missing, with a point two cells or more aside, or above the sensor. Then, whatever the limit, the window
opens, in every run scan `r` is the last that is started and its worker never gets past integrating, and in every fair
run the process ends or a worker panics. -/
theorem C101_folder (hl : TestedLn) (hT : AccurateTrig T) {cos : F64 → F64} {radPerDeg : F64} {cast : F64 → F32}
    (he : AccurateEnv (parsingEnv cos radPerDeg cast (Quat.fromEuler (F := F32))))
    (hcos : cos .nan = .nan) (hcast : cast .nan = .nan)
    {w₁ w₂ : ℕ} {ext ext' : List (Fin 256)} {idx : List ℕ} {po pv : List (List (Fin 256))}
    (ho : IndexFolder w₁ ext idx po) (hv : IndexFolder w₂ ext' idx pv)
    {oxtBytes cloudBytes : List (Fin 256) → List (BitVec 8)} {known : ℕ → Known} {roll pitch yaw : ℕ → ℚ} {L S ε : ℝ}
    (htext : ∀ i ∈ idx, ∃ text, oxtBytes (indexName w₁ ext i) = utf8 text ∧ (known i).Ok ∧
      SaysKnown text (known i) (roll i) (pitch i) (yaw i))
    (hang : ∀ i ∈ idx, |roll i| ≤ 4 ∧ |pitch i| ≤ 4 ∧ |yaw i| ≤ 4)
    (hcloud : ∀ i ∈ idx, 16 ∣ (cloudBytes (indexName w₂ ext' i)).length ∧
      ∀ j < (cloudBytes (indexName w₂ ext' i)).length / 16, FiniteRecord (cloudBytes (indexName w₂ ext' i)) j ∧
        ∀ n : Fin 3, |((f32OfBits (wordAt (cloudBytes (indexName w₂ ext' i)) (16 * j + 4 * n.val))).val : ℝ)| ≤ L)
    {i0 : ℕ} (hi0 : idx[0]? = some i0)
    (hS : ∀ i ∈ idx, ∀ n, ¬ (known i).Missing (known i0) n → |(known i).place.offset (known i0).place n| ≤ S)
    (hS0 : 0 ≤ S) (hL1 : 1 ≤ L) (hL2 : L ≤ 2 ^ 100) (hε : ε = (1130 * L + 2 * S) / 2 ^ 24 + 1 / 2 ^ 18)
    {X : ℕ → Fin 3 → ℝ} (hX : ∀ i, X i = (known i).place.offset (known i0).place) {pts : ℕ → (Fin 3 → ℝ) → Prop}
    (hpts : ∀ i, pts i = FinitePoint (roll i) (pitch i) (yaw i) (X i) (cloudBytes (indexName w₂ ext' i)))
    {M : ℕ} (hM1 : 600 ≤ M) (hM : M + 101 ≤ 2 ^ 18) {ρ : ℚ} (hρ : ρ = (Fp.lit 0.1 : F32).val)
    {r ir : ℕ} (hr0 : 0 < r) (hr : idx[r]? = some ir) (hlost : ∃ n, (known ir).Missing (known i0) n)
    (hfirst : ∀ k, 0 < k → k < r → ∀ i, idx[k]? = some i → ∀ n, ¬ (known i).Missing (known i0) n)
    (hscan : ∀ k < r, ∀ i, idx[k]? = some i → ∃ b, RealScan M ρ ε b (X i) (pts i))
    (hscan' : KnownScan M ρ ε ((known ir).Missing (known i0)) (X ir) (pts ir))
    {o : OccupancyGridMap 3 F32} (hdef : OccupancyGridMap.default_ = .ok o) :
    ∃ rs, main (parsingEnv cos radPerDeg cast Quat.fromEuler) (some (some (byteFolder po pv oxtBytes cloudBytes))) =
        .ok (.window rs) ∧ rs.clouds.length = idx.length ∧
      ∀ (B : ℕ) (ord : ℕ → List (Verif.Cell 3) → List (Verif.Cell 3)), (∀ r, IsOrder (ord r)) →
        (∀ s, MemReach B o.noiseModel rs.get ord rs.clouds.length o.gridMap (some s) →
          s.workers.length ≤ r + 1 ∧ (∀ (k : ℕ) pc, s.workers[k]? = some (pc, r) → NotPast pc) ∧ s.main ≠ .dead) ∧
        ∀ σ, MemExecution B o.noiseModel rs.get ord rs.clouds.length o.gridMap σ →
          MemFair B o.noiseModel rs.get ord rs.clouds.length σ →
          ∃ i, σ i = none ∨ ∃ s, σ i = some s ∧ ∃ k r' : ℕ, s.workers[k]? = some (.dead, r') := by
  obtain ⟨rs, hmain, hlen, hplay⟩ := lost_folder hT he hcos hcast ho hv htext hang hcloud hi0 hS hS0 hL1 hL2 hε hX hpts hM1
    hM hρ hr0 hr hlost hfirst hscan hscan'
  refine ⟨rs, hmain, hlen, fun B ord hord => ?_⟩
  have hrlt : r < idx.length := (List.getElem?_eq_some_iff.mp hr).1
  obtain ⟨m0, rfl, e2, e3, e4⟩ := default_start hl hρ hdef
  rw [hlen]
  exact ⟨fun s hs => C101_lost_visualizer (.inr rfl) hrlt e2 e4 e3 hord hplay hs,
    fun σ h1 h2 => C101_lost_ends (.inr rfl) hrlt e2 e4 e3 hord hplay h1 h2⟩

/-- C101: from the bytes of a recording folder. With room for an array of (2(M + 101))^3 entries, where no coordinate is
more than `M` cells from the start, and for 1048 entries per point of a scan, the visualizer's runs are exactly those on a
machine without a limit. -/
theorem C101_enough_folder (hl : TestedLn) (hT : AccurateTrig T) {cos : F64 → F64} {radPerDeg : F64} {cast : F64 → F32}
    (he : AccurateEnv (parsingEnv cos radPerDeg cast (Quat.fromEuler (F := F32))))
    {w₁ w₂ : ℕ} {ext ext' : List (Fin 256)} {idx : List ℕ} {po pv : List (List (Fin 256))}
    (ho : IndexFolder w₁ ext idx po) (hv : IndexFolder w₂ ext' idx pv)
    {oxtBytes cloudBytes : List (Fin 256) → List (BitVec 8)} {place : ℕ → Place} {roll pitch yaw : ℕ → ℚ} {L S ε : ℝ}
    (htext : ∀ i ∈ idx, ∃ text, oxtBytes (indexName w₁ ext i) = utf8 text ∧ (place i).Ok ∧
      Says text (place i) (roll i) (pitch i) (yaw i))
    (hang : ∀ i ∈ idx, |roll i| ≤ 4 ∧ |pitch i| ≤ 4 ∧ |yaw i| ≤ 4)
    (hcloud : ∀ i ∈ idx, 16 ∣ (cloudBytes (indexName w₂ ext' i)).length ∧
      ∀ j < (cloudBytes (indexName w₂ ext' i)).length / 16, ∀ n : Fin 3,
        (f32OfBits (wordAt (cloudBytes (indexName w₂ ext' i)) (16 * j + 4 * n.val))).isFin = true ∧
        |((f32OfBits (wordAt (cloudBytes (indexName w₂ ext' i)) (16 * j + 4 * n.val))).val : ℝ)| ≤ L)
    {i0 : ℕ} (hi0 : idx[0]? = some i0) (hS : ∀ i ∈ idx, ∀ n, |(place i).offset (place i0) n| ≤ S)
    (hL1 : 1 ≤ L) (hL2 : L ≤ 2 ^ 100) (hε : ε = (1130 * L + 2 * S) / 2 ^ 24 + 1 / 2 ^ 18)
    {X : ℕ → Fin 3 → ℝ} (hX : ∀ i, X i = (place i).offset (place i0)) {pts : ℕ → List (Fin 3 → ℝ)}
    (hpts : ∀ i, pts i = movedPoints (roll i) (pitch i) (yaw i) (X i) (cloudBytes (indexName w₂ ext' i)))
    {M N P B : ℕ} (hM1 : 600 ≤ M) (hN : N = M + 101) (hN18 : N + 1 ≤ 2 ^ 18) {ρ : ℚ} (hρ : ρ = (Fp.lit 0.1 : F32).val)
    (hscan : ∀ i ∈ idx, ∃ b, RealScan M ρ ε b (X i) (· ∈ pts i))
    (hP : ∀ i ∈ idx, (cloudBytes (indexName w₂ ext' i)).length / 16 ≤ P) (hB1 : (2 * N) ^ 3 ≤ B) (hB2 : 1048 * P ≤ B)
    {o : OccupancyGridMap 3 F32} (hdef : OccupancyGridMap.default_ = .ok o) :
    ∃ rs, main (parsingEnv cos radPerDeg cast Quat.fromEuler) (some (some (byteFolder po pv oxtBytes cloudBytes))) =
        .ok (.window rs) ∧ rs.clouds.length = idx.length ∧
      ∀ ord : ℕ → List (Verif.Cell 3) → List (Verif.Cell 3), (∀ r, IsOrder (ord r)) →
        ∀ x, MemReach B o.noiseModel rs.get ord rs.clouds.length o.gridMap x ↔
          ∃ s, x = some s ∧ Reach (occOps o.noiseModel rs.get ord) rs.clouds.length o.gridMap s := by
  obtain ⟨rs, hmain, hlen, hε0, hnone, hnear⟩ := folder_scans hT he ho hv htext hang hcloud hi0 hS hL1 hL2 hε hX hpts
  refine ⟨rs, hmain, hlen, fun ord hord x => ?_⟩
  have hidx : 0 < idx.length := (List.getElem?_eq_some_iff.mp hi0).1
  have hrlo : (1 : ℚ) / 2 ^ 20 ≤ ρ := by rw [hρ]; decide +kernel
  have hrhi : ρ ≤ (2 : ℚ) ^ 20 := by rw [hρ]; decide +kernel
  have hρ60 : (60 : ℚ) ≤ 600 * ρ := by rw [hρ]; decide +kernel
  have hpos : 0 < ρ := lt_of_lt_of_le (by norm_num) hrlo
  have hcl : ∀ r, WithinCells M ρ (rs.get r).2 := by
    intro r p hp n
    by_cases hr : r < idx.length
    · have hk : idx[r]? = some idx[r] := List.getElem?_eq_getElem hr
      obtain ⟨Y, hY, hn⟩ := forall₂_left (hnear r _ hk).2 hp
      obtain ⟨q, hq, hd⟩ := hn n
      obtain ⟨b, hb⟩ := hscan _ (List.mem_of_getElem? hk)
      have h1 := (hb.points Y hY n).1
      have h2 := abs_sub_abs_le_abs_sub (q : ℝ) (Y n)
      have h3 : |(q : ℝ)| ≤ M * ρ := by linarith
      exact ⟨q, hq, by exact_mod_cast h3⟩
    · rw [hnone r (by omega)] at hp
      cases hp
  obtain ⟨m0, rfl, e2, e3, e4⟩ := default_start hl hρ hdef
  have hml : defaultNM.maxRange.Is 60 := by decide +kernel
  have hs : √((3 : ℕ) : ℝ) ≤ 17321 / 10000 := by
    rw [Real.sqrt_le_left (by norm_num)]
    norm_num
  rw [hlen]
  refine C101_enough (M := M) (N := N) (lam := 60) (R := 1047) (P := P) (.inr rfl) e2 e4 hord (by omega) (by rw [e3]; exact hN)
    hN18 hml (by norm_num) ?_ ?_ hidx (fun r hr => ?_) hcl (fun r hr => ?_) hB1 (by omega) x
  · have : (600 : ℚ) ≤ M := by exact_mod_cast hM1
    nlinarith
  · have hq : ((60 : ℚ) : ℝ) * (1 + 1 / 2 ^ 20) / (ρ : ℝ) ≤ 6001 / 10 := by
      rw [hρ, side_val]
      norm_num
    have h1 : √((3 : ℕ) : ℝ) * (((60 : ℚ) : ℝ) * (1 + 1 / 2 ^ 20) / (ρ : ℝ)) ≤ 17321 / 10000 * (6001 / 10) :=
      mul_le_mul hs hq (by positivity) (by norm_num)
    push_cast at h1 ⊢
    norm_num at h1 ⊢
    linarith
  · have hk : idx[r]? = some idx[r] := List.getElem?_eq_getElem hr
    obtain ⟨b, hb⟩ := hscan _ (List.mem_of_getElem? hk)
    obtain ⟨x, hx, -⟩ := nanScan_of_real hrlo hrhi (hnear r _ hk).1 hb fun p hp => by
      obtain ⟨Y, hY, hn⟩ := forall₂_left (hnear r _ hk).2 hp
      exact .inl ⟨Y, hY, hn⟩
    exact ⟨x, hx⟩
  · have hk : idx[r]? = some idx[r] := List.getElem?_eq_getElem hr
    have h1 := (hnear r _ hk).2.length_eq
    rw [h1, hpts, movedPoints, List.length_map, List.length_range]
    exact hP _ (List.mem_of_getElem? hk)

end

/-- A folder with two recordings, the altitude of the second missing: the window opens, and in a fair
run with memory for a million entries the process ends or a worker panics. -/
example : ∃ (rs : _) (o : OccupancyGridMap 3 F32),
    main (parsingEnv nanCos someEnv.radPerDeg nanCast (@Quat.fromEuler F32 _ someTrig))
      (some (some (byteFolder [indexName 10 (ascii ".txt") 0, indexName 10 (ascii ".txt") 1]
        [indexName 10 (ascii ".bin") 0, indexName 10 (ascii ".bin") 1]
        (fun p => utf8 (if p = indexName 10 (ascii ".txt") 0 then "49 8.4 116.4 0 0 0".toList else
          "49 8.4 NaN 0 0 0".toList)) fun _ => twoPoints))) = .ok (.window rs) ∧
    @OccupancyGridMap.default_ F32 _ 3 testedLibm = .ok o ∧
    ∃ σ, MemExecution (10 ^ 6) o.noiseModel rs.get (fun _ l => l) rs.clouds.length o.gridMap σ ∧
      MemFair (10 ^ 6) o.noiseModel rs.get (fun _ l => l) rs.clouds.length σ ∧
      ∃ i, σ i = none ∨ ∃ s, σ i = some s ∧ ∃ k r' : ℕ, s.workers[k]? = some (.dead, r') := by
  let _ := someTrig
  let _ := testedLibm
  have hl : TestedLn := by constructor <;> decide +kernel
  have hdef : ∃ o : OccupancyGridMap 3 F32, OccupancyGridMap.default_ = .ok o := by
    obtain ⟨m0, e1, -⟩ := new_empty_placed (D := 3) (ρ := 13421773 / 2 ^ 27) (r := (Fp.lit 0.1 : F32)) (by norm_num)
      (by refine ⟨by decide +kernel, ?_, ?_⟩ <;> norm_num) (t := 100) (by norm_num) (by norm_num) (Fp.lit 0 : F32)
    refine ⟨⟨m0, defaultNM⟩, ((C42_default_model hl).2.1 _).mpr ?_⟩
    unfold OccupancyGridMap.new
    rw [Verif.M.bind_eq_ok]
    exact ⟨m0, e1, rfl⟩
  obtain ⟨o, ho⟩ := hdef
  set known : ℕ → Known := fun i => ⟨some 49, some (42 / 5), if i = 0 then some (582 / 5) else none⟩ with hkn
  have hok : ∀ i, (known i).Ok := by
    intro i
    refine ⟨?_, ?_, ?_⟩
    · rintro q ⟨⟩; norm_num
    · rintro q ⟨⟩; norm_num [abs_le]
    · intro q hq
      rw [hkn] at hq
      dsimp only at hq
      split_ifs at hq
      cases hq
      norm_num [abs_le]
  have hoff : ∀ i, (known i).place.offset (known 0).place = ![0, 0, if i = 0 then 0 else -(582 / 5)] := by
    intro i
    funext n
    by_cases hi : i = 0 <;> fin_cases n <;> simp [Place.offset, Known.place, hkn, hi]
  have hmiss : ∀ i n, (known i).Missing (known 0) n ↔ i ≠ 0 ∧ n = 2 := by
    intro i n
    by_cases hi : i = 0 <;> fin_cases n <;> simp [Known.Missing, hkn, hi]
  have htext : ∀ i ∈ [0, 1], ∃ text, utf8 (if indexName 10 (ascii ".txt") i = indexName 10 (ascii ".txt") 0 then
        "49 8.4 116.4 0 0 0".toList else "49 8.4 NaN 0 0 0".toList) = utf8 text ∧ (known i).Ok ∧
      SaysKnown text (known i) 0 0 0 := by
    intro i hi
    refine ⟨_, rfl, hok i, ?_⟩
    rcases List.mem_pair.mp hi with rfl | rfl
    · rw [if_pos rfl]
      exact ⟨"49".toList, "8.4".toList, "116.4".toList, "0".toList, "0".toList, "0".toList, [],
        fields_iff.mpr (by decide +kernel), by change decimal _ = some _; decide +kernel,
        by change decimal _ = some _; decide +kernel, by change decimal _ = some _; decide +kernel, by decide +kernel,
        by decide +kernel, by decide +kernel⟩
    · rw [if_neg (by decide +kernel)]
      exact ⟨"49".toList, "8.4".toList, "NaN".toList, "0".toList, "0".toList, "0".toList, [],
        fields_iff.mpr (by decide +kernel), by change decimal _ = some _; decide +kernel,
        by change decimal _ = some _; decide +kernel, by change List.map _ _ = _; decide +kernel, by decide +kernel,
        by decide +kernel, by decide +kernel⟩
  have hcloud : ∀ i ∈ [0, 1], 16 ∣ twoPoints.length ∧ ∀ j < twoPoints.length / 16, FiniteRecord twoPoints j ∧
      ∀ n : Fin 3, |((f32OfBits (wordAt twoPoints (16 * j + 4 * n.val))).val : ℝ)| ≤ 2 := by
    have key : ∀ j < twoPoints.length / 16, ∀ n : Fin 3,
        |(f32OfBits (wordAt twoPoints (16 * j + 4 * n.val))).val| ≤ 2 := by decide +kernel
    have key' : ∀ j < twoPoints.length / 16, FiniteRecord twoPoints j := by unfold FiniteRecord; decide +kernel
    exact fun i _ => ⟨by decide, fun j hj => ⟨key' j hj, fun n => by exact_mod_cast key j hj n⟩⟩
  have hε : (2260 / 2 ^ 24 + 1 / 2 ^ 18 : ℝ) = (1130 * 2 + 2 * 0) / 2 ^ 24 + 1 / 2 ^ 18 := by norm_num
  have he := C76_accurate (cos := nanCos) (radPerDeg := someEnv.radPerDeg) (cast := nanCast)
    (euler := Quat.fromEuler (F := F32))
    (fun x q h h4 => by rw [nanCos, if_neg (is_ne_nan h)]; exact someEnv_accurate.cos x q h h4)
    someEnv_accurate.radPerDeg
    (fun x q h => by rw [nanCast, if_neg (is_ne_nan h)]; exact someEnv_accurate.cast x q h)
  have third : ∀ a b c : ℝ, (![a, b, c] : Fin 3 → ℝ) 2 = c := fun _ _ _ => rfl
  obtain ⟨rs, h1, hlen, h2⟩ := C101_folder (w₁ := 10) (w₂ := 10) (ext := ascii ".txt") (ext' := ascii ".bin") hl
    someTrig_accurate he (if_pos rfl) (if_pos rfl)
    (idx := [0, 1]) (po := [indexName 10 (ascii ".txt") 0, indexName 10 (ascii ".txt") 1])
    (pv := [indexName 10 (ascii ".bin") 0, indexName 10 (ascii ".bin") 1])
    (oxtBytes := fun p => utf8 (if p = indexName 10 (ascii ".txt") 0 then "49 8.4 116.4 0 0 0".toList else
          "49 8.4 NaN 0 0 0".toList)) (cloudBytes := fun _ => twoPoints)
    (known := known) (roll := fun _ => 0) (pitch := fun _ => 0) (yaw := fun _ => 0)
    (X := fun i => ![0, 0, if i = 0 then 0 else -(582 / 5)])
    (pts := fun i => FinitePoint (0 : ℚ) (0 : ℚ) (0 : ℚ) ![0, 0, if i = 0 then 0 else -(582 / 5)] twoPoints)
    ⟨by simp, by decide, by simp⟩ ⟨by simp, by decide, by simp⟩ htext (by simp) hcloud (i0 := 0) rfl
    (S := 0) (fun i hi n hn => by
      rw [hmiss] at hn
      rw [hoff]
      rcases List.mem_pair.mp hi with rfl | rfl
      · fin_cases n <;> simp
      · fin_cases n <;> simp at hn ⊢) le_rfl (by norm_num) (by norm_num) hε (fun i => (hoff i).symm)
    (fun i => rfl) (M := 600) (by norm_num) (by norm_num) side_val.symm
    (r := 1) (ir := 1) (by norm_num) rfl ⟨2, by rw [hmiss]; simp⟩ (fun k h1 h2 => by omega)
    (fun k hk i hi => by
      obtain rfl : k = 0 := by omega
      obtain rfl : (0 : ℕ) = i := by simpa using hi
      refine ⟨-5, by intro i; fin_cases i <;> norm_num, fun Y hY n => ?_, fun Y hY => ?_⟩
      · rw [twoPoints_finite] at hY
        rcases hY with rfl | rfl <;> fin_cases n <;> norm_num [← le_sub_iff_add_le, le_abs, abs_le, third]
      · rw [twoPoints_finite] at hY
        rcases hY with rfl | rfl
        · rw [third, third]; norm_num
        · rw [third, third]; norm_num)
    ⟨fun i hi => by
      rw [hmiss] at hi
      fin_cases i
      · norm_num
      · norm_num
      · exact absurd ⟨one_ne_zero, rfl⟩ hi,
    fun i hi Y hY => by
      rw [hmiss] at hi
      rw [twoPoints_finite] at hY
      rcases hY with rfl | rfl <;> fin_cases i
      · norm_num [← le_sub_iff_add_le, abs_le]
      · norm_num [← le_sub_iff_add_le, abs_le]
      · exact absurd ⟨one_ne_zero, rfl⟩ hi
      · norm_num [← le_sub_iff_add_le, abs_le]
      · norm_num [← le_sub_iff_add_le, abs_le]
      · exact absurd ⟨one_ne_zero, rfl⟩ hi,
    _, (twoPoints_finite _ _).mpr (.inl rfl), .inl ⟨0, by decide, by rw [hmiss]; simp, by
      norm_num [le_abs]⟩⟩ ho
  obtain ⟨σ, h3, h4⟩ := memFair_exists (B := 10 ^ 6) (nm := o.noiseModel) (recs := rs.get) (ord := fun _ l => l)
    (n := rs.clouds.length) (m₀ := o.gridMap)
  exact ⟨rs, o, h1, ho, σ, h3, h4, (h2 _ _ fun _ l => List.Perm.refl l).2 σ h3 h4⟩

/-- A folder with one recording, and memory for 10^10 entries: on the limited machine there is a run in which nine scans
have been played and nothing has panicked. -/
example : ∃ (rs : _) (s : _) (o : OccupancyGridMap 3 F32),
    main (parsingEnv someEnv.cos someEnv.radPerDeg someEnv.cast (@Quat.fromEuler F32 _ someTrig))
      (some (some (byteFolder [indexName 10 (ascii ".txt") 0] [indexName 10 (ascii ".bin") 0]
        (fun _ => utf8 "49 8.4 116.4 0 0 0".toList) fun _ => twoPoints))) = .ok (.window rs) ∧
    @OccupancyGridMap.default_ F32 _ 3 testedLibm = .ok o ∧
    MemReach (10 ^ 10) o.noiseModel rs.get (fun _ l => l) rs.clouds.length o.gridMap (some s) ∧ Alive s ∧
    s.workers.length = 9 := by
  let _ := someTrig
  let _ := testedLibm
  have hl : TestedLn := by constructor <;> decide +kernel
  have hok : (⟨49, 42 / 5, 582 / 5⟩ : Place).Ok := ⟨by norm_num, by norm_num [abs_le], by norm_num [abs_le]⟩
  have hoff : (⟨49, 42 / 5, 582 / 5⟩ : Place).offset ⟨49, 42 / 5, 582 / 5⟩ = ![0, 0, 0] := by
    funext n; fin_cases n <;> simp [Place.offset]
  have hdef : ∃ o : OccupancyGridMap 3 F32, OccupancyGridMap.default_ = .ok o := by
    obtain ⟨m0, e1, -⟩ := new_empty_placed (D := 3) (ρ := 13421773 / 2 ^ 27) (r := (Fp.lit 0.1 : F32)) (by norm_num)
      (by refine ⟨by decide +kernel, ?_, ?_⟩ <;> norm_num) (t := 100) (by norm_num) (by norm_num) (Fp.lit 0 : F32)
    refine ⟨⟨m0, defaultNM⟩, ((C42_default_model hl).2.1 _).mpr ?_⟩
    unfold OccupancyGridMap.new
    rw [Verif.M.bind_eq_ok]
    exact ⟨m0, e1, rfl⟩
  obtain ⟨o, ho⟩ := hdef
  have htext : ∀ i ∈ [0], ∃ text, utf8 "49 8.4 116.4 0 0 0".toList = utf8 text ∧ (⟨49, 42 / 5, 582 / 5⟩ : Place).Ok ∧
      Says text ⟨49, 42 / 5, 582 / 5⟩ 0 0 0 := fun i _ =>
    ⟨_, rfl, hok, "49".toList, "8.4".toList, "116.4".toList, "0".toList, "0".toList, "0".toList, [],
      fields_iff.mpr (by decide +kernel), by decide +kernel, by decide +kernel, by decide +kernel, by decide +kernel,
      by decide +kernel, by decide +kernel⟩
  have hcloud : ∀ i ∈ [0], 16 ∣ twoPoints.length ∧ ∀ j < twoPoints.length / 16, ∀ n : Fin 3,
      (f32OfBits (wordAt twoPoints (16 * j + 4 * n.val))).isFin = true ∧
      |((f32OfBits (wordAt twoPoints (16 * j + 4 * n.val))).val : ℝ)| ≤ 2 := by
    have key : ∀ j < twoPoints.length / 16, ∀ n : Fin 3, (f32OfBits (wordAt twoPoints (16 * j + 4 * n.val))).isFin =
        true ∧ |(f32OfBits (wordAt twoPoints (16 * j + 4 * n.val))).val| ≤ 2 := by decide +kernel
    exact fun i _ => ⟨by decide, fun j hj n => ⟨(key j hj n).1, by exact_mod_cast (key j hj n).2⟩⟩
  have hε : (2260 / 2 ^ 24 + 1 / 2 ^ 18 : ℝ) = (1130 * 2 + 2 * 0) / 2 ^ 24 + 1 / 2 ^ 18 := by norm_num
  have hT := someTrig_accurate
  have he := C76_accurate (euler := Quat.fromEuler (F := F32)) someEnv_accurate.cos someEnv_accurate.radPerDeg
    someEnv_accurate.cast
  obtain ⟨rs, h1, hlen, h2⟩ := C82_folder (w₁ := 10) (w₂ := 10) (ext := ascii ".txt") (ext' := ascii ".bin") hl hT he
    (idx := [0]) (po := [indexName 10 (ascii ".txt") 0]) (pv := [indexName 10 (ascii ".bin") 0])
    (oxtBytes := fun _ => utf8 "49 8.4 116.4 0 0 0".toList) (cloudBytes := fun _ => twoPoints)
    (place := fun _ => ⟨49, 42 / 5, 582 / 5⟩) (roll := fun _ => 0) (pitch := fun _ => 0) (yaw := fun _ => 0)
    (X := fun _ => ![0, 0, 0]) (pts := fun _ => twoReal)
    ⟨by simp, by decide, by simp⟩ ⟨by simp, by decide, by simp⟩ htext (by simp) hcloud (i0 := 0) rfl
    (fun i _ n => by simp only [hoff]; fin_cases n <;> simp) (by norm_num) (by norm_num) hε (fun _ => hoff.symm)
    (fun _ => twoPoints_moved.symm) (M := 30) (by norm_num) rfl (by norm_num) side_val.symm
    (fun _ _ => by push_cast; exact twoReal_clear) ho
  have hreal : ∀ i ∈ [0], ∃ b, RealScan 600 ((13421773 / 2 ^ 27 : ℚ) : ℝ) (2260 / 2 ^ 24 + 1 / 2 ^ 18) b ![0, 0, 0]
      (· ∈ twoReal) := by
    intro i _
    have third : ∀ a b c : ℝ, (![a, b, c] : Fin 3 → ℝ) 2 = c := fun _ _ _ => rfl
    push_cast
    refine ⟨-1, fun n => ?_, fun Y hY n => ?_, fun Y hY => ?_⟩
    · fin_cases n <;> norm_num
    · rcases List.mem_pair.mp hY with rfl | rfl <;> fin_cases n <;> norm_num [← le_sub_iff_add_le, abs_le, le_abs]
    · rcases List.mem_pair.mp hY with rfl | rfl <;> rw [third] <;> norm_num
  obtain ⟨rs', h1', hlen', h2'⟩ := C101_enough_folder (w₁ := 10) (w₂ := 10) (ext := ascii ".txt") (ext' := ascii ".bin") hl hT he
    (idx := [0]) (po := [indexName 10 (ascii ".txt") 0]) (pv := [indexName 10 (ascii ".bin") 0])
    (oxtBytes := fun _ => utf8 "49 8.4 116.4 0 0 0".toList) (cloudBytes := fun _ => twoPoints)
    (place := fun _ => ⟨49, 42 / 5, 582 / 5⟩) (roll := fun _ => 0) (pitch := fun _ => 0) (yaw := fun _ => 0)
    (X := fun _ => ![0, 0, 0]) (pts := fun _ => twoReal)
    ⟨by simp, by decide, by simp⟩ ⟨by simp, by decide, by simp⟩ htext (by simp) hcloud (i0 := 0) rfl
    (fun i _ n => by simp only [hoff]; fin_cases n <;> simp) (by norm_num) (by norm_num) hε (fun _ => hoff.symm)
    (fun _ => twoPoints_moved.symm) (M := 600) (P := 2) (B := 10 ^ 10) (by norm_num) rfl (by norm_num)
    side_val.symm hreal (fun _ _ => by decide) (by norm_num)
    (by norm_num) ho
  obtain rfl : rs = rs' := by simpa using h1.symm.trans h1'
  have hord : ∀ r : ℕ, IsOrder ((fun _ l => l : ℕ → List (Verif.Cell 3) → List (Verif.Cell 3)) r) :=
    fun _ l => List.Perm.refl l
  obtain ⟨h3, h4, -⟩ := h2 _ hord
  obtain ⟨s, h5, h6, h7⟩ := h4 9
  exact ⟨rs, s, o, h1, ho, (h2' _ hord _).mpr ⟨s, rfl, h5⟩, (h3 s h5).1, by rw [h7]; simp⟩

end Verif.Props
