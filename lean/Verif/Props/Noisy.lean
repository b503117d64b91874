import Verif.Spec.Noisy
import Verif.Props.CutReal

/-!
# C114: noisy recordings of a scene
-/

namespace Verif.Props
open Scalar Spec Viz Kitti

/-- What is near the measured scan is near the true one. -/
lemma near_noisy {ε η : ℝ} {origin : Point 3 F32} {cloud : PointCloud 3 F32} {X X' : Fin 3 → ℝ} {pts pts' : List (Fin 3 → ℝ)}
    (h : NearScan ε origin cloud X pts) (hn : NoisyScan η X pts X' pts') : NearScan (ε + η) origin cloud X' pts' := by
  have step : ∀ {x : F32} {v v' : ℝ}, NearReal x v ε → |v - v'| ≤ η → NearReal x v' (ε + η) := by
    rintro x v v' ⟨q, hq, hd⟩ hv
    exact ⟨q, hq, (abs_sub_le _ v _).trans (add_le_add hd hv)⟩
  refine ⟨fun i => step (h.1 i) (hn.1 i), ?_⟩
  have h2 := h.2
  have hn2 := hn.2
  clear h hn
  generalize cloud.points = l at h2
  induction h2 generalizing pts' with
  | nil => cases hn2; exact .nil
  | cons h _ ih =>
    cases hn2 with
    | cons hn hn2 => exact .cons (fun i => step (h i) (hn i)) (ih hn2)

section
variable [T : Trig F32] [Libm F32] {cos : F64 → F64} {radPerDeg : F64} {cast : F64 → F32}

/-- C114: from the bytes of a recording folder to the picture of the true scene. The numbers in the files are measured:
the sensor position and the points that they give differ from those of the true scene by at most `η` on each axis. In the
true scene the segments from the sensor to the points keep clear of the corners of the cells, and the cells passed are
not at the very limit, by `η` and what the rounding of the program adds. Then at every moment of every run the value of
every world cell is what the true scene makes of it, by geometry and the limit. If also, in the true scene, no recording
reaches below the tiles that the first one reaches, then whenever the renderer has processed a batch exactly those cells
are drawn whose value so obtained is above the threshold, each at a point inside it. -/
theorem C114_folder (hl : TestedLn) (hT : AccurateTrig T)
    (he : AccurateEnv (parsingEnv cos radPerDeg cast (Quat.fromEuler (F := F32))))
    {idx : List ℕ} {po pv : List (List (Fin 256))} {oxtBytes cloudBytes : List (Fin 256) → List (BitVec 8)} {ε : ℝ}
    {X : ℕ → Fin 3 → ℝ} {pts : ℕ → List (Fin 3 → ℝ)} (hmeas : Measures idx po pv oxtBytes cloudBytes ε X pts)
    {M N K : ℕ} (hM1 : 1 ≤ M) (hN : N = M + 101) (hN18 : N ≤ 2 ^ 18)
    {ρ : ℚ} (hρ : ρ = (Fp.lit 0.1 : F32).val) (hB : ∀ i ∈ idx, ∀ Y ∈ pts i, ∀ n, |Y n| + ε ≤ M * ρ)
    (hclear : ∀ i ∈ idx, CutRaysReal N K ρ 60 ε (X i) (pts i))
    {o : OccupancyGridMap 3 F32} (hdef : OccupancyGridMap.default_ = .ok o)
    {played : ℕ → List ((Fin 3 → ℝ) × List (Fin 3 → ℝ))}
    (hplayed : ∀ k, played k = (List.range k).map fun j => (X (idx.getD (j % idx.length) 0), pts (idx.getD (j % idx.length) 0))) :
    ∃ rs, main (parsingEnv cos radPerDeg cast Quat.fromEuler) (some (some (byteFolder po pv oxtBytes cloudBytes))) =
        .ok (.window rs) ∧ rs.clouds.length = idx.length ∧
      ∀ (ord : ℕ → List (Verif.Cell 3) → List (Verif.Cell 3)) (s), (∀ r, IsOrder (ord r)) →
        Reach (occOps o.noiseModel rs.get ord) rs.clouds.length o.gridMap s →
        (∃ k cb, k ≤ s.workers.length ∧ s.workers.length ≤ k + 1 ∧
          (s.main = .clearFlag ∨ s.main = .spawn → k = s.workers.length) ∧ Placed s.map cb ρ ∧
          ∀ w, Before s.map cb w (cutFoldReal o.noiseModel 60 ρ (played k) w (Fp.lit 0))) ∧
        ∀ low : Fin 3 → ℤ, LowestFirstReal 100 ρ ε (· ∈ idx) pts (pts (idx.getD 0 0)) low → s.main = .clearFlag ∨ s.main = .spawn →
          ∀ w : Verif.Cell 3, (∀ i, |w i| ≤ 2 ^ 62) →
          (¬ o.noiseModel.threshold.lt (cutFoldReal o.noiseModel 60 ρ (played s.workers.length) w (Fp.lit 0)) = true →
            s.tracked (localCell s.map w) = none) ∧
          (o.noiseModel.threshold.lt (cutFoldReal o.noiseModel 60 ρ (played s.workers.length) w (Fp.lit 0)) = true →
            ∃ p, s.tracked (localCell s.map w) = some p ∧ ∀ i, ∃ z, (p i).Is z ∧ |z - w i * ρ| < ρ / 2) := by
  have hrlo : (1 : ℚ) / 2 ^ 20 ≤ ρ := by rw [hρ]; decide +kernel
  have hrhi : ρ ≤ (2 : ℚ) ^ 20 := by rw [hρ]; decide +kernel
  obtain ⟨w₁, w₂, ext, ext', place, roll, pitch, yaw, L, S, η, i0, ho, hv, hi0, hfile, hL1, hL2, hε⟩ := hmeas
  have hnoise := fun i hi => (hfile i hi).2.2.2.2.2.2.2
  obtain ⟨rs, hmain, hlen, hε0, hnone, hnear⟩ := folder_scans hT he ho hv (fun i hi => (hfile i hi).1)
    (fun i hi => ⟨(hfile i hi).2.1, (hfile i hi).2.2.1, (hfile i hi).2.2.2.1⟩)
    (fun i hi => ⟨(hfile i hi).2.2.2.2.2.1, (hfile i hi).2.2.2.2.2.2.1⟩) hi0 (fun i hi => (hfile i hi).2.2.2.2.1) hL1 hL2 rfl
    (fun _ => rfl) (fun _ => rfl)
  have hη : 0 ≤ η := (abs_nonneg _).trans ((hnoise i0 (List.mem_of_getElem? hi0)).1 0)
  have h0 : idx.getD 0 0 = i0 := by rw [List.getD_eq_getElem?_getD, hi0]; rfl
  rw [h0]
  have hnear' : ∀ (k i : ℕ), idx[k]? = some i → NearScan ε (rs.get k).1 (rs.get k).2 (X i) (pts i) := fun k i hk => by
    rw [hε]; exact near_noisy (hnear k i hk) (hnoise i (List.mem_of_getElem? hk))
  refine ⟨rs, hmain, hlen, fun ord s => scans_tell hl hi0 (hε ▸ add_nonneg hε0 hη) hlen hnone hnear' hM1 hN hN18 hρ hB
    (G := fun i => geoUpToReal 60 ρ (X i) (pts i)) (fun hε0 i hi origin cloud hn m cb hP hc w => ?_) hdef (fun k w => ?_)
    ord s⟩
  · obtain ⟨x, ys, h1, h2⟩ := C105_scan (N := N) (K := K) (lam := 60) (by norm_num) hrlo hrhi (by omega) hN18
      (by decide +kernel : defaultNM.maxRange.Is 60) (by norm_num) (by norm_num) hε0 hn (by exact_mod_cast hclear i hi)
    rw [C104_scan (.inr rfl) hP hc h1, h2]
    norm_num
  · rw [hplayed, cutFoldReal, List.foldl_map, List.foldl_map]

/-- C114: two recordings of one scene, by whatever measurements within the tolerance, give the same map and the same
picture: in any two runs at moments when the renderers have processed a batch and as many scans have been started, every
world cell has the same value, and either both runs draw it or neither does. -/
theorem C114_two (hl : TestedLn) (hT : AccurateTrig T)
    (he : AccurateEnv (parsingEnv cos radPerDeg cast (Quat.fromEuler (F := F32))))
    {idx : List ℕ} {po1 pv1 po2 pv2 : List (List (Fin 256))}
    {oxtBytes1 cloudBytes1 oxtBytes2 cloudBytes2 : List (Fin 256) → List (BitVec 8)} {ε1 ε2 : ℝ}
    {X : ℕ → Fin 3 → ℝ} {pts : ℕ → List (Fin 3 → ℝ)} (hmeas1 : Measures idx po1 pv1 oxtBytes1 cloudBytes1 ε1 X pts)
    (hmeas2 : Measures idx po2 pv2 oxtBytes2 cloudBytes2 ε2 X pts)
    {M N K : ℕ} (hM1 : 1 ≤ M) (hN : N = M + 101) (hN18 : N ≤ 2 ^ 18) {ρ : ℚ} (hρ : ρ = (Fp.lit 0.1 : F32).val)
    (hB : ∀ i ∈ idx, ∀ Y ∈ pts i, ∀ n, |Y n| + max ε1 ε2 ≤ M * ρ)
    (hclear1 : ∀ i ∈ idx, CutRaysReal N K ρ 60 ε1 (X i) (pts i))
    (hclear2 : ∀ i ∈ idx, CutRaysReal N K ρ 60 ε2 (X i) (pts i)) {low : Fin 3 → ℤ}
    (hlow1 : LowestFirstReal 100 ρ ε1 (· ∈ idx) pts (pts (idx.getD 0 0)) low)
    (hlow2 : LowestFirstReal 100 ρ ε2 (· ∈ idx) pts (pts (idx.getD 0 0)) low)
    {o : OccupancyGridMap 3 F32} (hdef : OccupancyGridMap.default_ = .ok o) :
    ∃ rs1 rs2, main (parsingEnv cos radPerDeg cast Quat.fromEuler) (some (some (byteFolder po1 pv1 oxtBytes1 cloudBytes1))) =
        .ok (.window rs1) ∧
      main (parsingEnv cos radPerDeg cast Quat.fromEuler) (some (some (byteFolder po2 pv2 oxtBytes2 cloudBytes2))) =
        .ok (.window rs2) ∧
      ∀ (ord1 ord2 : ℕ → List (Verif.Cell 3) → List (Verif.Cell 3)) s1 s2, (∀ r, IsOrder (ord1 r)) →
        (∀ r, IsOrder (ord2 r)) → Reach (occOps o.noiseModel rs1.get ord1) rs1.clouds.length o.gridMap s1 →
        Reach (occOps o.noiseModel rs2.get ord2) rs2.clouds.length o.gridMap s2 →
        s1.main = .clearFlag ∨ s1.main = .spawn → s2.main = .clearFlag ∨ s2.main = .spawn →
        s2.workers.length = s1.workers.length →
        (∃ cb1 cb2, Placed s1.map cb1 ρ ∧ Placed s2.map cb2 ρ ∧
          ∀ w, ∃ v, Before s1.map cb1 w v ∧ Before s2.map cb2 w v) ∧
        ∀ w : Verif.Cell 3, (∀ i, |w i| ≤ 2 ^ 62) →
          (s2.tracked (localCell s2.map w)).isSome = (s1.tracked (localCell s1.map w)).isSome := by
  obtain ⟨rs1, m1, -, h1⟩ := C114_folder hl hT he hmeas1 hM1 hN hN18 hρ
    (fun i hi Y hY n => (add_le_add le_rfl (le_max_left _ _)).trans (hB i hi Y hY n)) hclear1 hdef (fun _ => rfl)
  obtain ⟨rs2, m2, -, h2⟩ := C114_folder hl hT he hmeas2 hM1 hN hN18 hρ
    (fun i hi Y hY n => (add_le_add le_rfl (le_max_right _ _)).trans (hB i hi Y hY n)) hclear2 hdef (fun _ => rfl)
  refine ⟨rs1, rs2, m1, m2, fun ord1 ord2 s1 s2 o1 o2 r1 r2 a1 a2 hw => ?_⟩
  obtain ⟨⟨k1, cb1, -, -, x1, x2, x3⟩, x4⟩ := h1 ord1 s1 o1 r1
  obtain ⟨⟨k2, cb2, -, -, y1, y2, y3⟩, y4⟩ := h2 ord2 s2 o2 r2
  obtain rfl : k2 = k1 := by rw [x1 a1, y1 a2, hw]
  refine ⟨⟨cb1, cb2, x2, y2, fun w => ⟨_, x3 w, y3 w⟩⟩, fun w hwr => ?_⟩
  obtain ⟨p1, p2⟩ := x4 low hlow1 a1 w hwr
  obtain ⟨q1, q2⟩ := y4 low hlow2 a2 w hwr
  rw [hw] at q1 q2
  by_cases h : o.noiseModel.threshold.lt (cutFoldReal o.noiseModel 60 ρ ((List.range s1.workers.length).map fun j =>
      (X (idx.getD (j % idx.length) 0), pts (idx.getD (j % idx.length) 0))) w (Fp.lit 0)) = true
  · obtain ⟨a, ha, -⟩ := p2 h
    obtain ⟨b, hb, -⟩ := q2 h
    rw [ha, hb]; rfl
  · rw [p1 h, q1 h]

end

/-! ## An example with files -/

/-- `farPoints`, the first number measured as 64 - 2^-14. -/
def noisyPoints : List (BitVec 8) :=
  [0xF0, 0xFF, 0x7F, 0x42, 0x00, 0x00, 0x00, 0x42, 0x00, 0x00, 0xA0, 0x3C, 0x00, 0x00, 0x00, 0x00,
   0x00, 0x00, 0x80, 0xC2, 0x00, 0x00, 0x00, 0xC2, 0x00, 0x00, 0xA0, 0xBC, 0x00, 0x00, 0x00, 0x00,
   0x00, 0x00, 0xA0, 0x3C, 0x00, 0x00, 0xA0, 0x3C, 0x00, 0x00, 0x00, 0x40, 0x00, 0x00, 0x00, 0x00,
   0x00, 0x00, 0xA0, 0xBC, 0x00, 0x00, 0xA0, 0xBC, 0x00, 0x00, 0x00, 0xC0, 0x00, 0x00, 0x00, 0x00]

lemma noisyPoints_moved : movedPoints (0 : ℚ) (0 : ℚ) (0 : ℚ) ![0, 0, 0] noisyPoints =
    [![64 - 1 / 2 ^ 14, 32, 5 / 256], ![-64, -32, -5 / 256], ![5 / 256, 5 / 256, 2], ![-5 / 256, -5 / 256, -2]] := by
  have e : List.range (noisyPoints.length / 16) = [0, 1, 2, 3] := by decide
  have h0 : ∀ m : Fin 3, (f32OfBits (wordAt noisyPoints (16 * 0 + 4 * m.val))).val = ![64 - 1 / 2 ^ 14, 32, 5 / 256] m := by
    decide +kernel
  have h1 : ∀ m : Fin 3, (f32OfBits (wordAt noisyPoints (16 * 1 + 4 * m.val))).val = ![-64, -32, -5 / 256] m := by
    decide +kernel
  have h2 : ∀ m : Fin 3, (f32OfBits (wordAt noisyPoints (16 * 2 + 4 * m.val))).val = ![5 / 256, 5 / 256, 2] m := by
    decide +kernel
  have h3 : ∀ m : Fin 3, (f32OfBits (wordAt noisyPoints (16 * 3 + 4 * m.val))).val = ![-5 / 256, -5 / 256, -2] m := by
    decide +kernel
  unfold movedPoints
  rw [e]
  simp only [List.map_cons, List.map_nil, h0, h1, h2, h3]
  congr 1
  · funext i; fin_cases i <;> simp [rigid, rotX, rotY, rotZ]
  · congr 1
    · funext i; fin_cases i <;> simp [rigid, rotX, rotY, rotZ]
    · congr 1
      · funext i; fin_cases i <;> simp [rigid, rotX, rotY, rotZ]
      · congr 1; funext i; fin_cases i <;> simp [rigid, rotX, rotY, rotZ]

lemma far_offset : (⟨49, 42 / 5, 582 / 5⟩ : Place).offset ⟨49, 42 / 5, 582 / 5⟩ = ![0, 0, 0] := by
  funext n; fin_cases n <;> simp [Place.offset]

/-- Both files are measurements of the scene `farRealPts`. -/
lemma far_measures {cloud : List (BitVec 8)} {text : List Char} {η : ℝ}
    (hs : Says text ⟨49, 42 / 5, 582 / 5⟩ 0 0 0) (h16 : 16 ∣ cloud.length)
    (hfin : ∀ j < cloud.length / 16, ∀ n : Fin 3, (f32OfBits (wordAt cloud (16 * j + 4 * n.val))).isFin = true ∧
      |(f32OfBits (wordAt cloud (16 * j + 4 * n.val))).val| ≤ 64)
    (hn : NoisyScan η ![0, 0, 0] (movedPoints (0 : ℚ) (0 : ℚ) (0 : ℚ) ![0, 0, 0] cloud) ![0, 0, 0] farRealPts) :
    Measures [0] [indexName 10 (ascii ".txt") 0] [indexName 10 (ascii ".bin") 0] (fun _ => utf8 text) (fun _ => cloud)
      (1130 * 64 / 2 ^ 24 + 1 / 2 ^ 18 + η) (fun _ => ![0, 0, 0]) (fun _ => farRealPts) := by
  have hok : (⟨49, 42 / 5, 582 / 5⟩ : Place).Ok := ⟨by norm_num, by norm_num [abs_le], by norm_num [abs_le]⟩
  refine ⟨10, 10, ascii ".txt", ascii ".bin", fun _ => ⟨49, 42 / 5, 582 / 5⟩, fun _ => 0, fun _ => 0, fun _ => 0, 64, 0, η,
    0, ⟨by simp, by decide, by simp⟩, ⟨by simp, by decide, by simp⟩, rfl, fun i _ => ⟨⟨text, rfl, hok, hs⟩, by norm_num,
    by norm_num, by norm_num, fun n => ?_, h16, fun j hj n => ⟨(hfin j hj n).1, by exact_mod_cast (hfin j hj n).2⟩, ?_⟩,
    by norm_num, by norm_num, by norm_num⟩
  · simp only [far_offset]
    fin_cases n <;> simp
  · simp only [far_offset]
    exact hn

/-- Two folders, one with the numbers of the scene and one with another number and other decimals: the maps agree on every
cell. -/
example : ∃ (rs1 rs2 : _) (o : OccupancyGridMap 3 F32),
    main (parsingEnv someEnv.cos someEnv.radPerDeg someEnv.cast (@Quat.fromEuler F32 _ someTrig))
      (some (some (byteFolder [indexName 10 (ascii ".txt") 0] [indexName 10 (ascii ".bin") 0]
        (fun _ => utf8 "49 8.4 116.4 0 0 0".toList) fun _ => farPoints))) = .ok (.window rs1) ∧
    main (parsingEnv someEnv.cos someEnv.radPerDeg someEnv.cast (@Quat.fromEuler F32 _ someTrig))
      (some (some (byteFolder [indexName 10 (ascii ".txt") 0] [indexName 10 (ascii ".bin") 0]
        (fun _ => utf8 "49.00 8.40 116.4 0 0 0".toList) fun _ => noisyPoints))) = .ok (.window rs2) ∧
    @OccupancyGridMap.default_ F32 _ 3 testedLibm = .ok o ∧
    ∀ s1 s2, Reach (occOps o.noiseModel rs1.get fun _ l => l) rs1.clouds.length o.gridMap s1 →
      Reach (occOps o.noiseModel rs2.get fun _ l => l) rs2.clouds.length o.gridMap s2 →
      s1.main = .clearFlag → s2.main = .clearFlag → s2.workers.length = s1.workers.length →
      ∀ w : Verif.Cell 3, (∀ i, |w i| ≤ 2 ^ 62) →
        (s2.tracked (localCell s2.map w)).isSome = (s1.tracked (localCell s1.map w)).isSome := by
  let _ := someTrig
  let _ := testedLibm
  have hl : TestedLn := by constructor <;> decide +kernel
  have hdef : ∃ o : OccupancyGridMap 3 F32, OccupancyGridMap.default_ = .ok o := by
    obtain ⟨m0, e1, -⟩ := new_empty_placed (D := 3) (ρ := 13421773 / 2 ^ 27) (r := (Fp.lit 0.1 : F32)) (by norm_num)
      (by refine ⟨by decide +kernel, ?_, ?_⟩ <;> norm_num) (t := 100) (by norm_num) (by norm_num) (Fp.lit 0 : F32)
    refine ⟨⟨m0, defaultNM⟩, ((C42_default_model hl).2.1 _).mpr ?_⟩
    unfold OccupancyGridMap.new
    rw [Verif.M.bind_eq_ok]
    exact ⟨m0, e1, rfl⟩
  obtain ⟨o, ho⟩ := hdef
  have hs1 : Says "49 8.4 116.4 0 0 0".toList ⟨49, 42 / 5, 582 / 5⟩ 0 0 0 :=
    ⟨"49".toList, "8.4".toList, "116.4".toList, "0".toList, "0".toList, "0".toList, [],
      fields_iff.mpr (by decide +kernel), by decide +kernel, by decide +kernel, by decide +kernel, by decide +kernel,
      by decide +kernel, by decide +kernel⟩
  have hs2 : Says "49.00 8.40 116.4 0 0 0".toList ⟨49, 42 / 5, 582 / 5⟩ 0 0 0 :=
    ⟨"49.00".toList, "8.40".toList, "116.4".toList, "0".toList, "0".toList, "0".toList, [],
      fields_iff.mpr (by decide +kernel), by decide +kernel, by decide +kernel, by decide +kernel, by decide +kernel,
      by decide +kernel, by decide +kernel⟩
  have hT := someTrig_accurate
  have he := C76_accurate (euler := Quat.fromEuler (F := F32)) someEnv_accurate.cos someEnv_accurate.radPerDeg
    someEnv_accurate.cast
  have same : ∀ l : List (Fin 3 → ℝ), List.Forall₂ (fun Y Z : Fin 3 → ℝ => ∀ n, |Y n - Z n| ≤ 0) l l := fun l => by
    induction l with
    | nil => exact .nil
    | cons a l ih => exact .cons (fun n => by simp) ih
  have k1 := far_measures (η := 0) hs1 (cloud := farPoints) (by decide) (by decide +kernel)
    ⟨fun n => by simp, by rw [farPoints_moved]; exact same _⟩
  have k2 := far_measures (η := 1 / 10000) hs2 (cloud := noisyPoints) (by decide) (by decide +kernel)
    ⟨fun n => by simp, by
      rw [noisyPoints_moved]
      unfold farRealPts
      refine .cons (fun n => ?_) (.cons (fun n => ?_) (.cons (fun n => ?_) (.cons (fun n => ?_) .nil))) <;>
        fin_cases n <;> norm_num⟩
  obtain ⟨rs1, rs2, h1, h2, h3⟩ := C114_two hl hT he k1 k2 (M := 641) (N := 742) (K := 641) (by norm_num) rfl (by norm_num)
    (ρ := 13421773 / 2 ^ 27) side_val.symm
    (fun i _ Y hY n => by
      have : max (1130 * 64 / 2 ^ 24 + 1 / 2 ^ 18 + 0 : ℝ) (1130 * 64 / 2 ^ 24 + 1 / 2 ^ 18 + 1 / 10000) ≤ 442 / 100000 :=
        max_le (by norm_num) (by norm_num)
      have h64 : |Y n| ≤ 64 := by
        simp only [farRealPts, List.mem_cons, List.not_mem_nil, or_false] at hY
        rcases hY with rfl | rfl | rfl | rfl <;> fin_cases n <;> norm_num [abs_le]
      push_cast
      norm_num at this ⊢
      linarith)
    (fun i _ => by push_cast; exact farReal_rays_of (by norm_num))
    (fun i _ => by push_cast; exact farReal_rays_of (by norm_num))
    (low := ![-7, -4, -1]) (by push_cast; exact farReal_lowest_of (by norm_num))
    (by push_cast; exact farReal_lowest_of (by norm_num)) ho
  have hord : ∀ r : ℕ, IsOrder ((fun _ l => l : ℕ → List (Verif.Cell 3) → List (Verif.Cell 3)) r) :=
    fun _ l => List.Perm.refl l
  exact ⟨rs1, rs2, o, h1, h2, ho, fun s1 s2 r1 r2 a1 a2 hw => (h3 _ _ s1 s2 hord hord r1 r2 (.inl a1) (.inl a2) hw).2⟩

end Verif.Props
