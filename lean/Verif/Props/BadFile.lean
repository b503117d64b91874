import Verif.Props.BadViz

/-!
# C98: from the bytes of a recording folder
-/

namespace Verif.Props
open Spec Kitti Viz

section
variable [T : Trig F32] [Libm F32]

omit [Libm F32] in
/-- C98, the files: a record with a number that is not finite becomes a point without a finite coordinate, whatever
the pose; the other records of the file become the points that they would be without it. The folder is as in C80,
but for such records. -/
theorem C98_records (hT : AccurateTrig T) {cos : F64 → F64} {radPerDeg : F64} {cast : F64 → F32}
    (he : AccurateEnv (parsingEnv cos radPerDeg cast (Quat.fromEuler (F := F32))))
    {w₁ w₂ : ℕ} {ext ext' : List (Fin 256)} {idx : List ℕ} {po pv : List (List (Fin 256))}
    (ho : IndexFolder w₁ ext idx po) (hv : IndexFolder w₂ ext' idx pv)
    {oxtBytes cloudBytes : List (Fin 256) → List (BitVec 8)} {place : ℕ → Place} {roll pitch yaw : ℕ → ℚ} {L S ε : ℝ}
    (htext : ∀ i ∈ idx, ∃ text, oxtBytes (indexName w₁ ext i) = utf8 text ∧ (place i).Ok ∧
      Says text (place i) (roll i) (pitch i) (yaw i))
    (hang : ∀ i ∈ idx, |roll i| ≤ 4 ∧ |pitch i| ≤ 4 ∧ |yaw i| ≤ 4)
    (hcloud : ∀ i ∈ idx, 16 ∣ (cloudBytes (indexName w₂ ext' i)).length ∧
      ∀ j < (cloudBytes (indexName w₂ ext' i)).length / 16, FiniteRecord (cloudBytes (indexName w₂ ext' i)) j →
        ∀ n : Fin 3, |((f32OfBits (wordAt (cloudBytes (indexName w₂ ext' i)) (16 * j + 4 * n.val))).val : ℝ)| ≤ L)
    {i0 : ℕ} (hi0 : idx[0]? = some i0) (hS : ∀ i ∈ idx, ∀ n, |(place i).offset (place i0) n| ≤ S)
    (hL1 : 1 ≤ L) (hL2 : L ≤ 2 ^ 100) (hε : ε = (1130 * L + 2 * S) / 2 ^ 24 + 1 / 2 ^ 18)
    {X : ℕ → Fin 3 → ℝ} (hX : ∀ i, X i = (place i).offset (place i0)) :
    ∃ rs, main (parsingEnv cos radPerDeg cast Quat.fromEuler) (some (some (byteFolder po pv oxtBytes cloudBytes))) =
        .ok (.window rs) ∧ rs.clouds.length = idx.length ∧
      ∀ k i, idx[k]? = some i → (∀ n, NearReal ((rs.get k).1 n) (X i n) ε) ∧
        (rs.get k).2.points.length = (cloudBytes (indexName w₂ ext' i)).length / 16 ∧
        ∀ (j : ℕ) x, (rs.get k).2.points[j]? = some x →
          (FiniteRecord (cloudBytes (indexName w₂ ext' i)) j → ∀ n, NearReal (x n)
            (rigid (roll i) (pitch i) (yaw i) (X i)
              (fun m => ((f32OfBits (wordAt (cloudBytes (indexName w₂ ext' i)) (16 * j + 4 * m.val))).val : ℝ)) n) ε) ∧
          (¬ FiniteRecord (cloudBytes (indexName w₂ ext' i)) j → ∀ n, x n = .nan ∨ ∃ s, x n = .inf s) := by
  have hS' : ∀ i ∈ idx, ∀ i0', idx[0]? = some i0' → ∀ n, |(place i).offset (place i0') n| ≤ S := by
    intro i hi i0' h0 n
    rw [hi0] at h0
    cases h0
    exact hS i hi n
  obtain ⟨rs, h1, -, h3, h4⟩ := scans_any hT he ho hv htext hang (fun i hi => (hcloud i hi).1) hS' hL1 hL2
  refine ⟨rs, h1, h3, fun k i hk => ?_⟩
  have hi := List.mem_of_getElem? hk
  obtain ⟨g1, g2, g3⟩ := h4 k i i0 hk hi0
  refine ⟨fun n => ?_, g2, fun j x hx => ⟨fun hfin n => ?_, fun hbad n => ?_⟩⟩
  · obtain ⟨q, hq, hd⟩ := g1 n
    refine ⟨q, hq, ?_⟩
    rw [hX]
    refine hd.trans ?_
    rw [hε]
    have := hS i hi n
    gcongr
    linarith [abs_nonneg ((place i).offset (place i0) n)]
  · rw [hX, hε]
    refine (g3 j x hx).1 (fun n => ⟨hfin n, (hcloud i hi).2 j ?_ hfin n⟩) n
    rw [← g2]
    exact (List.getElem?_eq_some_iff.mp hx).1
  · unfold FiniteRecord at hbad
    push Not at hbad
    obtain ⟨n', hn'⟩ := hbad
    have := (g3 j x hx).2 ⟨n', by simpa using hn'⟩ n
    cases hxn : x n with
    | nan => exact .inl rfl
    | inf s => exact .inr ⟨s, rfl⟩
    | fin q _ _ _ => rw [hxn] at this; cases this

omit T [Libm F32] in
/-- The numbers of a real scan. -/
lemma nanScan_of_real {M : ℕ} {ρ : ℚ} {ε b : ℝ} {X : Fin 3 → ℝ} {pts : (Fin 3 → ℝ) → Prop} {origin : Point 3 F32}
    {cloud : PointCloud 3 F32} (hlo : 1 / 2 ^ 20 ≤ ρ) (hhi : ρ ≤ 2 ^ 20)
    (hs : ∀ n, NearReal (origin n) (X n) ε) (h : RealScan M ρ ε b X pts)
    (hp : ∀ p ∈ cloud.points, (∃ Y, pts Y ∧ ∀ n, NearReal (p n) (Y n) ε) ∨ ∀ n, p n = .nan) :
    ∃ x, NanScan M ρ origin cloud x ∧ (∀ i, |(x i : ℝ) - X i| ≤ ε) ∧ ∀ c : ℚ, (c : ℝ) ≤ b → Above 2 c cloud := by
  choose x hx using hs
  refine ⟨x, ⟨hlo, hhi, fun i => (hx i).1, fun i => ?_, fun p hpm i => ?_, fun p hpm hb i y hy => ?_⟩, fun i => (hx i).2,
    fun c hc p hpm y hy => ?_⟩
  · have h2 := abs_sub_abs_le_abs_sub (x i : ℝ) (X i)
    have : |(x i : ℝ)| ≤ M * ρ := by linarith [h.sensor_near i, (hx i).2]
    exact_mod_cast this
  · rcases hp p hpm with ⟨Y, hY, hn⟩ | hn
    · obtain ⟨y, hy, hd⟩ := hn i
      refine .inr ⟨y, hy, ?_⟩
      have h2 := abs_sub_abs_le_abs_sub (y : ℝ) (Y i)
      have : |(y : ℝ)| ≤ M * ρ := by linarith [(h.points Y hY i).1]
      exact_mod_cast this
    · exact .inl (hn i)
  · rcases hp p hpm with ⟨Y, hY, hn⟩ | hn
    · right
      obtain ⟨y', hy', hd⟩ := hn i
      obtain rfl := hy.unique hy'
      have hdd : |Y i - X i - ((y : ℝ) - x i)| ≤ 2 * ε := by
        rw [show Y i - X i - ((y : ℝ) - x i) = (x i - X i) - (y - Y i) by ring]
        have := abs_sub ((x i : ℝ) - X i) (y - Y i)
        linarith [(hx i).2]
      have h6 := abs_sub_abs_le_abs_sub (Y i - X i) ((y : ℝ) - x i)
      have : (ρ : ℝ) / 2 ^ 40 ≤ |(y : ℝ) - x i| := by linarith [(h.points Y hY i).2]
      exact_mod_cast this
    · exact absurd ⟨i, hn i⟩ hb
  · rcases hp p hpm with ⟨Y, hY, hn⟩ | hn
    · obtain ⟨y', hy', hd⟩ := hn 2
      obtain rfl := hy.unique hy'
      have h3 := abs_le.mp hd
      have : (c : ℝ) ≤ y := by linarith [h.floor Y hY, h3.1]
      exact_mod_cast this
    · rw [hn 2] at hy
      obtain ⟨_, _, _, hy⟩ := hy
      cases hy

/-- C98: from the bytes of a recording folder. The folder is as in C80, but cloud file number `r`, and none before it,
has a record with a number that is not finite. Going by the finite records, the scans up to number `r` are in the
working range and above tile border `b`; the range limit of scan `r` reaches five cells below that border; and the
sensor of scan `r` is not the lowest of all on both horizontal axes. Then the window opens and the program freezes: in
every run, scan `r` is the last that is started and its worker never gets past integrating; in every fair run a worker
panics, and from then on nothing new is drawn and no scan is started, while the window stays open. -/
theorem C98_folder (hl : TestedLn) (hT : AccurateTrig T) {cos : F64 → F64} {radPerDeg : F64} {cast : F64 → F32}
    (he : AccurateEnv (parsingEnv cos radPerDeg cast (Quat.fromEuler (F := F32))))
    {w₁ w₂ : ℕ} {ext ext' : List (Fin 256)} {idx : List ℕ} {po pv : List (List (Fin 256))}
    (ho : IndexFolder w₁ ext idx po) (hv : IndexFolder w₂ ext' idx pv)
    {oxtBytes cloudBytes : List (Fin 256) → List (BitVec 8)} {place : ℕ → Place} {roll pitch yaw : ℕ → ℚ} {L S ε : ℝ}
    (htext : ∀ i ∈ idx, ∃ text, oxtBytes (indexName w₁ ext i) = utf8 text ∧ (place i).Ok ∧
      Says text (place i) (roll i) (pitch i) (yaw i))
    (hang : ∀ i ∈ idx, |roll i| ≤ 4 ∧ |pitch i| ≤ 4 ∧ |yaw i| ≤ 4)
    (hcloud : ∀ i ∈ idx, 16 ∣ (cloudBytes (indexName w₂ ext' i)).length ∧
      ∀ j < (cloudBytes (indexName w₂ ext' i)).length / 16, FiniteRecord (cloudBytes (indexName w₂ ext' i)) j →
        ∀ n : Fin 3, |((f32OfBits (wordAt (cloudBytes (indexName w₂ ext' i)) (16 * j + 4 * n.val))).val : ℝ)| ≤ L)
    {i0 : ℕ} (hi0 : idx[0]? = some i0) (hS : ∀ i ∈ idx, ∀ n, |(place i).offset (place i0) n| ≤ S)
    (hL1 : 1 ≤ L) (hL2 : L ≤ 2 ^ 100) (hε : ε = (1130 * L + 2 * S) / 2 ^ 24 + 1 / 2 ^ 18)
    {X : ℕ → Fin 3 → ℝ} (hX : ∀ i, X i = (place i).offset (place i0)) {pts : ℕ → (Fin 3 → ℝ) → Prop}
    (hpts : ∀ i, pts i = FinitePoint (roll i) (pitch i) (yaw i) (X i) (cloudBytes (indexName w₂ ext' i)))
    {M : ℕ} (hM1 : 600 ≤ M) (hM : M + 101 ≤ 2 ^ 18) {ρ : ℚ} (hρ : ρ = (Fp.lit 0.1 : F32).val)
    {r ir : ℕ} (hr : idx[r]? = some ir)
    (hfirst : ∀ k < r, ∀ i, idx[k]? = some i → ∀ j < (cloudBytes (indexName w₂ ext' i)).length / 16,
      FiniteRecord (cloudBytes (indexName w₂ ext' i)) j)
    (hbad : ∃ j < (cloudBytes (indexName w₂ ext' ir)).length / 16, ¬ FiniteRecord (cloudBytes (indexName w₂ ext' ir)) j)
    {b : ℤ} (hb : b ≤ 0) (hscan : ∀ k ≤ r, ∀ i, idx[k]? = some i → RealScan M ρ ε (b * 100 * ρ) (X i) (pts i))
    (hside : ∃ i : Fin 3, i ≠ 2 ∧ (2 * ρ + ε ≤ X ir i ∨ ∃ Y, pts ir Y ∧ Y i + 2 * ρ + 2 * ε ≤ X ir i))
    (hdeep : X ir 2 + ε - b * 100 * ρ + 5 * ρ ≤ 60 * (1 - 1 / 2 ^ 20))
    {o : OccupancyGridMap 3 F32} (hdef : OccupancyGridMap.default_ = .ok o) :
    ∃ rs, main (parsingEnv cos radPerDeg cast Quat.fromEuler) (some (some (byteFolder po pv oxtBytes cloudBytes))) =
        .ok (.window rs) ∧ rs.clouds.length = idx.length ∧
      ∀ ord : ℕ → List (Verif.Cell 3) → List (Verif.Cell 3), (∀ r, IsOrder (ord r)) →
        (∀ s, Reach (occOps o.noiseModel rs.get ord) rs.clouds.length o.gridMap s →
          s.workers.length ≤ r + 1 ∧ (∀ (k : ℕ) pc, s.workers[k]? = some (pc, r) → NotPast pc) ∧ s.main ≠ .dead) ∧
        ∀ σ, Execution (occOps o.noiseModel rs.get ord) rs.clouds.length o.gridMap σ →
          Fair (occOps o.noiseModel rs.get ord) rs.clouds.length σ →
          ∃ i : ℕ, (∃ k r' : ℕ, r' ≤ r ∧ (σ i).workers[k]? = some (.dead, r')) ∧ ∀ j, i ≤ j → (σ j).main = .check ∧
            (σ j).finished = false ∧ (σ j).tracked = (σ i).tracked ∧ (σ j).workers.length = (σ i).workers.length := by
  obtain ⟨rs, hmain, hlen, hrec⟩ := C98_records hT he ho hv htext hang hcloud hi0 hS hL1 hL2 hε hX
  refine ⟨rs, hmain, hlen, fun ord hord => ?_⟩
  have hrlt : r < idx.length := (List.getElem?_eq_some_iff.mp hr).1
  have hrlo : (1 : ℚ) / 2 ^ 20 ≤ ρ := by rw [hρ]; decide +kernel
  have hrhi : ρ ≤ (2 : ℚ) ^ 20 := by rw [hρ]; decide +kernel
  have hρ60 : (60 : ℚ) ≤ 600 * ρ := by rw [hρ]; decide +kernel
  have hpos : 0 < ρ := lt_of_lt_of_le (by norm_num) hrlo
  obtain ⟨m0, rfl, e2, e3, e4⟩ := default_start hl hρ hdef
  -- what is known of a scan up to number `r` without infinite coordinates
  have hsc : ∀ k ≤ r, (∀ p ∈ (rs.get k).2.points, ∀ i s, p i ≠ .inf s) → ∀ i, idx[k]? = some i →
      ∃ x, NanScan M ρ (rs.get k).1 (rs.get k).2 x ∧ (∀ n, |(x n : ℝ) - X i n| ≤ ε) ∧
        Above 2 (b * (100 : ℕ) * ρ) (rs.get k).2 := by
    intro k hk hninf i hi
    obtain ⟨g1, g2, g3⟩ := hrec k i hi
    obtain ⟨x, h1, h2, h3⟩ := nanScan_of_real hrlo hrhi g1 (hscan k hk i hi) (fun p hp => by
      obtain ⟨j, hj⟩ := List.getElem?_of_mem hp
      have hjlt := (List.getElem?_eq_some_iff.mp hj).1
      by_cases hf : FiniteRecord (cloudBytes (indexName w₂ ext' i)) j
      · left
        rw [hpts]
        exact ⟨_, ⟨j, by rw [← g2]; exact hjlt, hf, rfl⟩, (g3 j p hj).1 hf⟩
      · right
        intro n
        rcases (g3 j p hj).2 hf n with h | ⟨s, h⟩
        · exact h
        · exact absurd h (hninf p hp n s))
    exact ⟨x, h1, h2, h3 _ (by push_cast; exact le_refl _)⟩
  have hplay : BadPlay M 100 ρ 60 (2 : Fin 3) b r rs.get := by
    refine ⟨by decide, by omega, by omega, hb, fun k hk => ?_, ?_, by norm_num, ?_⟩
    · have hki : idx[k]? = some idx[k] := List.getElem?_eq_getElem (by omega)
      obtain ⟨x, h1, -, h3⟩ := hsc k hk.le (fun p hp n s hps => by
        obtain ⟨j, hj⟩ := List.getElem?_of_mem hp
        obtain ⟨-, g2, g3⟩ := hrec k _ hki
        obtain ⟨q, hq, -⟩ := (g3 j p hj).1 (hfirst k hk _ hki j (by
          rw [← g2]; exact (List.getElem?_eq_some_iff.mp hj).1)) n
        rw [hps] at hq
        obtain ⟨_, _, _, hq⟩ := hq
        cases hq) _ hki
      exact ⟨x, h1, h3⟩
    · by_cases hinf : ∃ p ∈ (rs.get r).2.points, ∃ i s, p i = .inf s
      · exact .inr ⟨by norm_num, by norm_num, hinf⟩
      · left
        push Not at hinf
        obtain ⟨x, h1, h2, h3⟩ := hsc r le_rfl hinf ir hr
        refine ⟨x, h1, h3, ?_, ?_⟩
        · obtain ⟨j, hj, hnf⟩ := hbad
          obtain ⟨-, g2, g3⟩ := hrec r ir hr
          have hjp : (rs.get r).2.points[j]? = some (rs.get r).2.points[j] :=
            List.getElem?_eq_getElem (by rw [g2]; exact hj)
          have hmem := List.mem_of_getElem? hjp
          have hnan : ∀ n, (rs.get r).2.points[j] n = .nan := fun n =>
            ((g3 j _ hjp).2 hnf n).resolve_right fun ⟨s, h⟩ => hinf _ hmem n s h
          refine ⟨_, hmem, ⟨0, hnan 0⟩, ?_⟩
          obtain ⟨i, hi2, hs⟩ := hside
          refine ⟨i, hi2, .inl ⟨hnan i, ?_⟩⟩
          have hxi := abs_le.mp (h2 i)
          rcases hs with hs | ⟨Y, hY, hs⟩
          · left
            have : 2 * (ρ : ℝ) ≤ x i := by linarith [hxi.1]
            exact_mod_cast this
          · right
            rw [hpts] at hY
            obtain ⟨j', hj', hf', rfl⟩ := hY
            have hjp' : (rs.get r).2.points[j']? = some (rs.get r).2.points[j'] :=
              List.getElem?_eq_getElem (by rw [g2]; exact hj')
            obtain ⟨y, hy, hd⟩ := (g3 j' _ hjp').1 hf' i
            refine ⟨_, List.mem_of_getElem? hjp', y, hy, ?_⟩
            have hdi := abs_le.mp hd
            have : (y : ℝ) + 2 * ρ ≤ x i := by linarith [hxi.1, hdi.2]
            exact_mod_cast this
        · have hx2 := abs_le.mp (h2 2)
          rw [← Rat.cast_le (K := ℝ)]
          push_cast
          linarith [hx2.2]
    · have : (600 : ℚ) ≤ M := by exact_mod_cast hM1
      nlinarith
  have hml : defaultNM.maxRange.Is 60 := by decide +kernel
  rw [hlen]
  exact ⟨fun s hs => C98_visualizer (.inr rfl) hrlt e2 e4 e3 hord hml hplay hs,
    fun σ h1 h2 => C98_freezes (.inr rfl) hrlt e2 e4 e3 hord hml hplay h1 h2⟩

end

/-! ## An example -/

/-- One cloud file: the points (2, 1, 1/2), (-2, -1, -1/2) and (NaN, 1, 1). -/
def nanFile : List (BitVec 8) :=
  twoPoints ++ [0x00, 0x00, 0xC0, 0x7F, 0x00, 0x00, 0x80, 0x3F, 0x00, 0x00, 0x80, 0x3F, 0x00, 0x00, 0x00, 0x00]

lemma nanFile_points (Y : Fin 3 → ℝ) : FinitePoint (0 : ℚ) (0 : ℚ) (0 : ℚ) ![0, 0, 0] nanFile Y ↔ Y ∈ twoReal := by
  have h0 : ∀ m : Fin 3, (f32OfBits (wordAt nanFile (16 * 0 + 4 * m.val))).val = ![2, 1, 1 / 2] m := by decide +kernel
  have h1 : ∀ m : Fin 3, (f32OfBits (wordAt nanFile (16 * 1 + 4 * m.val))).val = ![-2, -1, -1 / 2] m := by
    decide +kernel
  have f0 : FiniteRecord nanFile 0 := by unfold FiniteRecord; decide +kernel
  have f1 : FiniteRecord nanFile 1 := by unfold FiniteRecord; decide +kernel
  have f2 : ¬ FiniteRecord nanFile 2 := by unfold FiniteRecord; decide +kernel
  have e0 : (rigid (0 : ℚ) (0 : ℚ) (0 : ℚ) ![0, 0, 0] fun m =>
      ((f32OfBits (wordAt nanFile (16 * 0 + 4 * m.val))).val : ℝ)) = ![2, 1, 1 / 2] := by
    simp only [h0]
    funext i; fin_cases i <;> simp [rigid, rotX, rotY, rotZ]
  have e1 : (rigid (0 : ℚ) (0 : ℚ) (0 : ℚ) ![0, 0, 0] fun m =>
      ((f32OfBits (wordAt nanFile (16 * 1 + 4 * m.val))).val : ℝ)) = ![-2, -1, -1 / 2] := by
    simp only [h1]
    funext i; fin_cases i <;> simp [rigid, rotX, rotY, rotZ]
  unfold FinitePoint twoReal
  rw [show nanFile.length / 16 = 3 by decide, List.mem_pair]
  constructor
  · rintro ⟨j, hj, hf, rfl⟩
    obtain rfl | rfl | rfl : j = 0 ∨ j = 1 ∨ j = 2 := by omega
    · exact .inl e0
    · exact .inr e1
    · exact absurd hf f2
  · rintro (rfl | rfl)
    · exact ⟨0, by norm_num, f0, e0.symm⟩
    · exact ⟨1, by norm_num, f1, e1.symm⟩

/-- A folder with one recording, whose cloud has one NaN: the window opens, and no run gets past the first scan. -/
example : ∃ (rs : _) (o : OccupancyGridMap 3 F32),
    main (parsingEnv someEnv.cos someEnv.radPerDeg someEnv.cast (@Quat.fromEuler F32 _ someTrig))
      (some (some (byteFolder [indexName 10 (ascii ".txt") 0] [indexName 10 (ascii ".bin") 0]
        (fun _ => utf8 "49 8.4 116.4 0 0 0".toList) fun _ => nanFile))) = .ok (.window rs) ∧
    @OccupancyGridMap.default_ F32 _ 3 testedLibm = .ok o ∧
    ∀ s, Reach (occOps o.noiseModel rs.get fun _ l => l) rs.clouds.length o.gridMap s →
      s.workers.length ≤ 1 ∧ (∀ (k : ℕ) pc, s.workers[k]? = some (pc, 0) → NotPast pc) ∧ s.main ≠ .dead := by
  let _ := someTrig
  let _ := testedLibm
  have hl : TestedLn := by constructor <;> decide +kernel
  have hok : (⟨49, 42 / 5, 582 / 5⟩ : Place).Ok := ⟨by norm_num, by norm_num [abs_le], by norm_num [abs_le]⟩
  have hoff : (⟨49, 42 / 5, 582 / 5⟩ : Place).offset ⟨49, 42 / 5, 582 / 5⟩ = ![0, 0, 0] := by
    funext n; fin_cases n <;> simp [Place.offset]
  have hdef : ∃ o : OccupancyGridMap 3 F32, OccupancyGridMap.default_ = .ok o := by
    obtain ⟨m0, e1, -⟩ := new_empty_placed (D := 3) (ρ := 13421773 / 2 ^ 27) (r := (Fp.lit 0.1 : F32)) (by norm_num)
      (by refine ⟨by decide +kernel, ?_, ?_⟩ <;> norm_num) (t := 100) (by norm_num) (by norm_num) (Fp.lit 0 : F32)
    refine ⟨⟨m0, defaultNM⟩, ((C42_default_model hl).2.1 _).mpr ?_⟩
    unfold OccupancyGridMap.new
    rw [Verif.M.bind_eq_ok]
    exact ⟨m0, e1, rfl⟩
  obtain ⟨o, ho⟩ := hdef
  have htext : ∀ i ∈ [0], ∃ text, utf8 "49 8.4 116.4 0 0 0".toList = utf8 text ∧ (⟨49, 42 / 5, 582 / 5⟩ : Place).Ok ∧
      Says text ⟨49, 42 / 5, 582 / 5⟩ 0 0 0 := fun i _ =>
    ⟨_, rfl, hok, "49".toList, "8.4".toList, "116.4".toList, "0".toList, "0".toList, "0".toList, [],
      fields_iff.mpr (by decide +kernel), by decide +kernel, by decide +kernel, by decide +kernel, by decide +kernel,
      by decide +kernel, by decide +kernel⟩
  have hcloud : ∀ i ∈ [0], 16 ∣ nanFile.length ∧ ∀ j < nanFile.length / 16, FiniteRecord nanFile j → ∀ n : Fin 3,
      |((f32OfBits (wordAt nanFile (16 * j + 4 * n.val))).val : ℝ)| ≤ 2 := by
    have key : ∀ j < nanFile.length / 16, ∀ n : Fin 3, |(f32OfBits (wordAt nanFile (16 * j + 4 * n.val))).val| ≤ 2 := by
      decide +kernel
    exact fun i _ => ⟨by decide, fun j hj _ n => by exact_mod_cast key j hj n⟩
  have hε : (2260 / 2 ^ 24 + 1 / 2 ^ 18 : ℝ) = (1130 * 2 + 2 * 0) / 2 ^ 24 + 1 / 2 ^ 18 := by norm_num
  have third : ∀ a b c : ℝ, (![a, b, c] : Fin 3 → ℝ) 2 = c := fun _ _ _ => rfl
  have hT := someTrig_accurate
  have he := C76_accurate (euler := Quat.fromEuler (F := F32)) someEnv_accurate.cos someEnv_accurate.radPerDeg
    someEnv_accurate.cast
  obtain ⟨rs, h1, hlen, h2⟩ := C98_folder (w₁ := 10) (w₂ := 10) (ext := ascii ".txt") (ext' := ascii ".bin") hl hT he
    (idx := [0]) (po := [indexName 10 (ascii ".txt") 0]) (pv := [indexName 10 (ascii ".bin") 0])
    (oxtBytes := fun _ => utf8 "49 8.4 116.4 0 0 0".toList) (cloudBytes := fun _ => nanFile)
    (place := fun _ => ⟨49, 42 / 5, 582 / 5⟩) (roll := fun _ => 0) (pitch := fun _ => 0) (yaw := fun _ => 0)
    (X := fun _ => ![0, 0, 0]) (pts := fun _ Y => Y ∈ twoReal)
    ⟨by simp, by decide, by simp⟩ ⟨by simp, by decide, by simp⟩ htext (by simp) hcloud (i0 := 0) rfl
    (fun i _ n => by simp only [hoff]; fin_cases n <;> simp) (by norm_num) (by norm_num) hε (fun _ => hoff.symm)
    (fun _ => by funext Y; exact propext (nanFile_points Y).symm) (M := 600) (by norm_num) (by norm_num) side_val.symm
    (r := 0) (ir := 0) rfl (by simp) ⟨2, by decide, by unfold FiniteRecord; decide +kernel⟩ (b := -1) (by norm_num)
    (fun k hk i hi => ⟨by intro i; fin_cases i <;> norm_num, fun Y hY n => by
      rcases List.mem_pair.mp hY with rfl | rfl <;> fin_cases n <;> norm_num [← le_sub_iff_add_le, le_abs, abs_le],
      fun Y hY => by
        rcases List.mem_pair.mp hY with rfl | rfl
        · rw [third]; norm_num
        · rw [third]; norm_num⟩)
    ⟨0, by decide, .inr ⟨![-2, -1, -1 / 2], by simp [twoReal], by norm_num⟩⟩
    (by rw [third]; norm_num) ho
  exact ⟨rs, o, h1, ho, fun s hs => (h2 _ fun _ l => List.Perm.refl l).1 s hs⟩

end Verif.Props
