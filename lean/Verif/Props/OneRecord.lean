import Verif.Spec.OneRecord
import Verif.Props.Outlier
import Verif.Props.Endless

/-!
# C113: cloud files that differ in some records
-/

namespace Verif.Props
open Scalar Spec Viz Kitti

/-- A half line through two points that are nearly the given ones stays off the cell too. -/
lemma outside_of_line {ρ δ : ℚ} {ε : ℝ} {X Y : Fin 3 → ℝ} {x y : Fin 3 → ℚ} {w : Verif.Cell 3}
    (hx : ∀ i, |(x i : ℝ) - X i| ≤ ε) (hy : ∀ i, |(y i : ℝ) - Y i| ≤ ε) (h : LinePasses ρ δ ε X Y w) {t : ℚ}
    (ht : 0 ≤ t) : Outside δ ρ w (lineAt x y t) := by
  have ht' : (0 : ℝ) ≤ t := by exact_mod_cast ht
  obtain ⟨i, hi⟩ := h t ht'
  refine ⟨i, ?_⟩
  rw [← Rat.cast_lt (K := ℝ)]
  unfold lineAt
  push_cast
  have e : (X i + t * (Y i - X i) - w i * ρ : ℝ) =
      (x i + t * (y i - x i) - w i * ρ) - (((x i : ℝ) - X i) * (1 - t) + t * (y i - Y i)) := by ring
  rw [e] at hi
  have h1 := abs_sub (x i + t * (y i - x i) - w i * ρ : ℝ) (((x i : ℝ) - X i) * (1 - t) + t * (y i - Y i))
  have h2 := abs_add_le (((x i : ℝ) - X i) * (1 - t)) (t * ((y i : ℝ) - Y i))
  rw [abs_mul, abs_mul, abs_of_nonneg ht'] at h2
  have h3 : |(1 - t : ℝ)| ≤ 1 + t := abs_le.mpr ⟨by linarith, by linarith⟩
  have h4 : |(x i : ℝ) - X i| * |(1 - t : ℝ)| ≤ ε * (1 + t) :=
    mul_le_mul (hx i) h3 (abs_nonneg _) ((abs_nonneg _).trans (hx i))
  have h5 : (t : ℝ) * |(y i : ℝ) - Y i| ≤ t * ε := mul_le_mul_of_nonneg_left (hy i) ht'
  nlinarith

section
variable [T : Trig F32] {cos : F64 → F64} {radPerDeg : F64} {cast : F64 → F32} {w₁ w₂ : ℕ} {ext ext' : List (Fin 256)}
  {idx : List ℕ} {po pv : List (List (Fin 256))} {oxtBytes cloudBytes1 cloudBytes2 : List (Fin 256) → List (BitVec 8)}
  {rs1 rs2 : Recordings}

/-- Two folders with the same files in `oxts/data`: each scan has the same sensor, and one and the same function makes
its points from the records of the cloud file. -/
theorem C113_recordings (ho : IndexFolder w₁ ext idx po) (hv : IndexFolder w₂ ext' idx pv)
    (h1 : main (parsingEnv cos radPerDeg cast Quat.fromEuler)
      (some (some (byteFolder po pv oxtBytes cloudBytes1))) = .ok (.window rs1))
    (h2 : main (parsingEnv cos radPerDeg cast Quat.fromEuler)
      (some (some (byteFolder po pv oxtBytes cloudBytes2))) = .ok (.window rs2)) {k i : ℕ} (hk : idx[k]? = some i) :
    (rs2.get k).1 = (rs1.get k).1 ∧ ∃ f : Point 3 F32 → Point 3 F32,
      (rs1.get k).2.points = (List.range ((cloudBytes1 (indexName w₂ ext' i)).length / 16)).map
        (fun j => f (recordOf (cloudBytes1 (indexName w₂ ext' i)) j)) ∧
      (rs2.get k).2.points = (List.range ((cloudBytes2 (indexName w₂ ext' i)).length / 16)).map
        (fun j => f (recordOf (cloudBytes2 (indexName w₂ ext' i)) j)) := by
  obtain ⟨-, -, g1⟩ := C60_recordings (indexFolder_sorted ho) (indexFolder_sorted hv) rfl rfl h1
  obtain ⟨-, -, g2⟩ := C60_recordings (indexFolder_sorted ho) (indexFolder_sorted hv) rfl rfl h2
  obtain ⟨_, _, _, _, _, _, _, b1, pose1, -, -, -, -, -, x1, -, x2, -, -, x3, x4⟩ :=
    g1 k (indexName w₁ ext i) (indexName w₂ ext' i) (by rw [List.getElem?_map, hk]; rfl)
      (by rw [List.getElem?_map, hk]; rfl)
  obtain ⟨_, _, _, _, _, _, _, b2, pose2, -, -, -, -, -, y1, -, y2, -, -, y3, y4⟩ :=
    g2 k (indexName w₁ ext i) (indexName w₂ ext' i) (by rw [List.getElem?_map, hk]; rfl)
      (by rw [List.getElem?_map, hk]; rfl)
  obtain rfl : cloudBytes1 (indexName w₂ ext' i) = b1 := Except.ok.inj x1
  obtain rfl : cloudBytes2 (indexName w₂ ext' i) = b2 := Except.ok.inj y1
  obtain ⟨poses, c1, u1, -, -, rfl⟩ := main_ok h1
  obtain ⟨poses', c2, u2, -, -, rfl⟩ := main_ok h2
  obtain rfl : poses = poses' := Except.ok.inj (u1.symm.trans u2)
  obtain rfl : pose1 = pose2 := Option.some.inj (x2.symm.trans y2)
  refine ⟨y3.trans x3.symm, PointCloud.transformPoint pose1.toHomogeneous, ?_, ?_⟩
  · rw [x4]
    unfold fileCloud PointCloud.transform
    rw [C13_points_fromPoints, C13_points_fromPoints, List.map_map]
    rfl
  · rw [y4]
    unfold fileCloud PointCloud.transform
    rw [C13_points_fromPoints, C13_points_fromPoints, List.map_map]
    rfl

/-- Files with the same records, in whatever order, however often and with whatever reflectance, give clouds with the same
points. -/
theorem C113_same_records (ho : IndexFolder w₁ ext idx po) (hv : IndexFolder w₂ ext' idx pv)
    (h1 : main (parsingEnv cos radPerDeg cast Quat.fromEuler)
      (some (some (byteFolder po pv oxtBytes cloudBytes1))) = .ok (.window rs1))
    (h2 : main (parsingEnv cos radPerDeg cast Quat.fromEuler)
      (some (some (byteFolder po pv oxtBytes cloudBytes2))) = .ok (.window rs2)) {k i : ℕ} (hk : idx[k]? = some i)
    (hsame : ∀ j, ¬ OnlyIn (cloudBytes1 (indexName w₂ ext' i)) (cloudBytes2 (indexName w₂ ext' i)) j ∧
      ¬ OnlyIn (cloudBytes2 (indexName w₂ ext' i)) (cloudBytes1 (indexName w₂ ext' i)) j) (p : Point 3 F32) :
    p ∈ (rs2.get k).2.points ↔ p ∈ (rs1.get k).2.points := by
  obtain ⟨-, f, f1, f2⟩ := C113_recordings ho hv h1 h2 hk
  have key : ∀ {b b' : List (BitVec 8)}, (∀ j, ¬ OnlyIn b b' j) →
      p ∈ (List.range (b.length / 16)).map (fun j => f (recordOf b j)) →
      p ∈ (List.range (b'.length / 16)).map (fun j => f (recordOf b' j)) := by
    intro b b' h hp
    obtain ⟨j, hj, rfl⟩ := List.mem_map.mp hp
    by_contra hn
    exact h j ⟨List.mem_range.mp hj, fun j' hj' e => hn (List.mem_map.mpr ⟨j', List.mem_range.mpr hj', by rw [e]⟩)⟩
  rw [f1, f2]
  exact ⟨key fun j => (hsame j).2, key fun j => (hsame j).1⟩

omit T in
/-- A point in one of the clouds and not in the other comes from a record that occurs nowhere in the other file. -/
lemma only_of_stray {f : Point 3 F32 → Point 3 F32} {bytes other : List (BitVec 8)} {l1 l2 : List (Point 3 F32)}
    (h1 : l1 = (List.range (bytes.length / 16)).map fun j => f (recordOf bytes j))
    (h2 : l2 = (List.range (other.length / 16)).map fun j => f (recordOf other j)) {p : Point 3 F32} (hp : p ∈ l1)
    (hp' : p ∉ l2) : ∃ j, l1[j]? = some p ∧ OnlyIn bytes other j := by
  subst h1 h2
  obtain ⟨j, hj, rfl⟩ := List.mem_map.mp hp
  rw [List.mem_range] at hj
  refine ⟨j, by rw [List.getElem?_map, List.getElem?_range hj]; rfl, hj, fun j' hj' e => hp' ?_⟩
  exact List.mem_map.mpr ⟨j', List.mem_range.mpr hj', by rw [e]⟩

/-- C113: two folders with the same records of the vehicle; the cloud files of corresponding indices differ as they
may, but none reaches below the tiles that the first one reaches, which are the same for both. Both windows open. Take
any run on each, with the default map and under any schedule and hash order, at moments when the renderers have
processed a batch and as many scans have been started. The maps start at the same world cell; they agree on every world
cell that the lines from the sensor through the records that occur in only one of two corresponding files stay off by
the tolerance; and either both runs draw such a cell, at the same point, or neither does. -/
theorem C113_folder [Libm F32] (hl : TestedLn) (hT : AccurateTrig T)
    (he : AccurateEnv (parsingEnv cos radPerDeg cast (Quat.fromEuler (F := F32))))
    (ho : IndexFolder w₁ ext idx po) (hv : IndexFolder w₂ ext' idx pv)
    {place : ℕ → Place} {roll pitch yaw : ℕ → ℚ} {L S ε : ℝ}
    (htext : ∀ i ∈ idx, ∃ text, oxtBytes (indexName w₁ ext i) = utf8 text ∧ (place i).Ok ∧
      Says text (place i) (roll i) (pitch i) (yaw i))
    (hang : ∀ i ∈ idx, |roll i| ≤ 4 ∧ |pitch i| ≤ 4 ∧ |yaw i| ≤ 4)
    (hcloud1 : ∀ i ∈ idx, 16 ∣ (cloudBytes1 (indexName w₂ ext' i)).length ∧
      ∀ j < (cloudBytes1 (indexName w₂ ext' i)).length / 16, ∀ n : Fin 3,
        (f32OfBits (wordAt (cloudBytes1 (indexName w₂ ext' i)) (16 * j + 4 * n.val))).isFin = true ∧
        |((f32OfBits (wordAt (cloudBytes1 (indexName w₂ ext' i)) (16 * j + 4 * n.val))).val : ℝ)| ≤ L)
    (hcloud2 : ∀ i ∈ idx, 16 ∣ (cloudBytes2 (indexName w₂ ext' i)).length ∧
      ∀ j < (cloudBytes2 (indexName w₂ ext' i)).length / 16, ∀ n : Fin 3,
        (f32OfBits (wordAt (cloudBytes2 (indexName w₂ ext' i)) (16 * j + 4 * n.val))).isFin = true ∧
        |((f32OfBits (wordAt (cloudBytes2 (indexName w₂ ext' i)) (16 * j + 4 * n.val))).val : ℝ)| ≤ L)
    {i0 : ℕ} (hi0 : idx[0]? = some i0) (hS : ∀ i ∈ idx, ∀ n, |(place i).offset (place i0) n| ≤ S)
    (hL1 : 1 ≤ L) (hL2 : L ≤ 2 ^ 100) (hε : ε = (1130 * L + 2 * S) / 2 ^ 24 + 1 / 2 ^ 18)
    {X : ℕ → Fin 3 → ℝ} (hX : ∀ i, X i = (place i).offset (place i0)) {pts1 pts2 : ℕ → List (Fin 3 → ℝ)}
    (hpts1 : ∀ i, pts1 i = movedPoints (roll i) (pitch i) (yaw i) (X i) (cloudBytes1 (indexName w₂ ext' i)))
    (hpts2 : ∀ i, pts2 i = movedPoints (roll i) (pitch i) (yaw i) (X i) (cloudBytes2 (indexName w₂ ext' i)))
    {M N : ℕ} (hM1 : 1 ≤ M) (hN : N = M + 101) (hδ : rayTol N (2 * N) ≤ 1 / 2)
    {ρ : ℚ} (hρ : ρ = (Fp.lit 0.1 : F32).val) (hB1 : ∀ i ∈ idx, ∀ Y ∈ pts1 i, ∀ n, |Y n| + ε ≤ M * ρ)
    (hB2 : ∀ i ∈ idx, ∀ Y ∈ pts2 i, ∀ n, |Y n| + ε ≤ M * ρ) {low : Fin 3 → ℤ}
    (hlow1 : LowestFirstReal 100 ρ ε (· ∈ idx) pts1 (pts1 i0) low)
    (hlow2 : LowestFirstReal 100 ρ ε (· ∈ idx) pts2 (pts2 i0) low)
    {o : OccupancyGridMap 3 F32} (hdef : OccupancyGridMap.default_ = .ok o) :
    ∃ rs1 rs2, main (parsingEnv cos radPerDeg cast Quat.fromEuler)
        (some (some (byteFolder po pv oxtBytes cloudBytes1))) = .ok (.window rs1) ∧
      main (parsingEnv cos radPerDeg cast Quat.fromEuler)
        (some (some (byteFolder po pv oxtBytes cloudBytes2))) = .ok (.window rs2) ∧
      ∀ (ord1 ord2 : ℕ → List (Verif.Cell 3) → List (Verif.Cell 3)) s1 s2, (∀ r, IsOrder (ord1 r)) →
        (∀ r, IsOrder (ord2 r)) → Reach (occOps o.noiseModel rs1.get ord1) idx.length o.gridMap s1 →
        Reach (occOps o.noiseModel rs2.get ord2) idx.length o.gridMap s2 →
        s1.main = .clearFlag ∨ s1.main = .spawn → s2.main = .clearFlag ∨ s2.main = .spawn →
        s2.workers.length = s1.workers.length →
        s2.map.bounds.min = s1.map.bounds.min ∧ (∀ w, localCell s2.map w = localCell s1.map w) ∧
        ∃ cb1 cb2, Placed s1.map cb1 ρ ∧ Placed s2.map cb2 ρ ∧ ∀ w : Verif.Cell 3,
          (∀ i ∈ idx, RecordsPass N ρ ε (roll i) (pitch i) (yaw i) (X i) (cloudBytes1 (indexName w₂ ext' i))
            (cloudBytes2 (indexName w₂ ext' i)) w ∧
            RecordsPass N ρ ε (roll i) (pitch i) (yaw i) (X i) (cloudBytes2 (indexName w₂ ext' i))
              (cloudBytes1 (indexName w₂ ext' i)) w) →
          (∃ v, Before s1.map cb1 w v ∧ Before s2.map cb2 w v) ∧
          (MachineCell (localCell s1.map w) →
            s2.tracked (localCell s2.map w) = s1.tracked (localCell s1.map w)) := by
  obtain ⟨rs1, m1, -, hε0, n1, near1⟩ := folder_scans hT he ho hv htext hang hcloud1 hi0 hS hL1 hL2 hε hX hpts1
  obtain ⟨rs2, m2, -, -, n2, near2⟩ := folder_scans hT he ho hv htext hang hcloud2 hi0 hS hL1 hL2 hε hX hpts2
  have hidx : 0 < idx.length := (List.getElem?_eq_some_iff.mp hi0).1
  have hrlo : (1 : ℚ) / 2 ^ 20 ≤ ρ := by rw [hρ]; decide +kernel
  have hrhi : ρ ≤ (2 : ℚ) ^ 20 := by rw [hρ]; decide +kernel
  have hN18 : N ≤ 2 ^ 18 := by
    unfold rayTol at hδ
    rw [div_le_iff₀ (by norm_num)] at hδ
    have : (0 : ℚ) ≤ ((2 * N : ℕ) : ℚ) ^ 2 := by positivity
    push_cast at hδ this
    have h : (N : ℚ) ≤ 262144 := by linarith
    have h : N ≤ 262144 := by exact_mod_cast h
    omega
  have hk : ∀ r < idx.length, idx[r]? = some (idx.getD r 0) := fun r hr => by
    rw [List.getD_eq_getElem?_getD, List.getElem?_eq_getElem hr]; rfl
  have hs : ∀ r < idx.length, (rs2.get r).1 = (rs1.get r).1 := fun r hr => (C113_recordings ho hv m1 m2 (hk r hr)).1
  -- a point that only one of the clouds has
  have one : ∀ {cb cb' : List (Fin 256) → List (BitVec 8)} {rs : Recordings} {pts : ℕ → List (Fin 3 → ℝ)} {r i j : ℕ}
      {p : Point 3 F32} {w : Verif.Cell 3},
      pts i = movedPoints (roll i) (pitch i) (yaw i) (X i) (cb (indexName w₂ ext' i)) →
      NearScan ε (rs.get r).1 (rs.get r).2 (X i) (pts i) →
      RecordsPass N ρ ε (roll i) (pitch i) (yaw i) (X i) (cb (indexName w₂ ext' i)) (cb' (indexName w₂ ext' i)) w →
      (rs.get r).2.points[j]? = some p → OnlyIn (cb (indexName w₂ ext' i)) (cb' (indexName w₂ ext' i)) j →
      ∃ K x y, Aims N K ρ (rs.get r).1 p x y ∧ ∀ t, 0 ≤ t → Outside (rayTol N (2 * N)) ρ w (lineAt x y t) := by
    intro cb cb' rs pts r i j p w hpts hn hR hj hO
    obtain ⟨⟨K, hA⟩, hline⟩ := hR j hO _ rfl
    choose x hx using hn.1
    have hY : ∀ n, NearReal (p n)
        (rigid (roll i) (pitch i) (yaw i) (X i) (fun m => ((recordOf (cb (indexName w₂ ext' i)) j m).val : ℝ)) n) ε := by
      have hY : (pts i)[j]? = some (rigid (roll i) (pitch i) (yaw i) (X i)
          (fun m => ((recordOf (cb (indexName w₂ ext' i)) j m).val : ℝ))) := by
        rw [hpts, movedPoints, List.getElem?_map, List.getElem?_range hO.1]; rfl
      obtain ⟨ha, hj⟩ := List.getElem?_eq_some_iff.mp hj
      obtain ⟨hb, hY⟩ := List.getElem?_eq_some_iff.mp hY
      have := (List.forall₂_iff_get.mp hn.2).2 j ha hb
      simp only [List.get_eq_getElem, hj, hY] at this
      exact this
    choose y hy using hY
    exact ⟨K, x, y, aims_of_real hrlo hrhi (by omega) hN18 hx hy hA,
      fun t ht => outside_of_line (fun i => (hx i).2) (fun i => (hy i).2) (by exact_mod_cast hline) ht⟩
  have strays : ∀ w : Verif.Cell 3, (∀ i ∈ idx, RecordsPass N ρ ε (roll i) (pitch i) (yaw i) (X i)
        (cloudBytes1 (indexName w₂ ext' i)) (cloudBytes2 (indexName w₂ ext' i)) w ∧
        RecordsPass N ρ ε (roll i) (pitch i) (yaw i) (X i) (cloudBytes2 (indexName w₂ ext' i))
          (cloudBytes1 (indexName w₂ ext' i)) w) →
      ∀ r < idx.length, StraysPass N ρ (rayTol N (2 * N)) (rs1.get r).1 (rs1.get r).2 (rs2.get r).2 w := by
    intro w hw r hr p hp
    have hkr := hk r hr
    obtain ⟨hse, f, f1, f2⟩ := C113_recordings ho hv m1 m2 hkr
    obtain ⟨r1, r2⟩ := hw _ (List.mem_of_getElem? hkr)
    rcases hp with ⟨hp, hp'⟩ | ⟨hp, hp'⟩
    · obtain ⟨j, hj, hO⟩ := only_of_stray f1 f2 hp hp'
      exact one (hpts1 _) (near1 r _ hkr) r1 hj hO
    · obtain ⟨j, hj, hO⟩ := only_of_stray f2 f1 hp hp'
      rw [← hse]
      exact one (hpts2 _) (near2 r _ hkr) r2 hj hO
  obtain ⟨m0, rfl, e2, e3, e4⟩ := default_start hl hρ hdef
  refine ⟨rs1, rs2, m1, m2, fun ord1 ord2 s1 s2 o1 o2 q1 q2 a1 a2 hw => ?_⟩
  have hN' : N = M + m0.tileSize + 1 := by rw [e3]; omega
  have k1 : LowestFirst m0.tileSize ρ rs1.get low := by rw [e3]; exact folder_lowest n1 near1 hi0 hlow1
  have k2 : LowestFirst m0.tileSize ρ rs2.get low := by rw [e3]; exact folder_lowest n2 near2 hi0 hlow2
  have c1 := folder_within n1 near1 hB1
  have c2 := folder_within n2 near2 hB2
  obtain ⟨b1, b2, -, cb1, cb2, b3, b4, b5⟩ := C112_visualizer (.inr rfl) hidx e2 o1 o2 hM1 hN' hδ c1 c2 hs k1 k2 q1 q2
    a1 a2 hw
  exact ⟨b1, b2, cb1, cb2, b3, b4, fun w hR => ⟨b5 w (strays w hR), fun hmc =>
    C112_screen (.inr rfl) hidx e2 e4 (show FLe (Fp.lit 0) defaultNM.threshold by decide +kernel) o1 o2 hM1 hN' hδ c1 c2 hs k1 k2 q1 q2 a1 a2 hw hmc
      (strays w hR)⟩⟩
end

/-! ## Examples -/

/-- `farPoints` with one more record, the point (10, 20, 2). -/
def fivePoints : List (BitVec 8) :=
  farPoints ++ [0x00, 0x00, 0x20, 0x41, 0x00, 0x00, 0xA0, 0x41, 0x00, 0x00, 0x00, 0x40, 0x00, 0x00, 0x00, 0x00]

/-- `farPoints` with its last two records exchanged, and another reflectance. -/
def shuffledPoints : List (BitVec 8) :=
  [0x00, 0x00, 0x80, 0x42, 0x00, 0x00, 0x00, 0x42, 0x00, 0x00, 0xA0, 0x3C, 0x00, 0x00, 0x00, 0x3F,
   0x00, 0x00, 0x80, 0xC2, 0x00, 0x00, 0x00, 0xC2, 0x00, 0x00, 0xA0, 0xBC, 0x00, 0x00, 0x00, 0x00,
   0x00, 0x00, 0xA0, 0xBC, 0x00, 0x00, 0xA0, 0xBC, 0x00, 0x00, 0x00, 0xC0, 0x00, 0x00, 0x00, 0x00,
   0x00, 0x00, 0xA0, 0x3C, 0x00, 0x00, 0xA0, 0x3C, 0x00, 0x00, 0x00, 0x40, 0x00, 0x00, 0x00, 0x3F]

lemma five_record {j : ℕ} (hj : j < 4) : recordOf fivePoints j = recordOf farPoints j := by
  have : ∀ j < 4, ∀ n : Fin 3, wordAt fivePoints (16 * j + 4 * n.val) = wordAt farPoints (16 * j + 4 * n.val) := by
    decide +kernel
  funext n
  unfold recordOf
  rw [this j hj n]

lemma five_only {j : ℕ} : OnlyIn fivePoints farPoints j → j = 4 := by
  rintro ⟨h1, h2⟩
  have e1 : fivePoints.length / 16 = 5 := by decide
  have e2 : farPoints.length / 16 = 4 := by decide
  rw [e1] at h1
  by_contra h
  exact h2 j (by omega) (five_record (by omega)).symm

lemma far_only {j : ℕ} : ¬ OnlyIn farPoints fivePoints j := by
  rintro ⟨h1, h2⟩
  have e1 : fivePoints.length / 16 = 5 := by decide
  have e2 : farPoints.length / 16 = 4 := by decide
  rw [e2] at h1
  exact h2 j (by omega) (five_record h1)

lemma shuffled_only {j : ℕ} : ¬ OnlyIn farPoints shuffledPoints j ∧ ¬ OnlyIn shuffledPoints farPoints j := by
  have key : ∀ j < 4, ∀ n : Fin 3, wordAt farPoints (16 * j + 4 * n.val) =
      wordAt shuffledPoints (16 * (if j < 2 then j else 5 - j) + 4 * n.val) := by decide +kernel
  have e : ∀ j < 4, recordOf farPoints j = recordOf shuffledPoints (if j < 2 then j else 5 - j) := fun j hj => by
    funext n
    unfold recordOf
    rw [key j hj n]
  have e1 : shuffledPoints.length / 16 = 4 := by decide
  have e2 : farPoints.length / 16 = 4 := by decide
  constructor
  · rintro ⟨h1, h2⟩
    rw [e2] at h1
    exact h2 _ (by split_ifs <;> omega) (e j h1).symm
  · rintro ⟨h1, h2⟩
    rw [e1] at h1
    refine h2 (if j < 2 then j else 5 - j) (by split_ifs <;> omega) ((e _ (by split_ifs <;> omega)).trans ?_)
    congr 1
    split_ifs <;> omega

/-- The moved points of `fivePoints`. -/
lemma five_moved : movedPoints (0 : ℚ) (0 : ℚ) (0 : ℚ) ![0, 0, 0] fivePoints = farRealPts ++ [![10, 20, 2]] := by
  have e1 : fivePoints.length / 16 = 4 + 1 := by decide
  have e2 : farPoints.length / 16 = 4 := by decide
  have h4 : ∀ m : Fin 3, (f32OfBits (wordAt fivePoints (16 * 4 + 4 * m.val))).val = ![10, 20, 2] m := by
    decide +kernel
  rw [← farPoints_moved]
  unfold movedPoints
  rw [e1, e2, List.range_succ, List.map_append]
  have hA : (List.range 4).map (fun j => rigid ((0 : ℚ) : ℝ) ((0 : ℚ) : ℝ) ((0 : ℚ) : ℝ) ![0, 0, 0] fun m =>
        ((f32OfBits (wordAt fivePoints (16 * j + 4 * m.val))).val : ℝ)) =
      (List.range 4).map (fun j => rigid ((0 : ℚ) : ℝ) ((0 : ℚ) : ℝ) ((0 : ℚ) : ℝ) ![0, 0, 0] fun m =>
        ((f32OfBits (wordAt farPoints (16 * j + 4 * m.val))).val : ℝ)) := by
    refine List.map_congr_left fun j hj => ?_
    have hr := five_record (List.mem_range.mp hj)
    have hf : (fun m : Fin 3 => ((f32OfBits (wordAt fivePoints (16 * j + 4 * m.val))).val : ℝ)) =
        fun m : Fin 3 => ((f32OfBits (wordAt farPoints (16 * j + 4 * m.val))).val : ℝ) := by
      funext m
      have := congrFun hr m
      unfold recordOf at this
      rw [this]
    rw [hf]
  rw [hA, List.map_cons, List.map_nil]
  simp only [h4]
  refine congrArg (_ ++ [·]) ?_
  funext i
  fin_cases i <;> simp [rigid, rotX, rotY, rotZ]

lemma five_lowest : LowestFirstReal 100 (13421773 / 2 ^ 27) (1130 * 64 / 2 ^ 24 + 1 / 2 ^ 18) (· ∈ [0])
    (fun _ => farRealPts ++ [![10, 20, 2]]) (farRealPts ++ [![10, 20, 2]]) ![-7, -4, -1] := by
  refine ⟨by decide, fun r hr Y hY i => ?_, fun i => ?_⟩
  · rcases List.mem_append.mp hY with hY | hY
    · exact farReal_lowest.above r hr Y hY i
    · rw [List.mem_singleton] at hY
      subst hY
      fin_cases i <;> norm_num
  · rcases farReal_lowest.reached i with h | ⟨Y, hY, h⟩
    · exact .inl h
    · exact .inr ⟨Y, List.mem_append_left _ hY, h⟩

/-- The fifth record's line misses the cell of the point (64, 32, 5/256). -/
lemma five_passes : RecordsPass 742 (13421773 / 2 ^ 27) (1130 * 64 / 2 ^ 24 + 1 / 2 ^ 18) 0 0 0 ![0, 0, 0] fivePoints
    farPoints ![640, 320, 0] := by
  rintro j hj Y rfl
  obtain rfl := five_only hj
  have h4 : ∀ m : Fin 3, (recordOf fivePoints 4 m).val = ![10, 20, 2] m := by
    unfold recordOf
    decide +kernel
  have hY : rigid 0 0 0 ![0, 0, 0] (fun m => ((recordOf fivePoints 4 m).val : ℝ)) = ![10, 20, 2] := by
    simp only [h4]
    funext i
    fin_cases i <;> simp [rigid, rotX, rotY, rotZ]
  rw [hY]
  refine ⟨⟨742, fun i => ?_, fun i => ?_, fun i => ?_, fun i => ?_⟩, fun t ht => ?_⟩
  · fin_cases i <;> norm_num
  · fin_cases i <;> norm_num [abs_le]
  · fin_cases i <;> norm_num [abs_le]
  · fin_cases i <;> norm_num [le_abs]
  · unfold rayTol
    by_cases h : t ≤ 4
    · refine ⟨0, lt_abs.mpr (.inr ?_)⟩
      norm_num
      linarith
    · refine ⟨1, lt_abs.mpr (.inl ?_)⟩
      norm_num
      linarith

/-- Two folders with one recording each, whose cloud files differ in one record: the two pictures agree on the cell of the
point (64, 32, 5/256), which its line misses. -/
example : ∃ (rs1 rs2 : _) (o : OccupancyGridMap 3 F32),
    main (parsingEnv someEnv.cos someEnv.radPerDeg someEnv.cast (@Quat.fromEuler F32 _ someTrig))
      (some (some (byteFolder [indexName 10 (ascii ".txt") 0] [indexName 10 (ascii ".bin") 0]
        (fun _ => utf8 "49 8.4 116.4 0 0 0".toList) fun _ => farPoints))) = .ok (.window rs1) ∧
    main (parsingEnv someEnv.cos someEnv.radPerDeg someEnv.cast (@Quat.fromEuler F32 _ someTrig))
      (some (some (byteFolder [indexName 10 (ascii ".txt") 0] [indexName 10 (ascii ".bin") 0]
        (fun _ => utf8 "49 8.4 116.4 0 0 0".toList) fun _ => fivePoints))) = .ok (.window rs2) ∧
    @OccupancyGridMap.default_ F32 _ 3 testedLibm = .ok o ∧
    ∀ s1 s2, Reach (occOps o.noiseModel rs1.get fun _ l => l) 1 o.gridMap s1 →
      Reach (occOps o.noiseModel rs2.get fun _ l => l) 1 o.gridMap s2 →
      s1.main = .clearFlag → s2.main = .clearFlag → s2.workers.length = s1.workers.length →
      MachineCell (localCell s1.map ![640, 320, 0]) →
      s2.tracked (localCell s2.map ![640, 320, 0]) = s1.tracked (localCell s1.map ![640, 320, 0]) := by
  let _ := someTrig
  let _ := testedLibm
  have hl : TestedLn := by constructor <;> decide +kernel
  have hok : (⟨49, 42 / 5, 582 / 5⟩ : Place).Ok := ⟨by norm_num, by norm_num [abs_le], by norm_num [abs_le]⟩
  have hoff : (⟨49, 42 / 5, 582 / 5⟩ : Place).offset ⟨49, 42 / 5, 582 / 5⟩ = ![0, 0, 0] := by
    funext n; fin_cases n <;> simp [Place.offset]
  have hdef : ∃ o : OccupancyGridMap 3 F32, OccupancyGridMap.default_ = .ok o := by
    obtain ⟨m0, e1, -⟩ := new_empty_placed (D := 3) (ρ := 13421773 / 2 ^ 27) (r := (Fp.lit 0.1 : F32)) (by norm_num)
      (by refine ⟨by decide +kernel, ?_, ?_⟩ <;> norm_num) (t := 100) (by norm_num) (by norm_num) (Fp.lit 0 : F32)
    refine ⟨⟨m0, defaultNM⟩, ((C42_default_model hl).2.1 _).mpr ?_⟩
    unfold OccupancyGridMap.new
    rw [Verif.M.bind_eq_ok]
    exact ⟨m0, e1, rfl⟩
  obtain ⟨o, ho⟩ := hdef
  have htext : ∀ i ∈ [0], ∃ text, utf8 "49 8.4 116.4 0 0 0".toList = utf8 text ∧ (⟨49, 42 / 5, 582 / 5⟩ : Place).Ok ∧
      Says text ⟨49, 42 / 5, 582 / 5⟩ 0 0 0 := fun i _ =>
    ⟨_, rfl, hok, "49".toList, "8.4".toList, "116.4".toList, "0".toList, "0".toList, "0".toList, [],
      fields_iff.mpr (by decide +kernel), by decide +kernel, by decide +kernel, by decide +kernel, by decide +kernel,
      by decide +kernel, by decide +kernel⟩
  have hcloud1 : ∀ i ∈ [0], 16 ∣ farPoints.length ∧ ∀ j < farPoints.length / 16, ∀ n : Fin 3,
      (f32OfBits (wordAt farPoints (16 * j + 4 * n.val))).isFin = true ∧
      |((f32OfBits (wordAt farPoints (16 * j + 4 * n.val))).val : ℝ)| ≤ 64 := by
    have key : ∀ j < farPoints.length / 16, ∀ n : Fin 3, (f32OfBits (wordAt farPoints (16 * j + 4 * n.val))).isFin =
        true ∧ |(f32OfBits (wordAt farPoints (16 * j + 4 * n.val))).val| ≤ 64 := by decide +kernel
    exact fun i _ => ⟨by decide, fun j hj n => ⟨(key j hj n).1, by exact_mod_cast (key j hj n).2⟩⟩
  have hcloud2 : ∀ i ∈ [0], 16 ∣ fivePoints.length ∧ ∀ j < fivePoints.length / 16, ∀ n : Fin 3,
      (f32OfBits (wordAt fivePoints (16 * j + 4 * n.val))).isFin = true ∧
      |((f32OfBits (wordAt fivePoints (16 * j + 4 * n.val))).val : ℝ)| ≤ 64 := by
    have key : ∀ j < fivePoints.length / 16, ∀ n : Fin 3, (f32OfBits (wordAt fivePoints (16 * j + 4 * n.val))).isFin =
        true ∧ |(f32OfBits (wordAt fivePoints (16 * j + 4 * n.val))).val| ≤ 64 := by decide +kernel
    exact fun i _ => ⟨by decide, fun j hj n => ⟨(key j hj n).1, by exact_mod_cast (key j hj n).2⟩⟩
  have hε : (1130 * 64 / 2 ^ 24 + 1 / 2 ^ 18 : ℝ) = (1130 * 64 + 2 * 0) / 2 ^ 24 + 1 / 2 ^ 18 := by norm_num
  have hT := someTrig_accurate
  have he := C76_accurate (euler := Quat.fromEuler (F := F32)) someEnv_accurate.cos someEnv_accurate.radPerDeg
    someEnv_accurate.cast
  obtain ⟨rs1, rs2, h1, h2, h3⟩ := C113_folder (w₁ := 10) (w₂ := 10) (ext := ascii ".txt") (ext' := ascii ".bin") hl hT he
    (idx := [0]) (po := [indexName 10 (ascii ".txt") 0]) (pv := [indexName 10 (ascii ".bin") 0])
    (oxtBytes := fun _ => utf8 "49 8.4 116.4 0 0 0".toList) (cloudBytes1 := fun _ => farPoints)
    (cloudBytes2 := fun _ => fivePoints)
    (place := fun _ => ⟨49, 42 / 5, 582 / 5⟩) (roll := fun _ => 0) (pitch := fun _ => 0) (yaw := fun _ => 0)
    (X := fun _ => ![0, 0, 0]) (pts1 := fun _ => farRealPts) (pts2 := fun _ => farRealPts ++ [![10, 20, 2]])
    (ρ := 13421773 / 2 ^ 27) (low := ![-7, -4, -1])
    ⟨by simp, by decide, by simp⟩ ⟨by simp, by decide, by simp⟩ htext (by simp) hcloud1 hcloud2 (i0 := 0) rfl
    (fun i _ n => by simp only [hoff]; fin_cases n <;> simp) (by norm_num) (by norm_num) hε (fun _ => hoff.symm)
    (fun _ => farPoints_moved.symm) (fun _ => five_moved.symm) (M := 641) (N := 742) (by norm_num) rfl
    (by unfold rayTol; norm_num) side_val.symm
    (fun _ _ Y hY n => by push_cast; exact (farReal_alive.points Y hY n).1)
    (fun _ _ Y hY n => by
      push_cast
      rcases List.mem_append.mp hY with hY | hY
      · exact (farReal_alive.points Y hY n).1
      · rw [List.mem_singleton] at hY
        subst hY
        fin_cases n <;> norm_num [abs_le])
    (by push_cast; exact farReal_lowest) (by push_cast; exact five_lowest) ho
  refine ⟨rs1, rs2, o, h1, h2, ho, fun s1 s2 r1 r2 a1 a2 hw hmc => ?_⟩
  have hord : ∀ r : ℕ, IsOrder ((fun _ l => l : ℕ → List (Verif.Cell 3) → List (Verif.Cell 3)) r) :=
    fun _ l => List.Perm.refl l
  obtain ⟨-, -, cb1, cb2, -, -, h4⟩ := h3 _ _ s1 s2 hord hord r1 r2 (.inl a1) (.inl a2) hw
  exact (h4 ![640, 320, 0] fun i _ => ⟨fun j hj => absurd hj far_only, by push_cast; exact five_passes⟩).2 hmc

/-- Files that hold the same records in another order and with another reflectance. -/
example {rs1 rs2 : Recordings}
    (h1 : main (parsingEnv someEnv.cos someEnv.radPerDeg someEnv.cast (@Quat.fromEuler F32 _ someTrig))
      (some (some (byteFolder [indexName 10 (ascii ".txt") 0] [indexName 10 (ascii ".bin") 0]
        (fun _ => utf8 "49 8.4 116.4 0 0 0".toList) fun _ => farPoints))) = .ok (.window rs1))
    (h2 : main (parsingEnv someEnv.cos someEnv.radPerDeg someEnv.cast (@Quat.fromEuler F32 _ someTrig))
      (some (some (byteFolder [indexName 10 (ascii ".txt") 0] [indexName 10 (ascii ".bin") 0]
        (fun _ => utf8 "49 8.4 116.4 0 0 0".toList) fun _ => shuffledPoints))) = .ok (.window rs2)) (p : Point 3 F32) :
    farPoints ≠ shuffledPoints ∧ (p ∈ (rs2.get 0).2.points ↔ p ∈ (rs1.get 0).2.points) := by
  let _ := someTrig
  exact ⟨by decide, C113_same_records (w₁ := 10) (w₂ := 10) (ext := ascii ".txt") (ext' := ascii ".bin") (idx := [0])
    ⟨by simp, by decide, by simp⟩ ⟨by simp, by decide, by simp⟩ h1 h2 (k := 0) rfl (fun _ => shuffled_only) p⟩

end Verif.Props
