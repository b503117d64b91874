import Verif.Props.Onward
import Verif.Props.CutReal

/-!
# C110: from the files, played for ever
-/

namespace Verif.Props
open Scalar Spec Viz

section
variable {idx : List ℕ} {rs : Recordings} {ε : ℝ} {X : ℕ → Fin 3 → ℝ} {pts : ℕ → List (Fin 3 → ℝ)} {M : ℕ} {ρ : ℚ}

lemma folder_within (hnone : ∀ r, idx.length ≤ r → (rs.get r).2.points = [])
    (hnear : ∀ (k i : ℕ), idx[k]? = some i → NearScan ε (rs.get k).1 (rs.get k).2 (X i) (pts i))
    (hB : ∀ i ∈ idx, ∀ Y ∈ pts i, ∀ n, |Y n| + ε ≤ M * ρ) (r : ℕ) : WithinCells M ρ (rs.get r).2 := by
  intro p hp n
  by_cases hr : r < idx.length
  · have hk : idx[r]? = some idx[r] := List.getElem?_eq_getElem hr
    obtain ⟨Y, hY, hn⟩ := forall₂_left (hnear r _ hk).2 hp
    obtain ⟨q, hq, hd⟩ := hn n
    have h1 := hB _ (List.mem_of_getElem? hk) Y hY n
    have h2 := abs_sub_abs_le_abs_sub (q : ℝ) (Y n)
    have h3 : |(q : ℝ)| ≤ M * ρ := by linarith
    exact ⟨q, hq, by exact_mod_cast h3⟩
  · rw [hnone r (by omega)] at hp
    cases hp

lemma folder_lowest (hnone : ∀ r, idx.length ≤ r → (rs.get r).2.points = [])
    (hnear : ∀ (k i : ℕ), idx[k]? = some i → NearScan ε (rs.get k).1 (rs.get k).2 (X i) (pts i))
    {i0 : ℕ} (hi0 : idx[0]? = some i0) {low : Fin 3 → ℤ} (hlow : LowestFirstReal 100 ρ ε (· ∈ idx) pts (pts i0) low) :
    LowestFirst 100 ρ rs.get low := by
  refine ⟨hlow.origin, fun r p hp i => ?_, fun i => ?_⟩
  · by_cases hr : r < idx.length
    · have hk : idx[r]? = some idx[r] := List.getElem?_eq_getElem hr
      obtain ⟨Y, hY, hn⟩ := forall₂_left (hnear r _ hk).2 hp
      obtain ⟨q, hq, hd⟩ := hn i
      have h1 := hlow.above _ (List.mem_of_getElem? hk) Y hY i
      have h2 := abs_le.mp hd
      have h3 : (low i * 100 * ρ : ℝ) ≤ q := by push_cast at h1; linarith
      exact ⟨q, hq, by exact_mod_cast h3⟩
    · rw [hnone r (by omega)] at hp
      cases hp
  · rcases hlow.reached i with h | ⟨Y, hY, h⟩
    · exact .inl h
    · obtain ⟨p, hp, hn⟩ := forall₂_left (hnear 0 _ hi0).2.flip hY
      obtain ⟨q, hq, hd⟩ := hn i
      have h2 := abs_le.mp hd
      refine .inr ⟨p, hp, q, hq, ?_⟩
      have h3 : (q : ℝ) < ((low i + 1) * 100 - 1 / 8) * ρ := by push_cast at h; linarith
      rw [← Rat.cast_lt (K := ℝ)]
      push_cast
      exact h3
end

section
variable [T : Trig F32] [Libm F32]
open Kitti

/-- C110: from the bytes of a recording folder, whatever its rays hit. The folder is as in C80, its points at most `M`
cells from the start. Then the window opens, and
* the map settles: from some number of scans on, at all moments of all runs when a batch has been processed and the same
  recording comes next, the bounds and the values are the same;
* if no recording reaches below the tiles that the first one reaches, so does the picture;
* if some run got through two rounds, nothing ever goes wrong in any run, and every fair run plays every number of scans;
* if in some run the integration of scan number `k` does not return, no run gets beyond it. -/
theorem C110_folder (hl : TestedLn) (hT : AccurateTrig T) {cos : F64 → F64} {radPerDeg : F64} {cast : F64 → F32}
    (he : AccurateEnv (parsingEnv cos radPerDeg cast (Quat.fromEuler (F := F32))))
    {w₁ w₂ : ℕ} {ext ext' : List (Fin 256)} {idx : List ℕ} {po pv : List (List (Fin 256))}
    (ho : IndexFolder w₁ ext idx po) (hv : IndexFolder w₂ ext' idx pv)
    {oxtBytes cloudBytes : List (Fin 256) → List (BitVec 8)} {place : ℕ → Place} {roll pitch yaw : ℕ → ℚ} {L S ε : ℝ}
    (htext : ∀ i ∈ idx, ∃ text, oxtBytes (indexName w₁ ext i) = utf8 text ∧ (place i).Ok ∧
      Says text (place i) (roll i) (pitch i) (yaw i))
    (hang : ∀ i ∈ idx, |roll i| ≤ 4 ∧ |pitch i| ≤ 4 ∧ |yaw i| ≤ 4)
    (hcloud : ∀ i ∈ idx, 16 ∣ (cloudBytes (indexName w₂ ext' i)).length ∧
      ∀ j < (cloudBytes (indexName w₂ ext' i)).length / 16, ∀ n : Fin 3,
        (f32OfBits (wordAt (cloudBytes (indexName w₂ ext' i)) (16 * j + 4 * n.val))).isFin = true ∧
        |((f32OfBits (wordAt (cloudBytes (indexName w₂ ext' i)) (16 * j + 4 * n.val))).val : ℝ)| ≤ L)
    {i0 : ℕ} (hi0 : idx[0]? = some i0) (hS : ∀ i ∈ idx, ∀ n, |(place i).offset (place i0) n| ≤ S)
    (hL1 : 1 ≤ L) (hL2 : L ≤ 2 ^ 100) (hε : ε = (1130 * L + 2 * S) / 2 ^ 24 + 1 / 2 ^ 18)
    {X : ℕ → Fin 3 → ℝ} (hX : ∀ i, X i = (place i).offset (place i0)) {pts : ℕ → List (Fin 3 → ℝ)}
    (hpts : ∀ i, pts i = movedPoints (roll i) (pitch i) (yaw i) (X i) (cloudBytes (indexName w₂ ext' i)))
    {M : ℕ} (hM1 : 1 ≤ M) (hM18 : M + 101 ≤ 2 ^ 18)
    {ρ : ℚ} (hρ : ρ = (Fp.lit 0.1 : F32).val) (hB : ∀ i ∈ idx, ∀ Y ∈ pts i, ∀ n, |Y n| + ε ≤ M * ρ)
    {o : OccupancyGridMap 3 F32} (hdef : OccupancyGridMap.default_ = .ok o) :
    ∃ rs, main (parsingEnv cos radPerDeg cast Quat.fromEuler) (some (some (byteFolder po pv oxtBytes cloudBytes))) =
        .ok (.window rs) ∧ rs.clouds.length = idx.length ∧
      (∃ K, ∀ (ord ord' : ℕ → List (Verif.Cell 3) → List (Verif.Cell 3)) s s', (∀ r, IsOrder (ord r)) →
        (∀ r, IsOrder (ord' r)) → Reach (occOps o.noiseModel rs.get ord) idx.length o.gridMap s →
        Reach (occOps o.noiseModel rs.get ord') idx.length o.gridMap s' →
        s.main = .clearFlag ∨ s.main = .spawn → s'.main = .clearFlag ∨ s'.main = .spawn →
        K ≤ s.workers.length → K ≤ s'.workers.length → s'.workers.length % idx.length = s.workers.length % idx.length →
        (s'.map.bounds = s.map.bounds ∧ s'.map.resolution = s.map.resolution ∧
          ∃ cb, Placed s.map cb ρ ∧ Placed s'.map cb ρ ∧
            ∀ w, ∃ v v', Before s.map cb w v ∧ Before s'.map cb w v' ∧ Alike v v') ∧
        ∀ low : Fin 3 → ℤ, LowestFirstReal 100 ρ ε (· ∈ idx) pts (pts i0) low →
          ∀ c, MachineCell c → s'.tracked c = s.tracked c) ∧
      (∀ (ord : ℕ → List (Verif.Cell 3) → List (Verif.Cell 3)) s, (∀ r, IsOrder (ord r)) →
        Reach (occOps o.noiseModel rs.get ord) idx.length o.gridMap s → 2 * idx.length < s.workers.length →
        ∀ ord' : ℕ → List (Verif.Cell 3) → List (Verif.Cell 3), (∀ r, IsOrder (ord' r)) →
          (∀ s', Reach (occOps o.noiseModel rs.get ord') idx.length o.gridMap s' →
            Alive s' ∧ ∃ s'', Step (occOps o.noiseModel rs.get ord') idx.length s' s'' ∧ s'' ≠ s') ∧
          ∀ σ, Execution (occOps o.noiseModel rs.get ord') idx.length o.gridMap σ →
            Fair (occOps o.noiseModel rs.get ord') idx.length σ →
            ∀ k, ∃ i, (σ i).main = .clearFlag ∧ (σ i).workers.length = k) ∧
      ∀ (ord : ℕ → List (Verif.Cell 3) → List (Verif.Cell 3)) s (k r : ℕ), (∀ r, IsOrder (ord r)) →
        Reach (occOps o.noiseModel rs.get ord) idx.length o.gridMap s → s.workers[k]? = some (.integrate, r) →
        (¬ ∃ m', Integrates (ord r) o.noiseModel (s.map.setTrackChanges true) (rs.get r).1 (rs.get r).2 m') →
        ∀ (ord' : ℕ → List (Verif.Cell 3) → List (Verif.Cell 3)) s', (∀ r, IsOrder (ord' r)) →
          Reach (occOps o.noiseModel rs.get ord') idx.length o.gridMap s' → s'.workers.length ≤ k + 1 := by
  obtain ⟨rs, hmain, hlen, hε0, hnone, hnear⟩ := folder_scans hT he ho hv htext hang hcloud hi0 hS hL1 hL2 hε hX hpts
  have hidx : 0 < idx.length := (List.getElem?_eq_some_iff.mp hi0).1
  have hcl := folder_within hnone hnear hB
  obtain ⟨m0, rfl, e2, e3, e4⟩ := default_start hl hρ hdef
  have hc : ∀ r, CloudInRange (rs.get r).2 ρ := fun r => within_range e2.res.pos (by omega) (hcl r)
  have a1 : defaultNM.hit.Is defaultNM.hit.val := by decide +kernel
  have a2 : defaultNM.miss.Is defaultNM.miss.val := by decide +kernel
  have a3 : defaultNM.max.isNaN = false := by decide +kernel
  have a4 : defaultNM.min.isNaN = false := by decide +kernel
  refine ⟨rs, hmain, hlen, ?_, ?_, ?_⟩
  · obtain ⟨K, hK⟩ := C107_visualizer (nm := defaultNM) (recs := rs.get) ⟨by norm_num, by norm_num⟩ hidx e2
      (fun r _ => hc r) a1 a2 a3 a4
    by_cases hlow : ∃ low, LowestFirst 100 ρ rs.get low
    · obtain ⟨low, hlow⟩ := hlow
      obtain ⟨K', hK'⟩ := C107_screen (nm := defaultNM) ⟨by norm_num, by norm_num⟩ hidx e2 e4 (by decide +kernel)
        hc (by rw [e3]; exact hlow) a1 a2 a3 a4
      refine ⟨max K K', fun ord ord' s s' o1 o2 r1 r2 h1 h2 l1 l2 hm => ⟨?_, fun _ _ => ?_⟩⟩
      · exact hK ord ord' s s' o1 o2 r1 r2 h1 h2 (by omega) (by omega) hm
      · exact hK' ord ord' s s' o1 o2 r1 r2 h1 h2 (by omega) (by omega) hm
    · refine ⟨K, fun ord ord' s s' o1 o2 r1 r2 h1 h2 l1 l2 hm => ⟨hK ord ord' s s' o1 o2 r1 r2 h1 h2 l1 l2 hm, ?_⟩⟩
      exact fun low h => absurd ⟨low, folder_lowest hnone hnear hi0 h⟩ hlow
  · intro ord s o1 hr hw ord' o2
    obtain ⟨hist, p1, p2, -, p4, -⟩ := C69_playback hidx o1 hr
    obtain ⟨mk, q1⟩ := playback_take p1 (k := 2 * idx.length) (by omega)
    refine ⟨fun s' hr' => ?_, fun σ h hf k => ?_⟩
    · obtain ⟨b1, -, b2⟩ := C108_visualizer (.inr rfl) hidx e2 e4 o2 hM1 (by rw [e3]; omega) (fun r _ => hcl r) q1
        (by rw [List.map_take, p2, cyclic_take (by omega)]) hr'
      exact ⟨b1, b2⟩
    · exact C108_every_run (.inr rfl) hidx e2 e4 o1 o2 hM1 (by rw [e3]; omega) (fun r _ => hcl r) hr hw h hf k
  · intro ord s k r o1 hr hk hno ord' s' o2 hr'
    exact (C108_same_scan (by norm_num) hidx e2 (fun r _ => hc r) o1 o2 hr hk hno hr').1
end

section
open Kitti

/-- The folder of C105, with points on both sides of the range limit. It can be played for ever, its picture settles, and
there are runs of any length. -/
example : ∃ (rs : _) (o : OccupancyGridMap 3 F32),
    main (parsingEnv someEnv.cos someEnv.radPerDeg someEnv.cast (@Quat.fromEuler F32 _ someTrig))
      (some (some (byteFolder [indexName 10 (ascii ".txt") 0] [indexName 10 (ascii ".bin") 0]
        (fun _ => utf8 "49 8.4 116.4 0 0 0".toList) fun _ => farPoints))) = .ok (.window rs) ∧
    @OccupancyGridMap.default_ F32 _ 3 testedLibm = .ok o ∧
    (∀ k, ∃ s, Reach (occOps o.noiseModel rs.get fun _ l => l) 1 o.gridMap s ∧ s.main = .clearFlag ∧ s.workers.length = k) ∧
    (∀ ord' : ℕ → List (Verif.Cell 3) → List (Verif.Cell 3), (∀ r, IsOrder (ord' r)) →
      ∀ s', Reach (occOps o.noiseModel rs.get ord') 1 o.gridMap s' → Alive s') ∧
    ∃ K, ∀ s s', Reach (occOps o.noiseModel rs.get fun _ l => l) 1 o.gridMap s →
      Reach (occOps o.noiseModel rs.get fun _ l => l) 1 o.gridMap s' → s.main = .clearFlag → s'.main = .clearFlag →
      K ≤ s.workers.length → K ≤ s'.workers.length → ∀ c, MachineCell c → s'.tracked c = s.tracked c := by
  let _ := someTrig
  let _ := testedLibm
  have hl : TestedLn := by constructor <;> decide +kernel
  have hok : (⟨49, 42 / 5, 582 / 5⟩ : Place).Ok := ⟨by norm_num, by norm_num [abs_le], by norm_num [abs_le]⟩
  have hoff : (⟨49, 42 / 5, 582 / 5⟩ : Place).offset ⟨49, 42 / 5, 582 / 5⟩ = ![0, 0, 0] := by
    funext n; fin_cases n <;> simp [Place.offset]
  have hdef : ∃ o : OccupancyGridMap 3 F32, OccupancyGridMap.default_ = .ok o := by
    obtain ⟨m0, e1, -⟩ := new_empty_placed (D := 3) (ρ := 13421773 / 2 ^ 27) (r := (Fp.lit 0.1 : F32)) (by norm_num)
      (by refine ⟨by decide +kernel, ?_, ?_⟩ <;> norm_num) (t := 100) (by norm_num) (by norm_num) (Fp.lit 0 : F32)
    refine ⟨⟨m0, defaultNM⟩, ((C42_default_model hl).2.1 _).mpr ?_⟩
    unfold OccupancyGridMap.new
    rw [Verif.M.bind_eq_ok]
    exact ⟨m0, e1, rfl⟩
  obtain ⟨o, ho⟩ := hdef
  have htext : ∀ i ∈ [0], ∃ text, utf8 "49 8.4 116.4 0 0 0".toList = utf8 text ∧ (⟨49, 42 / 5, 582 / 5⟩ : Place).Ok ∧
      Says text ⟨49, 42 / 5, 582 / 5⟩ 0 0 0 := fun i _ =>
    ⟨_, rfl, hok, "49".toList, "8.4".toList, "116.4".toList, "0".toList, "0".toList, "0".toList, [],
      fields_iff.mpr (by decide +kernel), by decide +kernel, by decide +kernel, by decide +kernel, by decide +kernel,
      by decide +kernel, by decide +kernel⟩
  have hcloud : ∀ i ∈ [0], 16 ∣ farPoints.length ∧ ∀ j < farPoints.length / 16, ∀ n : Fin 3,
      (f32OfBits (wordAt farPoints (16 * j + 4 * n.val))).isFin = true ∧
      |((f32OfBits (wordAt farPoints (16 * j + 4 * n.val))).val : ℝ)| ≤ 64 := by
    have key : ∀ j < farPoints.length / 16, ∀ n : Fin 3, (f32OfBits (wordAt farPoints (16 * j + 4 * n.val))).isFin =
        true ∧ |(f32OfBits (wordAt farPoints (16 * j + 4 * n.val))).val| ≤ 64 := by decide +kernel
    exact fun i _ => ⟨by decide, fun j hj n => ⟨(key j hj n).1, by exact_mod_cast (key j hj n).2⟩⟩
  have hε : (1130 * 64 / 2 ^ 24 + 1 / 2 ^ 18 : ℝ) = (1130 * 64 + 2 * 0) / 2 ^ 24 + 1 / 2 ^ 18 := by norm_num
  have hT := someTrig_accurate
  have he := C76_accurate (euler := Quat.fromEuler (F := F32)) someEnv_accurate.cos someEnv_accurate.radPerDeg
    someEnv_accurate.cast
  obtain ⟨rs, h1, hlen, h2⟩ := C82_folder (w₁ := 10) (w₂ := 10) (ext := ascii ".txt") (ext' := ascii ".bin") hl hT he
    (idx := [0]) (po := [indexName 10 (ascii ".txt") 0]) (pv := [indexName 10 (ascii ".bin") 0])
    (oxtBytes := fun _ => utf8 "49 8.4 116.4 0 0 0".toList) (cloudBytes := fun _ => farPoints)
    (place := fun _ => ⟨49, 42 / 5, 582 / 5⟩) (roll := fun _ => 0) (pitch := fun _ => 0) (yaw := fun _ => 0)
    (X := fun _ => ![0, 0, 0]) (pts := fun _ => farRealPts)
    ⟨by simp, by decide, by simp⟩ ⟨by simp, by decide, by simp⟩ htext (by simp) hcloud (i0 := 0) rfl
    (fun i _ n => by simp only [hoff]; fin_cases n <;> simp) (by norm_num) (by norm_num) hε (fun _ => hoff.symm)
    (fun _ => farPoints_moved.symm) (M := 641) (by norm_num) rfl (by norm_num) side_val.symm
    (fun _ _ => by push_cast; exact farReal_alive) ho
  obtain ⟨rs', h1', hlen', g1, g2, -⟩ := C110_folder (w₁ := 10) (w₂ := 10) (ext := ascii ".txt") (ext' := ascii ".bin") hl hT he
    (idx := [0]) (po := [indexName 10 (ascii ".txt") 0]) (pv := [indexName 10 (ascii ".bin") 0])
    (oxtBytes := fun _ => utf8 "49 8.4 116.4 0 0 0".toList) (cloudBytes := fun _ => farPoints)
    (place := fun _ => ⟨49, 42 / 5, 582 / 5⟩) (roll := fun _ => 0) (pitch := fun _ => 0) (yaw := fun _ => 0)
    (X := fun _ => ![0, 0, 0]) (pts := fun _ => farRealPts)
    ⟨by simp, by decide, by simp⟩ ⟨by simp, by decide, by simp⟩ htext (by simp) hcloud (i0 := 0) rfl
    (fun i _ n => by simp only [hoff]; fin_cases n <;> simp) (by norm_num) (by norm_num) hε (fun _ => hoff.symm)
    (fun _ => farPoints_moved.symm) (M := 641) (by norm_num) (by norm_num)
    side_val.symm (fun _ _ Y hY n => by push_cast; exact (farReal_alive.points Y hY n).1) ho
  obtain rfl : rs = rs' := by simpa using h1.symm.trans h1'
  have hord : ∀ r : ℕ, IsOrder ((fun _ l => l : ℕ → List (Verif.Cell 3) → List (Verif.Cell 3)) r) :=
    fun _ l => List.Perm.refl l
  obtain ⟨-, h4, -⟩ := h2 _ hord
  rw [hlen] at h4
  have h5 : ∀ k, ∃ s, Reach (occOps o.noiseModel rs.get fun _ l => l) 1 o.gridMap s ∧ s.main = .clearFlag ∧
      s.workers.length = k := by
    intro k
    obtain ⟨s, a1, a2, a3⟩ := h4 k
    exact ⟨s, a1, a2, by rw [a3]; simp⟩
  refine ⟨rs, o, h1, ho, h5, fun ord' ho' s' hs' => ?_, ?_⟩
  · obtain ⟨s, a1, a2, a3⟩ := h5 3
    exact ((g2 _ s hord a1 (by rw [a3]; decide) ord' ho').1 s' hs').1
  · obtain ⟨K, hK⟩ := g1
    exact ⟨K, fun s s' r1 r2 m1 m2 l1 l2 => (hK _ _ s s' hord hord r1 r2 (.inl m1) (.inl m2) l1 l2
      (by simp [Nat.mod_one])).2 ![-7, -4, -1] (by push_cast; exact farReal_lowest)⟩

end
end Verif.Props
