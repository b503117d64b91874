import Verif.Spec.Machine
import Verif.Props.HashOrder
import Verif.Props.Weak
import Verif.Props.Picture

/-!
# C90: the whole program, with a relaxed flag and random hash orders
-/

namespace Verif.Props
open Spec Scalar Viz

section
variable {D : ℕ} {nm : LidarNoiseModel F32} {recs : ℕ → Point D F32 × PointCloud D F32} {n : ℕ} {m₀ : GridMap D F32 F32}
  {w w' : WState (GridMap D F32 F32) (Cell D) (Point D F32)}

lemma anyReach_inv {s : State (GridMap D F32 F32) (Cell D) (Point D F32)} (h : AnyReach nm recs n m₀ s) : VInv s := by
  induction h with
  | init => exact VInv.init
  | step s s' _ hs ih =>
    obtain ⟨ord, -, hs⟩ := hs
    exact ih.step hs

lemma anyWReach_inv (h : AnyWReach nm recs n m₀ w) : WInv w ∧ AnyReach nm recs n m₀ (flagNow w) := by
  induction h with
  | init => exact ⟨WInv.init, AnyReach.init⟩
  | step w w' _ hs ih =>
    obtain ⟨ord, ho, hs⟩ := hs
    obtain ⟨h1, h2⟩ := ih.1.step (anyReach_inv ih.2) hs
    refine ⟨h1, ?_⟩
    rcases h2 with h2 | ⟨h2, -⟩
    · exact .step _ _ ih.2 ⟨ord, ho, h2⟩
    · rw [h2]; exact ih.2

lemma anyW_reach {τ : ℕ → WState (GridMap D F32 F32) (Cell D) (Point D F32)} (h : AnyWExecution nm recs n m₀ τ) :
    ∀ i, AnyWReach nm recs n m₀ (τ i)
  | 0 => h.start ▸ .init
  | i + 1 => (h.step i).elim (.step _ _ (anyW_reach h i)) fun e => e ▸ anyW_reach h i

/-- C90: a state reached with a relaxed flag and hash orders chosen anew at every step agrees, but for the order of the
recorded cells, with one reached with a sequentially consistent flag and any fixed hash orders. -/
theorem C90_reach {ord : ℕ → List (Cell D) → List (Cell D)} (ho : ∀ r, IsOrder (ord r))
    (h : AnyWReach nm recs n m₀ w) : ∃ s, Reach (occOps nm recs ord) n m₀ s ∧ SameView (flagNow w) s :=
  C87_reach ho (anyWReach_inv h).2

/-- C90: the same for whole runs, and fair ones come from fair ones. -/
theorem C90_runs {ord : ℕ → List (Cell D) → List (Cell D)} (ho : ∀ r, IsOrder (ord r))
    {τ : ℕ → WState (GridMap D F32 F32) (Cell D) (Point D F32)} (h : AnyWExecution nm recs n m₀ τ) :
    ∃ σ, Execution (occOps nm recs ord) n m₀ σ ∧ (∀ i, SameView (flagNow (τ i)) (σ i)) ∧
      (AnyWFair nm recs n τ → Fair (occOps nm recs ord) n σ) := by
  have hx : AnyExecution nm recs n m₀ fun i => flagNow (τ i) := by
    refine ⟨by simp only [h.start]; rfl, fun i => ?_⟩
    rcases h.step i with ⟨o, ho, hs⟩ | h1
    · obtain ⟨h2, h3⟩ := anyWReach_inv (anyW_reach h i)
      exact (h2.step (anyReach_inv h3) hs).2.imp (fun h => ⟨o, ho, h⟩) And.left
    · right; simp only [h1]
  obtain ⟨σ, h1, h2, h3⟩ := C87_runs ho hx
  refine ⟨σ, h1, h2, fun hf => h3 fun i => ?_⟩
  rintro ⟨s', ⟨o, ho, hs⟩, hne⟩
  obtain ⟨w', h4, rfl⟩ := (anyWReach_inv (anyW_reach h i)).1.complete hs
  exact hf i ⟨w', ⟨o, ho, h4⟩, hne⟩

/-- Some thread can go on if one can with fixed orders and a sequentially consistent flag. -/
lemma anyW_go {ord : ℕ → List (Cell D) → List (Cell D)} (ho : ∀ r, IsOrder (ord r))
    (hgo : ∀ s, Reach (occOps nm recs ord) n m₀ s → ∃ s', Step (occOps nm recs ord) n s s' ∧ s' ≠ s)
    (h : AnyWReach nm recs n m₀ w) : ∃ w', AnyWStep nm recs n w w' ∧ flagNow w' ≠ flagNow w := by
  obtain ⟨s, h1, h2⟩ := C90_reach ho h
  obtain ⟨s', h3, h4⟩ := hgo s h1
  obtain ⟨s'', h5, h6⟩ := C87_step h2.symm ho ho h3
  obtain ⟨w', h7, rfl⟩ := (anyWReach_inv h).1.complete h5
  refine ⟨w', ⟨ord, ho, h7⟩, fun e => ?_⟩
  rcases step_moves h3 with h9 | h9 | h9
  · exact h4 h9
  · exact h9 (by rw [h6.main, e, h2.main])
  · exact h9 (by rw [h6.workers, e, h2.workers])

/-- There is a fair run, if some thread can always go on. -/
lemma anyWFair_exists (hw : ∀ w, AnyWReach nm recs n m₀ w → ∃ w', AnyWStep nm recs n w w' ∧ flagNow w' ≠ flagNow w) :
    ∃ τ, AnyWExecution nm recs n m₀ τ ∧ AnyWFair nm recs n τ := by
  choose! f h1 h2 using hw
  have hr : ∀ i, AnyWReach nm recs n m₀ (f^[i] (wInit m₀)) := by
    intro i
    induction i with
    | zero => exact .init
    | succ i ih => rw [Function.iterate_succ_apply']; exact .step _ _ ih (h1 _ ih)
  refine ⟨fun i => f^[i] (wInit m₀), ⟨rfl, fun i => ?_⟩, fun i _ => ⟨i, le_rfl, ?_⟩⟩
  · simp only [Function.iterate_succ_apply']; exact .inl (h1 _ (hr i))
  · simp only [Function.iterate_succ_apply']; exact h2 _ (hr i)

lemma placed_same {m m' : GridMap D F32 F32} (h : SameButOrder m m') {cb : CellBounds D} {ρ : ℚ} (hp : Placed m cb ρ) :
    Placed m' cb ρ := by
  rw [(sameButOrder_iff.mp h).1]
  exact ⟨hp.res, hp.bounds, hp.ordered, hp.shape, hp.tile_pos, hp.tile_le, hp.min_range, hp.max_range⟩

lemma before_same {m m' : GridMap D F32 F32} (h : SameButOrder m m') {cb : CellBounds D} {c : Cell D} {v : F32}
    (hb : Before m cb c v) : Before m' cb c v := by
  rw [(sameButOrder_iff.mp h).1]
  exact hb

lemma draws_same {s s' : State (GridMap D F32 F32) (Cell D) (Point D F32)} (h : SameView s s') {thr : F32} {ρ : ℚ}
    {val : Cell D → F32} (hd : Draws thr ρ val s) : Draws thr ρ val s' := by
  intro c hc
  have e : localCell s'.map c = localCell s.map c := by
    funext i; simp only [localCell, h.map.bounds, h.map.resolution]
  rw [e, ← h.tracked]
  exact hd c hc

end

section
variable [T : Trig F32] [Libm F32]
open Kitti

/-- C90: the whole program. Take a recording folder as in `C89_folder` whose scans are clear. The window opens. With the
flag relaxed as in the code and all hash sets iterated in orders of their own, at every moment no thread has panicked,
some thread can go on, and the value of every world cell is what the scans played so far make of it by geometry, from the
real numbers in the files. If also no recording reaches below the tiles that the first one reaches, then whenever the
renderer has processed a batch the cells drawn are exactly those whose value by geometry is above the threshold; and in
every fair run this happens for every number of scans. -/
theorem C90_folder (hl : TestedLn) (hT : AccurateTrig T) {cos : F64 → F64} {radPerDeg : F64} {cast : F64 → F32}
    (he : AccurateEnv (parsingEnv cos radPerDeg cast (Quat.fromEuler (F := F32))))
    {w₁ w₂ : ℕ} {ext ext' : List (Fin 256)} {idx : List ℕ} {po pv : List (List (Fin 256))}
    (ho : IndexFolder w₁ ext idx po) (hv : IndexFolder w₂ ext' idx pv)
    {oxtBytes cloudBytes : List (Fin 256) → List (BitVec 8)} {place : ℕ → Place} {roll pitch yaw : ℕ → ℚ} {L S ε : ℝ}
    (htext : ∀ i ∈ idx, ∃ text, oxtBytes (indexName w₁ ext i) = utf8 text ∧ (place i).Ok ∧
      Says text (place i) (roll i) (pitch i) (yaw i))
    (hang : ∀ i ∈ idx, |roll i| ≤ 4 ∧ |pitch i| ≤ 4 ∧ |yaw i| ≤ 4)
    (hcloud : ∀ i ∈ idx, 16 ∣ (cloudBytes (indexName w₂ ext' i)).length ∧
      ∀ j < (cloudBytes (indexName w₂ ext' i)).length / 16, ∀ n : Fin 3,
        (f32OfBits (wordAt (cloudBytes (indexName w₂ ext' i)) (16 * j + 4 * n.val))).isFin = true ∧
        |((f32OfBits (wordAt (cloudBytes (indexName w₂ ext' i)) (16 * j + 4 * n.val))).val : ℝ)| ≤ L)
    {i0 : ℕ} (hi0 : idx[0]? = some i0) (hS : ∀ i ∈ idx, ∀ n, |(place i).offset (place i0) n| ≤ S)
    (hL1 : 1 ≤ L) (hL2 : L ≤ 2 ^ 100) (hε : ε = (1130 * L + 2 * S) / 2 ^ 24 + 1 / 2 ^ 18)
    {X : ℕ → Fin 3 → ℝ} (hX : ∀ i, X i = (place i).offset (place i0)) {pts : ℕ → List (Fin 3 → ℝ)}
    (hpts : ∀ i, pts i = movedPoints (roll i) (pitch i) (yaw i) (X i) (cloudBytes (indexName w₂ ext' i)))
    {M N K : ℕ} (hM1 : 1 ≤ M) (hN : N = M + 101) (hN18 : N ≤ 2 ^ 18)
    {ρ : ℚ} (hρ : ρ = (Fp.lit 0.1 : F32).val) (hclear : ∀ i ∈ idx, ClearReal M N K 100 ρ ε (X i) (pts i))
    (hrays : ∀ i ∈ idx, ClearRaysReal N K ρ 60 ε (X i) (pts i))
    {o : OccupancyGridMap 3 F32} (hdef : OccupancyGridMap.default_ = .ok o)
    {played : ℕ → List ((Fin 3 → ℝ) × List (Fin 3 → ℝ))}
    (hplayed : ∀ k, played k = (List.range k).map fun j => (X (idx.getD (j % idx.length) 0), pts (idx.getD (j % idx.length) 0))) :
    ∃ rs, main (parsingEnv cos radPerDeg cast Quat.fromEuler) (some (some (byteFolder po pv oxtBytes cloudBytes))) =
        .ok (.window rs) ∧ rs.clouds.length = idx.length ∧
      (∀ w, AnyWReach o.noiseModel rs.get rs.clouds.length o.gridMap w →
        Alive w.prog ∧
        (∃ w', AnyWStep o.noiseModel rs.get rs.clouds.length w w' ∧ flagNow w' ≠ flagNow w) ∧
        ∃ k cb, k ≤ w.prog.workers.length ∧ w.prog.workers.length ≤ k + 1 ∧
          (w.prog.main = .clearFlag ∨ w.prog.main = .spawn → k = w.prog.workers.length) ∧ Placed w.prog.map cb ρ ∧
          ∀ c, Before w.prog.map cb c (geoFoldReal o.noiseModel ρ (played k) c (Fp.lit 0))) ∧
      ∀ low : Fin 3 → ℤ, LowestFirstReal 100 ρ ε (· ∈ idx) pts (pts i0) low →
        (∀ w, AnyWReach o.noiseModel rs.get rs.clouds.length o.gridMap w → w.prog.main = .clearFlag ∨ w.prog.main = .spawn →
          Draws o.noiseModel.threshold ρ
            (fun c => geoFoldReal o.noiseModel ρ (played w.prog.workers.length) c (Fp.lit 0)) w.prog) ∧
        ∀ τ, AnyWExecution o.noiseModel rs.get rs.clouds.length o.gridMap τ →
          AnyWFair o.noiseModel rs.get rs.clouds.length τ → ∀ k, ∃ i, (τ i).prog.workers.length = k ∧
            Draws o.noiseModel.threshold ρ (fun c => geoFoldReal o.noiseModel ρ (played k) c (Fp.lit 0)) (τ i).prog := by
  obtain ⟨rs, h1, hlen, h2⟩ := C82_folder hl hT he ho hv htext hang hcloud hi0 hS hL1 hL2 hε hX hpts hM1 hN hN18 hρ hclear hdef
  obtain ⟨rs', h1', -, h2'⟩ := C89_folder hl hT he ho hv htext hang hcloud hi0 hS hL1 hL2 hε hX hpts hM1 hN hN18 hρ
    (fun i hi Y hY n => ((hclear i hi).points Y hY n).1) hrays hdef hplayed
  obtain rfl : rs = rs' := by simpa using h1.symm.trans h1'
  have hord : ∀ r : ℕ, IsOrder ((fun _ l => l : ℕ → List (Verif.Cell 3) → List (Verif.Cell 3)) r) :=
    fun _ l => List.Perm.refl l
  obtain ⟨h3, -, h5⟩ := h2 _ hord
  have draws : ∀ low : Fin 3 → ℤ, LowestFirstReal 100 ρ ε (· ∈ idx) pts (pts i0) low →
      ∀ w, AnyWReach o.noiseModel rs.get rs.clouds.length o.gridMap w → w.prog.main = .clearFlag ∨ w.prog.main = .spawn →
        Draws o.noiseModel.threshold ρ
          (fun c => geoFoldReal o.noiseModel ρ (played w.prog.workers.length) c (Fp.lit 0)) w.prog := by
    intro low hlow w hw hm
    obtain ⟨s, h6, h7⟩ := C90_reach hord hw
    have hm' : s.main = .clearFlag ∨ s.main = .spawn := by rw [← h7.main]; exact hm
    have hd : Draws o.noiseModel.threshold ρ
        (fun c => geoFoldReal o.noiseModel ρ (played s.workers.length) c (Fp.lit 0)) s := (h2' _ s hord h6).2 low hlow hm'
    have hd' := draws_same h7.symm hd
    rw [← h7.workers] at hd'
    exact hd'
  refine ⟨rs, h1, hlen, fun w hw => ?_, fun low hlow => ⟨draws low hlow, fun τ hτ hf k => ?_⟩⟩
  · obtain ⟨s, h6, h7⟩ := C90_reach hord hw
    refine ⟨?_, anyW_go hord (fun s hs => (h3 s hs).2.2) hw, ?_⟩
    · have := (h3 s h6).1
      unfold Alive at this ⊢
      rw [← h7.main, ← h7.workers] at this
      exact this
    · obtain ⟨k, cb, a1, a2, a3, a4, a5⟩ := (h2' _ s hord h6).1
      rw [← h7.workers] at a1 a2 a3
      rw [← h7.main] at a3
      exact ⟨k, cb, a1, a2, a3, placed_same h7.map.symm a4, fun c => before_same h7.map.symm (a5 c)⟩
  · obtain ⟨σ, b1, b2, b3⟩ := C90_runs hord hτ
    obtain ⟨i, b4, b5⟩ := h5 σ b1 (b3 hf) k
    have e1 : (τ i).prog.main = .clearFlag := by rw [← b4, ← (b2 i).main]; rfl
    have e2 : (τ i).prog.workers.length = k := by rw [← b5, ← (b2 i).workers]; rfl
    refine ⟨i, e2, ?_⟩
    have := draws low hlow _ (anyW_reach hτ i) (.inl e1)
    rw [e2] at this
    exact this

end
section
open Kitti

/-- A folder with one recording: the window opens, there is a fair run with a relaxed flag, and in it at some moment nine
scans have been played, the cell of the point (7/16, 7/32, 1/8) is drawn, and the cell (2, 1, 0), which the segment to the
point passes, is not. `C90_reach` and `C90_runs` apply to it. -/
example : ∃ (rs : _) (τ : _) (o : OccupancyGridMap 3 F32),
    main (parsingEnv someEnv.cos someEnv.radPerDeg someEnv.cast (@Quat.fromEuler F32 _ someTrig))
      (some (some (byteFolder [indexName 10 (ascii ".txt") 0] [indexName 10 (ascii ".bin") 0]
        (fun _ => utf8 "49 8.4 116.4 0 0 0".toList) fun _ => nearPoints))) = .ok (.window rs) ∧
    @OccupancyGridMap.default_ F32 _ 3 testedLibm = .ok o ∧
    AnyWExecution o.noiseModel rs.get rs.clouds.length o.gridMap τ ∧ AnyWFair o.noiseModel rs.get rs.clouds.length τ ∧
    ∃ i, (τ i).prog.workers.length = 9 ∧ (∃ p, (τ i).prog.tracked (localCell (τ i).prog.map ![4, 2, 1]) = some p) ∧
      (τ i).prog.tracked (localCell (τ i).prog.map ![2, 1, 0]) = none := by
  let _ := someTrig
  let _ := testedLibm
  have hl : TestedLn := by constructor <;> decide +kernel
  have hok : (⟨49, 42 / 5, 582 / 5⟩ : Place).Ok := ⟨by norm_num, by norm_num [abs_le], by norm_num [abs_le]⟩
  have hoff : (⟨49, 42 / 5, 582 / 5⟩ : Place).offset ⟨49, 42 / 5, 582 / 5⟩ = ![0, 0, 0] := by
    funext n; fin_cases n <;> simp [Place.offset]
  have hdef : ∃ o : OccupancyGridMap 3 F32, OccupancyGridMap.default_ = .ok o := by
    obtain ⟨m0, e1, -⟩ := new_empty_placed (D := 3) (ρ := 13421773 / 2 ^ 27) (r := (Fp.lit 0.1 : F32)) (by norm_num)
      (by refine ⟨by decide +kernel, ?_, ?_⟩ <;> norm_num) (t := 100) (by norm_num) (by norm_num) (Fp.lit 0 : F32)
    refine ⟨⟨m0, defaultNM⟩, ((C42_default_model hl).2.1 _).mpr ?_⟩
    unfold OccupancyGridMap.new
    rw [Verif.M.bind_eq_ok]
    exact ⟨m0, e1, rfl⟩
  obtain ⟨o, ho⟩ := hdef
  have htext : ∀ i ∈ [0], ∃ text, utf8 "49 8.4 116.4 0 0 0".toList = utf8 text ∧ (⟨49, 42 / 5, 582 / 5⟩ : Place).Ok ∧
      Says text ⟨49, 42 / 5, 582 / 5⟩ 0 0 0 := fun i _ =>
    ⟨_, rfl, hok, "49".toList, "8.4".toList, "116.4".toList, "0".toList, "0".toList, "0".toList, [],
      fields_iff.mpr (by decide +kernel), by decide +kernel, by decide +kernel, by decide +kernel, by decide +kernel,
      by decide +kernel, by decide +kernel⟩
  have hcloud : ∀ i ∈ [0], 16 ∣ nearPoints.length ∧ ∀ j < nearPoints.length / 16, ∀ n : Fin 3,
      (f32OfBits (wordAt nearPoints (16 * j + 4 * n.val))).isFin = true ∧
      |((f32OfBits (wordAt nearPoints (16 * j + 4 * n.val))).val : ℝ)| ≤ 1 := by
    have key : ∀ j < nearPoints.length / 16, ∀ n : Fin 3, (f32OfBits (wordAt nearPoints (16 * j + 4 * n.val))).isFin =
        true ∧ |(f32OfBits (wordAt nearPoints (16 * j + 4 * n.val))).val| ≤ 1 := by decide +kernel
    exact fun i _ => ⟨by decide, fun j hj n => ⟨(key j hj n).1, by exact_mod_cast (key j hj n).2⟩⟩
  have hε : (1130 / 2 ^ 24 + 1 / 2 ^ 18 : ℝ) = (1130 * 1 + 2 * 0) / 2 ^ 24 + 1 / 2 ^ 18 := by norm_num
  have hT := someTrig_accurate
  have he := C76_accurate (euler := Quat.fromEuler (F := F32)) someEnv_accurate.cos someEnv_accurate.radPerDeg
    someEnv_accurate.cast
  obtain ⟨rs, h1, hlen, h2, h3⟩ := C90_folder (w₁ := 10) (w₂ := 10) (ext := ascii ".txt") (ext' := ascii ".bin") hl hT he
    (idx := [0]) (po := [indexName 10 (ascii ".txt") 0]) (pv := [indexName 10 (ascii ".bin") 0])
    (oxtBytes := fun _ => utf8 "49 8.4 116.4 0 0 0".toList) (cloudBytes := fun _ => nearPoints)
    (place := fun _ => ⟨49, 42 / 5, 582 / 5⟩) (roll := fun _ => 0) (pitch := fun _ => 0) (yaw := fun _ => 0)
    (X := fun _ => ![0, 0, 0]) (pts := fun _ => nearRealPts)
    ⟨by simp, by decide, by simp⟩ ⟨by simp, by decide, by simp⟩ htext (by simp) hcloud (i0 := 0) rfl
    (fun i _ n => by simp only [hoff]; fin_cases n <;> simp) (by norm_num) (by norm_num) hε (fun _ => hoff.symm)
    (fun _ => nearPoints_moved.symm) (M := 30) (by norm_num) rfl (by norm_num) (K := 30)
    side_val.symm (fun _ _ => by push_cast; exact nearReal_alive)
    (fun _ _ => by push_cast; exact nearReal_rays) ho (fun _ => rfl)
  obtain ⟨τ, h4, h5⟩ := anyWFair_exists fun w hw => (h2 w hw).2.1
  obtain ⟨-, h6⟩ := h3 (fun _ => -1) (by push_cast; exact nearReal_lowest)
  obtain ⟨i, h7, h8⟩ := h6 τ h4 h5 9
  obtain ⟨m0, rfl, -⟩ := default_start hl side_val.symm ho
  refine ⟨rs, τ, _, h1, ho, h4, h5, i, h7, ?_, ?_⟩
  · obtain ⟨p, hp, -⟩ := (h8 ![4, 2, 1] (by decide)).2 (by
      simp only [geoFoldReal, List.foldl_map, near_hit]
      decide +kernel)
    exact ⟨p, hp⟩
  · exact (h8 ![2, 1, 0] (by decide)).1 (by
      simp only [geoFoldReal, List.foldl_map, near_miss]
      decide +kernel)

end
end Verif.Props
