import Verif.Spec.Few
import Verif.Props.Bayes
import Verif.Props.Order

/-!
# C124: a few wrong scans have little weight
-/

namespace Verif.Props
open Scalar Spec

section
variable {nm : LidarNoiseModel F32} {hit miss lo hi B : ℚ} {v : F32} {q : ℚ}

/-- One observation: what it does to a value within the limits. -/
lemma few_step (hs : StepsWithin nm hit miss lo hi B) (hv : v.Is q) (h1 : lo ≤ q) (h2 : q ≤ hi) (s : Seen) :
    ∃ q', (Seen.apply nm v s).Is q' ∧ lo ≤ q' ∧ q' ≤ hi ∧ q + miss - B / 2 ^ 22 ≤ q' ∧ q' ≤ q + hit + B / 2 ^ 22 ∧
      (s = .hit → |q' - min (q + hit) hi| ≤ B / 2 ^ 22) ∧ (s = .miss → |q' - max (q + miss) lo| ≤ B / 2 ^ 22) ∧
      (s = .nothing → q' = q) := by
  have hB := hs.one_le
  have hε : 0 ≤ B / 2 ^ 22 := by positivity
  have hqB : |q| ≤ B := abs_le.mpr ⟨by linarith [hs.lo_ge], by linarith [hs.hi_le]⟩
  have hz : InLimits nm v := ⟨(Fp.FLe_is hs.is_min hv).mpr h1, (Fp.FLe_is hv hs.is_max).mpr h2⟩
  cases s with
  | nothing => exact ⟨q, hv, h1, h2, by linarith [hs.miss_nonpos], by linarith [hs.hit_nonneg], nofun, nofun, fun _ => rfl⟩
  | hit =>
    obtain ⟨r1, r2⟩ := round_sum hqB (abs_le.mpr ⟨by linarith [hs.hit_nonneg], hs.hit_le⟩) hB hs.le
    have hq' := is_min (hv.add hs.is_hit r1) hs.is_max
    have hb := hit_bounds ((Fp.FLe_is F32.zero_is hs.is_hit).mpr hs.hit_nonneg) hz
    have up : q ≤ min (b32.rnd (q + hit)) hi := (Fp.FLe_is hv hq').mp hb.2
    have r3 := abs_le.mp r2
    refine ⟨_, hq', h1.trans up, min_le_right _ _, by linarith [hs.miss_nonpos],
      (min_le_left _ _).trans (by linarith), fun _ => ?_, nofun, nofun⟩
    exact (abs_min_sub_min_le_max _ _ _ _).trans (max_le r2 (by rw [sub_self, abs_zero]; exact hε))
  | miss =>
    obtain ⟨r1, r2⟩ := round_sum hqB (abs_le.mpr ⟨hs.miss_ge, by linarith [hs.miss_nonpos]⟩) hB hs.le
    have hq' := is_max (hv.add hs.is_miss r1) hs.is_min
    have hb := miss_bounds ((Fp.FLe_is hs.is_miss F32.zero_is).mpr hs.miss_nonpos) hz
    have down : max (b32.rnd (q + miss)) lo ≤ q := (Fp.FLe_is hq' hv).mp hb.2
    have r3 := abs_le.mp r2
    refine ⟨_, hq', le_max_right _ _, down.trans h2, le_trans (by linarith) (le_max_left _ _),
      by linarith [hs.hit_nonneg], nofun, fun _ => ?_, nofun⟩
    exact (abs_max_sub_max_le_max _ _ _ _).trans (max_le r2 (by rw [sub_self, abs_zero]; exact hε))

/-- C124: two rows of observations of the same length that differ in at most `k` places make values that differ by at most
`k` times the distance of a hit and a miss, plus what they differed by at the start, plus the roundings. -/
theorem C124_rows (hs : StepsWithin nm hit miss lo hi B) {k : ℕ} {l l' : List Seen} (h : DiffersIn k l l') {v v' : F32}
    {q q' : ℚ} (hv : v.Is q) (hv' : v'.Is q') (h1 : lo ≤ q) (h2 : q ≤ hi) (h1' : lo ≤ q') (h2' : q' ≤ hi) :
    ∃ p p', (l.foldl (Seen.apply nm) v).Is p ∧ (l'.foldl (Seen.apply nm) v').Is p' ∧
      |p - p'| ≤ |q - q'| + k * (hit - miss) + l.length * (B / 2 ^ 21) := by
  have hε : 0 ≤ B / 2 ^ 22 := by
    have := hs.one_le
    positivity
  have hd : 0 ≤ hit - miss := by linarith [hs.hit_nonneg, hs.miss_nonpos]
  induction h generalizing v v' q q' with
  | nil k =>
    refine ⟨q, q', hv, hv', ?_⟩
    have : (0 : ℚ) ≤ k * (hit - miss) := by positivity
    simp only [List.length_nil, Nat.cast_zero, zero_mul, add_zero]
    linarith
  | same s _ ih =>
    obtain ⟨a, a1, a2, a3, -, -, a4, a5, a6⟩ := few_step hs hv h1 h2 s
    obtain ⟨b, b1, b2, b3, -, -, b4, b5, b6⟩ := few_step hs hv' h1' h2' s
    obtain ⟨p, p', c1, c2, c3⟩ := ih a1 b1 a2 a3 b2 b3
    have key : |a - b| ≤ |q - q'| + B / 2 ^ 21 := by
      have tri : ∀ x y : ℚ, |a - x| ≤ B / 2 ^ 22 → |b - y| ≤ B / 2 ^ 22 → |x - y| ≤ |q - q'| →
          |a - b| ≤ |q - q'| + B / 2 ^ 21 := by
        intro x y e1 e2 e3
        have e4 : B / 2 ^ 21 = B / 2 ^ 22 + B / 2 ^ 22 := by ring
        rw [e4, abs_le]
        constructor <;> linarith [(abs_le.mp e1).1, (abs_le.mp e1).2, (abs_le.mp e2).1, (abs_le.mp e2).2,
          (abs_le.mp e3).1, (abs_le.mp e3).2]
      cases s with
      | hit =>
        refine tri _ _ (a4 rfl) (b4 rfl) ((abs_min_sub_min_le_max _ _ _ _).trans (max_le ?_ ?_))
        · rw [add_sub_add_right_eq_sub]
        · rw [sub_self, abs_zero]
          exact abs_nonneg _
      | miss =>
        refine tri _ _ (a5 rfl) (b5 rfl) ((abs_max_sub_max_le_max _ _ _ _).trans (max_le ?_ ?_))
        · rw [add_sub_add_right_eq_sub]
        · rw [sub_self, abs_zero]
          exact abs_nonneg _
      | nothing =>
        exact tri q q' (by rw [a6 rfl, sub_self, abs_zero]; exact hε) (by rw [b6 rfl, sub_self, abs_zero]; exact hε) le_rfl
    refine ⟨p, p', c1, c2, c3.trans ?_⟩
    rw [List.length_cons]
    push_cast
    linarith
  | other s s' _ ih =>
    obtain ⟨a, a1, a2, a3, a4, a5, -⟩ := few_step hs hv h1 h2 s
    obtain ⟨b, b1, b2, b3, b4, b5, -⟩ := few_step hs hv' h1' h2' s'
    obtain ⟨p, p', c1, c2, c3⟩ := ih a1 b1 a2 a3 b2 b3
    have key : |a - b| ≤ |q - q'| + (hit - miss) + B / 2 ^ 21 := by
      have e4 : B / 2 ^ 21 = B / 2 ^ 22 + B / 2 ^ 22 := by ring
      have e5 := abs_le.mp (le_refl |q - q'|)
      rw [e4, abs_le]
      constructor <;> linarith [e5.1, e5.2]
    refine ⟨p, p', c1, c2, c3.trans ?_⟩
    rw [List.length_cons]
    push_cast
    linarith
end

section
variable {D : ℕ} {nm : LidarNoiseModel F32} {hit miss lo hi B : ℚ} {o₀ o o' : OccupancyGridMap D F32} {ρ : ℚ} {r : F32} {t : ℕ}

/-- C124 for two runs of scans from the same fresh map: a world cell of both about which the scans tell the same but for `k`
of them has values that are close, and is occupied in the second map if its value in the first is above the threshold by
more than that. -/
theorem C124_map (hs : StepsWithin nm hit miss lo hi B) (hlo : lo ≤ 0) (hhi : 0 ≤ hi) (hD0 : 0 < D) (hD : D ≤ 3)
    (hr : Res r ρ) (ht : 1 ≤ t) (ht' : t ≤ 2 ^ 17) (ho : OccupancyGridMap.new nm r t = .ok o₀) {hist hist'}
    (hc : ∀ s ∈ hist, CloudInRange s.2.2 ρ) (hc' : ∀ s ∈ hist', CloudInRange s.2.2 ρ) (h : OccRuns o₀ hist o)
    (h' : OccRuns o₀ hist' o') :
    ∃ cb cb', Placed o.gridMap cb ρ ∧ Placed o'.gridMap cb' ρ ∧ ∀ w k, InCells w cb → InCells w cb' →
      DiffersIn k (observations nm hist w) (observations nm hist' w) →
      ∃ v v' p p', o.get (fun i => w i - cb.min i) = .ok v ∧ o'.get (fun i => w i - cb'.min i) = .ok v' ∧ v.Is p ∧ v'.Is p' ∧
        |p - p'| ≤ k * (hit - miss) + hist.length * (B / 2 ^ 21) ∧
        ∀ th : ℚ, nm.threshold.Is th → th + (k * (hit - miss) + hist.length * (B / 2 ^ 21)) < p →
          o'.occupied (fun i => w i - cb'.min i) = .ok true := by
  obtain ⟨-, cb, hP, hv, -⟩ := C41_occupancy_map hD0 hD hr ht ht' ho hc h
  obtain ⟨-, cb', hP', hv', -⟩ := C41_occupancy_map hD0 hD hr ht ht' ho hc' h'
  refine ⟨cb, cb', hP, hP', fun w k hw hw' hd => ?_⟩
  have fold : ∀ hist, occFold nm hist w (Fp.lit 0) = (observations nm hist w).foldl (Seen.apply nm) (Fp.lit 0) := fun hist => by
    unfold occFold observations
    rw [List.foldl_map]
  obtain ⟨p, p', e1, e2, e3⟩ := C124_rows hs hd F32.zero_is F32.zero_is hlo hhi hlo hhi
  rw [sub_self, abs_zero, zero_add, show (observations nm hist w).length = hist.length from List.length_map _] at e3
  rw [← fold] at e1 e2
  refine ⟨_, _, p, p', (hv w hw).1, (hv' w hw').1, e1, e2, e3, fun th hth hlt => ?_⟩
  rw [(hv' w hw').2, Fp.Is.lt hth e2]
  congr 1
  rw [decide_eq_true_iff]
  linarith [(abs_le.mp e3).2]

lemma default_steps : StepsWithin defaultNM defaultNM.hit.val defaultNM.miss.val defaultNM.min.val defaultNM.max.val 4 := by
  constructor <;> decide +kernel

/-- The hypotheses of `C124_rows`, with the default noise model: one of four observations is wrong. The bound is nearly
reached. -/
example : DiffersIn 1 [.hit, .miss, .nothing, .hit] [.hit, .hit, .nothing, .hit] ∧
    ∃ p p', ([Seen.hit, .miss, .nothing, .hit].foldl (Seen.apply defaultNM) (Fp.lit 0)).Is p ∧
      ([Seen.hit, .hit, .nothing, .hit].foldl (Seen.apply defaultNM) (Fp.lit 0)).Is p' ∧
      |p - p'| ≤ 1 * (defaultNM.hit.val - defaultNM.miss.val) + 4 * (4 / 2 ^ 21) ∧
      (defaultNM.hit.val - defaultNM.miss.val) - 1 / 2 ^ 20 ≤ |p - p'| := by
  have hd : DiffersIn 1 [.hit, .miss, .nothing, .hit] [.hit, .hit, .nothing, .hit] :=
    .same _ (.other _ _ (.same _ (.same _ (.nil 0))))
  obtain ⟨p, p', h1, h2, h3⟩ := C124_rows default_steps hd F32.zero_is F32.zero_is (by decide +kernel) (by decide +kernel)
    (by decide +kernel) (by decide +kernel)
  refine ⟨hd, p, p', h1, h2, ?_, ?_⟩
  · simpa using h3
  · have e1 : (defaultNM.hitValue (defaultNM.missValue (defaultNM.hitValue (Fp.lit 0)))).val = p := by
      have : (defaultNM.hitValue (defaultNM.missValue (defaultNM.hitValue (Fp.lit 0)))).Is p := h1
      obtain ⟨_, _, _, h⟩ := this
      rw [h]
      rfl
    have e2 : (defaultNM.hitValue (defaultNM.hitValue (defaultNM.hitValue (Fp.lit 0)))).val = p' := by
      have : (defaultNM.hitValue (defaultNM.hitValue (defaultNM.hitValue (Fp.lit 0)))).Is p' := h2
      obtain ⟨_, _, _, h⟩ := this
      rw [h]
      rfl
    rw [← e1, ← e2]
    decide +kernel

/-- The hypotheses of `C124_map`: in one run the cell (1, 0) is hit, in the other it is seen through. -/
example : ∃ o o1 o2 : OccupancyGridMap 2 F32, OccupancyGridMap.new defaultNM (Fp.lit 1) 4 = .ok o ∧
    OccRuns o [(o1, scanA)] o1 ∧ OccRuns o [(o2, scanB)] o2 ∧
    DiffersIn 1 (observations defaultNM [(o1, scanA)] ![1, 0]) (observations defaultNM [(o2, scanB)] ![1, 0]) ∧
    InCells ![1, 0] (CellBounds.fromBounds o1.gridMap.bounds o1.gridMap.resolution) ∧
    InCells ![1, 0] (CellBounds.fromBounds o2.gridMap.bounds o2.gridMap.resolution) := by
  have h : (do
      let o : OccupancyGridMap 2 F32 ← OccupancyGridMap.new defaultNM (Fp.lit 1) 4
      let o1 ← o.integratePointCloud id 10 scanA.1 scanA.2
      let o2 ← o.integratePointCloud id 10 scanB.1 scanB.2
      if InCells ![1, 0] (CellBounds.fromBounds o1.gridMap.bounds o1.gridMap.resolution) ∧
          InCells ![1, 0] (CellBounds.fromBounds o2.gridMap.bounds o2.gridMap.resolution)
        then return () else .error .fuel) = Except.ok () := by decide +kernel
  simp only [M.bind_eq_ok] at h
  obtain ⟨o, h1, o1, h2, o2, h3, h⟩ := h
  split_ifs at h with hb
  · have hid : IsOrder (id : List (Cell 2) → List (Cell 2)) := fun l => .refl l
    exact ⟨o, o1, o2, h1, .step hid h2 (.done _), .step hid h3 (.done _), .other _ _ (.nil 0), hb.1, hb.2⟩
end

end Verif.Props
