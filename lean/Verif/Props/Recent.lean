import Verif.Props.Bayes

/-!
# C71: recent observations decide
-/

namespace Verif.Props
open Spec

variable {nm : LidarNoiseModel F32} {v : F32}

lemma foldl_tells (nm : LidarNoiseModel F32) (obs : List Seen) (v : F32) :
    obs.foldl (Seen.apply nm) v = (obs.filter Seen.tells).foldl (Seen.apply nm) v := by
  induction obs generalizing v with
  | nil => rfl
  | cons x obs ih => cases x <;> exact ih _

lemma foldl_replicate (nm : LidarNoiseModel F32) (x : Seen) (k : ℕ) (v : F32) :
    (List.replicate k x).foldl (Seen.apply nm) v = (fun v => Seen.apply nm v x)^[k] v := by
  induction k generalizing v with
  | zero => rfl
  | succ k ih => exact ih _

lemma foldl_limits (hh : FLe (Fp.lit 0) nm.hit) (hm : FLe nm.miss (Fp.lit 0)) (obs : List Seen)
    (hv : InLimits nm v) : InLimits nm (obs.foldl (Seen.apply nm) v) := by
  induction obs generalizing v with
  | nil => exact hv
  | cons x obs ih => exact ih (C37_update hh hm hv x)

/-- C71: the last `k` informative observations of a cell decide about it, if from the worst value they would:
whatever was observed before, a run of `k` hits leaves the cell at least where `k` hits bring the minimum, and a
run of `k` misses at most where `k` misses bring the maximum. -/
theorem C71_recent {a b : ℚ} (h1 : nm.hit.Is a) (h2 : nm.miss.Is b) (ha : 0 ≤ a) (hb : b ≤ 0) (hv : InLimits nm v)
    {obs : List Seen} {k : ℕ} :
    (List.replicate k Seen.hit <:+ obs.filter Seen.tells →
      FLe ((fun v => Seen.apply nm v .hit)^[k] nm.min) (obs.foldl (Seen.apply nm) v) ∧
      FLe (obs.foldl (Seen.apply nm) v) ((fun v => Seen.apply nm v .hit)^[k] nm.max)) ∧
    (List.replicate k Seen.miss <:+ obs.filter Seen.tells →
      FLe ((fun v => Seen.apply nm v .miss)^[k] nm.min) (obs.foldl (Seen.apply nm) v) ∧
      FLe (obs.foldl (Seen.apply nm) v) ((fun v => Seen.apply nm v .miss)^[k] nm.max)) := by
  have hh : FLe (Fp.lit 0) nm.hit := (Fp.FLe_is F32.zero_is h1).mpr ha
  have hm : FLe nm.miss (Fp.lit 0) := (Fp.FLe_is h2 F32.zero_is).mpr hb
  constructor
  · rintro ⟨pre, hpre⟩
    rw [foldl_tells, ← hpre, List.foldl_append, foldl_replicate]
    have hl := foldl_limits hh hm pre hv
    exact ⟨iterate_mono (hit_mono h1 hv.2.2.1) k hl.1, iterate_mono (hit_mono h1 hv.2.2.1) k hl.2⟩
  · rintro ⟨pre, hpre⟩
    rw [foldl_tells, ← hpre, List.foldl_append, foldl_replicate]
    have hl := foldl_limits hh hm pre hv
    exact ⟨iterate_mono (miss_mono h2 hv.1.1) k hl.1, iterate_mono (miss_mono h2 hv.1.1) k hl.2⟩

/-- C71 for the default occupancy map, after any calls of its `integrate_point_cloud` with in-range clouds that
all returned, and a world cell of the map. Scans that told nothing about the cell do not count.
* If the last 3 scans hit the cell, it is occupied; if the last 9 missed it, it is not.
* After 7 hits in a row its value is the maximum, after 14 misses in a row the minimum, whatever came before. -/
theorem C71_default [Libm F32] (hl : TestedLn) {D : ℕ} {o o' : OccupancyGridMap D F32} (hD0 : 0 < D) (hD : D ≤ 3)
    (ho : OccupancyGridMap.default_ = .ok o) {hist}
    (hc : ∀ s ∈ hist, CloudInRange s.2.2 (Fp.lit 0.1 : F32).val) (h : OccRuns o hist o') :
    ∃ cb, Placed o'.gridMap cb (Fp.lit 0.1 : F32).val ∧ ∀ w, InCells w cb →
      ∀ obs, obs = (observations defaultNM hist w).filter Seen.tells →
      (List.replicate 3 Seen.hit <:+ obs → o'.occupied (fun i => w i - cb.min i) = .ok true) ∧
      (List.replicate 9 Seen.miss <:+ obs → o'.occupied (fun i => w i - cb.min i) = .ok false) ∧
      (List.replicate 7 Seen.hit <:+ obs →
        ∃ v, o'.get (fun i => w i - cb.min i) = .ok v ∧ v.Is defaultNM.max.val) ∧
      (List.replicate 14 Seen.miss <:+ obs →
        ∃ v, o'.get (fun i => w i - cb.min i) = .ok v ∧ v.Is defaultNM.min.val) := by
  have ho' := ((C42_default_model hl).2.1 o).mp ho
  have hr : Res (Fp.lit 0.1 : F32) (Fp.lit 0.1 : F32).val := by
    refine ⟨by decide +kernel, ?_, ?_⟩ <;> decide +kernel
  obtain ⟨-, cb, hP, hv, -⟩ := C41_occupancy_map hD0 hD hr (t := 100) (by norm_num) (by norm_num) ho' hc h
  refine ⟨cb, hP, fun w hw obs hobs => ?_⟩
  obtain ⟨g1, g2⟩ := hv w hw
  have hfold : occFold defaultNM hist w (Fp.lit 0) = (observations defaultNM hist w).foldl (Seen.apply defaultNM)
      (Fp.lit 0) := by
    unfold occFold observations
    rw [List.foldl_map]
  rw [hfold] at g1 g2
  have h0 : InLimits defaultNM (Fp.lit 0) := by unfold InLimits; decide +kernel
  have key := fun k => C71_recent (nm := defaultNM) (a := defaultNM.hit.val) (b := defaultNM.miss.val)
    (by decide +kernel) (by decide +kernel) (by decide +kernel) (by decide +kernel) h0
    (obs := observations defaultNM hist w) (k := k)
  rw [← hobs] at key
  have sandwich : ∀ {a x b : F32} {q : ℚ}, a.Is q → b.Is q → FLe a x → FLe x b → x.Is q := by
    intro a x b q ha hb h1 h2
    refine Fp.is_of_key h1.2.1 (le_antisymm ?_ ?_)
    · rw [← Fp.key_is hb]; exact h2.2.2
    · rw [← Fp.key_is ha]; exact h1.2.2
  refine ⟨fun hs => ?_, fun hs => ?_, fun hs => ⟨_, g1, ?_⟩, fun hs => ⟨_, g1, ?_⟩⟩
  · rw [g2]
    congr 1
    have e : defaultNM.threshold.lt (defaultNM.hitValue^[3] defaultNM.min) = true := by decide +kernel
    obtain ⟨c1, c2, c3⟩ := Fp.lt_iff.mp e
    have h1 := ((key 3).1 hs).1
    exact Fp.lt_iff.mpr ⟨c1, h1.2.1, lt_of_lt_of_le c3 h1.2.2⟩
  · rw [g2]
    congr 1
    have e : FLe (defaultNM.missValue^[9] defaultNM.max) defaultNM.threshold := by decide +kernel
    exact Fp.not_lt_of_FLe (Fp.FLe_trans ((key 9).2 hs).2 e)
  · have e1 : (defaultNM.hitValue^[7] defaultNM.min).Is defaultNM.max.val := by decide +kernel
    have e2 : (defaultNM.hitValue^[7] defaultNM.max).Is defaultNM.max.val := by decide +kernel
    exact sandwich e1 e2 ((key 7).1 hs).1 ((key 7).1 hs).2
  · have e1 : (defaultNM.missValue^[14] defaultNM.min).Is defaultNM.min.val := by decide +kernel
    have e2 : (defaultNM.missValue^[14] defaultNM.max).Is defaultNM.min.val := by decide +kernel
    exact sandwich e1 e2 ((key 14).2 hs).1 ((key 14).2 hs).2

/-- The numbers cannot be lowered: 14 misses and then 2 hits leave a cell free, 7 hits and then 8 misses leave it
occupied. -/
example : defaultNM.threshold.lt
      ((List.replicate 14 Seen.miss ++ List.replicate 2 Seen.hit).foldl (Seen.apply defaultNM) (Fp.lit 0)) = false ∧
    defaultNM.threshold.lt
      ((List.replicate 7 Seen.hit ++ List.replicate 8 Seen.miss).foldl (Seen.apply defaultNM) (Fp.lit 0)) = true := by
  have h1 : defaultNM.threshold.lt (defaultNM.hitValue^[2] (defaultNM.missValue^[14] (Fp.lit 0))) = false := by
    decide +kernel
  have h2 : defaultNM.threshold.lt (defaultNM.missValue^[8] (defaultNM.hitValue^[7] (Fp.lit 0))) = true := by
    decide +kernel
  rw [List.foldl_append, List.foldl_append, foldl_replicate, foldl_replicate, foldl_replicate, foldl_replicate]
  exact ⟨h1, h2⟩

/-- A cell with three hits last, one scan telling nothing among them. -/
example : List.replicate 3 Seen.hit <:+
    [Seen.miss, .hit, .miss, .hit, .hit, .nothing, .hit].filter Seen.tells := ⟨[.miss, .hit, .miss], rfl⟩

end Verif.Props
