import Verif.Spec.Evidence
import Verif.Props.Higher
import Verif.Props.Limits
import Verif.Props.OccMap
import Verif.Props.Order

/-!
# C123: more hits and fewer misses never lower a value
-/

namespace Verif.Props
open Scalar Spec

section
variable {f : Fmt} {nm : LidarNoiseModel (Fp f)}

/-- C123: with steps of the right signs, more hits and fewer misses, wherever they are put in or left out, never lower a
value, although every step is rounded and limited. -/
theorem C123_values (hf : FiniteSteps nm) (hh : FLe (Fp.lit 0) nm.hit) (hm : FLe nm.miss (Fp.lit 0)) {l l' : List Seen}
    (h : MoreHits l l') {v v' : Fp f} (hv : InLimits nm v) (hv' : InLimits nm v') (hvv : FLe v v') :
    FLe (l.foldl (Seen.apply nm) v) (l'.foldl (Seen.apply nm) v') := by
  have stays : ∀ (s : Seen) {v : Fp f}, InLimits nm v → InLimits nm (Seen.apply nm v s) := by
    intro s v hv
    cases s
    · exact (hit_bounds hh hv).1
    · exact (miss_bounds hm hv).1
    · exact hv
  have refl : Higher nm nm := ⟨Fp.FLe_refl hh.2.1, Fp.FLe_refl hm.1, Fp.FLe_refl hv.2.2.1, Fp.FLe_refl hv.1.1, rfl⟩
  induction h generalizing v v' with
  | nil => exact hvv
  | same s _ ih => exact ih (stays s hv) (stays s hv') (C109_step refl hf hf s hvv)
  | lessMiss _ ih => exact ih (stays .miss hv) hv' (Fp.FLe_trans (miss_bounds hm hv).2 hvv)
  | moreHit _ ih => exact ih hv (stays .hit hv') (Fp.FLe_trans hvv (hit_bounds hh hv').2)
  | skip _ ih => exact ih hv hv' hvv
  | skip' _ ih => exact ih hv hv' hvv
end

section
variable {F : Type} [Scalar F] {D : ℕ} {origin : Point D F} {bounds : Bounds D F} {res ml : F} {cloud cloud' : PointCloud D F}

lemma pick_mono {P P' Q Q' : Prop} [Decidable P] [Decidable P'] [Decidable Q] [Decidable Q'] (A : P → P') (B : Q → Q') :
    ((if P then Seen.hit else if Q then .miss else .nothing) = .hit →
      (if P' then Seen.hit else if Q' then .miss else .nothing) = .hit) ∧
    ((if P' then Seen.hit else if Q' then .miss else .nothing) = .nothing →
      (if P then Seen.hit else if Q then .miss else .nothing) = .nothing) := by
  by_cases h1 : P <;> by_cases h2 : P' <;> by_cases h3 : Q <;> by_cases h4 : Q' <;> simp_all

/-- C123, more points in one scan: a cell that was hit stays hit, one about which something was told is not forgotten, and
so a cell that gets hit has got more evidence. -/
theorem C123_points (hsub : ∀ p ∈ cloud.points, p ∈ cloud'.points) (c : Cell D) :
    (seen origin cloud bounds res ml c = .hit → seen origin cloud' bounds res ml c = .hit) ∧
    (seen origin cloud' bounds res ml c = .nothing → seen origin cloud bounds res ml c = .nothing) ∧
    (seen origin cloud' bounds res ml c = .hit →
      MoreHits [seen origin cloud bounds res ml c] [seen origin cloud' bounds res ml c]) := by
  have A : (∃ p ∈ cloud.points, ∃ ray, Casts origin p bounds res ml ray (some c)) →
      ∃ p ∈ cloud'.points, ∃ ray, Casts origin p bounds res ml ray (some c) := fun ⟨p, hp, h⟩ => ⟨p, hsub p hp, h⟩
  have B : (∃ p ∈ cloud.points, ∃ ray e, Casts origin p bounds res ml ray e ∧ c ∈ ray) →
      ∃ p ∈ cloud'.points, ∃ ray e, Casts origin p bounds res ml ray e ∧ c ∈ ray := fun ⟨p, hp, h⟩ => ⟨p, hsub p hp, h⟩
  classical
  refine ⟨?_, ?_, ?_⟩
  · unfold seen
    exact (pick_mono A B).1
  · unfold seen
    exact (pick_mono A B).2
  · intro h
    rw [h]
    cases seen origin cloud bounds res ml c
    · exact .same _ .nil
    · exact .lessMiss (.moreHit .nil)
    · exact .skip (.moreHit .nil)
end

section
variable {D : ℕ} {nm : LidarNoiseModel F32} {o₀ o o' : OccupancyGridMap D F32} {ρ : ℚ} {r : F32} {t : ℕ}

/-- C123 for two runs of scans from the same fresh map, with maps that may have grown differently: in each world cell of both
about which the second run tells more hits and fewer misses the value is at least as high, and it is occupied in the
second map if it is in the first. -/
theorem C123_map (hf : FiniteSteps nm) (hh : FLe (Fp.lit 0) nm.hit) (hm : FLe nm.miss (Fp.lit 0))
    (h0 : InLimits nm (Fp.lit 0)) (hD0 : 0 < D) (hD : D ≤ 3) (hr : Res r ρ) (ht : 1 ≤ t) (ht' : t ≤ 2 ^ 17)
    (ho : OccupancyGridMap.new nm r t = .ok o₀) {hist hist'} (hc : ∀ s ∈ hist, CloudInRange s.2.2 ρ)
    (hc' : ∀ s ∈ hist', CloudInRange s.2.2 ρ) (h : OccRuns o₀ hist o) (h' : OccRuns o₀ hist' o') :
    ∃ cb cb', Placed o.gridMap cb ρ ∧ Placed o'.gridMap cb' ρ ∧ ∀ w, InCells w cb → InCells w cb' →
      MoreHits (observations nm hist w) (observations nm hist' w) →
      (∃ v v', o.get (fun i => w i - cb.min i) = .ok v ∧ o'.get (fun i => w i - cb'.min i) = .ok v' ∧ FLe v v') ∧
      (o.occupied (fun i => w i - cb.min i) = .ok true → o'.occupied (fun i => w i - cb'.min i) = .ok true) := by
  obtain ⟨-, cb, hP, hv, -⟩ := C41_occupancy_map hD0 hD hr ht ht' ho hc h
  obtain ⟨-, cb', hP', hv', -⟩ := C41_occupancy_map hD0 hD hr ht ht' ho hc' h'
  refine ⟨cb, cb', hP, hP', fun w hw hw' hmore => ?_⟩
  have fold : ∀ hist, occFold nm hist w (Fp.lit 0) = (observations nm hist w).foldl (Seen.apply nm) (Fp.lit 0) := fun hist => by
    unfold occFold observations
    rw [List.foldl_map]
  have hle := C123_values hf hh hm hmore h0 h0 (Fp.FLe_refl h0.1.2.1)
  rw [← fold, ← fold] at hle
  refine ⟨⟨_, _, (hv w hw).1, (hv' w hw').1, hle⟩, fun hocc => ?_⟩
  rw [(hv w hw).2] at hocc
  rw [(hv' w hw').2]
  congr 1
  have h1 : nm.threshold.lt (occFold nm hist w (Fp.lit 0)) = true := Except.ok.inj hocc
  obtain ⟨a, b, c⟩ := Fp.lt_iff.mp h1
  exact Fp.lt_iff.mpr ⟨a, hle.2.1, lt_of_lt_of_le c hle.2.2⟩

/-- The hypotheses of `C123_values`: a miss left out and a hit put in, with the default noise model; here the value gets
higher. -/
example : MoreHits [.hit, .miss, .nothing, .miss] [.hit, .hit, .miss] ∧ FiniteSteps defaultNM ∧
    FLe (Fp.lit 0) defaultNM.hit ∧ FLe defaultNM.miss (Fp.lit 0) ∧ InLimits defaultNM (Fp.lit 0) ∧
    FLe ([Seen.hit, .miss, .nothing, .miss].foldl (Seen.apply defaultNM) (Fp.lit 0))
      ([Seen.hit, .hit, .miss].foldl (Seen.apply defaultNM) (Fp.lit 0)) := by
  have hm : MoreHits [.hit, .miss, .nothing, .miss] [.hit, .hit, .miss] :=
    .same _ (.lessMiss (.moreHit (.skip (.same _ .nil))))
  have hf : FiniteSteps defaultNM := ⟨⟨defaultNM.hit.val, by decide +kernel⟩, defaultNM.miss.val, by decide +kernel⟩
  have h1 : FLe (Fp.lit 0) defaultNM.hit := by decide +kernel
  have h2 : FLe defaultNM.miss (Fp.lit 0) := by decide +kernel
  have h3 : InLimits defaultNM (Fp.lit 0) := by constructor <;> decide +kernel
  exact ⟨hm, hf, h1, h2, h3, C123_values hf h1 h2 hm h3 h3 (by decide +kernel)⟩

/-- The hypotheses of `C123_points`. -/
example : ∀ p ∈ scanA.2.points, p ∈ (PointCloud.fromPoints [![Fp.lit 1, Fp.lit 0], ![Fp.lit 0, Fp.lit 3]] :
    PointCloud 2 F32).points := by
  simp [scanA, C13_points_fromPoints]

/-- The hypotheses of `C123_map`: `scanB`, which looks through the cell (1, 0), alone and followed by `scanA`, which hits
it. -/
example : ∃ o o1 o2 : OccupancyGridMap 2 F32, OccupancyGridMap.new defaultNM (Fp.lit 1) 4 = .ok o ∧
    OccRuns o [(o1, scanB)] o1 ∧ OccRuns o [(o1, scanB), (o2, scanA)] o2 ∧
    MoreHits (observations defaultNM [(o1, scanB)] ![1, 0]) (observations defaultNM [(o1, scanB), (o2, scanA)] ![1, 0]) ∧
    InCells ![1, 0] (CellBounds.fromBounds o1.gridMap.bounds o1.gridMap.resolution) ∧
    InCells ![1, 0] (CellBounds.fromBounds o2.gridMap.bounds o2.gridMap.resolution) := by
  have h : (do
      let o : OccupancyGridMap 2 F32 ← OccupancyGridMap.new defaultNM (Fp.lit 1) 4
      let o1 ← o.integratePointCloud id 10 scanB.1 scanB.2
      let o2 ← o1.integratePointCloud id 10 scanA.1 scanA.2
      let r ← castRay 10 scanA.1 ![Fp.lit 1, Fp.lit 0] o2.gridMap.bounds o2.gridMap.resolution defaultNM.maxRange
      if r.2 = some (localCell o2.gridMap ![1, 0]) ∧
          InCells ![1, 0] (CellBounds.fromBounds o1.gridMap.bounds o1.gridMap.resolution) ∧
          InCells ![1, 0] (CellBounds.fromBounds o2.gridMap.bounds o2.gridMap.resolution)
        then return () else .error .fuel) = Except.ok () := by decide +kernel
  simp only [M.bind_eq_ok] at h
  obtain ⟨o, h1, o1, h2, o2, h3, ⟨ray, e⟩, h4, h⟩ := h
  split_ifs at h with hb
  · have hid : IsOrder (id : List (Cell 2) → List (Cell 2)) := fun l => .refl l
    have hs : seen scanA.1 scanA.2 o2.gridMap.bounds o2.gridMap.resolution defaultNM.maxRange
        (localCell o2.gridMap ![1, 0]) = .hit :=
      if_pos ⟨![Fp.lit 1, Fp.lit 0], by rw [scanA, C13_points_fromPoints]; exact List.mem_singleton_self _, ray, 10,
        by rw [h4, ← hb.1]⟩
    refine ⟨o, o1, o2, h1, .step hid h2 (.done _), .step hid h2 (.step hid h3 (.done _)), ?_, hb.2.1, hb.2.2⟩
    show MoreHits [_] [_, seen scanA.1 scanA.2 o2.gridMap.bounds o2.gridMap.resolution defaultNM.maxRange
      (localCell o2.gridMap ![1, 0])]
    rw [hs]
    exact .same _ (.moreHit .nil)
end

end Verif.Props
