import Verif.Lemmas.Mirror
import Verif.Props.CastRays

/-!
# C65: mirror images

All floats, bit by bit: rounding is symmetric, so the caster prefers no direction of an axis. (It prefers some
axes to others: ties go to the last one.)
-/

namespace Verif.Props
open Spec Scalar
open Fp (Opp)

variable {D : ℕ} {f : Fmt} [ScalarLaws (Fp f)] {σ : Fin D → Bool} {o e : Point D (Fp f)} {bounds bounds' : Bounds D (Fp f)}
  {r ml : Fp f} {ray : List (Cell D)} {x : Option (Cell D)}

lemma mirPoint_opp (p : Point D (Fp f)) (i : Fin D) : Opp (σ i) (p i) (mirPoint σ p i) := by
  unfold mirPoint
  cases h : σ i
  · simpa using Opp.refl (p i)
  · simpa using Opp.neg_self (p i)

/-- C65: casting the mirror image of a ray gives the mirror image of its cells, in the same order, bit-exact,
whatever the rounding. The cells involved must not be at the very end of the machine integers, which are not
symmetric, and the direction must not be NaN, whose sign is -1 on both sides of the mirror. -/
theorem C65_mirror (hm : bounds'.min = mirPoint σ bounds.min)
    (hn : ∀ i, (rayDir o e i).isNaN = false) (hr : ∀ c ∈ ray, Mirrorable c)
    (ho : Mirrorable (cellFromPoint o bounds.min r)) (he : Mirrorable (cellFromPoint e bounds.min r))
    (h : Casts o e bounds r ml ray x) :
    Casts (mirPoint σ o) (mirPoint σ e) bounds' r ml (ray.map (mirCell σ)) (x.map (mirCell σ)) := by
  obtain ⟨n, h⟩ := h
  refine ⟨n, ?_⟩
  obtain ⟨b, mb⟩ := bounds
  obtain ⟨b', mb'⟩ := bounds'
  dsimp only at hm ho he
  subst hm
  have co := cellFromPoint_opp (σ := σ) (r := r) (mirPoint_opp o) (mirPoint_opp b) ho
  have ce := cellFromPoint_opp (σ := σ) (r := r) (mirPoint_opp e) (mirPoint_opp b) he
  unfold castRay at h ⊢
  by_cases hD : D = 2 ∨ D = 3
  · rw [if_pos hD] at h ⊢
    simp only [co, ce, mirCell_inj] at h ⊢
    split_ifs at h ⊢ with hs
    · cases h; rfl
    · obtain ⟨⟨rest, x'⟩, h1, h2⟩ := M.bind_eq_ok.mp h
      cases h2
      rw [castLoop_opp (rayCtx_opp (ml := ml) (mirPoint_opp o) (mirPoint_opp e) (mirPoint_opp b) hn he) ?_ ho
        (fun z hz => hr z (by simp [hz])) h1]
      · rfl
      · intro i
        exact tMax0_opp (rayDir_opp (mirPoint_opp o) (mirPoint_opp e) i) (hn i) (mirPoint_opp o i)
          (mirPoint_opp b i) rfl
  · rw [if_neg hD] at h; cases h

/-- C65: and so the free and the occupied cells of the mirror image of a scan are the mirror images of the free
and the occupied cells. -/
theorem C65_scan {cloud : PointCloud D (Fp f)} {free occ : List (Cell D)} (hm : bounds'.min = mirPoint σ bounds.min)
    (ho : Mirrorable (cellFromPoint o bounds.min r))
    (hp : ∀ p ∈ cloud.points, (∀ i, (rayDir o p i).isNaN = false) ∧ Mirrorable (cellFromPoint p bounds.min r) ∧
      ∀ ray x, Casts o p bounds r ml ray x → ∀ c ∈ ray, Mirrorable c)
    (h : CastsRays o cloud bounds r ml free occ) :
    ∃ free' occ', CastsRays (mirPoint σ o) (PointCloud.fromPoints (cloud.points.map (mirPoint σ))) bounds' r ml free' occ' ∧
      free'.Perm (free.map (mirCell σ)) ∧ occ'.Perm (occ.map (mirCell σ)) := by
  have hc : ∀ p ∈ cloud.points, ∃ ray x, Casts o p bounds r ml ray x ∧
      Casts (mirPoint σ o) (mirPoint σ p) bounds' r ml (ray.map (mirCell σ)) (x.map (mirCell σ)) := by
    intro p hpm
    obtain ⟨ray, x, hx⟩ := C28_returns_iff.mp ⟨_, _, h⟩ p hpm
    obtain ⟨h1, h2, h3⟩ := hp p hpm
    exact ⟨ray, x, hx, C65_mirror hm h1 (h3 _ _ hx) ho h2 hx⟩
  have hpts : (PointCloud.fromPoints (cloud.points.map (mirPoint σ)) : PointCloud D (Fp f)).points =
      cloud.points.map (mirPoint σ) := C13_points_fromPoints _
  obtain ⟨free', occ', h'⟩ : ∃ free' occ', CastsRays (mirPoint σ o)
      (PointCloud.fromPoints (cloud.points.map (mirPoint σ))) bounds' r ml free' occ' := by
    rw [C28_returns_iff]
    intro p hp'
    rw [hpts, List.mem_map] at hp'
    obtain ⟨p, hpm, rfl⟩ := hp'
    obtain ⟨ray, x, -, hx⟩ := hc p hpm
    exact ⟨_, _, hx⟩
  have inj : Function.Injective (mirCell σ : Cell D → Cell D) := fun _ _ h => mirCell_inj.mp h
  have ho : ∀ c, c ∈ occ' ↔ c ∈ occ.map (mirCell σ) := by
    intro c
    rw [C28_occupied h', hpts, List.mem_map]
    constructor
    · rintro ⟨q, hq, ray', hray⟩
      obtain ⟨p, hpm, rfl⟩ := List.mem_map.mp hq
      obtain ⟨ray, x, h1, h2⟩ := hc p hpm
      obtain ⟨-, e⟩ := casts_unique h2 hray
      obtain ⟨y, rfl, rfl⟩ := Option.map_eq_some_iff.mp e
      exact ⟨y, (C28_occupied h y).mpr ⟨p, hpm, ray, h1⟩, rfl⟩
    · rintro ⟨y, hy, rfl⟩
      obtain ⟨p, hpm, ray', hray⟩ := (C28_occupied h y).mp hy
      obtain ⟨ray, x, h1, h2⟩ := hc p hpm
      obtain ⟨-, rfl⟩ := casts_unique h1 hray
      exact ⟨_, List.mem_map.mpr ⟨p, hpm, rfl⟩, _, h2⟩
  refine ⟨free', occ', h', ?_, ?_⟩
  · rw [List.perm_ext_iff_of_nodup (castRays_nodup h').1 ((castRays_nodup h).1.map inj)]
    intro c
    rw [C28_free h', ho, hpts, List.mem_map, List.mem_map]
    constructor
    · rintro ⟨⟨q, hq, ray', x', hray, hcr⟩, hno⟩
      obtain ⟨p, hpm, rfl⟩ := List.mem_map.mp hq
      obtain ⟨ray, x, h1, h2⟩ := hc p hpm
      obtain ⟨rfl, -⟩ := casts_unique h2 hray
      obtain ⟨y, hy, rfl⟩ := List.mem_map.mp hcr
      exact ⟨y, (C28_free h y).mpr ⟨⟨p, hpm, ray, x, h1, hy⟩, fun hyo => hno ⟨y, hyo, rfl⟩⟩, rfl⟩
    · rintro ⟨y, hy, rfl⟩
      obtain ⟨⟨p, hpm, ray', x', hray, hyr⟩, hno⟩ := (C28_free h y).mp hy
      obtain ⟨ray, x, h1, h2⟩ := hc p hpm
      obtain ⟨rfl, rfl⟩ := casts_unique h1 hray
      refine ⟨⟨_, List.mem_map.mpr ⟨p, hpm, rfl⟩, _, _, h2, List.mem_map.mpr ⟨y, hyr, rfl⟩⟩, ?_⟩
      rintro ⟨z, hz, hzy⟩
      exact hno (mirCell_inj.mp hzy ▸ hz)
  · rw [List.perm_ext_iff_of_nodup (castRays_nodup h').2 ((castRays_nodup h).2.map inj)]
    exact ho

/-- A slanted ray, mirrored in the first axis. -/
example : let o : Point 2 F32 := ![Fp.lit (1/3), Fp.lit (1/5)]
    let e : Point 2 F32 := ![Fp.lit 3, Fp.lit (8/5)]
    let b : Bounds 2 F32 := ⟨![Fp.lit 0, Fp.lit 0], ![Fp.lit 9, Fp.lit 9]⟩
    (∀ i, (rayDir o e i).isNaN = false) ∧ (∀ i, isizeMin + 1 < cellFromPoint o b.min (Fp.lit 1) i ∧
      cellFromPoint o b.min (Fp.lit 1) i < isizeMax) ∧ (∀ i, isizeMin + 1 < cellFromPoint e b.min (Fp.lit 1) i ∧
      cellFromPoint e b.min (Fp.lit 1) i < isizeMax) ∧
    Casts o e b (Fp.lit 1) (Fp.lit 0) [![0, 0], ![1, 0], ![1, 1], ![2, 1], ![3, 1]] (some ![3, 2]) ∧
    Casts (mirPoint ![true, false] o) (mirPoint ![true, false] e) ⟨mirPoint ![true, false] b.min, b.max⟩ (Fp.lit 1) (Fp.lit 0)
      [![0, 0], ![-1, 0], ![-1, 1], ![-2, 1], ![-3, 1]] (some ![-3, 2]) :=
  ⟨by decide +kernel, by decide +kernel, by decide +kernel, ⟨9, by decide +kernel⟩, ⟨9, by decide +kernel⟩⟩

/-- The hypotheses of `C65_scan` hold for a scan of that one point. -/
example : let o : Point 2 F32 := ![Fp.lit (1/3), Fp.lit (1/5)]
    let e : Point 2 F32 := ![Fp.lit 3, Fp.lit (8/5)]
    let b : Bounds 2 F32 := ⟨![Fp.lit 0, Fp.lit 0], ![Fp.lit 9, Fp.lit 9]⟩
    (∀ p ∈ (PointCloud.fromPoints [e]).points, (∀ i, (rayDir o p i).isNaN = false) ∧
      Mirrorable (cellFromPoint p b.min (Fp.lit 1)) ∧
      ∀ ray x, Casts o p b (Fp.lit 1) (Fp.lit 0) ray x → ∀ c ∈ ray, Mirrorable c) ∧
    CastsRays o (PointCloud.fromPoints [e]) b (Fp.lit 1) (Fp.lit 0)
      [![0, 0], ![1, 0], ![1, 1], ![2, 1], ![3, 1]] [![3, 2]] := by
  intro o e b
  refine ⟨?_, 9, by decide +kernel⟩
  intro p hp
  rw [C13_points_fromPoints, List.mem_singleton] at hp
  subst hp
  refine ⟨by decide +kernel, by unfold Mirrorable; decide +kernel, ?_⟩
  intro ray x h
  have h' : Casts o e b (Fp.lit 1) (Fp.lit 0) [![0, 0], ![1, 0], ![1, 1], ![2, 1], ![3, 1]] (some ![3, 2]) :=
    ⟨9, by decide +kernel⟩
  obtain ⟨rfl, -⟩ := casts_unique h h'
  unfold Mirrorable
  decide

/-- C65: with a NaN end point the symmetry fails: the ray walks down the last axis, and so does its mirror image. -/
theorem C65_nan_refuted : ∃ (o e : Point 2 F32) (b : Bounds 2 F32) (r ml : F32) (ray : List (Cell 2)),
    Casts o e b r ml ray none ∧
      Casts (mirPoint ![false, true] o) (mirPoint ![false, true] e) ⟨mirPoint ![false, true] b.min, b.max⟩ r ml ray none ∧
      ray.map (mirCell ![false, true]) ≠ ray :=
  ⟨![Fp.lit 3, Fp.lit 0], ![.nan, .nan], ⟨![Fp.lit 0, Fp.lit 0], ![Fp.lit 9, Fp.lit 9]⟩, Fp.lit 1, Fp.lit 2,
    [![3, 0], ![3, -1], ![3, -2]], ⟨9, by decide +kernel⟩, ⟨9, by decide +kernel⟩, by decide⟩

/-- C65: exchanging the axes is no symmetry: on a diagonal the caster always takes the last axis first. -/
theorem C65_axes_differ : ∃ (o e : Point 2 F32) (b : Bounds 2 F32) (r ml : F32) (ray : List (Cell 2)) (c : Cell 2),
    Casts o e b r ml ray (some c) ∧
      Casts (o ∘ Equiv.swap 0 1) (e ∘ Equiv.swap 0 1) ⟨b.min ∘ Equiv.swap 0 1, b.max ∘ Equiv.swap 0 1⟩ r ml ray (some c) ∧
      c ∘ Equiv.swap 0 1 = c ∧ ray.map (fun c => c ∘ Equiv.swap 0 1) ≠ ray :=
  ⟨![Fp.lit 0, Fp.lit 0], ![Fp.lit 1, Fp.lit 1], ⟨![Fp.lit 0, Fp.lit 0], ![Fp.lit 9, Fp.lit 9]⟩, Fp.lit 1, Fp.lit 0,
    [![0, 0], ![0, 1]], ![1, 1], ⟨9, by decide +kernel⟩, ⟨9, by decide +kernel⟩, by decide, by decide⟩

end Verif.Props
