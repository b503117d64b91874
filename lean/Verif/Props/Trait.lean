import Verif.Props.GridMap
import Verif.Spec.Trait

/-!
# C63: every client sees an abstract map
-/

namespace Verif.Props
open Spec

variable {F A : Type} [Scalar F] {D : ℕ}

lemma get_toOption {m : GridMap D F A} {c : Cell D} (hc : MachineCell c) :
    (∃ v, m.get c = .ok v ∧ (absOf m).value c = some v) ∨
      (m.get c = .error (.panic .index) ∧ (absOf m).value c = none ∧ ¬ InGrid m c) := by
  simp only [absOf, if_pos hc]
  by_cases hg : InGrid m c
  · obtain ⟨v, hv⟩ := (C31_get m hc).1 hg
    exact .inl ⟨v, hv, by rw [hv]; rfl⟩
  · have := (C31_get m hc).2 hg
    exact .inr ⟨this, by rw [this]; rfl, hg⟩

/-- C63, one call: the map answers like the abstract map it stands for, and stands for the abstract map's
successor afterwards; calls that are not allowed panic. -/
lemma call_refines (m : GridMap D F A) {c : Call D F A} (hc : c.Machine) :
    match (absOf m).call c with
    | some (x, a) => ∃ m', callOn GridMap.implTrait m c = .ok (x, m') ∧ absOf m' = a ∧
        m'.tileSize = m.tileSize
    | none => callOn GridMap.implTrait m c = .error (.panic .index) := by
  cases c with
  | get c =>
    rcases get_toOption (m := m) hc with ⟨v, h1, h2⟩ | ⟨h1, h2, -⟩
    · simp only [AbsMap.call, h2, Option.map_some]
      exact ⟨m, by simp only [callOn, GridMap.implTrait, h1]; rfl, rfl, rfl⟩
    · simp only [AbsMap.call, h2, Option.map_none]
      simp only [callOn, GridMap.implTrait, h1]; rfl
  | set c v =>
    have hc : MachineCell c := hc
    rcases get_toOption (m := m) hc with ⟨w, h1, h2⟩ | ⟨h1, h2, h3⟩
    · simp only [AbsMap.call, h2, Option.map_some]
      have hg : InGrid m c := by
        by_contra hg
        rw [(C31_get m hc).2 hg] at h1; cases h1
      obtain ⟨m', hm'⟩ := (C31_set m v hc).1 hg
      refine ⟨m', by simp only [callOn, GridMap.implTrait, hm']; rfl, ?_, by rw [(set_data hm').choose_spec.2]⟩
      obtain ⟨q1, q2, -⟩ := C31_get_set m m' hc hm'
      obtain ⟨d, -, rfl⟩ := set_data hm'
      unfold absOf
      congr 1
      funext c'
      dsimp only
      by_cases hcc : c' = c
      · subst hcc
        rw [if_pos hc, Function.update_self, q1]; rfl
      · rw [Function.update_of_ne hcc]
        by_cases hc' : MachineCell c'
        · rw [if_pos hc', if_pos hc', q2 c' hc' hcc]
        · rw [if_neg hc', if_neg hc']
    · simp only [AbsMap.call, h2, Option.map_none]
      simp only [callOn, GridMap.implTrait, (C31_set m v hc).2 h3]; rfl
  | resolution => exact ⟨m, rfl, rfl, rfl⟩
  | bounds => exact ⟨m, rfl, rfl, rfl⟩
  | pointFromCell c => exact ⟨m, rfl, rfl, rfl⟩
  | cellFromPoint p => exact ⟨m, rfl, rfl, rfl⟩
  | trackChanges => exact ⟨m, rfl, rfl, rfl⟩
  | setTrackChanges b => exact ⟨_, rfl, rfl, rfl⟩
  | changedCells => exact ⟨m, rfl, rfl, rfl⟩
  | clearChangedCells => exact ⟨_, rfl, rfl, rfl⟩
  | addChangedCells cs => exact ⟨_, rfl, rfl, rfl⟩

/-- C63: for every sequence of calls, a grid map gives exactly the answers of the abstract map it stands for,
and panics exactly if the abstract map does not allow one of the calls. In any arithmetic. -/
theorem C63_grid_map (m : GridMap D F A) (cs : List (Call D F A)) (hc : ∀ c ∈ cs, c.Machine) :
    match (absOf m).run cs with
    | some (xs, a) => ∃ m', runOn GridMap.implTrait m cs = .ok (xs, m') ∧ absOf m' = a ∧
        m'.tileSize = m.tileSize
    | none => runOn GridMap.implTrait m cs = .error (.panic .index) := by
  induction cs generalizing m with
  | nil => exact ⟨m, rfl, rfl, rfl⟩
  | cons c cs ih =>
    have h1 := call_refines m (hc c (by simp))
    cases h : (absOf m).call c with
    | none =>
      rw [h] at h1
      simp only [AbsMap.run, h, runOn, h1]
      rfl
    | some xa =>
      obtain ⟨x, a⟩ := xa
      rw [h] at h1
      obtain ⟨m1, h2, rfl, h3⟩ := h1
      have h4 := ih m1 fun c hc' => hc c (by simp [hc'])
      simp only [AbsMap.run, h, runOn, h2, M.bind_ok, Option.bind_eq_bind, Option.bind_some]
      cases h5 : (absOf m1).run cs with
      | none =>
        rw [h5] at h4
        rw [h4]; rfl
      | some xsa =>
        obtain ⟨xs, a⟩ := xsa
        rw [h5] at h4
        obtain ⟨m2, h6, h7, h8⟩ := h4
        exact ⟨m2, by rw [h6]; rfl, h7, h8.trans h3⟩

/-- The occupancy map passes every call to its grid map. -/
lemma call_delegates (o : OccupancyGridMap D F) (c : Call D F F) :
    callOn OccupancyGridMap.implTrait o c
      = (callOn GridMap.implTrait o.gridMap c).map fun xm => (xm.1, { o with gridMap := xm.2 }) := by
  cases c with
  | get c =>
    simp only [callOn, OccupancyGridMap.implTrait, OccupancyGridMap.get, GridMap.implTrait]
    cases o.gridMap.get c <;> rfl
  | set c v =>
    simp only [callOn, OccupancyGridMap.implTrait, OccupancyGridMap.set, GridMap.implTrait]
    cases o.gridMap.set c v <;> rfl
  | _ => rfl

/-- C63: the occupancy map answers every sequence of calls like the abstract map that its grid map stands
for; its noise model stays the same. -/
theorem C63_occupancy_map (o : OccupancyGridMap D F) (cs : List (Call D F F)) (hc : ∀ c ∈ cs, c.Machine) :
    match (absOf o.gridMap).run cs with
    | some (xs, a) => ∃ o', runOn OccupancyGridMap.implTrait o cs = .ok (xs, o') ∧ absOf o'.gridMap = a ∧
        o'.gridMap.tileSize = o.gridMap.tileSize ∧ o'.noiseModel = o.noiseModel
    | none => runOn OccupancyGridMap.implTrait o cs = .error (.panic .index) := by
  have key : runOn OccupancyGridMap.implTrait o cs
      = (runOn GridMap.implTrait o.gridMap cs).map fun xm => (xm.1, { o with gridMap := xm.2 }) := by
    clear hc
    induction cs generalizing o with
    | nil => rfl
    | cons c cs ih =>
      simp only [runOn, call_delegates]
      cases h : callOn GridMap.implTrait o.gridMap c with
      | error e => rfl
      | ok xm =>
        obtain ⟨x, m⟩ := xm
        simp only [Except.map, M.bind_ok]
        rw [ih]
        dsimp only
        cases runOn GridMap.implTrait m cs <;> rfl
  have h := C63_grid_map o.gridMap cs hc
  cases h1 : (absOf o.gridMap).run cs with
  | none =>
    rw [h1] at h
    simp only [key, h]
    rfl
  | some xa =>
    obtain ⟨xs, a⟩ := xa
    rw [h1] at h
    obtain ⟨m', h2, h3, h4⟩ := h
    refine ⟨{ o with gridMap := m' }, ?_, h3, h4, rfl⟩
    simp only [key, h2]
    rfl

/-- C63: the values of the abstract map are there exactly for the cells of the grid, so `get` and `set` are
allowed exactly there. -/
theorem C63_domain (m : GridMap D F A) (c : Cell D) :
    (absOf m).value c ≠ none ↔ MachineCell c ∧ InGrid m c := by
  by_cases hc : MachineCell c
  · rcases get_toOption (m := m) hc with ⟨v, h1, h2⟩ | ⟨h1, h2, h3⟩
    · rw [h2]
      refine ⟨fun _ => ⟨hc, ?_⟩, fun _ => by simp⟩
      by_contra hg
      rw [(C31_get m hc).2 hg] at h1; cases h1
    · rw [h2]
      exact ⟨fun h => absurd rfl h, fun h => absurd h.2 h3⟩
  · simp only [absOf, if_neg hc]
    exact ⟨fun h => absurd rfl h, fun h => absurd h.1 hc⟩

/-- C63: a clone, which the code writes out field by field, is equal to the original in all fields. (That the two
share nothing afterwards is Rust's ownership, not a result about the model.) -/
theorem C63_clone (m : GridMap D F A) : m.clone = m := rfl

/-- A program that sets a cell of a small map, reads it and another back, and works on the list of changes. -/
example :
    let m : M (GridMap 2 F32 F32) := GridMap.new (Fp.lit 1) ⟨![Fp.lit 0, Fp.lit 0], ![Fp.lit 2, Fp.lit 3]⟩ 2 (Fp.lit 0)
    ((m >>= fun m => runOn GridMap.implTrait m [.set ![1, 2] (Fp.lit 5), .get ![1, 2], .get ![0, 2],
      .addChangedCells [![1, 2]], .changedCells]).toOption.map fun x => x.1.length) = some 5 ∧
    ((m >>= fun m => runOn GridMap.implTrait m [.get ![1, 2], .get ![2, 0]]).toOption.map fun x => x.1.length)
      = none :=
  ⟨by decide +kernel, by decide +kernel⟩

end Verif.Props
