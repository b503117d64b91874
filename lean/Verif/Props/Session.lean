import Verif.Spec.Session
import Verif.Props.VizWitness

/-!
# C40: the record of changes over a whole session
-/

namespace Verif.Props
open Spec

variable {D : ℕ} {f : Fmt} {nm : LidarNoiseModel (Fp f)} {m m' : GridMap D (Fp f) (Fp f)}

/-- C40, over any sequence of scans, switching and clearing: at the end exactly those cells are recorded that were
recorded at the start, if the record was never cleared, and those that a scan told something of while tracking was
on, if the record was not cleared afterwards. -/
theorem C40_session {es : List (TrackEv D)} (h : Session nm m es m') (c : Cell D) :
    c ∈ m'.changedCells ↔ (c ∈ m.changedCells ∧ TrackEv.clear ∉ es) ∨
      ∃ before touched after, es = before ++ TrackEv.scan touched :: after ∧ c ∈ touched ∧
        TrackEv.clear ∉ after ∧ trackedAfter m.trackChanges before = true := by
  induction h with
  | done m => simp
  | @track m m' es b _ ih =>
    rw [ih]
    refine or_congr (by simp [GridMap.setTrackChanges]) ⟨?_, ?_⟩
    · rintro ⟨x, t, y, rfl, h1, h2, h3⟩
      exact ⟨.track b :: x, t, y, rfl, h1, h2, h3⟩
    · rintro ⟨x, t, y, he, h1, h2, h3⟩
      cases x with
      | nil => cases he
      | cons e x =>
        cases he
        exact ⟨x, t, y, rfl, h1, h2, h3⟩
  | @clear m m' es _ ih =>
    rw [ih]
    constructor
    · rintro (⟨h1, -⟩ | ⟨x, t, y, rfl, h1, h2, h3⟩)
      · cases h1
      · exact .inr ⟨.clear :: x, t, y, rfl, h1, h2, h3⟩
    · rintro (⟨-, h1⟩ | ⟨x, t, y, he, h1, h2, h3⟩)
      · exact absurd List.mem_cons_self h1
      · cases x with
        | nil => cases he
        | cons e x =>
          cases he
          exact .inr ⟨x, t, y, rfl, h1, h2, h3⟩
  | @scan m m1 m' es ord origin cloud touched ho hi ht _ ih =>
    have key : (c ∈ m1.changedCells ↔ c ∈ m.changedCells ∨ (c ∈ touched ∧ m.trackChanges = true)) ∧
        m1.trackChanges = m.trackChanges := by
      obtain ⟨me, free, occ, h1, h2, -, -, h5, h6, h7, -, h9, -⟩ := C38_integrate ho hi
      obtain ⟨-, -, c3, -⟩ := C36_expandBounds h1
      refine ⟨?_, by rw [h9, c3]⟩
      cases hm : m.trackChanges with
      | false => rw [C40_untracked ho hi hm]; simp
      | true =>
        obtain ⟨me', free', occ', new, f1, f2, f3, -, f5, -⟩ := C40_tracked ho hi hm
        rw [h1] at f1
        cases f1
        rw [f3, List.mem_append, f5, ht c, h6, h7]
        obtain ⟨s1, s2, s3⟩ := seen_eq f2 c
        refine or_congr Iff.rfl ⟨fun h => ⟨?_, rfl⟩, fun h => ?_⟩
        · rcases h with h | h
          · rw [s2 h]; simp
          · rw [s1 h]; simp
        · by_contra hn
          rw [not_or] at hn
          exact h.1 (s3 hn.1 hn.2)
    rw [ih, key.1, key.2]
    constructor
    · rintro (⟨h1 | ⟨h1, h2⟩, h3⟩ | ⟨x, t, y, rfl, h1, h2, h3⟩)
      · exact .inl ⟨h1, by simp [h3]⟩
      · exact .inr ⟨[], touched, es, rfl, h1, h3, h2⟩
      · exact .inr ⟨.scan touched :: x, t, y, rfl, h1, h2, h3⟩
    · rintro (⟨h1, h2⟩ | ⟨x, t, y, he, h1, h2, h3⟩)
      · exact .inl ⟨.inl h1, fun h => h2 (List.mem_cons_of_mem _ h)⟩
      · cases x with
        | nil => cases he; exact .inl ⟨.inr ⟨h1, h3⟩, h2⟩
        | cons e x => cases he; exact .inr ⟨x, t, y, rfl, h1, h2, h3⟩

/-- Every integration has its list of cells. -/
lemma touched_exists {ord : List (Cell D) → List (Cell D)} {origin : Point D (Fp f)} {cloud : PointCloud D (Fp f)}
    (ho : IsOrder ord) (h : Integrates ord nm m origin cloud m') :
    ∃ t : List (Cell D), ∀ c, c ∈ t ↔ seen origin cloud m'.bounds m'.resolution nm.maxRange c ≠ .nothing := by
  obtain ⟨me, free, occ, -, h2, -, -, -, h6, h7, -⟩ := C38_integrate ho h
  refine ⟨free ++ occ, fun c => ?_⟩
  obtain ⟨s1, s2, s3⟩ := seen_eq h2 c
  rw [h6, h7, List.mem_append]
  refine ⟨?_, fun h => ?_⟩
  · rintro (h | h)
    · rw [s2 h]; simp
    · rw [s1 h]; simp
  · by_contra hn
    rw [not_or] at hn
    exact h (s3 hn.1 hn.2)

/-- A session with two scans, the first tracked, the second not; afterwards cells are recorded. -/
example : ∃ (t1 t2 : List (Cell 2)) (m' : GridMap 2 F32 F32),
    Session smallNM smallMap [.track true, .scan t1, .track false, .scan t2] m' ∧ m'.changedCells ≠ [] := by
  have h : (do
      let m1 ← smallNM.integratePointCloud id 20 (smallMap.setTrackChanges true) (smallRecs 0).1 (smallRecs 0).2
      let m2 ← smallNM.integratePointCloud id 20 (m1.setTrackChanges false) (smallRecs 0).1 (smallRecs 0).2
      if m2.changedCells ≠ [] then Except.ok () else .error .fuel) = .ok () := by decide +kernel
  rw [M.bind_eq_ok] at h
  obtain ⟨m1, h1, h⟩ := h
  rw [M.bind_eq_ok] at h
  obtain ⟨m2, h2, h⟩ := h
  split_ifs at h with h3
  have ho : IsOrder (id : List (Cell 2) → List (Cell 2)) := fun _ => List.Perm.refl _
  obtain ⟨t1, e1⟩ := touched_exists ho ⟨20, h1⟩
  obtain ⟨t2, e2⟩ := touched_exists ho ⟨20, h2⟩
  exact ⟨t1, t2, m2, .track _ (.scan ho ⟨20, h1⟩ e1 (.track _ (.scan ho ⟨20, h2⟩ e2 (.done _)))), h3⟩

end Verif.Props
