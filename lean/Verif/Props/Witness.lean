import Verif.Props.Memory
import Verif.Props.FirstViz

/-!
# Cases that meet the hypotheses of theorems without an example beside them: C38, C39, C40 and the general part of C102
-/

namespace Verif.Props
open Spec Viz

/-- The first scan of `smallRecs` is taken in. -/
lemma small_integrates : ∃ m', Integrates (fun l => l) smallNM smallMap (smallRecs 0).1 (smallRecs 0).2 m' := by
  obtain ⟨m', h⟩ := small_fits
  exact ⟨m', ((C101_returns_iff (smallMap_fits _)).mp h).1⟩

/-- `C38_integrate`, `C38_returns_iff`: some cell is passed and some cell is hit. -/
example : ∃ me free occ, smallMap.expandBounds (smallRecs 0).2.bounds (Fp.lit 0) = .ok me ∧
    CastsRays (smallRecs 0).1 (smallRecs 0).2 me.bounds me.resolution smallNM.maxRange free occ ∧
    (∀ c ∈ free, InGrid me c) ∧ ∀ c ∈ occ, InGrid me c := by
  exact (C38_returns_iff fun l => List.Perm.refl l).mp small_integrates

/-- The hypotheses of `C39_order_irrelevant`, with the reverse order as the other one. -/
example : ∃ m' m'', Integrates (fun l => l) smallNM smallMap (smallRecs 0).1 (smallRecs 0).2 m' ∧
    Integrates List.reverse smallNM smallMap (smallRecs 0).1 (smallRecs 0).2 m'' ∧ m''.data = m'.data := by
  obtain ⟨m', h⟩ := small_integrates
  obtain ⟨m'', h1, h2, -⟩ := C39_order_irrelevant (fun l => List.Perm.refl l) (fun l => l.reverse_perm) h
  exact ⟨m', m'', h, h1, h2⟩

/-- Recording changes does not matter for whether a scan is taken in. -/
lemma small_tracked : ∃ m', Integrates (fun l => l) smallNM (smallMap.setTrackChanges true) (smallRecs 0).1
    (smallRecs 0).2 m' := by
  have h : ∃ m', Mem.integratePointCloud 8 (fun l => l) smallNM (smallMap.setTrackChanges true) (smallRecs 0).1
      (smallRecs 0).2 = .ok m' := by
    rw [← returned_iff]
    decide +kernel
  obtain ⟨m', h⟩ := h
  exact ⟨m', ((C101_returns_iff (m := smallMap.setTrackChanges true) (smallMap_fits 8)).mp h).1⟩

/-- `C40_tracked`: the changed cells of the first scan are those passed and hit; `C40_untracked`: none otherwise. -/
example : ∃ m' new, Integrates (fun l => l) smallNM (smallMap.setTrackChanges true) (smallRecs 0).1 (smallRecs 0).2 m' ∧
    m'.changedCells = [] ++ new ∧ new.Nodup := by
  obtain ⟨m', h⟩ := small_tracked
  obtain ⟨me, free, occ, new, -, -, h1, h2, -⟩ := C40_tracked (fun l => List.Perm.refl l) h rfl
  exact ⟨m', new, h, h1, h2⟩

example : ∃ m', Integrates (fun l => l) smallNM smallMap (smallRecs 0).1 (smallRecs 0).2 m' ∧ m'.changedCells = [] := by
  obtain ⟨m', h⟩ := small_integrates
  exact ⟨m', h, C40_untracked (fun l => List.Perm.refl l) h rfl⟩

/-- `C102_stuck` for the toy map, whose recording 7 panics: at most eight of nine are started. -/
example {s : State (List ℕ × List ℕ) ℕ ℕ} (hr : Reach toyOps 9 ([], []) s) :
    s.workers.length ≤ 8 ∧ (∀ pc r, s.workers[7]? = some (pc, r) → NotPast pc) ∧ s.main ≠ .dead := by
  obtain ⟨h1, h2, h3, -⟩ := C102_stuck (K := 7) (I := fun _ _ => True) (R := fun _ _ => True) (by norm_num) trivial
    (fun _ _ _ _ _ _ => ⟨trivial, fun _ _ => trivial⟩) (fun _ _ _ => ⟨trivial, fun _ _ => trivial⟩)
    (fun _ _ _ _ _ => trivial) (fun m c _ => by simp [toyOps]) (fun m m' _ => by simp [toyOps]) hr
  exact ⟨h1, h2, h3⟩

/-- `C102_fair` for the same: there is a fair run, and in it the worker of recording 7 panics. -/
example : ∃ σ, Execution toyOps 9 ([], []) σ ∧ Fair toyOps 9 σ ∧ ∃ i, ∃ r : ℕ, (σ i).workers[7]? = some (.dead, r) := by
  obtain ⟨σ, h1, h2⟩ := someFair_exists toyOps 9 ([], [])
  obtain ⟨i, k, r, hk, h3, m, -, h4⟩ := C102_fair (K := 7) (I := fun _ _ => True) (R := fun _ _ => True) (by norm_num)
    trivial (fun _ _ _ _ _ _ => ⟨trivial, fun _ _ => trivial⟩) (fun _ _ _ => ⟨trivial, fun _ _ => trivial⟩)
    (fun _ _ _ _ _ => trivial) (fun m c _ => by simp [toyOps]) (fun m _ => by simp [toyOps])
    (fun j _ m _ => by simp only [toyOps]; split_ifs <;> simp) h1 h2
  have h5 : k = 7 := by
    by_contra hne
    have : k % 9 ≠ 7 := by omega
    simp [toyOps, this] at h4
  exact ⟨σ, h1, h2, i, r, h5 ▸ h3⟩

/-- `C102_first` for the same: before the second recording is started, cell 0 is drawn and no other. -/
example {s : State (List ℕ × List ℕ) ℕ ℕ} (hr : Reach toyOps 9 ([], []) s) (hl : s.workers.length = 1)
    (hs : s.main = .spawn) : s.tracked 0 = some 0 ∧ s.tracked 1 = none := by
  have h := (C102_first (by norm_num) (m' := ([0], [0])) rfl hr hl.le (by rw [hs]; simp)).2 hl (.inr hs)
  have e : processCells toyOps ([0], []) [0] (fun _ => none) = some (Function.update (fun _ => none) 0 (some 0)) := rfl
  have h' : some (Function.update (fun _ => none) 0 (some 0)) = some s.tracked := e.symm.trans h.2
  rw [← Option.some.inj h']
  exact ⟨rfl, rfl⟩

end Verif.Props
