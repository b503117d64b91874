import Verif.Model.Viz

/-!
# The visualizer with the crate's occupancy map
-/

namespace Verif.Viz

variable {D : ℕ} {F : Type} [Scalar F]

open Classical in
/-- The operations of `viz/src/bin/draw_occupancy_grid.rs` on the crate's map: `integrate` is lines 83-84,
`changed` line 87, `reset` lines 89-90, `occupied` line 61, `point` line 65. Recording `r` is the pair
`recs r` of sensor origin and cloud; `ord r` is the iteration order of the hash sets (a simplification: the
order is the same each time the recording comes round; C87 is about orders chosen anew each time). A call that
returns with some fuel returns that result; one that panics with some fuel panics; otherwise it hangs. -/
noncomputable def occOps (nm : LidarNoiseModel F) (recs : ℕ → Point D F × PointCloud D F)
    (ord : ℕ → List (Cell D) → List (Cell D)) : MapOps (GridMap D F F) (Cell D) (Point D F) where
  integrate r m :=
    let call := fun fuel =>
      nm.integratePointCloud (ord r) fuel (m.setTrackChanges true) (recs r).1 (recs r).2
    if h : ∃ m' fuel, call fuel = .ok m' then .ret h.choose
    else if ∃ fuel p, call fuel = .error (.panic p) then .panic
    else .hang
  changed m := m.changedCells
  reset m := m.clearChangedCells.setTrackChanges false
  occupied m c := (nm.occupied m c).toOption
  point m c := m.pointFromCell c

end Verif.Viz
