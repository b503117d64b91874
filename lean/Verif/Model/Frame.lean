import Verif.Model.VizMain

/-!
# What a frame draws

`step` of `viz/src/bin/draw_occupancy_grid.rs:96-106`: the calls of the drawing functions of the window, in order. What
kiss3d does with them (camera, projection, pixels) is not modelled.
-/

namespace Verif.Viz
open Kitti

/-- A call of a drawing function. -/
inductive Draw
  /-- `window.draw_point` (line 101). -/
  | point (p colour : Point 3 F32)
  /-- `window.draw_line` (lines 11-25). -/
  | line (start stop colour : Point 3 F32)

/-- The three lines of `draw_frame_marker` with their colours (`viz/src/bin/draw_occupancy_grid.rs:9-26`). -/
def markerDraws (p : Pose F32 (Quat F32)) (length : F32) : List Draw :=
  (p.frameMarker length).zipWith (fun l c => .line l.1 l.2 c)
    [![Fp.lit 1, Fp.lit 0, Fp.lit 0], ![Fp.lit 0, Fp.lit 1, Fp.lit 0], ![Fp.lit 0, Fp.lit 0, Fp.lit 1]]

/-- The drawing part of `step` (`viz/src/bin/draw_occupancy_grid.rs:99-104`), for the table of drawn cells and the
index that `integrate_next_pointcloud` leaves behind: those of the state of the program while the render thread is
about to start the next frame (`MainPc.check`), which no other thread changes. `order` is the order in which the hash map is run through. The
marker is computed before the calls are put together, so that nothing is reported for a frame that panics. -/
def stepDraws (rs : Recordings) (order : List (Cell 3)) (tracked : Cell 3 → Option (Point 3 F32)) (index : ℕ) :
    M (List Draw) := do
  let color : Point 3 F32 := ![Fp.lit 0, Fp.lit (3 / 5), Fp.lit (4 / 5)]
  let points := order.filterMap fun c => (tracked c).map fun p => Draw.point p color
  let pose ← markerPose rs index
  .ok (points ++ markerDraws pose (Fp.lit 1))

end Verif.Viz
