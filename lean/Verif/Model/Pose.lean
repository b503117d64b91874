import Verif.Model.Kitti
import Mathlib.Analysis.SpecialFunctions.Trigonometric.Basic

/-!
# Poses

`Pose3` is nalgebra's `Isometry3<f32>` (`src/geom/pose.rs`). The code of nalgebra 0.22 that the crate
reaches through it is modelled here from its documented formulas: Euler angles to quaternion,
quaternion to matrix, quaternion times vector. Sine and cosine are parameters.
-/

namespace Verif

/-- `f32::sin`, `f32::cos` (`sin_cos` returns both). -/
class Trig (F : Type) where
  sin : F → F
  cos : F → F

/-- The real functions; the value at ∞ is arbitrary. -/
noncomputable instance : Trig XR where
  sin := XR.op1 Real.sin
  cos := XR.op1 Real.cos

/-- `nalgebra::Quaternion`; `UnitQuaternion` is the same data. -/
structure Quat (F : Type) where
  w : F
  i : F
  j : F
  k : F

namespace Quat
variable {F : Type} [Scalar F]
open Scalar

/-- `UnitQuaternion::from_euler_angles`, called at `src/kitti/oxt_reader.rs:62-66`. -/
def fromEuler [Trig F] (roll pitch yaw : F) : Quat F :=
  let sr := Trig.sin (roll *. lit (1/2))
  let cr := Trig.cos (roll *. lit (1/2))
  let sp := Trig.sin (pitch *. lit (1/2))
  let cp := Trig.cos (pitch *. lit (1/2))
  let sy := Trig.sin (yaw *. lit (1/2))
  let cy := Trig.cos (yaw *. lit (1/2))
  ⟨cr *. cp *. cy +. sr *. sp *. sy,
   sr *. cp *. cy -. cr *. sp *. sy,
   cr *. sp *. cy +. sr *. cp *. sy,
   cr *. cp *. sy -. sr *. sp *. cy⟩

/-- `UnitQuaternion::to_rotation_matrix`, reached from `to_homogeneous`
(`viz/src/bin/draw_occupancy_grid.rs:125`). -/
def toMatrix (q : Quat F) : Fin 3 → Fin 3 → F :=
  let ww := q.w *. q.w
  let ii := q.i *. q.i
  let jj := q.j *. q.j
  let kk := q.k *. q.k
  let ij := q.i *. q.j *. lit 2
  let wk := q.w *. q.k *. lit 2
  let wj := q.w *. q.j *. lit 2
  let ik := q.i *. q.k *. lit 2
  let jk := q.j *. q.k *. lit 2
  let wi := q.w *. q.i *. lit 2
  ![![ww +. ii -. jj -. kk, ij -. wk, wj +. ik],
    ![wk +. ij, ww -. ii +. jj -. kk, jk -. wi],
    ![ik -. wj, wi +. jk, ww -. ii -. jj +. kk]]

/-- `Vector3::cross`. -/
def cross (a b : Point 3 F) : Point 3 F :=
  ![a 1 *. b 2 -. a 2 *. b 1, a 2 *. b 0 -. a 0 *. b 2, a 0 *. b 1 -. a 1 *. b 0]

/-- `&UnitQuaternion * &Vector3`, the rotation of a vector, reached from `transform_point` and
`transform_vector` (`viz/src/bin/draw_occupancy_grid.rs:10-24`). -/
def rotate (q : Quat F) (v : Point 3 F) : Point 3 F :=
  let u : Point 3 F := ![q.i, q.j, q.k]
  let t : Point 3 F := fun n => cross u v n *. lit 2
  fun n => t n *. q.w +. cross u t n +. v n

end Quat

namespace Kitti.Pose
variable {F : Type} [Scalar F]
open Scalar

/-- `Isometry3::to_homogeneous` (`viz/src/bin/draw_occupancy_grid.rs:125`). -/
def toHomogeneous (p : Pose F (Quat F)) : Fin 4 → Fin 4 → F :=
  let m := p.rotation.toMatrix
  let t := p.translation
  ![![m 0 0, m 0 1, m 0 2, t 0],
    ![m 1 0, m 1 1, m 1 2, t 1],
    ![m 2 0, m 2 1, m 2 2, t 2],
    ![lit 0, lit 0, lit 0, lit 1]]

/-- `Isometry3::transform_point`. -/
def transformPoint (p : Pose F (Quat F)) (x : Point 3 F) : Point 3 F :=
  fun i => p.rotation.rotate x i +. p.translation i

/-- `draw_frame_marker` (`viz/src/bin/draw_occupancy_grid.rs:9-26`): the three lines drawn, each from
its start to its end; the colours (red, green, blue) are the position in the list. -/
def frameMarker (p : Pose F (Quat F)) (length : F) : List (Point 3 F × Point 3 F) :=
  let origin := p.transformPoint fun _ => lit 0
  let line := fun v : Point 3 F => (origin, fun i => origin i +. p.rotation.rotate v i)
  [line ![length, lit 0, lit 0], line ![lit 0, length, lit 0], line ![lit 0, lit 0, length]]

end Kitti.Pose
end Verif
