import Verif.Model.Pose
import Verif.Model.VizMap

/-!
# `main` of `viz/src/bin/draw_occupancy_grid.rs`

Window, lights and printing are left out.
-/

namespace Verif.Viz
open Kitti

/-- `f32::from_bits` (IEEE 754 binary32): sign, 8 bits of exponent, 23 bits of fraction. The payload of
a NaN is left out. -/
def f32OfBits (b : BitVec 32) : F32 :=
  let neg := b.msb
  let e : ℕ := b.toNat / 2 ^ 23 % 256
  let m : ℕ := b.toNat % 2 ^ 23
  if e = 255 then (if m = 0 then .inf neg else .nan)
  else
    let q : ℚ := if e = 0 then m * 2 ^ (-149 : ℤ) else (2 ^ 23 + m) * 2 ^ ((e : ℤ) - 150)
    Fp.ofRat neg (if neg then -q else q)

/-- The cloud read from a file, with its words taken as numbers. -/
def decodeCloud (c : PointCloud 3 (BitVec 32)) : PointCloud 3 F32 :=
  ⟨c.ncols, c.data.map f32OfBits, by rw [List.length_map, c.len]⟩

/-- The source folder: its subfolders `oxts/data` and `velodyne_points/data` and what reading their
files gives. -/
structure Folder (P : Type) where
  oxts : Dir P
  oxtFile : P → Io (List Char)
  velodyne : Dir P
  velodyneFile : P → Io (List (BitVec 8))

/-- The part of `AppState` that never changes (`viz/src/bin/draw_occupancy_grid.rs:44-46`). -/
structure Recordings where
  poses : List (Pose F32 (Quat F32))
  clouds : List (PointCloud 3 F32)

/-- How `main` goes on. -/
inductive Begun
  /-- "Invalid source folder" is printed and the program ends (lines 111-114). -/
  | invalidFolder
  /-- The window opens with these recordings (line 129 on). -/
  | window (r : Recordings)

variable {P : Type} [LinearOrder P]

/-- `main` up to the opening of the window (`viz/src/bin/draw_occupancy_grid.rs:108-138`). `arg` is the
first argument: `none` if missing, `some none` if it is not a folder. -/
def main (env : OxtEnv F64 F32 (Quat F32)) (arg : Option (Option (Folder P))) : M Begun :=
  match arg with
  | none => .error (.panic .index)
  | some none => .ok .invalidFolder
  | some (some d) =>
    match readOxtDir env d.oxts d.oxtFile with
    | .error _ => .error (.panic .unwrap)
    | .ok poses => do
      match ← readCloudDir d.velodyne d.velodyneFile with
      | .error _ => .error (.panic .unwrap)
      | .ok clouds =>
        if clouds.length ≠ poses.length then .error (.panic .assertion)
        else .ok (.window ⟨poses,
          (clouds.zip poses).map fun cp => (decodeCloud cp.1).transform cp.2.toHomogeneous⟩)

/-- What a worker started for recording `r` is given (`viz/src/bin/draw_occupancy_grid.rs:79-80`): the
sensor position and the cloud. The model of the threads only asks for `r` below the number of
recordings (its `spawnPanic` step is the panic of indexing beyond). -/
def Recordings.get (rs : Recordings) (r : ℕ) : Point 3 F32 × PointCloud 3 F32 :=
  (((rs.poses[r]?).map (·.translation)).getD fun _ => Fp.lit 0,
   (rs.clouds[r]?).getD (PointCloud.fromPoints []))

/-- The pose whose marker a frame draws (`viz/src/bin/draw_occupancy_grid.rs:104`): the one at the
index, after `integrate_next_pointcloud`. -/
def markerPose (rs : Recordings) (index : ℕ) : M (Pose F32 (Quat F32)) :=
  match rs.poses[index]? with
  | some p => .ok p
  | none => .error (.panic .index)

end Verif.Viz
