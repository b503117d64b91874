import Verif.Model.Cloud

/-!
# Model of `src/kitti`

The file system is a parameter: a directory is the list of its entries in the order in which the
operating system lists them. Text-to-float parsing, the cosine and the conversion of Euler angles to
a quaternion are parameters.
-/

namespace Verif.Kitti

open Verif

/-- `std::io::Error`: only the kind matters; `other` stands for errors of the operating system. -/
inductive IoErr
  | invalidData
  | other (code : ℕ)
deriving DecidableEq

/-- `std::io::Result`. -/
abbrev Io := Except IoErr

/-- The little-endian 32-bit words of a byte string (`read_f32_into::<NativeEndian>`,
`src/kitti/point_cloud_reader.rs:22-24`, on a little-endian machine). An f32 is kept as its bits. -/
def wordsLE : List (BitVec 8) → List (BitVec 32)
  | a :: b :: c :: d :: r => (d ++ c ++ b ++ a) :: wordsLE r
  | _ => []

/-- `.enumerate().filter_map(|(i, val)| if (i + 1) % 4 != 0 { Some(val) } else { None })`
(`src/kitti/point_cloud_reader.rs:31-34`), counting from `i`. -/
def dropEvery4 : ℕ → List (BitVec 32) → List (BitVec 32)
  | _, [] => []
  | i, v :: r => if (i + 1) % 4 ≠ 0 then v :: dropEvery4 (i + 1) r else dropEvery4 (i + 1) r

/-- `Matrix3xX::from_iterator(ncols, iter)`: panics if there are fewer than `3 * ncols` items. What it does with more
does not matter here: the reader always gives it exactly as many. -/
def cloudFromIter (ncols : ℕ) (l : List (BitVec 32)) : M (PointCloud 3 (BitVec 32)) :=
  if h : ncols * 3 ≤ l.length then .ok ⟨ncols, l.take (ncols * 3), by simp [h]⟩
  else .error (.panic .assertion)

/-- `point_cloud_reader::read` (`src/kitti/point_cloud_reader.rs:6-36`). The outer layer is panics,
the inner one `io::Result`. `input` is the outcome of `read_to_end`. -/
def readCloud (input : Io (List (BitVec 8))) : M (Io (PointCloud 3 (BitVec 32))) :=
  match input with
  | .error e => .ok (.error e)
  | .ok bytes =>
    if bytes.length % (4 * 4) ≠ 0 then .ok (.error .invalidData)
    else
      let bufSize := bytes.length / 4
      let numPoints := bufSize / 4
      match cloudFromIter numPoints (dropEvery4 0 (wordsLE bytes)) with
      | .error e => .error e
      | .ok c => .ok (.ok c)

/-- A directory as the operating system lists it: each entry is an error or a path. -/
abbrev Dir (P : Type) := Io (List (Io P))

/-- `seq_files_in_dir` (`src/kitti/fs.rs:3-11`). `P` is the type of paths with its order. -/
def seqFilesInDir {P : Type} [LinearOrder P] (dir : Dir P) : Io (List P) := do
  let entries ← dir
  let paths ← entries.mapM id
  .ok (paths.mergeSort (· ≤ ·))

/-- `paths.into_iter().map(f).collect::<io::Result<Vec<_>>>()`: stops at the first error; a panic of
`f` passes through. -/
def collectIo {α β : Type} (f : α → M (Io β)) : List α → M (Io (List β))
  | [] => .ok (.ok [])
  | a :: r => do
    match ← f a with
    | .error e => .ok (.error e)
    | .ok b =>
      match ← collectIo f r with
      | .error e => .ok (.error e)
      | .ok bs => .ok (.ok (b :: bs))

/-- `point_cloud_reader::read_from_dir` (`src/kitti/point_cloud_reader.rs:38-63`); `contents` is what
opening and reading a path gives. The progress print is left out. -/
def readCloudDir {P : Type} [LinearOrder P] (dir : Dir P) (contents : P → Io (List (BitVec 8))) :
    M (Io (List (PointCloud 3 (BitVec 32)))) :=
  match seqFilesInDir dir with
  | .error e => .ok (.error e)
  | .ok paths => collectIo (fun p => readCloud (contents p)) paths

/-! ## The OXTS reader -/

open Scalar

/-- A GPS fix: latitude, longitude in degrees, altitude in metres (`Translation3<f64>`). -/
structure Gps (G : Type) where
  lat : G
  lon : G
  alt : G

/-- `Pose3` (`src/geom/pose.rs`): a translation and a rotation. -/
structure Pose (F R : Type) where
  translation : Point 3 F
  rotation : R

/-- What the reader takes from outside: number parsing, cosine, `f64 as f32`, the constant of
`to_radians`, Euler angles to quaternion. -/
structure OxtEnv (G F R : Type) where
  parseG : List Char → Option G
  parseF : List Char → Option F
  cos : G → G
  radPerDeg : G
  cast : G → F
  euler : F → F → F → R

variable {G F R : Type} [Scalar G] [Scalar F]

/-- `EARTH_EQUATOR_CIRCUMFERENCE` (`src/kitti/oxt_reader.rs:5`). -/
def EARTH_EQUATOR_CIRCUMFERENCE : G := lit 40075160
/-- `EARTH_POLE_CIRCUMFERENCE` (`src/kitti/oxt_reader.rs:7`). -/
def EARTH_POLE_CIRCUMFERENCE : G := lit 40008000

/-- `gps_to_meters` (`src/kitti/oxt_reader.rs:29-41`). -/
def gpsToMeters (env : OxtEnv G F R) (p o : Gps G) : Point 3 F :=
  let dlat := p.lat -. o.lat
  let dlon := p.lon -. o.lon
  let latCirc := EARTH_EQUATOR_CIRCUMFERENCE *. env.cos (dlat *. env.radPerDeg)
  ![env.cast (dlon *. latCirc /. lit 360),
    env.cast (dlat *. EARTH_POLE_CIRCUMFERENCE /. lit 360),
    env.cast (p.alt -. o.alt)]

/-- `str_to_float` (`src/kitti/oxt_reader.rs:9-20`). -/
def strToFloat {α : Type} (parse : List Char → Option α) (s : List Char) : Io α :=
  match parse s with
  | some v => .ok v
  | none => .error .invalidData

/-- `oxt_reader::read` (`src/kitti/oxt_reader.rs:43-78`). `input` is the outcome of
`read_to_string`. -/
def readOxt (env : OxtEnv G F R) (input : Io (List Char)) (gpsOrigin : Option (Gps G)) :
    Io (Pose F R × Gps G) :=
  match input with
  | .error e => .error e
  | .ok text =>
    match text.splitOn ' ' with
    | s0 :: s1 :: s2 :: s3 :: s4 :: s5 :: _ => do
      let lat ← strToFloat env.parseG s0
      let lon ← strToFloat env.parseG s1
      let alt ← strToFloat env.parseG s2
      let roll ← strToFloat env.parseF s3
      let pitch ← strToFloat env.parseF s4
      let yaw ← strToFloat env.parseF s5
      let rot := env.euler roll pitch yaw
      match gpsOrigin with
      | some o => .ok (⟨gpsToMeters env ⟨lat, lon, alt⟩ o, rot⟩, o)
      | none => .ok (⟨fun _ => lit 0, rot⟩, ⟨lat, lon, alt⟩)
    | _ => .error .invalidData

/-- The loop of `oxt_reader::read_from_dir` (`src/kitti/oxt_reader.rs:91-111`) with the captured
variable `gps_origin`. -/
def readOxtLoop (env : OxtEnv G F R) : Option (Gps G) → List (Io (List Char)) → Io (List (Pose F R))
  | _, [] => .ok []
  | o, f :: r => do
    let (pose, o') ← readOxt env f o
    let ps ← readOxtLoop env (some o') r
    .ok (pose :: ps)

/-- `oxt_reader::read_from_dir` (`src/kitti/oxt_reader.rs:80-112`). -/
def readOxtDir {P : Type} [LinearOrder P] (env : OxtEnv G F R) (dir : Dir P)
    (contents : P → Io (List Char)) : Io (List (Pose F R)) := do
  let paths ← seqFilesInDir dir
  readOxtLoop env none (paths.map contents)

end Verif.Kitti
