import Verif.Model.Kitti

/-!
# The directory readers with their progress output

`print_status` in `src/kitti/point_cloud_reader.rs:42-63` and `src/kitti/oxt_reader.rs:87-112`. A path has a name that
is a text or not (`to_str`). Standard output is assumed to take every line.
-/

namespace Verif.Kitti

open Verif

/-- The line printed for file `i` of `n` (`src/kitti/oxt_reader.rs:97-102`). -/
def statusLine (i n : ℕ) (name : List Char) : List Char :=
  "Reading file (".toList ++ (toString i).toList ++ " of ".toList ++ (toString n).toList ++ ") ".toList ++ name

/-- `paths.into_iter().enumerate().map(..).collect()` with the print in the closure: the lines printed and the
outcome. `name` is `path.file_name().unwrap().to_str()`, whose `unwrap` panics; a path from a listing always has a
file name. `f` is the reader with its captured variable. -/
def collectPrinting {α β σ : Type} (print : Bool) (name : α → Option (List Char)) (n : ℕ) (f : σ → α → M (Io (β × σ))) :
    ℕ → σ → List α → List (List Char) × M (Io (List β))
  | _, _, [] => ([], .ok (.ok []))
  | i, s, a :: r =>
    match if print then (name a).map fun t => [statusLine (i + 1) n t] else some [] with
    | none => ([], .error (.panic .unwrap))
    | some out =>
      match f s a with
      | .error e => (out, .error e)
      | .ok (.error e) => (out, .ok (.error e))
      | .ok (.ok (b, s')) =>
        let rest := collectPrinting print name n f (i + 1) s' r
        (out ++ rest.1,
          match rest.2 with
          | .error e => .error e
          | .ok (.error e) => .ok (.error e)
          | .ok (.ok bs) => .ok (.ok (b :: bs)))

/-- The reading of one cloud in the loop; nothing is captured. -/
def cloudStep {P : Type} (contents : P → Io (List (BitVec 8))) :
    Unit → P → M (Io (PointCloud 3 (BitVec 32) × Unit)) :=
  fun _ p => do
    match ← readCloud (contents p) with
    | .error e => .ok (.error e)
    | .ok c => .ok (.ok (c, ()))

/-- The reading of one record in the loop; the captured variable is `gps_origin`. -/
def oxtStep {G F R : Type} [Scalar G] [Scalar F] {P : Type} (env : OxtEnv G F R) (contents : P → Io (List Char)) :
    Option (Gps G) → P → M (Io (Pose F R × Option (Gps G))) :=
  fun o p =>
    match readOxt env (contents p) o with
    | .ok (pose, o') => .ok (.ok (pose, some o'))
    | .error e => .ok (.error e)

/-- `point_cloud_reader::read_from_dir` with `print_status`. -/
def readCloudDirPrinting {P : Type} [LinearOrder P] (print : Bool) (name : P → Option (List Char)) (dir : Dir P)
    (contents : P → Io (List (BitVec 8))) : List (List Char) × M (Io (List (PointCloud 3 (BitVec 32)))) :=
  match seqFilesInDir dir with
  | .error e => ([], .ok (.error e))
  | .ok paths =>
    collectPrinting print name paths.length (cloudStep contents) 0 () paths

/-- `oxt_reader::read_from_dir` with `print_status`. -/
def readOxtDirPrinting {G F R : Type} [Scalar G] [Scalar F] {P : Type} [LinearOrder P] (print : Bool)
    (name : P → Option (List Char)) (env : OxtEnv G F R) (dir : Dir P) (contents : P → Io (List Char)) :
    List (List Char) × M (Io (List (Pose F R))) :=
  match seqFilesInDir dir with
  | .error e => ([], .ok (.error e))
  | .ok paths =>
    collectPrinting print name paths.length (oxtStep env contents) 0 none paths

end Verif.Kitti
