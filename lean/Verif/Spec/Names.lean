import Verif.Spec.Kitti

/-!
# Specification vocabulary: file names of a recording

A path in a directory is its file name, a list of bytes. Such lists are compared as `PathBuf` compares paths with
the same parent on Unix (`paths.sort()`, `src/kitti/fs.rs:9`): at the first different byte, a prefix coming first.
-/

namespace Verif.Spec

/-- The decimal digits of an index, as ASCII bytes, padded with zeros to `width`. -/
def padded : (width i : ℕ) → List (Fin 256)
  | 0, _ => []
  | w + 1, i => Fin.ofNat 256 (48 + i / 10 ^ w) :: padded w (i % 10 ^ w)

/-- The name of the file with this index: the padded index and an extension. -/
def indexName (width : ℕ) (ext : List (Fin 256)) (i : ℕ) : List (Fin 256) := padded width i ++ ext

/-- The bytes of an ASCII text. -/
def ascii (s : String) : List (Fin 256) := s.toList.map fun c => Fin.ofNat 256 c.toNat

/-- The folder lists the files with these indices, in any order. -/
def IndexFolder (width : ℕ) (ext : List (Fin 256)) (idx : List ℕ) (paths : List (List (Fin 256))) : Prop :=
  idx.Pairwise (· < ·) ∧ (∀ i ∈ idx, i < 10 ^ width) ∧ paths.Perm (idx.map (indexName width ext))

/-- The progress lines of the first files of a folder of `n`, given their names. -/
def progress (n : ℕ) (names : List (List Char)) : List (List Char) :=
  names.zipIdx.map fun x => s!"Reading file ({x.2 + 1} of {n}) {String.ofList x.1}".toList

end Verif.Spec
