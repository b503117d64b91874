import Verif.Model.Kitti

/-!
# Specification vocabulary: KITTI files
-/

namespace Verif.Spec
open Kitti

/-- The 32-bit word stored little-endian at byte position `k`. -/
def wordAt (bytes : List (BitVec 8)) (k : ℕ) : BitVec 32 :=
  bytes.getD (k + 3) 0 ++ bytes.getD (k + 2) 0 ++ bytes.getD (k + 1) 0 ++ bytes.getD k 0

/-- `s` lists the paths in path order. -/
def SortedListing {P : Type} [LinearOrder P] (s paths : List P) : Prop :=
  s.Perm paths ∧ s.Pairwise (· ≤ ·)

/-- The text consists of these fields, separated by single spaces. -/
def Fields (text : List Char) (fs : List (List Char)) : Prop :=
  fs ≠ [] ∧ (∀ f ∈ fs, ' ' ∉ f) ∧ [' '].intercalate fs = text

/-- The text is a well-formed record: at least six fields, of which the first three parse to a GPS fix and
the next three to roll, pitch and yaw. -/
def Record {G F R : Type} (env : OxtEnv G F R) (text : List Char) (fix : Gps G) (rot : R) : Prop :=
  ∃ a b c d e g rest roll pitch yaw, Fields text (a :: b :: c :: d :: e :: g :: rest) ∧
    env.parseG a = some fix.lat ∧ env.parseG b = some fix.lon ∧ env.parseG c = some fix.alt ∧
    env.parseF d = some roll ∧ env.parseF e = some pitch ∧ env.parseF g = some yaw ∧
    rot = env.euler roll pitch yaw

end Verif.Spec
