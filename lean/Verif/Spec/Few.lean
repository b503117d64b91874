import Verif.Spec.Bayes

/-!
# Specification vocabulary: rows of observations that differ in some places
-/

namespace Verif.Spec

/-- The rows are of the same length, and differ in at most `k` places. -/
inductive DiffersIn : ℕ → List Seen → List Seen → Prop
  | nil (k) : DiffersIn k [] []
  | same (s) {k l l'} : DiffersIn k l l' → DiffersIn k (s :: l) (s :: l')
  | other (s s') {k l l'} : DiffersIn k l l' → DiffersIn (k + 1) (s :: l) (s' :: l')

/-- The steps and limits of the noise model are these finite numbers, at most `B` in magnitude; a hit does not lower a value
and a miss does not raise it. -/
structure StepsWithin (nm : LidarNoiseModel F32) (hit miss lo hi B : ℚ) : Prop where
  is_hit : nm.hit.Is hit
  is_miss : nm.miss.Is miss
  is_min : nm.min.Is lo
  is_max : nm.max.Is hi
  hit_nonneg : 0 ≤ hit
  miss_nonpos : miss ≤ 0
  hit_le : hit ≤ B
  miss_ge : -B ≤ miss
  lo_ge : -B ≤ lo
  hi_le : hi ≤ B
  one_le : 1 ≤ B
  le : B ≤ 2 ^ 100

end Verif.Spec
