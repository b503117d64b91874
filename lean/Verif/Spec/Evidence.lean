import Verif.Spec.Bayes
import Verif.Spec.Higher

/-!
# Specification vocabulary: more evidence that a cell is occupied
-/

namespace Verif.Spec

/-- The second row of observations comes from the first by leaving out misses and putting in hits, at any places; scans that
tell nothing do not count. -/
inductive MoreHits : List Seen → List Seen → Prop
  | nil : MoreHits [] []
  | same (s) {l l'} : MoreHits l l' → MoreHits (s :: l) (s :: l')
  | lessMiss {l l'} : MoreHits l l' → MoreHits (.miss :: l) l'
  | moreHit {l l'} : MoreHits l l' → MoreHits l (.hit :: l')
  | skip {l l'} : MoreHits l l' → MoreHits (.nothing :: l) l'
  | skip' {l l'} : MoreHits l l' → MoreHits l (.nothing :: l')

end Verif.Spec
