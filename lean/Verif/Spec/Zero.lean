import Verif.Spec.Noise

/-!
# Specification vocabulary: how much a row of observations tells
-/

namespace Verif.Spec

/-- How many observations of a row tell something. -/
def tellings (l : List Seen) : ℕ := l.countP fun s => match s with | .nothing => false | _ => true

end Verif.Spec
