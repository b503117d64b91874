import Verif.Model.Geom

/-!
# Specification vocabulary: straight runs of cells
-/

namespace Verif.Spec

/-- The cells from `a` to just before `b` along axis `i`. -/
def run {D : ℕ} (a b : Cell D) (i : Fin D) : List (Cell D) :=
  (List.range (b i - a i).natAbs).map fun k : ℕ => Function.update a i (a i + (b i - a i).sign * k)

end Verif.Spec
