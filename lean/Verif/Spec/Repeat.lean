import Verif.Spec.Noise

/-!
# Specification vocabulary: the same scan again and again
-/

namespace Verif.Spec

variable {F : Type} [Scalar F] {D : ℕ}

/-- Integrating the same cloud from the same sensor position `n` times leads from one map to the other. The hash
orders may differ from time to time. -/
inductive Repeats (nm : LidarNoiseModel F) (origin : Point D F) (cloud : PointCloud D F) :
    ℕ → GridMap D F F → GridMap D F F → Prop
  | zero (m) : Repeats nm origin cloud 0 m m
  | succ {n m m1 m' ord} : Repeats nm origin cloud n m m1 → IsOrder ord → Integrates ord nm m1 origin cloud m' →
      Repeats nm origin cloud (n + 1) m m'

end Verif.Spec
