import Verif.Spec.Rays
import Verif.Model.NoiseModel

/-!
# Specification vocabulary: units of length

The same measurements in another unit, `2 ^ k` of which make the old one. Used by C96.
-/

namespace Verif.Spec

/-- A number of moderate size with moderately many binary places: at most `2 ^ B` in size, a multiple of `2 ^ -60`. (Every
float of size at least `2 ^ -37` is a multiple of `2 ^ -60`.) -/
def Moderate (B : ℤ) (q : ℚ) : Prop := |q| ≤ 2 ^ B ∧ ∃ n : ℤ, q = n * 2 ^ (-60 : ℤ)

/-- `y` is the length `x` in the other unit, and the number is moderate in both units. -/
def Rescaled (k B : ℤ) (x y : F32) : Prop :=
  ∃ q : ℚ, x.Is q ∧ y.Is (q * 2 ^ k) ∧ Moderate B q ∧ Moderate B (q * 2 ^ k)

variable {D : ℕ}

/-- The same for points. -/
def RescaledPt (k B : ℤ) (p p' : Point D F32) : Prop := ∀ i, Rescaled k B (p i) (p' i)

/-- A resolution: positive. -/
def RescaledRes (k : ℤ) (r r' : F32) : Prop := Rescaled k 20 r r' ∧ 0 < r.val

/-- The same map in the other unit: the same cells with the same values and the same changed cells, and the resolution and
the bounds are the same lengths. -/
structure RescaledMap {A : Type} (k : ℤ) (m m' : GridMap D F32 A) : Prop where
  data : m'.data = m.data
  resolution : RescaledRes k m.resolution m'.resolution
  min : RescaledPt k 24 m.bounds.min m'.bounds.min
  max : RescaledPt k 24 m.bounds.max m'.bounds.max
  tileSize : m'.tileSize = m.tileSize
  trackChanges : m'.trackChanges = m.trackChanges
  changedCells : m'.changedCells = m.changedCells

/-- The same noise model: only the range limit is a length. -/
structure RescaledNoise (k : ℤ) (nm nm' : LidarNoiseModel F32) : Prop where
  hit : nm'.hit = nm.hit
  miss : nm'.miss = nm.miss
  min : nm'.min = nm.min
  max : nm'.max = nm.max
  threshold : nm'.threshold = nm.threshold
  maxRange : Rescaled k 20 nm.maxRange nm'.maxRange

/-- The bounds are moderate numbers in both units. -/
def SmallBounds (k : ℤ) (b : Bounds D F32) : Prop :=
  ∀ i, |(b.min i).val| ≤ 2 ^ 24 ∧ |(b.min i).val * 2 ^ k| ≤ 2 ^ 24 ∧ |(b.max i).val| ≤ 2 ^ 24 ∧ |(b.max i).val * 2 ^ k| ≤ 2 ^ 24

/-- The same scan in the other unit. -/
def RescaledCloud (k : ℤ) (cloud cloud' : PointCloud D F32) : Prop :=
  List.Forall₂ (RescaledPt k 20) cloud.points cloud'.points

end Verif.Spec
