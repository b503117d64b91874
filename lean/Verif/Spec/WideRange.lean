import Verif.Model.Geom

/-!
# Specification vocabulary: a wide range of rays
-/

namespace Verif.Spec

/-- A ray for which nothing overflows or vanishes: origin `o`, end `e` and offset `b` of the grid are finite,
with the values `x`, `y` and `q`, at most 2^30 in magnitude; the resolution `ρ` is between 2^-20 and 2^30; the
coordinates of origin and end are equal or differ by at least 2^-50. In contrast to `RayRange` nothing is
asked about the number of cells, so the coordinates of points and cells need not be exact to a cell. -/
structure WideRange {D : ℕ} (o e b : Point D F32) (r : F32) (x y q : Fin D → ℚ) (ρ : ℚ) : Prop where
  res : r.Is ρ
  lo : 1 / 2 ^ 20 ≤ ρ
  hi : ρ ≤ 2 ^ 30
  origin : ∀ i, (o i).Is (x i)
  end_ : ∀ i, (e i).Is (y i)
  offset : ∀ i, (b i).Is (q i)
  origin_le : ∀ i, |x i| ≤ 2 ^ 30
  end_le : ∀ i, |y i| ≤ 2 ^ 30
  offset_le : ∀ i, |q i| ≤ 2 ^ 30
  apart : ∀ i, y i = x i ∨ 1 / 2 ^ 50 ≤ |y i - x i|

end Verif.Spec
