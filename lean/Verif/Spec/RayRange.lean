import Verif.Model.Geom

/-!
# Specification vocabulary: the working range of rays in f32
-/

namespace Verif.Spec

/-- A ray in the working range. Origin `o`, end `e` and offset `b` of the grid are finite, with the values
`x`, `y` and `q`; the resolution `ρ` is between 2^-20 and 2^20; all coordinates are within `M` cells of the
offset, and the offset within `M` cells of zero, `M ≤ 2^20`; the coordinates of origin and end are equal or
differ by at least 2^-40 cells. -/
structure RayRange {D : ℕ} (M : ℚ) (o e b : Point D F32) (r : F32) (x y q : Fin D → ℚ) (ρ : ℚ) : Prop where
  res : r.Is ρ
  lo : 1 / 2 ^ 20 ≤ ρ
  hi : ρ ≤ 2 ^ 20
  M_lo : 1 ≤ M
  M_hi : M ≤ 2 ^ 20
  origin : ∀ i, (o i).Is (x i)
  end_ : ∀ i, (e i).Is (y i)
  offset : ∀ i, (b i).Is (q i)
  origin_near : ∀ i, |x i - q i| ≤ M * ρ
  end_near : ∀ i, |y i - q i| ≤ M * ρ
  offset_near : ∀ i, |q i| ≤ M * ρ
  apart : ∀ i, y i = x i ∨ ρ / 2 ^ 40 ≤ |y i - x i|

end Verif.Spec
