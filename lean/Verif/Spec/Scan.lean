import Verif.Spec.Noise

/-!
# Specification vocabulary: scans that a map can take
-/

namespace Verif.Spec

variable {D : ℕ}

/-- The value `y` is not in the strip of 3/4 of a cell below a tile border (cells of side `ρ`, tiles of `T`
cells). -/
def OffTileEdge (T : ℕ) (ρ y : ℚ) : Prop := ∀ k : ℤ, ¬ ((k * T - 3 / 4) * ρ ≤ y ∧ y < k * T * ρ)

/-- The value `y` on axis `i` is not in such a strip, or some point of the cloud lies a cell or more above it. -/
def ClearAbove (T : ℕ) (ρ : ℚ) (cloud : PointCloud D F32) (i : Fin D) (y : ℚ) : Prop :=
  OffTileEdge T ρ y ∨ ∃ p ∈ cloud.points, ∃ z, (p i).Is z ∧ y + ρ ≤ z

/-- A scan taken from `x` that the map `m`, storing the box `cb`, can take. All coordinates are at most `M`
cells from the world origin, and so is the lower corner of the map. -/
structure ClearScan (M K : ℕ) (m : GridMap D F32 F32) (cb : CellBounds D) (ρ : ℚ) (x : Fin D → ℚ)
    (origin : Point D F32) (cloud : PointCloud D F32) : Prop where
  res_lo : 1 / 2 ^ 20 ≤ ρ
  res_hi : ρ ≤ 2 ^ 20
  M_lo : 1 ≤ M
  M_hi : M ≤ 2 ^ 18
  corner : ∀ i, |cb.min i| ≤ M
  sensor : ∀ i, (origin i).Is (x i)
  sensor_near : ∀ i, |x i| ≤ M * ρ
  /-- The sensor is in the map, or within the bounds of the cloud. -/
  sensor_inside : ∀ i, (cb.min i * ρ ≤ x i ∧ x i < cb.max i * ρ) ∨
    (FLe (cloud.bounds.min i) (origin i) ∧ FLe (origin i) (cloud.bounds.max i))
  sensor_tile : ∀ i, ClearAbove m.tileSize ρ cloud i (x i)
  /-- Every point is in range, off the tile edges or below other points, not almost but not quite level with the sensor, and, where
  it is not level, away from the borders of the cells. -/
  points : ∀ p ∈ cloud.points, ∀ i, ∃ y, (p i).Is y ∧ |y| ≤ M * ρ ∧ ClearAbove m.tileSize ρ cloud i y ∧
    |y - x i| ≤ K * ρ ∧ (y = x i ∨ ρ / 2 ^ 40 ≤ |y - x i| ∧
      ∀ n : ℤ, (13 * M + 8 * m.tileSize + K ^ 2 + 14 * K + 80) / 2 ^ 24 * ρ ≤ |y - (n + 1 / 2) * ρ|)

/-- A scan taken from `x` in the working range: `ClearScan` without the conditions that keep it inside the map
and off the tile edges. -/
structure ScanRange (M K : ℕ) (m : GridMap D F32 F32) (cb : CellBounds D) (ρ : ℚ) (x : Fin D → ℚ)
    (origin : Point D F32) (cloud : PointCloud D F32) : Prop where
  res_lo : 1 / 2 ^ 20 ≤ ρ
  res_hi : ρ ≤ 2 ^ 20
  M_lo : 1 ≤ M
  M_hi : M ≤ 2 ^ 18
  corner : ∀ i, |cb.min i| ≤ M
  sensor : ∀ i, (origin i).Is (x i)
  sensor_near : ∀ i, |x i| ≤ M * ρ
  points : ∀ p ∈ cloud.points, ∀ i, ∃ y, (p i).Is y ∧ |y| ≤ M * ρ ∧
    |y - x i| ≤ K * ρ ∧ (y = x i ∨ ρ / 2 ^ 40 ≤ |y - x i| ∧
      ∀ n : ℤ, (13 * M + 8 * m.tileSize + K ^ 2 + 14 * K + 80) / 2 ^ 24 * ρ ≤ |y - (n + 1 / 2) * ρ|)

/-- The value of a world cell in the map `m` storing the box `cb`: the stored value, or 0 if the cell is not
stored. -/
def Before (m : GridMap D F32 F32) (cb : CellBounds D) (w : Cell D) (v : F32) : Prop :=
  (InCells w cb → valueAt m cb w = .ok v) ∧ (¬ InCells w cb → v = Fp.lit 0)

/-- The noise model has no range limit, or one of at least `l`. -/
def LongLimit (nm : LidarNoiseModel F32) (l : ℚ) : Prop :=
  Scalar.lt (Scalar.lit 0) nm.maxRange = false ∨ ∃ lam, nm.maxRange.Is lam ∧ l ≤ lam ∧ lam ≤ 2 ^ 60

/-- Integrating the cloud panics on an index out of bounds. -/
def PanicsIndex (ord : List (Cell D) → List (Cell D)) (nm : LidarNoiseModel F32) (m : GridMap D F32 F32)
    (origin : Point D F32) (cloud : PointCloud D F32) : Prop :=
  ∃ fuel, nm.integratePointCloud ord fuel m origin cloud = .error (.panic .index)

/-- How far, in cells, a scan in the working range may be off. -/
def scanTol (M K T : ℕ) : ℚ := (13 * M + 8 * T + K ^ 2 + 14 * K + 80) / 2 ^ 24

end Verif.Spec
