import Verif.Spec.Scan
import Verif.Model.Viz
import Verif.Spec.Obstacle

/-!
# Specification vocabulary: recordings that can be played
-/

namespace Verif.Spec

variable {D : ℕ}

/-- A scan taken from `x` that every map can take whose lower corner is at most `N` cells from the world origin
(cells of side `ρ`, tiles of `T` cells). -/
structure ClearRec (M N K T : ℕ) (ρ : ℚ) (x : Fin D → ℚ) (origin : Point D F32) (cloud : PointCloud D F32) : Prop where
  sensor : ∀ i, (origin i).Is (x i)
  sensor_near : ∀ i, |x i| ≤ M * ρ
  /-- The sensor is within the bounds of the cloud. -/
  sensor_inside : ∀ i, FLe (cloud.bounds.min i) (origin i) ∧ FLe (origin i) (cloud.bounds.max i)
  sensor_tile : ∀ i, ClearAbove T ρ cloud i (x i)
  /-- Every point is at most `M` cells from the world origin and `K` cells from the sensor on each axis, off the tile
  edges or below other points, not almost but not quite level with the sensor, and, where it is not level, away from
  the borders of the cells. -/
  points : ∀ p ∈ cloud.points, ∀ i, ∃ y, (p i).Is y ∧ |y| ≤ M * ρ ∧ ClearAbove T ρ cloud i y ∧
    |y - x i| ≤ K * ρ ∧ (y = x i ∨ ρ / 2 ^ 40 ≤ |y - x i| ∧
      ∀ n : ℤ, (13 * N + 8 * T + K ^ 2 + 14 * K + 80) / 2 ^ 24 * ρ ≤ |y - (n + 1 / 2) * ρ|)

/-- The real value `y`, known up to `ε`, is not in the strip of 3/4 of a cell below a tile border. -/
def OffTileEdgeReal (T : ℕ) (ρ ε y : ℝ) : Prop := ∀ k : ℤ, y + ε < (k * T - 3 / 4) * ρ ∨ k * T * ρ + ε ≤ y

/-- `ClearAbove`, from real numbers. -/
def ClearAboveReal (T : ℕ) (ρ ε : ℝ) (pts : List (Fin D → ℝ)) (i : Fin D) (y : ℝ) : Prop :=
  OffTileEdgeReal T ρ ε y ∨ ∃ Z ∈ pts, y + 2 * ε + ρ ≤ Z i

/-- `ClearRec`, from real numbers known up to `ε` on each axis. -/
structure ClearReal (M N K T : ℕ) (ρ ε : ℝ) (X : Fin D → ℝ) (pts : List (Fin D → ℝ)) : Prop where
  sensor_near : ∀ i, |X i| + ε ≤ M * ρ
  sensor_inside : ∀ i, (∃ Y ∈ pts, Y i + 2 * ε ≤ X i) ∧ ∃ Y ∈ pts, X i + 2 * ε ≤ Y i
  sensor_tile : ∀ i, ClearAboveReal T ρ ε pts i (X i)
  points : ∀ Y ∈ pts, ∀ i, |Y i| + ε ≤ M * ρ ∧ ClearAboveReal T ρ ε pts i (Y i) ∧ |Y i - X i| + 2 * ε ≤ K * ρ ∧
    ρ / 2 ^ 40 + 2 * ε ≤ |Y i - X i| ∧
    ∀ n : ℤ, (13 * N + 8 * T + K ^ 2 + 14 * K + 80) / 2 ^ 24 * ρ + ε ≤ |Y i - (n + 1 / 2) * ρ|

/-- An infinite run of the program: `σ i` is the state at moment `i`; from moment to moment a step is taken or nothing
happens. -/
structure Execution {Map Cell Pt : Type} [DecidableEq Cell] (ops : Viz.MapOps Map Cell Pt) (n : ℕ) (m₀ : Map)
    (σ : ℕ → Viz.State Map Cell Pt) : Prop where
  start : σ 0 = Viz.init m₀
  step : ∀ i, Viz.Step ops n (σ i) (σ (i + 1)) ∨ σ (i + 1) = σ i

/-- The scheduler is fair, in the weakest sense: it does not let all threads rest, or the render thread poll the flag, for
ever while some thread could go on. -/
def Fair {Map Cell Pt : Type} [DecidableEq Cell] (ops : Viz.MapOps Map Cell Pt) (n : ℕ)
    (σ : ℕ → Viz.State Map Cell Pt) : Prop :=
  ∀ i, (∃ s', Viz.Step ops n (σ i) s' ∧ s' ≠ σ i) → ∃ j, i ≤ j ∧ σ (j + 1) ≠ σ j

/-- Neither the renderer nor a worker has panicked. -/
def Alive {Map Cell Pt : Type} (s : Viz.State Map Cell Pt) : Prop :=
  s.main ≠ .dead ∧ ∀ (k r : ℕ), s.workers[k]? ≠ some (.dead, r)

end Verif.Spec
