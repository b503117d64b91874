import Verif.Model.Geom
import Mathlib.Tactic.Ring

/-!
# Model of `src/geom/point_cloud.rs`

The matrix `MatrixMN<f32, NaD, Dynamic>` is its column-major storage: a flat list, one column of `D`
numbers after the other.
-/

namespace Verif

variable {F : Type} {D : ℕ}

/-- `PointCloud` (`src/geom/point_cloud.rs:7-15`): `data` is the storage of the matrix with `ncols`
columns. -/
structure PointCloud (D : ℕ) (F : Type) where
  ncols : ℕ
  data : List F
  len : data.length = ncols * D

namespace PointCloud

/-- `PointCloud::from_points` (`src/geom/point_cloud.rs:22-29`). -/
def fromPoints (points : List (Point D F)) : PointCloud D F where
  ncols := points.length
  data := points.flatMap List.ofFn
  len := by induction points with
    | nil => simp
    | cons p ps ih => simp [ih]; ring

lemma index_lt {n D j i : ℕ} (hj : j < n) (hi : i < D) : j * D + i < n * D :=
  calc j * D + i < j * D + D := by omega
    _ = (j + 1) * D := by rw [Nat.succ_mul]
    _ ≤ n * D := Nat.mul_le_mul_right _ hj

/-- Column `j` of the matrix. -/
def column (c : PointCloud D F) (j : Fin c.ncols) : Point D F :=
  fun i => c.data[j * D + i]'(by rw [c.len]; exact index_lt j.2 i.2)

/-- `PointCloud::points_iter` (`src/geom/point_cloud.rs:35-41`): the columns in order. -/
def points (c : PointCloud D F) : List (Point D F) := List.ofFn c.column

/-- `PointCloud::num_points` (`src/geom/point_cloud.rs:43-45`). -/
def numPoints (c : PointCloud D F) : ℕ := c.ncols

variable [Scalar F]
open Scalar

/-- Body of the fold in `PointCloud::bounds` (`src/geom/point_cloud.rs:50-60`). -/
def boundsStep (b : Bounds D F) (p : Point D F) : Bounds D F :=
  ⟨fun i => if p i <. b.min i then p i else b.min i,
   fun i => if b.max i <. p i then p i else b.max i⟩

/-- `PointCloud::bounds` (`src/geom/point_cloud.rs:48-61`). -/
def bounds (c : PointCloud D F) : Bounds D F := c.points.foldl boundsStep Bounds.empty

/-- One column of `transform * homogeneous_mat` (`src/geom/point_cloud.rs:66-74`): nalgebra computes
the product column by column as the sum of `x[j] * transform.column(j)` in the order of `j`; the last
row (of four) is dropped. Multiplications by the exact constant 1 inside nalgebra's `axpy` are left
out. -/
def transformPoint (m : Fin 4 → Fin 4 → F) (p : Point 3 F) : Point 3 F :=
  fun i => m i.castSucc 3 *. lit 1 +. (m i.castSucc 2 *. p 2 +. (m i.castSucc 1 *. p 1
    +. m i.castSucc 0 *. p 0))

/-- `PointCloud::transform` (`src/geom/point_cloud.rs:64-75`). -/
def transform (c : PointCloud 3 F) (m : Fin 4 → Fin 4 → F) : PointCloud 3 F :=
  fromPoints (c.points.map (transformPoint m))

end PointCloud
end Verif
