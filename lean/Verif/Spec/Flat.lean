import Verif.Spec.Scale
import Verif.Spec.Grid
import Verif.Spec.Noise

/-!
# Specification vocabulary: flat scenes

Two-dimensional scenes put into three-dimensional space. Used by C97.
-/

namespace Verif.Spec

variable {F : Type}

/-- The point of the plane at height `z`. -/
def flatPt (z : F) (p : Point 2 F) : Point 3 F := ![p 0, p 1, z]

/-- The cell of the plane in layer `h`. -/
def flatCell (h : ℤ) (c : Cell 2) : Cell 3 := ![c 0, c 1, h]

/-- The scan, all of its points at height `z`. -/
def FlatCloud (z : F) (cloud : PointCloud 2 F) (cloud3 : PointCloud 3 F) : Prop :=
  cloud3.points = cloud.points.map (flatPt z)

/-- A finite number of moderate size with moderately many binary places. -/
def Fine (B : ℤ) (x : F32) : Prop := ∃ q : ℚ, x.Is q ∧ Moderate B q

/-- The same for points. -/
def FinePt {D : ℕ} (B : ℤ) (p : Point D F32) : Prop := ∀ i, Fine B (p i)

/-- The world cells of the three-dimensional map of a flat scene: those of the two-dimensional map, and upwards one tile. -/
def FlatBox (t : ℕ) (cb : CellBounds 2) (cb3 : CellBounds 3) : Prop :=
  (cb = CellBounds.empty ∧ cb3 = CellBounds.empty) ∨
    (cb ≠ CellBounds.empty ∧ cb3 = ⟨flatCell 0 cb.min, flatCell t cb.max⟩)

/-- The three-dimensional map holds the two-dimensional one in its lowest layer, zero in the layers above, and has recorded
the same cells. -/
def FlatMaps (ρ : ℚ) (m : GridMap 2 F32 F32) (m3 : GridMap 3 F32 F32) : Prop :=
  ∃ cb cb3, Placed m cb ρ ∧ Placed m3 cb3 ρ ∧ m3.resolution = m.resolution ∧ m3.tileSize = m.tileSize ∧
    m3.trackChanges = m.trackChanges ∧ FlatBox m.tileSize cb cb3 ∧
    (∀ w, InCells w cb → valueAt m3 cb3 (flatCell 0 w) = valueAt m cb w) ∧
    (∀ w h, InCells (flatCell h w) cb3 → h ≠ 0 → valueAt m3 cb3 (flatCell h w) = .ok (Fp.lit 0)) ∧
    ∀ c, c ∈ m3.changedCells ↔ ∃ c2 ∈ m.changedCells, c = flatCell 0 c2

/-- The scan `s3` is the scan `s`, taken at height zero. -/
def FlatScan (s : GridMap 2 F32 F32 × Point 2 F32 × PointCloud 2 F32) (s3 : GridMap 3 F32 F32 × Point 3 F32 × PointCloud 3 F32) :
    Prop := s3.2.1 = flatPt (Fp.lit 0) s.2.1 ∧ FlatCloud (Fp.lit 0) s.2.2 s3.2.2

/-- A scan in the working range. -/
def FineScan (ρ : ℚ) (s : GridMap 2 F32 F32 × Point 2 F32 × PointCloud 2 F32) : Prop :=
  FinePt 20 s.2.1 ∧ (∀ p ∈ s.2.2.points, FinePt 20 p) ∧ CloudInRange s.2.2 ρ

end Verif.Spec
