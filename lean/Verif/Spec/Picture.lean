import Verif.Spec.Geometric
import Verif.Spec.Lowest

/-!
# Specification vocabulary: what geometry tells about a place, with real numbers
-/

namespace Verif.Spec

variable {D : ℕ}

open Classical in
/-- `geoSeen` with real numbers: a hit if a point lies in the closed cell, else a miss if the segment from the sensor
to some point meets the closed cell, else nothing. -/
noncomputable def geoSeenReal (ρ : ℝ) (X : Fin D → ℝ) (pts : List (Fin D → ℝ)) (w : Cell D) : Seen :=
  if ∃ Y ∈ pts, ∀ i, |Y i - w i * ρ| ≤ ρ / 2 then .hit
  else if ∃ Y ∈ pts, ∃ t : ℝ, 0 ≤ t ∧ t ≤ 1 ∧ ∀ i, |X i + t * (Y i - X i) - w i * ρ| ≤ ρ / 2 then .miss
  else .nothing

/-- `geoFold` with real numbers. -/
noncomputable def geoFoldReal (nm : LidarNoiseModel F32) (ρ : ℝ) (scans : List ((Fin D → ℝ) × List (Fin D → ℝ)))
    (w : Cell D) (v : F32) : F32 :=
  scans.foldl (fun v s => Seen.apply nm v (geoSeenReal ρ s.1 s.2 w)) v

/-- `ClearSegment` with real numbers, among the world cells: every cell that the segment comes near it also enters. -/
def ClearSegmentReal (X Y : Fin D → ℝ) (ρ tol : ℝ) : Prop :=
  ∀ w : Cell D, (∃ t, 0 ≤ t ∧ t ≤ 1 ∧ ∀ i, |X i + t * (Y i - X i) - w i * ρ| ≤ ρ / 2 + tol) →
    ∃ t, 0 ≤ t ∧ t ≤ 1 ∧ ∀ i, |X i + t * (Y i - X i) - w i * ρ| < ρ / 2 - tol

/-- `ClearRays`, from real numbers known up to `ε` on each axis; `lam` is the range limit. -/
structure ClearRaysReal (N K : ℕ) (ρ lam ε : ℝ) (X : Fin D → ℝ) (pts : List (Fin D → ℝ)) : Prop where
  aims : ∀ Y ∈ pts, AimsReal N K ρ ε X Y
  clear : ∀ Y ∈ pts, ClearSegmentReal X Y ρ (rayTol N K * ρ + ε)
  range : ∀ Y ∈ pts, √(sqLen X Y) + 4 * ε + 3 * ρ ≤ lam * (1 - 1 / 2 ^ 20)

/-- `LowestFirst`, from real numbers known up to `ε` on each axis; the recordings are those for which `mem` holds, and
`first` are the points of the first one. -/
structure LowestFirstReal (T : ℕ) (ρ ε : ℝ) (mem : ℕ → Prop) (pts : ℕ → List (Fin D → ℝ)) (first : List (Fin D → ℝ))
    (k : Fin D → ℤ) : Prop where
  origin : ∀ i, k i ≤ 0
  above : ∀ r, mem r → ∀ Y ∈ pts r, ∀ i, k i * T * ρ + ε ≤ Y i
  reached : ∀ i, k i = 0 ∨ ∃ Y ∈ first, Y i + ε < ((k i + 1) * T - 1 / 8) * ρ

end Verif.Spec
