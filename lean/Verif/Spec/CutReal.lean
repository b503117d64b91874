import Verif.Spec.Cut
import Verif.Spec.Picture

/-!
# Specification vocabulary: what geometry tells about a place if the sensor's range is limited, with real numbers
-/

namespace Verif.Spec

variable {D : ℕ}

/-- `Holds` with real numbers. -/
def HoldsReal (ρ : ℝ) (w : Cell D) (Y : Fin D → ℝ) : Prop := ∀ i, |Y i - w i * ρ| ≤ ρ / 2

/-- `InsideAt` with real numbers. -/
def InsideAtReal (ρ : ℝ) (X Y : Fin D → ℝ) (t : ℝ) (w : Cell D) : Prop :=
  0 ≤ t ∧ t ≤ 1 ∧ ∀ i, |X i + t * (Y i - X i) - w i * ρ| < ρ / 2

/-- `Blocked` with real numbers: on the way from `X` to `Y`, up to the share `t`, there is a cell other than those of
`X` and `Y` whose centre is farther from `X` than `lam`. -/
def BlockedReal (lam ρ : ℝ) (X Y : Fin D → ℝ) (t : ℝ) : Prop :=
  ∃ u s, s ≤ t ∧ InsideAtReal ρ X Y s u ∧ ¬ HoldsReal ρ u X ∧ ¬ HoldsReal ρ u Y ∧ lam < √(sqLen X fun i => u i * ρ)

open Classical in
/-- `geoUpTo` with real numbers: a hit if a point lies in the closed cell and the way to it is not blocked, else a miss
if the way to some point leads through the inside of the cell and is not blocked up to there, else nothing. -/
noncomputable def geoUpToReal (lam ρ : ℝ) (X : Fin D → ℝ) (pts : List (Fin D → ℝ)) (w : Cell D) : Seen :=
  if ∃ Y ∈ pts, HoldsReal ρ w Y ∧ ¬ BlockedReal lam ρ X Y 1 then .hit
  else if ∃ Y ∈ pts, ∃ t, InsideAtReal ρ X Y t w ∧ ¬ BlockedReal lam ρ X Y t then .miss
  else .nothing

/-- `cutFold` with real numbers. -/
noncomputable def cutFoldReal (nm : LidarNoiseModel F32) (lam ρ : ℝ) (scans : List ((Fin D → ℝ) × List (Fin D → ℝ)))
    (w : Cell D) (v : F32) : F32 :=
  scans.foldl (fun v s => Seen.apply nm v (geoUpToReal lam ρ s.1 s.2 w)) v

/-- `CutRays`, from real numbers known up to `ε` on each axis; `lam` is the range limit. -/
structure CutRaysReal (N K : ℕ) (ρ lam ε : ℝ) (X : Fin D → ℝ) (pts : List (Fin D → ℝ)) : Prop where
  aims : ∀ Y ∈ pts, AimsReal N K ρ ε X Y
  clear : ∀ Y ∈ pts, ClearSegmentReal X Y ρ (rayTol N K * ρ + ε)
  off_limit : ∀ Y ∈ pts, ∀ u t, InsideAtReal ρ X Y t u → ¬ HoldsReal ρ u X → ¬ HoldsReal ρ u Y →
    √(sqLen X fun i => u i * ρ) + (26 * N + 32) / 2 ^ 24 * ρ + 2 * ε ≤ lam * (1 - 1 / 2 ^ 20) ∨
      lam * (1 + 1 / 2 ^ 20) + (26 * N + 32) / 2 ^ 24 * ρ + 2 * ε < √(sqLen X fun i => u i * ρ)

end Verif.Spec
