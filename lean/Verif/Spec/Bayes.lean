import Verif.Spec.OccMap
import Mathlib.Analysis.SpecialFunctions.Log.Basic

/-!
# Specification vocabulary: occupancy as a probability
-/

namespace Verif.Spec

/-- Bayes' rule for a state with two values: the probability of "occupied" after an observation that happens
with probability `a` if the cell is occupied and `b` if it is free, where it was `p` before. -/
noncomputable def posterior (p a b : ℝ) : ℝ := p * a / (p * a + (1 - p) * b)

/-- The parameters of a sensor, as probabilities: `hit` and `miss` are the probabilities of "occupied" that a
hit or a miss alone suggests, starting from one half. -/
structure Sensor where
  hit : ℝ
  miss : ℝ
  min : ℝ
  max : ℝ
  threshold : ℝ

/-- All parameters are strictly between 0 and 1. -/
structure Sensor.Proper (s : Sensor) : Prop where
  hit : 0 < s.hit ∧ s.hit < 1
  miss : 0 < s.miss ∧ s.miss < 1
  min : 0 < s.min ∧ s.min < 1
  max : 0 < s.max ∧ s.max < 1
  threshold : 0 < s.threshold ∧ s.threshold < 1

/-- The probability of "occupied" after an observation: Bayes' rule, limited above after a hit and below after
a miss. -/
noncomputable def Sensor.update (s : Sensor) (p : ℝ) : Seen → ℝ
  | .hit => Min.min (posterior p s.hit (1 - s.hit)) s.max
  | .miss => Max.max (posterior p s.miss (1 - s.miss)) s.min
  | .nothing => p

/-- The logarithm of the odds. -/
noncomputable def logOdds (p : ℝ) : ℝ := Real.log (p / (1 - p))

/-- Does the observation tell anything? -/
def Seen.tells : Seen → Bool
  | .hit => true
  | .miss => true
  | .nothing => false

/-- What the scans of a run tell about a world cell, one after the other. -/
noncomputable def observations {D : ℕ} {F : Type} [Scalar F] (nm : LidarNoiseModel F)
    (hist : List (OccupancyGridMap D F × Point D F × PointCloud D F)) (w : Cell D) : List Seen :=
  hist.map fun s => seen s.2.1 s.2.2 s.1.gridMap.bounds s.1.gridMap.resolution nm.maxRange
    (localCell s.1.gridMap w)

/-- The finite f32 value is within `η` of the log-odds of `p`, and at most `B` in magnitude. -/
def NearOdds (x : F32) (p η : ℝ) (B : ℚ) : Prop := ∃ q, x.Is q ∧ |(q : ℝ) - logOdds p| ≤ η ∧ |q| ≤ B

/-- The f32 noise model holds the log-odds of the parameters of the sensor, within `η`. -/
structure NearSensor (nm : LidarNoiseModel F32) (s : Sensor) (η : ℝ) (B : ℚ) : Prop where
  hit : NearOdds nm.hit s.hit η B
  miss : NearOdds nm.miss s.miss η B
  min : NearOdds nm.min s.min η B
  max : NearOdds nm.max s.max η B
  threshold : NearOdds nm.threshold s.threshold η B

/-- The default parameters (`src/map/lidar_noise_model.rs:11-16`). -/
noncomputable def defaultSensor : Sensor := ⟨7 / 10, 4 / 10, 1192 / 10000, 971 / 1000, 1 / 2⟩

end Verif.Spec
