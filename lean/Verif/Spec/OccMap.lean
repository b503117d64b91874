import Verif.Spec.Noise

/-!
# Specification of the occupancy map: calls of its own methods, and the logarithms of the default model
-/

namespace Verif.Spec

variable {D : ℕ} {F : Type} [Scalar F]

/-- A sequence of calls of `integrate_point_cloud` on an occupancy map, all of which return; each entry
records the occupancy map right after the call, the sensor position and the points. The hash orders may
differ from call to call. -/
inductive OccRuns : OccupancyGridMap D F →
    List (OccupancyGridMap D F × Point D F × PointCloud D F) → OccupancyGridMap D F → Prop
  | done (o) : OccRuns o [] o
  | step {o o1 o' ord fuel origin cloud rest} : IsOrder ord →
      o.integratePointCloud ord fuel origin cloud = .ok o1 → OccRuns o1 rest o' →
      OccRuns o ((o1, origin, cloud) :: rest) o'

/-- What the scans of a run make of the value `v` of the world cell `w`, with noise model `nm`. -/
noncomputable def occFold (nm : LidarNoiseModel F)
    (hist : List (OccupancyGridMap D F × Point D F × PointCloud D F)) (w : Cell D) (v : F) : F :=
  hist.foldl (fun v s => Seen.apply nm v
    (seen s.2.1 s.2.2 s.1.gridMap.bounds s.1.gridMap.resolution nm.maxRange (localCell s.1.gridMap w))) v

/-- The platform's `ln` gives the log-odds the crate's own tests ask for (`src/math.rs:36-40`): at the
odds `p / (1 - p)`, computed in f32, of the five default probabilities. -/
structure TestedLn [Libm F32] : Prop where
  hit : Libm.ln ((Fp.lit 0.7 : F32).div ((Fp.lit 1).sub (Fp.lit 0.7))) = Fp.lit 0.84729785
  miss : Libm.ln ((Fp.lit 0.4 : F32).div ((Fp.lit 1).sub (Fp.lit 0.4))) = Fp.lit (-0.40546516)
  min : Libm.ln ((Fp.lit 0.1192 : F32).div ((Fp.lit 1).sub (Fp.lit 0.1192))) = Fp.lit (-2.000028)
  max : Libm.ln ((Fp.lit 0.971 : F32).div ((Fp.lit 1).sub (Fp.lit 0.971))) = Fp.lit 3.5110312
  threshold : Libm.ln (Fp.lit 1 : F32) = Fp.lit 0

end Verif.Spec
