import Verif.Float.Round
import Verif.Float.Fp
import Verif.Rust
import Verif.Scalar
import Verif.Model.Geom
import Verif.Model.Cloud
import Verif.Model.RayCaster
import Verif.Model.NdArray
import Verif.Model.GridMap
import Verif.Model.NoiseModel
import Verif.Model.Kitti
import Verif.Model.Parse
import Verif.Model.Print
import Verif.Model.Viz
import Verif.Model.VizMap
import Verif.Spec.Boxes
import Verif.Spec.Rays
import Verif.Spec.Range
import Verif.Spec.Grid
import Verif.Lemmas.Order
import Verif.Lemmas.F32
import Verif.Lemmas.Ray
import Verif.Lemmas.Mono
import Verif.Lemmas.Convert
import Verif.Lemmas.NdArray
import Verif.Props.Tiles
import Verif.Props.Bounds
import Verif.Props.Cloud
import Verif.Props.Ray
import Verif.Props.CastRays
import Verif.Props.Convert
import Verif.Props.GridMap
import Verif.Props.Expand
import Verif.Spec.Noise
import Verif.Spec.Kitti
import Verif.Spec.Viz
import Verif.Props.Noise
import Verif.Props.Limits
import Verif.Props.History
import Verif.Props.Math
import Verif.Props.Kitti
import Verif.Props.Viz
import Verif.Props.VizRuns
import Verif.Props.VizMap
import Verif.Props.VizWitness
import Verif.Lemmas.Path
import Verif.Spec.Segment
import Verif.Props.RayExact
import Verif.Lemmas.Sqrt
import Verif.Spec.RayRange
import Verif.Lemmas.RayF32
import Verif.Lemmas.RaySteps
import Verif.Spec.Run
import Verif.Props.RayF32
import Verif.Lemmas.NonFinite
import Verif.Props.RayLimit
import Verif.Props.RayNonFinite
import Verif.Replay
import Verif.Spec.Scan
import Verif.Props.NoPanic
import Verif.Props.Edge
import Verif.Spec.Follows
import Verif.Props.RayNear
import Verif.Props.ScanMarks
import Verif.Model.Pose
import Verif.Model.VizMain
import Verif.Spec.Rigid
import Verif.Lemmas.NearReal
import Verif.Props.Pose
import Verif.Props.VizMain
import Verif.Props.Resized
import Verif.Spec.Trait
import Verif.Props.Trait
import Verif.Props.ScanSet
import Verif.Spec.Mirror
import Verif.Lemmas.Mirror
import Verif.Props.Mirror
import Verif.Spec.Repeat
import Verif.Props.Repeat
import Verif.Spec.Order
import Verif.Props.Order
import Verif.Spec.Distance
import Verif.Lemmas.Distance
import Verif.Props.RangeLimit
import Verif.Spec.Playback
import Verif.Props.Playback
import Verif.Spec.Session
import Verif.Props.Session
import Verif.Props.OccMap
import Verif.Props.RayWide
import Verif.Props.Bayes
import Verif.Props.Recent
import Verif.Props.Disc
import Verif.Props.Odds
import Verif.Spec.Gps
import Verif.Props.Gps
import Verif.Model.Approx
import Verif.Props.Approx
import Verif.Props.ScanLimit
import Verif.Props.Parse
import Verif.Props.Text
import Verif.Props.Names
import Verif.Props.Print
import Verif.Props.Folder
import Verif.Spec.Obstacle
import Verif.Props.Obstacle
import Verif.Spec.Alive
import Verif.Props.Alive
import Verif.Props.Fair
import Verif.Model.VizWeak
import Verif.Spec.Weak
import Verif.Props.Weak
import Verif.Spec.Clear
import Verif.Props.RaySame
import Verif.Props.ScanExact
import Verif.Spec.Release
import Verif.Model.Release
import Verif.Props.Release
import Verif.Spec.Motion
import Verif.Props.Motion
import Verif.Spec.HashOrder
import Verif.Props.HashOrder
import Verif.Spec.Lowest
import Verif.Props.Lowest
import Verif.Spec.Geometric
import Verif.Props.Geometric
import Verif.Spec.Picture
import Verif.Props.Picture
import Verif.Spec.Machine
import Verif.Props.Machine
import Verif.Spec.Cost
import Verif.Props.Cost
import Verif.Spec.Measured
import Verif.Props.Measured
import Verif.Spec.Heal
import Verif.Props.Heal
import Verif.Spec.Ieee
import Verif.Props.Ieee
import Verif.Model.Frame
import Verif.Spec.Frame
import Verif.Props.Frame
import Verif.Spec.Scale
import Verif.Lemmas.Scale
import Verif.Lemmas.ScaleRay
import Verif.Lemmas.ScaleMap
import Verif.Props.Scale
import Verif.Spec.Flat
import Verif.Lemmas.Flat
import Verif.Props.Flat
import Verif.Spec.Bad
import Verif.Props.Bad
import Verif.Props.BadInf
import Verif.Props.BadViz
import Verif.Props.BadFile
import Verif.Spec.Lost
import Verif.Props.Lost
import Verif.Props.LostViz
import Verif.Props.LostFile
import Verif.Spec.Wrong
import Verif.Props.Wrong
import Verif.Props.WrongFile
import Verif.Model.Memory
import Verif.Spec.Memory
import Verif.Spec.MemoryViz
import Verif.Props.Memory
import Verif.Props.MemoryViz
import Verif.Props.MemoryFile
import Verif.Spec.First
import Verif.Props.FirstViz
import Verif.Props.First
import Verif.Props.FirstFile
import Verif.Props.Witness
import Verif.Spec.Nearer
import Verif.Props.Nearer
import Verif.Spec.Cut
import Verif.Props.Cut
import Verif.Props.CutMoves
import Verif.Spec.CutReal
import Verif.Props.CutReal
import Verif.Spec.Longer
import Verif.Props.Longer
import Verif.Spec.Settle
import Verif.Props.Settle
import Verif.Props.Onward
import Verif.Spec.Higher
import Verif.Props.Higher
import Verif.Props.Endless
import Verif.Props.Stray
import Verif.Props.Outlier
import Verif.Spec.OneRecord
import Verif.Props.OneRecord
import Verif.Spec.Noisy
import Verif.Props.Noisy
import Verif.Spec.Split
import Verif.Props.Split
import Verif.Spec.Extent
import Verif.Props.Extent
import Verif.Spec.Coarser
import Verif.Props.Coarser
import Verif.Spec.Sure
import Verif.Props.Sure
import Verif.Props.TileSize
import Verif.Props.FarScene
import Verif.Spec.Piece
import Verif.Props.Piece
import Verif.Spec.Own
import Verif.Props.Own
import Verif.Spec.Evidence
import Verif.Props.Evidence
import Verif.Spec.Few
import Verif.Props.Few
import Verif.Spec.Zero
import Verif.Props.Zero
import Verif.Audit
