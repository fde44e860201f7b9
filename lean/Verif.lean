import Verif.Arith
import Verif.Common
import Verif.Input
import Verif.Settings
import Verif.Geo.Model
import Verif.Geo.Props
import Verif.Geometry.Model
import Verif.Geometry.Spec
import Verif.Geometry.Lemmas
import Verif.Geometry.Props
import Verif.StdMap
import Verif.NavGraph.Model
import Verif.NavGraph.Spec
import Verif.NavGraph.Lemmas
import Verif.NavGraph.Props
import Verif.Levels.Model
import Verif.Levels.Lemmas
import Verif.Levels.Props
import Verif.Radio.Model
import Verif.Radio.Spec
import Verif.Radio.Lemmas
import Verif.Radio.Props
import Verif.Position
import Verif.LevelEst.Model
import Verif.LevelEst.HistoryLemmas
import Verif.LevelEst.HistoryProps
import Verif.LevelEst.BarometerProps
import Verif.LevelEst.TransmittersProps
import Verif.Triang.Model
import Verif.Triang.Props
import Verif.Triang.Example
import Verif.Triang.Boundary
import Verif.Triang.DelaunayLemmas
import Verif.Triang.DelaunayRun
import Verif.Triang.DelaunayCover
import Verif.Triang.DelaunayOnce
import Verif.Triang.DelaunayProps
import Verif.Triang.OrderProps
import Verif.Knn.Model
import Verif.Knn.Spec
import Verif.Knn.Lemmas
import Verif.Knn.Props
import Verif.Knn.EstimatorProps
import Verif.Knn.HullProps
import Verif.Estim.Model
import Verif.Estim.Props
import Verif.Estim.FilterProps
import Verif.Smooth.Poly
import Verif.Smooth.PolySpec
import Verif.Smooth.SolverLemmas
import Verif.Smooth.PolyProps
import Verif.Smooth.Model
import Verif.Smooth.AbProps
import Verif.Smooth.TimeProps
import Verif.Smooth.LsProps
import Verif.Post.Model
import Verif.Post.Spec
import Verif.Post.Lemmas
import Verif.Post.Props
import Verif.Post.StopProps
import Verif.Post.ChainSpec
import Verif.Post.ChainProps
import Verif.Trilat.Model
import Verif.Trilat.Spec
import Verif.Trilat.Props
import Verif.Trilat.Altitude
import Verif.Pedo.Model
import Verif.Pedo.Spec
import Verif.Pedo.Lemmas
import Verif.Pedo.Props
import Verif.Pedo.Detect
import Verif.Pedo.Example
import Verif.Fusion.Model
import Verif.Fusion.Spec
import Verif.Fusion.Props
import Verif.Fusion.FusionProps
import Verif.Fusion.OrientSpec
import Verif.Fusion.OrientLemmas
import Verif.Fusion.OrientProps
import Verif.Fusion.MagnProps
import Verif.Fusion.EulerProps
import Verif.Vec.Model
import Verif.Vec.Props
import Verif.Pedo.HoldProps
import Verif.Pedo.BatchProps
import Verif.Standalone.CfModel
import Verif.Standalone.CfProps
import Verif.Nav.Model
import Verif.Nav.Spec
import Verif.Nav.BatchProps
import Verif.Nav.SafetyLemmas
import Verif.Nav.Safety
import Verif.Nav.Trace
import Verif.Nav.Props
import Verif.Nav.StateProps
import Verif.Nav.Memory
import Verif.Nav.Examples
import Verif.Nav.ZoneProps
import Verif.Nav.KnnProps
import Verif.Nav.KnnExample
import Verif.Nav.SensorProps
import Verif.Nav.HoldProps
import Verif.Nav.AltitudeProps
import Verif.Nav.AltitudeRtt
import Verif.Likelihood.Model
import Verif.Likelihood.Spec
import Verif.Likelihood.Props
import Verif.Standalone.TrilatModel
import Verif.Standalone.TrilatSpec
import Verif.Standalone.TrilatProps
import Verif.Standalone.EstimModel
import Verif.Standalone.EstimProps
import Verif.Standalone.RadioModel
import Verif.Standalone.RadioProps
import Verif.MapLoad.Model
import Verif.MapLoad.Spec
import Verif.MapLoad.Lemmas
import Verif.MapLoad.Props
import Verif.MapLoad.FileModel
import Verif.MapLoad.FileProps
import Verif.JsonIn.Model
import Verif.JsonIn.Spec
import Verif.JsonIn.Lemmas
import Verif.JsonIn.Table
import Verif.JsonIn.LogProps
import Verif.JsonIn.SettingsProps
import Verif.Tool.Model
import Verif.Tool.Props
import Verif.Tool.TrackProps
import Verif.Tool.FinishProps
import Verif.Standalone.ProgModel
import Verif.Standalone.ProgProps
import Verif.Pedo.ProgModel
import Verif.Pedo.ProgProps
import Verif.Fusion.Slerp
import Verif.Fusion.RestProps
import Verif.Standalone.CfProgModel
import Verif.Standalone.CfProgProps
import Verif.Fusion.MovingProps
import Verif.Standalone.PendulumModel
import Verif.Standalone.PendulumProps
import Verif.Fp.Model
import Verif.Fp.Lemmas
import Verif.Fp.QuatLemmas
import Verif.Fp.Instance
import Verif.Fp.QuatProps
import Verif.Fp.RestLemmas
import Verif.Fp.RestProps
import Verif.Checked.Ops
import Verif.Checked.Sensors
import Verif.Checked.Radio
import Verif.Checked.Post
import Verif.Checked.Client
import Verif.Checked.OpsLemmas
import Verif.Checked.SensorsLemmas
import Verif.Checked.RadioLemmas
import Verif.Checked.PostLemmas
import Verif.Checked.ClientLemmas
import Verif.Checked.Spec
import Verif.Checked.Props
import Verif.Shift.Props
import Verif.Inertial.Spec
import Verif.Inertial.Lemmas
import Verif.Inertial.Props
import Verif.Floors.Spec
import Verif.Floors.Lemmas
import Verif.Floors.Props
import Verif.Prints.Spec
import Verif.Prints.Lemmas
import Verif.Prints.Props
import Verif.Prints.Example
import Verif.Outdoor.Spec
import Verif.Outdoor.Props
import Verif.Footprint.Spec
import Verif.Footprint.Lemmas
import Verif.Footprint.Props
import Verif.Footprint.GrowProps
import Verif.Smooth.IrregularProps
import Verif.Track.Spec
import Verif.Track.Lemmas
import Verif.Track.Props
import Verif.Track.SettleProps
import Verif.Track.Example
import Verif.Track.FloorsProps
import Verif.Track.FloorsExample
import Verif.Grow.Model
import Verif.Grow.Spec
import Verif.Grow.Lemmas
import Verif.Grow.Props
import Verif.Standalone.TestProgModel
import Verif.Standalone.TestProgProps
import Verif.Pressure.Spec
import Verif.Pressure.Lemmas
import Verif.Pressure.Props
import Verif.Pressure.Idle
import Verif.Pressure.Example
import Verif.Fp.GeoModel
import Verif.Fp.GeoProps
import Verif.Bias.Spec
import Verif.Bias.Lemmas
import Verif.Bias.Client
import Verif.Bias.Props
import Verif.Same.Spec
import Verif.Same.Bare
import Verif.Same.Lemmas
import Verif.Same.Client
import Verif.Same.Props
import Verif.Unread.Spec
import Verif.Unread.Lemmas
import Verif.Unread.Client
import Verif.Unread.Props
import Verif.Trail.Spec
import Verif.Trail.Props
import Verif.Trail.Unique
import Verif.Trail.Example
import Verif.Mixed.Spec
import Verif.Mixed.Lemmas
import Verif.Mixed.Props
import Verif.Mixed.Example
import Verif.Project.Props
import Verif.Project.Example
import Verif.Stand.Spec
import Verif.Stand.Lemmas
import Verif.Stand.Props
import Verif.Stand.AnswerSpec
import Verif.Stand.AnswerLemmas
import Verif.Stand.AnswerProps
import Verif.Stand.Walk
import Verif.Stand.Example
import Verif.Fp.CmModel
import Verif.Fp.CmSpec
import Verif.Fp.CmProps
import Verif.Fp.CmExample
import Verif.Fp.MeanModel
import Verif.Fp.MeanProps
import Verif.Fp.MeanExample
import Verif.Fp.MsProps
import Verif.Fp.ZoneModel
import Verif.Fp.ZoneProps
import Verif.Order.Spec
import Verif.Order.Lemmas
import Verif.Order.Props
import Verif.East.Spec
import Verif.East.Lemmas
import Verif.East.Props
import Verif.East.SeamSpec
import Verif.East.SeamProps
import Verif.Nan.Model
import Verif.Nan.Spec
import Verif.Nan.Props
import Verif.Nan.FixModel
import Verif.Nan.FixSpec
import Verif.Nan.FixProps
import Verif.Nan.BaroModel
import Verif.Nan.BaroSpec
import Verif.Nan.BaroProps
import Verif.Nan.PedoModel
import Verif.Nan.PedoSpec
import Verif.Nan.PedoProps
import Verif.Nan.SmoothModel
import Verif.Nan.SmoothSpec
import Verif.Nan.SmoothProps
import Verif.Nan.HoldModel
import Verif.Nan.HoldSpec
import Verif.Nan.HoldProps
import Verif.Nan.RadioModel
import Verif.Nan.RadioSpec
import Verif.Nan.RadioProps
import Verif.Smooth.DeadSpec
import Verif.Smooth.DeadProps
import Verif.Unheard.Spec
import Verif.Unheard.Lemmas
import Verif.Unheard.Props
import Verif.Label.Spec
import Verif.Label.Lemmas
import Verif.Label.Places
import Verif.Label.Props
import Verif.Triang.UniqueProps
import Verif.Knn.RefOrderProps
import Verif.Knn.RefClientProps
import Verif.Knn.RefClientExample
import Verif.Tag.Props
import Verif.Fp.AbProps
import Verif.Smooth.FarProps
import Verif.Fp.KnnProps
import Verif.Fp.TimeProps
import Verif.Fp.FuseProps
import Verif.Fp.BaroProps
import Verif.Fp.FloorProps
import Verif.Fp.PrintFloorProps
import Verif.Fp.BestFloorProps
