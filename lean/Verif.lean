import Verif.Model.Basic
import Verif.Model.World
import Verif.Spec.World
import Verif.Lemmas.World
import Verif.Props.Agent
import Verif.Props.World
import Verif.Model.Heap
import Verif.Spec.Heap
import Verif.Props.Heap
import Verif.Model.Sensed
import Verif.Props.Sensed
import Verif.Model.Angle
import Verif.Spec.Angle
import Verif.Props.Angle
import Verif.Model.FrontRear
import Verif.Spec.FrontRear
import Verif.Props.FrontRear
import Verif.Props.FrontRearNone
import Verif.Model.ShapeExt
import Verif.Spec.ShapeExt
import Verif.Props.ShapeExt
import Verif.Model.Interpolate
import Verif.Spec.Interpolate
import Verif.Props.Interpolate
import Verif.Model.StaticTraj
import Verif.Props.StaticTraj
import Verif.Model.Num
import Verif.Model.Idm
import Verif.Spec.Idm
import Verif.Props.Idm
import Verif.Props.IdmCool
import Verif.Model.Dynamics
import Verif.Props.Dynamics
import Verif.Model.Line
import Verif.Spec.Line
import Verif.Props.Line
import Verif.Model.Roadgraph
import Verif.Spec.Roadgraph
import Verif.Spec.RoadPath
import Verif.Props.Roadgraph
import Verif.Props.RoadLinks
import Verif.Props.RoadExamples
import Verif.Props.RoadPath
import Verif.Props.RoadNeighbors
import Verif.Model.Corridor
import Verif.Spec.Corridor
import Verif.Props.Corridor
import Verif.Props.CorridorPart
import Verif.Props.CorridorLinks
import Verif.Props.CorridorQuery
import Verif.Model.Params
import Verif.Spec.Params
import Verif.Props.Params
import Verif.Props.ParamsList
import Verif.Model.PlanView
import Verif.Spec.PlanView
import Verif.Props.PlanView
import Verif.Props.Goals
import Verif.Props.GoalLimits
import Verif.Props.GoalOutline
import Verif.Props.LineOps
import Verif.Props.Evaluators
import Verif.Props.Ltl
import Verif.Props.SafeDistance
import Verif.Props.SafeDistUnused
import Verif.Props.LaneChange
import Verif.Props.Mobil
import Verif.Props.Intersection
import Verif.Model.Stochastic
import Verif.Spec.Stochastic
import Verif.Props.Stochastic
import Verif.Model.Prediction
import Verif.Spec.Prediction
import Verif.Props.Prediction
import Verif.Model.Observer
import Verif.Props.Observer
import Verif.Model.Primitives
import Verif.Spec.Primitives
import Verif.Props.Primitives
import Verif.Model.ActionDriven
import Verif.Props.ActionDriven
import Verif.Model.Ids
import Verif.Spec.Ids
import Verif.Props.Ids
import Verif.Model.Rss
import Verif.Spec.Rss
import Verif.Props.Rss
import Verif.Props.RssLimits
import Verif.Model.PyConv
import Verif.Spec.PyConv
import Verif.Props.PyConv
import Verif.Model.Pickle
import Verif.Spec.Pickle
import Verif.Props.Pickle
import Verif.Model.Labels
import Verif.Spec.Labels
import Verif.Props.Labels
import Verif.Model.Frenet
import Verif.Spec.Frenet
import Verif.Props.Frenet
import Verif.Model.MapIf
import Verif.Spec.MapIf
import Verif.Props.MapIf
import Verif.Props.MapLoad
import Verif.Model.Bench
import Verif.Spec.Bench
import Verif.Props.Bench
import Verif.Props.BenchStore
import Verif.Props.BenchRun
import Verif.Props.BenchResume
import Verif.Props.BenchLoad
import Verif.Model.PServer
import Verif.Spec.PServer
import Verif.Props.PServer
import Verif.Props.PServerSet
import Verif.Props.PServerDict
import Verif.Props.PServerMerge
import Verif.Props.PServerList
import Verif.Props.PServerEx
import Verif.Model.ScenGen
import Verif.Model.Overlap
import Verif.Spec.ScenGen
import Verif.Spec.Overlap
import Verif.Props.ScenGen
import Verif.Props.ScenGenGoal
import Verif.Props.Overlap
import Verif.Props.OverlapDraws
import Verif.Model.Dataset
import Verif.Model.Window
import Verif.Spec.Dataset
import Verif.Spec.Window
import Verif.Props.Dataset
import Verif.Props.DatasetGen
import Verif.Props.Window
import Verif.Model.RssEval
import Verif.Spec.RssEval
import Verif.Props.RssEval
import Verif.Props.SafetyPolygon
import Verif.Model.Runtime
import Verif.Spec.Runtime
import Verif.Props.Runtime
import Verif.Props.Runtime2
import Verif.Props.Runtime3
import Verif.Model.Shape
import Verif.Spec.Shape
import Verif.Props.Shape
import Verif.Props.Shape2
import Verif.Model.LaneLine
import Verif.Spec.LaneLine
import Verif.Props.LaneLine
import Verif.Model.Xodr
import Verif.Spec.Xodr
import Verif.Props.Xodr
import Verif.Props.Xodr2
import Verif.Model.Analyzer
import Verif.Spec.Analyzer
import Verif.Props.Analyzer
import Verif.Props.Analyzer2
import Verif.Model.Placement
import Verif.Model.Conversion
import Verif.Spec.Placement
import Verif.Spec.Conversion
import Verif.Props.Placement
import Verif.Props.Placement2
import Verif.Props.Placement3
import Verif.Props.Conversion
import Verif.Props.ConstAcc
import Verif.Props.ConstAcc2
import Verif.Model.SafeArea
import Verif.Spec.SafeArea
import Verif.Props.SafeArea
import Verif.Model.ClosedLoop
import Verif.Spec.ClosedLoop
import Verif.Props.ClosedLoop
import Verif.Props.ClosedLoop2
import Verif.Props.ClosedLoop3
import Verif.Model.IdmLeader
import Verif.Spec.IdmLeader
import Verif.Props.IdmLeader
import Verif.Model.Viewer
import Verif.Spec.Viewer
import Verif.Props.Viewer
import Verif.Props.Viewer2
import Verif.Props.Viewer3
import Verif.Spec.PickleGeo
import Verif.Props.PickleGeo
import Verif.Spec.Multivariate
import Verif.Props.Multivariate
import Verif.Spec.Readers
import Verif.Props.Readers
import Verif.Props.Readers2
import Verif.Model.Spiral
import Verif.Spec.Spiral
import Verif.Props.Spiral
import Verif.Props.Spiral2
import Verif.Props.Fresnel
import Verif.Props.Fresnel2
import Verif.Props.Fresnel3
import Verif.Props.Fresnel4
import Verif.Props.Fresnel5
import Verif.Props.Fresnel6
import Verif.Props.Fresnel7
import Verif.Model.Steering
import Verif.Spec.Steering
import Verif.Props.Steering
import Verif.Props.Steering2
import Verif.Spec.Concat
import Verif.Props.Concat
import Verif.Props.Bounds
import Verif.Props.Follow
import Verif.Props.PickPlane
import Verif.Props.Platoon
import Verif.Props.TrafficRun
import Verif.Props.TrafficFront
import Verif.Props.TrafficFlow
import Verif.Props.GoalFlow
import Verif.Props.GoalRun
import Verif.Props.RoadArea
import Verif.Props.RssWorld
import Verif.Props.Rigid
import Verif.Props.RigidDrive
import Verif.Props.RigidBox
import Verif.Props.TrafficEval
import Verif.Props.AddOrder
import Verif.Props.LaterTraffic
import Verif.Props.TrafficAhead
import Verif.Props.SourceSink
import Verif.Spec.Lanes
import Verif.Props.Lanes
import Verif.Props.LanesRun
import Verif.Model.Mixed
import Verif.Spec.Mixed
import Verif.Props.Mixed
import Verif.Props.MixedRun
import Verif.Model.ReplayMixed
import Verif.Spec.ReplayMixed
import Verif.Props.ReplayMixed
import Verif.Props.ReplayAnyone
import Verif.Spec.Rename
import Verif.Props.Rename
import Verif.Props.RenameTraffic
import Verif.Model.TrackLimits
import Verif.Spec.TrackLimits
import Verif.Props.TrackLimits
import Verif.Model.ConstTraffic
import Verif.Spec.ConstTraffic
import Verif.Props.ConstTraffic
import Verif.Props.ReplayLong
import Verif.Spec.MixedLong
import Verif.Props.MixedLong
