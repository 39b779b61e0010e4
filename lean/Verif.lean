import Verif.Model.Base
import Verif.Model.GridMath
import Verif.Model.CostMap
import Verif.Model.Iterators
import Verif.Model.Line
import Verif.Model.Spiral
import Verif.Spec.Geometry
import Verif.Spec.Iteration
import Verif.Spec.Ring
import Verif.Lemmas.Mat
import Verif.Lemmas.Index
import Verif.Lemmas.Geometry
import Verif.Lemmas.Store
import Verif.Lemmas.Access
import Verif.Lemmas.Iteration
import Verif.Lemmas.Shapes
import Verif.Lemmas.Box
import Verif.Lemmas.Polygon
import Verif.Lemmas.Line
import Verif.Lemmas.Ring
import Verif.Lemmas.Spiral
import Verif.Props.Demo
import Verif.Props.Container
import Verif.Props.Geometry
import Verif.Props.Iterators
import Verif.Props.EllipseReal
import Verif.Props.Line
import Verif.Props.Spiral
import Verif.Model.Submap
import Verif.Spec.Move
import Verif.Lemmas.Move
import Verif.Lemmas.Submap
import Verif.Props.Move
import Verif.Spec.Submap
import Verif.Props.Submap
import Verif.Model.SharedIterators
import Verif.Props.Copies
import Verif.Model.Merge
import Verif.Spec.Merge
import Verif.Lemmas.Merge
import Verif.Lemmas.Extend
import Verif.Props.Merge
import Verif.Spec.Interpolation
import Verif.Props.Interpolation
import Verif.Model.Inflation
import Verif.Spec.Inflation
import Verif.Lemmas.Inflation
import Verif.Lemmas.InflationRun
import Verif.Lemmas.InflationUse
import Verif.Lemmas.InflationGap
import Verif.Lemmas.Deflate
import Verif.Props.InflationDemo
import Verif.Props.Inflation
import Verif.Props.Deflate
import Verif.Model.Float
import Verif.Spec.Float
import Verif.Lemmas.Float
import Verif.Model.Message
import Verif.Spec.Message
import Verif.Lemmas.Message
import Verif.Props.Message
import Verif.Model.Occupancy
import Verif.Spec.Occupancy
import Verif.Lemmas.Occupancy
import Verif.Props.Occupancy
import Verif.Props.GridMap
import Verif.Model.Image
import Verif.Spec.Image
import Verif.Lemmas.Image
import Verif.Props.Image
import Verif.Model.Bundle
import Verif.Lemmas.Bundle
import Verif.Props.Bundle
import Verif.Model.Costmap2D
import Verif.Spec.Costmap2D
import Verif.Spec.Crash
import Verif.Lemmas.Costmap2D
import Verif.Props.Costmap2D
import Verif.Model.Nodes
import Verif.Spec.Nodes
import Verif.Lemmas.Nodes
import Verif.Props.Nodes
import Verif.Lemmas.Load
import Verif.Model.Crash
import Verif.Props.Load
import Verif.Props.Crash
import Verif.Props.Streams
import Verif.Model.History
import Verif.Spec.History
import Verif.Lemmas.History
import Verif.Props.History
import Verif.Spec.Safety
import Verif.Lemmas.Safety
import Verif.Props.Safety
import Verif.Model.Rounded
import Verif.Spec.Rounded
import Verif.Lemmas.Rounded
import Verif.Props.Rounded
import Verif.Props.RoundedMove
import Verif.Model.RoundedMerge
import Verif.Spec.RoundedMerge
import Verif.Lemmas.RoundedMerge
import Verif.Lemmas.RoundedExtend
import Verif.Props.RoundedMerge
import Verif.Model.RoundedSubmap
import Verif.Spec.RoundedSubmap
import Verif.Lemmas.RoundedSubmap
import Verif.Props.RoundedSubmap
import Verif.Model.Machine
import Verif.Model.MachineShapes
import Verif.Spec.Machine
import Verif.Lemmas.Machine
import Verif.Props.Machine
import Verif.Props.MachineShapes
import Verif.Model.RoundedShapes
import Verif.Spec.RoundedShapes
import Verif.Lemmas.RoundedShapes
import Verif.Props.RoundedShapes
import Verif.Model.MachineSpiral
import Verif.Spec.MachineSpiral
import Verif.Lemmas.MachineSpiral
import Verif.Props.MachineSpiral
import Verif.Model.Demos
import Verif.Spec.Demos
import Verif.Lemmas.Demos
import Verif.Props.Demos
import Verif.Model.Broadcaster
import Verif.Spec.Broadcaster
import Verif.Lemmas.Broadcaster
import Verif.Props.Broadcaster
import Verif.Model.Locking
import Verif.Spec.Locking
import Verif.Lemmas.Locking
import Verif.Props.Locking
import Verif.Model.Programs
import Verif.Spec.Programs
import Verif.Lemmas.Programs
import Verif.Props.Programs
import Verif.Props.MoveExact
import Verif.Props.Exact
import Verif.Props.DeflateExact
import Verif.Props.MergeExact
import Verif.Props.ExtendExact
import Verif.Spec.InflationHistory
import Verif.Props.InflationHistory
import Verif.Props.InflationClear
import Verif.Props.MoveMissing
import Verif.Props.InterpolationOutside
import Verif.Model.RoundedInterpolation
import Verif.Spec.RoundedInterpolation
import Verif.Lemmas.RoundedInterpolation
import Verif.Props.RoundedInterpolation
import Verif.Props.IteratorsExact
import Verif.Props.LineExact
import Verif.Model.Tools
import Verif.Spec.Tools
import Verif.Props.Tools
import Verif.Model.Ieee
import Verif.Spec.Ieee
import Verif.Lemmas.Ieee
import Verif.Props.Ieee
import Verif.Model.InflationFloat
import Verif.Spec.InflationFloat
import Verif.Props.InflationFloat
import Verif.Spec.Streams
import Verif.Props.StreamsExact
import Verif.Model.MachineLine
import Verif.Spec.MachineLine
import Verif.Lemmas.MachineLine
import Verif.Props.MachineLine
import Verif.Model.MachineMerge
import Verif.Lemmas.MachineMerge
import Verif.Props.MachineMerge
import Verif.Model.MachineInterpolation
import Verif.Props.MachineInterpolation
import Verif.Model.MachineInflation
import Verif.Spec.MachineInflation
import Verif.Lemmas.MachineInflation
import Verif.Props.MachineInflation
import Verif.Model.RoundedConversions
import Verif.Spec.RoundedConversions
import Verif.Lemmas.RoundedConversions
import Verif.Props.RoundedConversions
import Verif.Model.RoundedCostmap2D
import Verif.Spec.RoundedCostmap2D
import Verif.Lemmas.RoundedCostmap2D
import Verif.Props.RoundedCostmap2D
import Verif.Model.AnyBundle
import Verif.Spec.AnyBundle
import Verif.Lemmas.AnyBundle
import Verif.Props.AnyBundle
import Verif.Model.YamlCrash
import Verif.Spec.YamlCrash
import Verif.Props.YamlCrash
import Verif.Model.RosInflation
import Verif.Props.RosInflation
import Verif.Model.MachineHistory
import Verif.Spec.MachineHistory
import Verif.Lemmas.MachineHistory
import Verif.Props.MachineHistory
import Verif.Props.SubmapEdit
import Verif.Model.Loops
import Verif.Spec.Loops
import Verif.Props.Loops
import Verif.Spec.Relocate
import Verif.Lemmas.Relocate
import Verif.Props.Relocate
import Verif.Model.Aliasing
import Verif.Props.Aliasing
import Verif.Model.References
import Verif.Spec.References
import Verif.Props.References
import Verif.Model.MachineCostmap2D
import Verif.Lemmas.MachineCostmap2D
import Verif.Props.MachineCostmap2D
import Verif.Props.CostmapHistory
import Verif.Model.MachineConversions
import Verif.Props.MachineConversions
import Verif.Model.Accumulate
import Verif.Spec.Accumulate
import Verif.Props.Accumulate
import Verif.Model.MachineBundle
import Verif.Spec.MachineBundle
import Verif.Props.MachineBundle
import Verif.Model.Mapping
import Verif.Spec.Mapping
import Verif.Props.Mapping
import Verif.Model.RemoteCopy
import Verif.Spec.RemoteCopy
import Verif.Props.RemoteCopy
import Verif.Model.WayCheck
import Verif.Spec.WayCheck
import Verif.Props.WayCheck
import Verif.Model.MachineWay
import Verif.Spec.MachineWay
import Verif.Lemmas.NearWay
import Verif.Props.MachineWay
import Verif.Model.Rebase
import Verif.Spec.Rebase
import Verif.Props.Rebase
import Verif.Props.MachineRebase
import Verif.Model.PlaceCheck
import Verif.Spec.PlaceCheck
import Verif.Props.PlaceCheck
import Verif.Props.MachinePlace
import Verif.Props.InflateTwice
import Verif.Model.Footprint
import Verif.Props.Footprint
import Verif.Model.MachineFootprint
import Verif.Props.MachineFootprint
import Verif.Model.Window
import Verif.Model.MachineWindow
import Verif.Spec.Window
import Verif.Props.Window
import Verif.Props.MachineWindow
import Verif.Model.Fusion
import Verif.Props.Fusion
import Verif.Model.MachineFusion
import Verif.Props.MachineFusion
import Verif.Model.SavedPlan
import Verif.Props.SavedPlan
import Verif.Model.RosPlan
import Verif.Spec.RosPlan
import Verif.Props.RosPlan
import Verif.Model.TopicPlan
import Verif.Spec.TopicPlan
import Verif.Props.TopicPlan
import Verif.Model.GridPlan
import Verif.Spec.GridPlan
import Verif.Props.GridPlan
import Verif.Props.MachineComplete
import Verif.Props.MachineCompletePlan
import Verif.Props.MachineCompleteWindow
import Verif.Props.FusionComplete
