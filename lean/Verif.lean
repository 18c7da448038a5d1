import Verif.Lemmas.GivesAt
import Verif.Lemmas.ParentChild
import Verif.Props.Registry
import Verif.Props.Lookup
import Verif.Props.Frames
import Verif.Props.Transform
import Verif.Props.TransformQuat
import Verif.Props.TransformLaws
import Verif.Props.TransformMore
import Verif.Props.TransformStatic
import Verif.Props.Axes
import Verif.Props.Quaternions
import Verif.Props.QuatBroadcast
import Verif.Props.Mean
import Verif.Props.MeanAxis
import Verif.Props.Euler
import Verif.Props.Coords
import Verif.Props.Plumbing
import Verif.Props.CoordSystems
import Verif.Props.TopLevel
import Verif.Props.Clock
import Verif.Lemmas.Kinematics
import Verif.Lemmas.Match
import Verif.Props.Velocity
import Verif.Props.Outliers
import Verif.Props.Angular
import Verif.Props.VelocityLookup
import Verif.Lemmas.VelMatch
import Verif.Lemmas.Example3
import Verif.Props.VelocityTransform
import Verif.Props.LinearTransform
import Verif.Props.VelocityExamples
import Verif.Lemmas.Example4
import Verif.Props.TwistExact
import Verif.Props.ExamplesVelocity
import Verif.Lemmas.SO3
import Verif.Lemmas.Fit
import Verif.Lemmas.Reshape
import Verif.Lemmas.FitExists
import Verif.Lemmas.Icp
import Verif.Props.BestFit
import Verif.Props.FitTransform
import Verif.Props.Icp
import Verif.Lemmas.ShortestArc
import Verif.Props.Relabel
import Verif.Props.ShortestArc
import Verif.Props.ShortestArcBroadcast
import Verif.Props.VelocityTop
import Verif.Model.RosMsg
import Verif.Model.RosBroadcaster
import Verif.Model.RosVisualization
import Verif.Model.RosPlay
import Verif.Spec.Ros
import Verif.Spec.Marker
import Verif.Props.RosMsg
import Verif.Props.Broadcaster
import Verif.Props.BroadcasterEvents
import Verif.Props.Play
import Verif.Props.Markers
import Verif.Model.RosIo
import Verif.Model.RosSession
import Verif.Model.Tree
import Verif.Model.RosTransformer
import Verif.Spec.RosIo
import Verif.Spec.RosSession
import Verif.Spec.Tf
import Verif.Lemmas.Tree
import Verif.Lemmas.Tf
import Verif.Props.NetCdf
import Verif.Props.Rosbag
import Verif.Props.RosbagTopics
import Verif.Props.Cache
import Verif.Props.Session
import Verif.Props.SessionCache
import Verif.Props.SessionExamples
import Verif.Props.SessionWriters
import Verif.Props.Transformer
import Verif.Lemmas.TfTree
import Verif.Props.TransformerLookup
import Verif.Spec.Outline
import Verif.Props.RenderTree
import Verif.Model.Lookups
import Verif.Spec.Lookups
import Verif.Lemmas.Compose
import Verif.Props.LookupTop
import Verif.Props.StaticArrays
import Verif.Props.LookupVelocity
import Verif.Props.LookupExamples
import Verif.Props.MoreExamples
import Verif.Props.ExamplesLookup
import Verif.Props.Qinterp
import Verif.Props.Optitrack
import Verif.Model.Plotting
import Verif.Spec.Plotting
import Verif.Props.Rotations
import Verif.Props.Broadcast
import Verif.Props.Shutdown
import Verif.Props.Node
import Verif.Props.TestMotion
import Verif.Props.Plotting
import Verif.Model.Constructors
import Verif.Spec.Constructors
import Verif.Props.Constructors
import Verif.Model.Gaps
import Verif.Spec.Gaps
import Verif.Lemmas.Gaps
import Verif.Lemmas.GapsAgree
import Verif.Props.Gaps
import Verif.Props.GapsLinear
import Verif.Props.GapsOutliers
import Verif.Props.GapsExamples
import Verif.Spec.Locality
import Verif.Spec.Selection
import Verif.Props.Locality
import Verif.Props.Selection
import Verif.Props.Units
import Verif.Props.PlainArrays
import Verif.Model.Rounding
import Verif.Spec.Rounding
import Verif.Lemmas.Rounding
import Verif.Props.Rounding
import Verif.Lemmas.RoundingArr
import Verif.Props.RoundingArrays
import Verif.Props.RoundingOrder
import Verif.Model.Heap
import Verif.Spec.Memory
import Verif.Lemmas.Heap
import Verif.Lemmas.HeapFrames
import Verif.Lemmas.HeapOps
import Verif.Lemmas.HeapState
import Verif.Lemmas.HeapTransform
import Verif.Lemmas.HeapRegister
import Verif.Lemmas.HeapCommute
import Verif.Props.Heap
import Verif.Lemmas.AxisSame
import Verif.Lemmas.AxisTransform
import Verif.Props.AxisSpelling
import Verif.Props.AxisSpellingMore
import Verif.Model.Datetime
import Verif.Spec.Datetime
import Verif.Lemmas.Datetime
import Verif.Props.Datetime
import Verif.Props.LastExamples
import Verif.Spec.Equivalent
import Verif.Lemmas.Equivalent
import Verif.Lemmas.SameView
import Verif.Lemmas.Example5
import Verif.Props.Equivalent
import Verif.Props.EquivalentTransforms
import Verif.Props.EquivalentExamples
import Verif.Lemmas.Single
import Verif.Props.Single
import Verif.Props.SingleExamples
import Verif.Model.RosThreads
import Verif.Spec.Threads
import Verif.Lemmas.Threads
import Verif.Props.Threads
import Verif.Props.ThreadsCalls
import Verif.Props.ThreadsExamples
import Verif.Model.MarkerThreads
import Verif.Spec.MarkerThreads
import Verif.Lemmas.MarkerThreads
import Verif.Props.MarkerThreads
import Verif.Props.MarkerThreadsStop
import Verif.Props.ThreadsCoarse
import Verif.Props.Stacks
import Verif.Props.StacksExamples
import Verif.Props.Repeated
import Verif.Model.HeapVelocity
import Verif.Spec.MemoryVelocity
import Verif.Lemmas.HeapVelocity
import Verif.Lemmas.HeapVelTransform
import Verif.Props.HeapVelocity
import Verif.Spec.Stamps
import Verif.Lemmas.Shaped
import Verif.Props.Stamps
import Verif.Props.StampsExamples
import Verif.Props.SelfTimed
import Verif.Props.AxesMore
import Verif.Props.StaticPose
import Verif.Props.GapsTransform
import Verif.Props.GapsTransformExamples
import Verif.Spec.Nearby
import Verif.Lemmas.Nearby
import Verif.Props.Nearby
import Verif.Props.NearbyExamples
import Verif.Model.GapsLookup
import Verif.Spec.GapsLookup
import Verif.Lemmas.GapsLookup
import Verif.Lemmas.GapsLookupNear
import Verif.Props.GapsLookup
import Verif.Props.GapsLookupExamples
import Verif.Props.DifferenceQuotient
import Verif.Props.Errors
import Verif.Model.GapsAll
import Verif.Spec.GapsAll
import Verif.Lemmas.GapsAll
import Verif.Lemmas.GapsAllRotate
import Verif.Lemmas.GapsAllMatch
import Verif.Props.GapsAll
import Verif.Props.GapsAllExamples
import Verif.Lemmas.GapsAllNear
import Verif.Props.GapsAllNear
import Verif.Props.GapsAllNearExamples
import Verif.Model.RosPlayFrame
import Verif.Props.PlayFrame
