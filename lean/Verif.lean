import Verif.Lemmas.Assembly
import Verif.Lemmas.Backward
import Verif.Lemmas.Billiard
import Verif.Lemmas.Bodies
import Verif.Lemmas.Bounce
import Verif.Lemmas.Brouwer
import Verif.Lemmas.Closest
import Verif.Lemmas.Converge
import Verif.Lemmas.Convex
import Verif.Lemmas.Cradle
import Verif.Lemmas.DevPdipm
import Verif.Lemmas.Double
import Verif.Lemmas.DoubleNat
import Verif.Lemmas.Drop
import Verif.Lemmas.Engine
import Verif.Lemmas.Farkas
import Verif.Lemmas.Frame
import Verif.Lemmas.FrictionExists
import Verif.Lemmas.Gjk
import Verif.Lemmas.HalfStab
import Verif.Lemmas.Hinge
import Verif.Lemmas.Inverse
import Verif.Lemmas.Kkt
import Verif.Lemmas.Lamina
import Verif.Lemmas.LevelBox
import Verif.Lemmas.Lu
import Verif.Lemmas.LuExists
import Verif.Lemmas.Masked
import Verif.Lemmas.OneRow
import Verif.Lemmas.Pace
import Verif.Lemmas.Pdipm
import Verif.Lemmas.Pendulum
import Verif.Lemmas.Pivot
import Verif.Lemmas.Plane
import Verif.Lemmas.Polygon
import Verif.Lemmas.RectFrame
import Verif.Lemmas.Refine
import Verif.Lemmas.Rounded
import Verif.Lemmas.RoundedContact
import Verif.Lemmas.RoundedFlight
import Verif.Lemmas.RoundedWorld
import Verif.Lemmas.Sat
import Verif.Lemmas.SatCircle
import Verif.Lemmas.StepParams
import Verif.Lemmas.Support
import Verif.Lemmas.Units
import Verif.Lemmas.Weld
import Verif.Lemmas.World
import Verif.Model.Assembly
import Verif.Model.Bodies
import Verif.Model.BodyOps
import Verif.Model.Breakout
import Verif.Model.BreakoutSim
import Verif.Model.BreakoutWorld
import Verif.Model.Clock
import Verif.Model.Contacts
import Verif.Model.Demos
import Verif.Model.DevPdipm
import Verif.Model.Engine
import Verif.Model.EngineBackward
import Verif.Model.Forces
import Verif.Model.GameLoop
import Verif.Model.Geom
import Verif.Model.GradDemo
import Verif.Model.HullTests
import Verif.Model.Inference
import Verif.Model.Joints
import Verif.Model.Lapack
import Verif.Model.LcpUtil
import Verif.Model.Learn
import Verif.Model.Library
import Verif.Model.NumericalBackward
import Verif.Model.OdeContacts
import Verif.Model.Pdipm
import Verif.Model.Recorder
import Verif.Model.Refine
import Verif.Model.RoundedBody
import Verif.Model.RoundedClockwise
import Verif.Model.RoundedContact
import Verif.Model.RoundedFlight
import Verif.Model.RoundedForces
import Verif.Model.RoundedInertia
import Verif.Model.RoundedJoint
import Verif.Model.RoundedRecorder
import Verif.Model.RoundedWorld
import Verif.Model.TensorUtil
import Verif.Model.World
import Verif.Props.ApproxLaw
import Verif.Props.Assembly
import Verif.Props.Backward
import Verif.Props.Billiard
import Verif.Props.Block
import Verif.Props.Bodies
import Verif.Props.Bounce
import Verif.Props.Breakout
import Verif.Props.BreakoutSim
import Verif.Props.BreakoutSimExamples
import Verif.Props.BreakoutWorld
import Verif.Props.BroadPhase
import Verif.Props.CircleWorld
import Verif.Props.Clock
import Verif.Props.ClockDemo
import Verif.Props.Conservation
import Verif.Props.Contacts
import Verif.Props.Converge
import Verif.Props.ConvexSearch
import Verif.Props.Court
import Verif.Props.Cradle
import Verif.Props.Deep
import Verif.Props.DemoExamples
import Verif.Props.DemoForces
import Verif.Props.DemoParts
import Verif.Props.DemoRun
import Verif.Props.DemoScenes
import Verif.Props.Demos
import Verif.Props.Depth
import Verif.Props.DevLibrary
import Verif.Props.DevPdipm
import Verif.Props.DevRuns
import Verif.Props.DiscLearning
import Verif.Props.Drop
import Verif.Props.Engine
import Verif.Props.EngineExamples
import Verif.Props.Flight
import Verif.Props.Forces
import Verif.Props.Frame
import Verif.Props.FreeFall
import Verif.Props.FreeFlight
import Verif.Props.FrictionGradient
import Verif.Props.FrictionGradientScene
import Verif.Props.FrictionSolvable
import Verif.Props.FrictionWitness
import Verif.Props.Galilei
import Verif.Props.GameEngine
import Verif.Props.GameExamples
import Verif.Props.GameLoop
import Verif.Props.GameScreens
import Verif.Props.Geometry
import Verif.Props.Gjk
import Verif.Props.GradCentre
import Verif.Props.GradDemo
import Verif.Props.GradExamples
import Verif.Props.HalfRuns
import Verif.Props.HalfStab
import Verif.Props.Hinge
import Verif.Props.History
import Verif.Props.HullContact
import Verif.Props.HullTests
import Verif.Props.Image
import Verif.Props.Impact
import Verif.Props.Inference
import Verif.Props.InferenceRun
import Verif.Props.Islands
import Verif.Props.Isolated
import Verif.Props.Joints
import Verif.Props.Kicks
import Verif.Props.Kkt
import Verif.Props.Lamina
import Verif.Props.LcpAssembly
import Verif.Props.Learn
import Verif.Props.LearnExamples
import Verif.Props.LearnParams
import Verif.Props.LearnStops
import Verif.Props.Library
import Verif.Props.LibraryExamples
import Verif.Props.LibraryRun
import Verif.Props.Lockstep
import Verif.Props.Lone
import Verif.Props.Loose
import Verif.Props.NoOverlap
import Verif.Props.NumericalBackward
import Verif.Props.OdeContacts
import Verif.Props.OneRow
import Verif.Props.OneRowEngine
import Verif.Props.Pace
import Verif.Props.Paddle
import Verif.Props.PairOrder
import Verif.Props.Pendulum
import Verif.Props.Phantom
import Verif.Props.Pivot
import Verif.Props.PostStab
import Verif.Props.Quiet
import Verif.Props.QuietStab
import Verif.Props.Ramp
import Verif.Props.RampRun
import Verif.Props.RectContact
import Verif.Props.Refine
import Verif.Props.Rolling
import Verif.Props.RoundedBody
import Verif.Props.RoundedClockwise
import Verif.Props.RoundedContact
import Verif.Props.RoundedDrift
import Verif.Props.RoundedFlight
import Verif.Props.RoundedForces
import Verif.Props.RoundedHullInertia
import Verif.Props.RoundedInertia
import Verif.Props.RoundedJoint
import Verif.Props.RoundedRecorder
import Verif.Props.RoundedWorld
import Verif.Props.Rub
import Verif.Props.RunTimes
import Verif.Props.Sat
import Verif.Props.Screen
import Verif.Props.SearchTotal
import Verif.Props.SearchTotalExamples
import Verif.Props.Shortened
import Verif.Props.Solvable
import Verif.Props.Solver
import Verif.Props.SolverBatch
import Verif.Props.Spin
import Verif.Props.Statics
import Verif.Props.Stepping
import Verif.Props.SteppingExamples
import Verif.Props.StrictStep
import Verif.Props.Support
import Verif.Props.TensorUtil
import Verif.Props.Totality
import Verif.Props.Tower
import Verif.Props.Units
import Verif.Props.UnitsRun
import Verif.Props.Weld
import Verif.Props.Wheel
import Verif.Spec.ApproxLaw
import Verif.Spec.Backward
import Verif.Spec.Billiard
import Verif.Spec.Block
import Verif.Spec.Bounce
import Verif.Spec.Breakout
import Verif.Spec.BroadPhase
import Verif.Spec.Chain
import Verif.Spec.CircleWorld
import Verif.Spec.Contact
import Verif.Spec.Converge
import Verif.Spec.Convex
import Verif.Spec.Cradle
import Verif.Spec.Demos
import Verif.Spec.Depth
import Verif.Spec.DiscLearning
import Verif.Spec.Double
import Verif.Spec.Drop
import Verif.Spec.During
import Verif.Spec.Flight
import Verif.Spec.Frame
import Verif.Spec.FreeFall
import Verif.Spec.GameLoop
import Verif.Spec.GradDemo
import Verif.Spec.HalfStab
import Verif.Spec.Hinge
import Verif.Spec.Image
import Verif.Spec.Impact
import Verif.Spec.Islands
import Verif.Spec.Isolated
import Verif.Spec.JointTree
import Verif.Spec.Kicks
import Verif.Spec.Kkt
import Verif.Spec.Lamina
import Verif.Spec.Lcp
import Verif.Spec.Learn
import Verif.Spec.Lockstep
import Verif.Spec.Lone
import Verif.Spec.Motion
import Verif.Spec.Ode
import Verif.Spec.OneRow
import Verif.Spec.Overlap
import Verif.Spec.Pace
import Verif.Spec.PairOrder
import Verif.Spec.Pendulum
import Verif.Spec.Picture
import Verif.Spec.Pivot
import Verif.Spec.Plane
import Verif.Spec.Play
import Verif.Spec.Polygon
import Verif.Spec.Posed
import Verif.Spec.PostStab
import Verif.Spec.Ramp
import Verif.Spec.Refine
import Verif.Spec.Response
import Verif.Spec.Rolling
import Verif.Spec.Rounded
import Verif.Spec.RoundedContact
import Verif.Spec.RoundedFlight
import Verif.Spec.RoundedForces
import Verif.Spec.RoundedInertia
import Verif.Spec.RoundedJoint
import Verif.Spec.RoundedWorld
import Verif.Spec.Rub
import Verif.Spec.Run
import Verif.Spec.Shortened
import Verif.Spec.Solver
import Verif.Spec.Statics
import Verif.Spec.Tower
import Verif.Spec.UnitPush
import Verif.Spec.Units
import Verif.Spec.Weld
