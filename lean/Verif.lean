import Verif.Py.Basic
import Verif.Py.NDArray
import Verif.Model.Particles
import Verif.Model.FileReaders
import Verif.Model.CauchyGreen
import Verif.Model.Ftle
import Verif.Model.Integrate
import Verif.Model.GridInterp
import Verif.Model.Interpolate
import Verif.Model.Factories
import Verif.Model.DataSource
import Verif.Model.Solver
import Verif.Model.Names
import Verif.Model.Batches
import Verif.Model.Pool
import Verif.Model.Workers
import Verif.Model.Monitor
import Verif.Spec.Stretch
import Verif.Spec.Flow
import Verif.Spec.Interp
import Verif.Spec.Binary64
import Verif.Spec.Schedule
import Verif.Spec.Messages
import Verif.Lemmas.Index
import Verif.Lemmas.Particles
import Verif.Lemmas.Jacobian
import Verif.Lemmas.Stretch
import Verif.Lemmas.Ftle
import Verif.Lemmas.Integrate
import Verif.Lemmas.GridInterp
import Verif.Lemmas.Interpolate
import Verif.Lemmas.Solver
import Verif.Lemmas.Rerun
import Verif.Lemmas.EndToEnd
import Verif.Lemmas.Batches
import Verif.Lemmas.Memory
import Verif.Lemmas.Pool
import Verif.Lemmas.PoolTrace
import Verif.Lemmas.Workers
import Verif.Lemmas.Monitor
import Verif.Props.Particles
import Verif.Props.Jacobian
import Verif.Props.Ftle
import Verif.Props.Integrate
import Verif.Props.IntegrateRel
import Verif.Props.GridInterp
import Verif.Props.Interpolate
import Verif.Props.Solver
import Verif.Props.Rerun
import Verif.Props.Snapshots
import Verif.Props.EndToEnd
import Verif.Props.Batches
import Verif.Props.Names
import Verif.Props.Memory
import Verif.Props.Pool
import Verif.Props.Isolation
import Verif.Props.Monitor
import Verif.Model.Writers
import Verif.Spec.Output
import Verif.Lemmas.Writers
import Verif.Props.Writers
import Verif.Model.Cli
import Verif.Spec.IntLiteral
import Verif.Lemmas.Cli
import Verif.Props.Cli
import Verif.Model.FileUtils
import Verif.Lemmas.FileUtils
import Verif.Props.FileUtils
import Verif.Model.Decorators
import Verif.Props.Decorators
import Verif.Props.Readers
import Verif.Model.Api
import Verif.Lemmas.Api
import Verif.Props.Api
import Verif.Model.Main
import Verif.Props.Main
import Verif.Props.Rounding
import Verif.Spec.Groups
import Verif.Lemmas.FlowMap
import Verif.Lemmas.Local
import Verif.Lemmas.LocalInterp
import Verif.Lemmas.Swap
import Verif.Props.FlowMap
import Verif.Model.Program
import Verif.Model.CreateLists
import Verif.Model.Executor
import Verif.Props.Program
import Verif.Props.CreateLists
import Verif.Props.Executor
import Verif.Props.LineEnds
import Verif.Spec.Trajectory
import Verif.Lemmas.Converge
import Verif.Lemmas.StretchLimit
import Verif.Props.Converge
import Verif.Lemmas.FlowOn
import Verif.Lemmas.GridError
import Verif.Props.GridError
import Verif.Props.GridErrorExample
import Verif.Model.Ftle64
import Verif.Lemmas.Float
import Verif.Lemmas.Ftle64
import Verif.Props.Ftle64
import Verif.Lemmas.Flow64
import Verif.Lemmas.Jac64
import Verif.Props.Run64
import Verif.Lemmas.Grid64
import Verif.Props.Grid64
import Verif.Props.Grid64Example
import Verif.Lemmas.Variation
import Verif.Props.Variation
import Verif.Model.Missing
import Verif.Lemmas.Missing
import Verif.Props.Missing
import Verif.Props.Masked
import Verif.Props.MaskedExample
import Verif.Props.RoundTrip
import Verif.Props.Queries
import Verif.Props.VelocityShape
import Verif.Lemmas.Monotone64
import Verif.Props.Coverage64
import Verif.Spec.Units
import Verif.Lemmas.Units
import Verif.Lemmas.UnitsInterp
import Verif.Lemmas.UnitsRun
import Verif.Lemmas.UnitsLoop
import Verif.Props.Units
import Verif.Spec.Extent
import Verif.Lemmas.Extent
import Verif.Props.Extent
import Verif.Props.Extent3
import Verif.Spec.Frames
import Verif.Lemmas.Frames
import Verif.Props.Frames
import Verif.Model.Args
import Verif.Spec.CommandLine
import Verif.Lemmas.Args
import Verif.Props.Args
import Verif.Model.Disk
import Verif.Spec.Folder
import Verif.Lemmas.Disk
import Verif.Props.Folder
import Verif.Model.Config
import Verif.Spec.ConfigFile
import Verif.Lemmas.Config
import Verif.Lemmas.ConfigArgs
import Verif.Lemmas.ConfigText
import Verif.Props.Config
import Verif.Props.ConfigRepeat
import Verif.Props.CliInterp
import Verif.Lemmas.Taylor
import Verif.Lemmas.Rk4Order
import Verif.Lemmas.Rk4Local
import Verif.Spec.Order
import Verif.Lemmas.Order
import Verif.Lemmas.OrderLocal
import Verif.Props.Order
import Verif.Lemmas.GridOrder
import Verif.Props.GridOrder
import Verif.Model.Command
import Verif.Spec.Experiment
import Verif.Props.Command
import Verif.Spec.Survey
import Verif.Props.Survey
import Verif.Props.SurveyExample
import Verif.Props.SurveyExample3
import Verif.Props.SurveyVtk
import Verif.Props.SurveyVtkExample
import Verif.Props.SurveyVtkExample3
import Verif.Check.RepoTests
import Verif.Model.ApiDisk
import Verif.Props.ApiDisk
import Verif.Spec.Turn
import Verif.Lemmas.Turn
import Verif.Lemmas.TurnGrid
import Verif.Props.Turn
import Verif.Lemmas.Static
import Verif.Props.Static
import Verif.Model.Examples
import Verif.Lemmas.Examples
import Verif.Props.Examples
import Verif.Lemmas.SteadyFlow
import Verif.Props.Gyre
import Verif.Props.ApiValues
import Verif.Model.Linalg64
import Verif.Lemmas.Linalg64
import Verif.Props.Run64x3
import Verif.Lemmas.Grid64x3
import Verif.Props.Grid64x3
import Verif.Props.Grid64x3Example
import Verif.Props.Api64
import Verif.Props.Api64Example
import Verif.Spec.Survey64
import Verif.Props.Survey64
import Verif.Props.Survey64Example
import Verif.Props.Survey64Example3
import Verif.Props.Survey64Vtk
import Verif.Props.Survey64VtkExample
import Verif.Props.Survey64VtkExample3
import Verif.Props.WritersExact
import Verif.Props.MonitorExact
import Verif.Props.InterpolateExact
import Verif.Spec.Scattered
import Verif.Lemmas.Scattered
import Verif.Props.Scattered
import Verif.Props.ScatteredExample
import Verif.Props.ScatteredVtk
import Verif.Props.ScatteredVtkExample
import Verif.Props.FieldCount
import Verif.Model.FloatText
import Verif.Spec.FloatLiteral
import Verif.Lemmas.FloatText
import Verif.Props.FloatText
import Verif.Model.Helical
import Verif.Spec.Helix
import Verif.Lemmas.Helical
import Verif.Props.Helical
import Verif.Lemmas.Rest
import Verif.Lemmas.RestGrid
import Verif.Props.Rest
import Verif.Spec.Valueless
import Verif.Lemmas.Valueless
import Verif.Props.Valueless
import Verif.Spec.Ab2
import Verif.Lemmas.Modes
import Verif.Lemmas.Ab2
import Verif.Props.Incompressible
import Verif.Props.Ab2
import Verif.Model.Shell
import Verif.Spec.Shell
import Verif.Lemmas.Shell
import Verif.Props.Shell
import Verif.Model.Stored
import Verif.Lemmas.Stored
import Verif.Lemmas.StoredRun
import Verif.Props.Stored
import Verif.Props.StoredExample
import Verif.Spec.Affine
import Verif.Lemmas.Affine
import Verif.Props.Affine
import Verif.Props.AffineExample
import Verif.Props.Duality
import Verif.Props.DualityExample
import Verif.Spec.Contents
import Verif.Props.Contents
import Verif.Props.ContentsExample
import Verif.Spec.Wildcards
import Verif.Spec.LongRun
import Verif.Lemmas.LongRun
import Verif.Props.LongRun
import Verif.Lemmas.Pieces
import Verif.Props.Pieces
import Verif.Props.PiecesExample
import Verif.Lemmas.Tangent
import Verif.Props.Spacing
import Verif.Props.SpacingSharp
import Verif.Model.Interrupt
import Verif.Spec.Interrupt
import Verif.Lemmas.Interrupt
import Verif.Props.Interrupt
import Verif.Lemmas.GridLipschitz
import Verif.Lemmas.GridSlope
import Verif.Props.GridSpacing
import Verif.Props.GridSpacingSharp
import Verif.Props.GridSpacingExample
import Verif.Lemmas.Consecutive
import Verif.Props.Consecutive
import Verif.Props.ConsecutiveExample
import Verif.Spec.Again
import Verif.Props.Again
import Verif.Props.UnsteadySharp
import Verif.Spec.Divergence
import Verif.Lemmas.Liouville
import Verif.Props.Divergence
import Verif.Props.DivergenceExample
import Verif.Spec.Needed
import Verif.Props.Needed
import Verif.Model.Calls
import Verif.Lemmas.Calls
import Verif.Spec.Together
import Verif.Props.Together
import Verif.Props.SeedFile
import Verif.Props.GridInterp3
import Verif.Spec.Strain
import Verif.Lemmas.Strain
import Verif.Lemmas.StrainGrid
import Verif.Props.Strain
import Verif.Props.StrainSharp
import Verif.Props.StrainExample
import Verif.Spec.Grow
import Verif.Props.Grow
import Verif.Props.GrowExample
import Verif.Lemmas.Joining
import Verif.Lemmas.JoiningInterp
import Verif.Props.Assemble
import Verif.Props.Noise
import Verif.Props.NoiseExample
import Verif.Props.NoiseScattered
import Verif.Lemmas.Deviation
import Verif.Props.Calm
import Verif.Props.CalmExample
import Verif.Lemmas.TwoFlows
import Verif.Props.TwoRuns
import Verif.Props.TwoRunsExample
import Verif.Props.Resample
import Verif.Props.ResampleExample
import Verif.Lemmas.SciPyGrid
import Verif.Props.TwoInterpolators
import Verif.Props.TwoInterpolatorsExample
import Verif.Lemmas.SciPyReuse
import Verif.Props.OneCoordinateFile
import Verif.Props.OneCoordinateFileExample
import Verif.Props.SymmetricData
import Verif.Props.SymmetricDataExample
import Verif.Props.OwnOrder
import Verif.Props.OwnOrderExample
import Verif.Props.Oblong
import Verif.Props.OblongExample
import Verif.Props.OblongOnce
import Verif.Props.OblongOnceExample
