import Verif.Props.Components
import Verif.Props.Routes
import Verif.Props.Scenarios
import Verif.Props.Calendar
import Verif.Props.Timestepper
import Verif.Props.Bounds
import Verif.Props.Storage
import Verif.Props.Rolling
import Verif.Props.Replenish
import Verif.Props.RouteLp
import Verif.Props.EdgeLp
import Verif.Props.SolverEquivalence
import Verif.Props.SolverDomains
import Verif.Props.NodeRun
import Verif.Props.Memory
import Verif.Props.License
import Verif.Props.ControlCurve
import Verif.Props.Aggregate
import Verif.Props.Drawdown
import Verif.Props.Profiles
import Verif.Props.ReportedFlow
import Verif.Props.Functions
import Verif.Props.LossLink
import Verif.Props.Piecewise
import Verif.Props.Run
import Verif.Props.MultiRun
import Verif.Props.Recorders
import Verif.Props.Counting
import Verif.Props.Annual
import Verif.Props.Events
import Verif.Props.Constraints
import Verif.Props.RollingRecorders
import Verif.Props.Bisect
import Verif.Props.Hashes
import Verif.Props.SolverOptions
import Verif.Props.SolverLimits
import Verif.Props.Includes
import Verif.Props.References
import Verif.Props.Network
import Verif.Props.Connections
import Verif.Props.DataFrame
import Verif.Props.Hydropower
import Verif.Props.MultiSplit
import Verif.Props.Optimisation
import Verif.Props.Population
import Verif.Props.Variables
import Verif.Props.FixedOnce
import Verif.Props.Coupled
import Verif.Props.Tables
import Verif.Props.Labels
import Verif.Props.EventStatistics
import Verif.Props.Expressions
import Verif.Props.ScenarioTables
import Verif.Props.DurationCurves
import Verif.Props.Calibration
import Verif.Props.Resample
import Verif.Props.Licences
import Verif.Props.BreakLink
import Verif.Props.Interpolation
import Verif.Props.Aquifer
import Verif.Props.NodeLoading
import Verif.Props.NodeConstructors
import Verif.Props.Domains
import Verif.Props.PiecewiseEdge
import Verif.Props.River
import Verif.Props.LpSolve
import Verif.Props.Basis
import Verif.Props.WeightedProfile
import Verif.Props.CsvRecorder
import Verif.Props.Simulation
import Verif.Props.Ensemble
import Verif.Props.Levels
import Verif.Props.Datasets
import Verif.Props.ModelCache
import Verif.Props.Rerun
import Verif.Props.Aggregators
import Verif.Props.Checks
import Verif.Props.Collections
import Verif.Props.SolverArrays
import Verif.Props.SolveErrors
import Verif.Props.Document
import Verif.Props.Sankey
import Verif.Props.Schematic
import Verif.Props.ClassTrees
import Verif.Props.Kde
import Verif.Props.Watching
import Verif.Props.Setters
import Verif.Props.OutputFile
import Verif.Props.ParameterLoading
import Verif.Props.Constructors
import Verif.Props.Attributes
import Verif.Props.RecorderLoading
import Verif.Props.Priority
import Verif.Props.Float64
import Verif.Props.Values
import Verif.Props.Doubles
import Verif.Props.ResultTables
import Verif.Props.DoubleFlows
import Verif.Props.DoubleLicence
import Verif.Props.H5Files
import Verif.Props.LicencePeriods
import Verif.Props.Single
import Verif.Props.Parts
import Verif.Props.Relaxing
import Verif.Props.Units
import Verif.Props.Costs
import Verif.Props.Through
import Verif.Props.Wording
import Verif.Props.Twins
import Verif.Props.Binding
import Verif.Props.LicenceRun
import Verif.Props.Solvable
import Verif.Props.RunOff
import Verif.Props.Agreement
import Verif.Props.Cut
import Verif.Props.Periods
import Verif.Props.Apart
import Verif.Props.UnitsRun
import Verif.Props.WordingRun
import Verif.Props.UnreachedRun
import Verif.Props.OrderRun
import Verif.Props.Keywords
import Verif.Props.RecorderKeywords
import Verif.Props.NodeKeywords
import Verif.Props.AggregatedStart
