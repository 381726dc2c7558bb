import Verif.Axioms
import Verif.Lemmas.AsmResolved
import Verif.Lemmas.Boundary
import Verif.Lemmas.CapUpscale
import Verif.Lemmas.CflLimits
import Verif.Lemmas.Chopper
import Verif.Lemmas.ChopperSpec
import Verif.Lemmas.Dense
import Verif.Lemmas.DenseBlas
import Verif.Lemmas.DenseProd
import Verif.Lemmas.ElasticExample
import Verif.Lemmas.ElasticMean
import Verif.Lemmas.ElasticRun
import Verif.Lemmas.ElasticUpscale
import Verif.Lemmas.Energy
import Verif.Lemmas.Euler
import Verif.Lemmas.EulerCfl
import Verif.Lemmas.EulerRange
import Verif.Lemmas.EulerThreads
import Verif.Lemmas.FlowCopies
import Verif.Lemmas.FlowCopiesExample
import Verif.Lemmas.HexMean
import Verif.Lemmas.Hybrid
import Verif.Lemmas.ImplicitSetup
import Verif.Lemmas.Laminate
import Verif.Lemmas.Mimetic
import Verif.Lemmas.Mirror
import Verif.Lemmas.MirrorExample
import Verif.Lemmas.ParAssembly
import Verif.Lemmas.Pattern
import Verif.Lemmas.Periodic
import Verif.Lemmas.PeriodicBCs
import Verif.Lemmas.PeriodicBox
import Verif.Lemmas.PeriodicFull
import Verif.Lemmas.PeriodicTable
import Verif.Lemmas.QuadGeometry
import Verif.Lemmas.Relabel
import Verif.Lemmas.RelabelExample
import Verif.Lemmas.Reservoir
import Verif.Lemmas.SinglePhase
import Verif.Lemmas.SinglePhaseBC
import Verif.Lemmas.SinglePhaseColumn
import Verif.Lemmas.SinglePhaseEnergy
import Verif.Lemmas.SinglePhaseExample
import Verif.Lemmas.SinglePhaseRun
import Verif.Lemmas.SinglePhaseTensor
import Verif.Lemmas.Solvable
import Verif.Lemmas.Statistics
import Verif.Lemmas.StraightBar
import Verif.Lemmas.TransportSource
import Verif.Lemmas.Turn
import Verif.Model.Asm
import Verif.Model.Average
import Verif.Model.Bench
import Verif.Model.Boundary
import Verif.Model.BoundaryFaces
import Verif.Model.BoundaryGrid
import Verif.Model.CapStep
import Verif.Model.CapUpscale
import Verif.Model.Capillary
import Verif.Model.CflLimits
import Verif.Model.ChopOutput
import Verif.Model.Chopper
import Verif.Model.Collect
import Verif.Model.Coloring
import Verif.Model.CommandLine
import Verif.Model.Compare
import Verif.Model.Control
import Verif.Model.DenseMatrix
import Verif.Model.DepthTrend
import Verif.Model.Dips
import Verif.Model.ElasticSolvers
import Verif.Model.ElasticTool
import Verif.Model.ElasticUpscale
import Verif.Model.Euler
import Verif.Model.Evaluator
import Verif.Model.FracFlow
import Verif.Model.Hybrid
import Verif.Model.Implicit
import Verif.Model.ImplicitDriver
import Verif.Model.ImplicitSetup
import Verif.Model.ImplicitStep
import Verif.Model.KnownAnswer
import Verif.Model.MaterialLoad
import Verif.Model.Materials
import Verif.Model.MatrixOps
import Verif.Model.MimeticIP
import Verif.Model.Mortar
import Verif.Model.MortarBCs
import Verif.Model.Mpc
import Verif.Model.Newton
import Verif.Model.NewtonVectors
import Verif.Model.Numbering
import Verif.Model.ParAssembly
import Verif.Model.Pattern
import Verif.Model.PcSampling
import Verif.Model.PeriodicBCs
import Verif.Model.PermTool
import Verif.Model.PressureCalls
import Verif.Model.QuadGeometry
import Verif.Model.Regularize
import Verif.Model.RelPerm
import Verif.Model.RelPermChain
import Verif.Model.RelPermOutput
import Verif.Model.RelPermReuse
import Verif.Model.Reservoir
import Verif.Model.ResistChain
import Verif.Model.Resistivity
import Verif.Model.RockFiles
import Verif.Model.RockStore
import Verif.Model.RockTables
import Verif.Model.Schwarz
import Verif.Model.Shape
import Verif.Model.SimOutput
import Verif.Model.SimRange
import Verif.Model.SimRun
import Verif.Model.SimSetup
import Verif.Model.SinglePhase
import Verif.Model.SolverControl
import Verif.Model.SolverLife
import Verif.Model.Statistics
import Verif.Model.Steady
import Verif.Model.SteadyChain
import Verif.Model.SteadyManager
import Verif.Model.SteadyTool
import Verif.Model.Stiffness
import Verif.Model.Subsample
import Verif.Model.TransportDefs
import Verif.Model.TransportSource
import Verif.Model.Upscale
import Verif.Model.UpscalerInit
import Verif.Model.Uzawa
import Verif.Model.Variogram
import Verif.Model.ViscChain
import Verif.Model.ViscGather
import Verif.Model.ViscLimit
import Verif.Model.WaveSpeed
import Verif.Props.Asm
import Verif.Props.AsmChain
import Verif.Props.AsmForm
import Verif.Props.Average
import Verif.Props.AvgStress
import Verif.Props.Bench
import Verif.Props.BoundaryCoupling
import Verif.Props.BoundaryFaces
import Verif.Props.BoundaryFind
import Verif.Props.BoundaryInverse
import Verif.Props.BoundaryUniform
import Verif.Props.CapStep
import Verif.Props.CapUpscale
import Verif.Props.Capillary
import Verif.Props.CflLimits
import Verif.Props.ChainMirror
import Verif.Props.ChopOutput
import Verif.Props.Chopper
import Verif.Props.Chunks
import Verif.Props.Collect
import Verif.Props.Coloring
import Verif.Props.CommandLine
import Verif.Props.Compare
import Verif.Props.Control
import Verif.Props.Copies
import Verif.Props.Dense
import Verif.Props.DepthTrend
import Verif.Props.Dips
import Verif.Props.ElasticPeriodic
import Verif.Props.ElasticSolvers
import Verif.Props.ElasticTool
import Verif.Props.ElasticUpscale
import Verif.Props.Evaluator
import Verif.Props.ExplicitContraction
import Verif.Props.FlowCopies
import Verif.Props.FracFlow
import Verif.Props.Hybrid
import Verif.Props.HybridDefinite
import Verif.Props.Implicit
import Verif.Props.ImplicitAssembly
import Verif.Props.ImplicitContraction
import Verif.Props.ImplicitDeriv
import Verif.Props.ImplicitDriver
import Verif.Props.ImplicitGravity
import Verif.Props.ImplicitPeriodic
import Verif.Props.ImplicitRange
import Verif.Props.ImplicitSetup
import Verif.Props.ImplicitSteady
import Verif.Props.ImplicitStep
import Verif.Props.KnownAnswer
import Verif.Props.Laminate
import Verif.Props.Layers
import Verif.Props.Legendre
import Verif.Props.Linear
import Verif.Props.MaterialLoad
import Verif.Props.Materials
import Verif.Props.MatrixOps
import Verif.Props.Mimetic
import Verif.Props.Mirror
import Verif.Props.Mortar
import Verif.Props.MortarBCs
import Verif.Props.Mpc
import Verif.Props.Newton
import Verif.Props.NewtonVectors
import Verif.Props.Numbering
import Verif.Props.OneRock
import Verif.Props.ParAssembly
import Verif.Props.Partners
import Verif.Props.Pattern
import Verif.Props.PcSampling
import Verif.Props.Periodic
import Verif.Props.PeriodicBCs
import Verif.Props.PeriodicLayers
import Verif.Props.PermTool
import Verif.Props.PostProcess
import Verif.Props.PressureCalls
import Verif.Props.QuadGeometry
import Verif.Props.Regularize
import Verif.Props.RelPerm
import Verif.Props.RelPermChain
import Verif.Props.RelPermChainAniso
import Verif.Props.RelPermCopies
import Verif.Props.RelPermFiles
import Verif.Props.RelPermInput
import Verif.Props.RelPermLayers
import Verif.Props.RelPermMirror
import Verif.Props.RelPermMore
import Verif.Props.RelPermOutput
import Verif.Props.RelPermRelabel
import Verif.Props.RelPermReuse
import Verif.Props.RelPermSum
import Verif.Props.Relabel
import Verif.Props.Reservoir
import Verif.Props.ResistChain
import Verif.Props.ResistCopies
import Verif.Props.ResistLayers
import Verif.Props.Resistivity
import Verif.Props.RockFiles
import Verif.Props.RockStore
import Verif.Props.RockTables
import Verif.Props.Sampling
import Verif.Props.Schwarz
import Verif.Props.Shape
import Verif.Props.SimOutput
import Verif.Props.SimRange
import Verif.Props.SimRun
import Verif.Props.SimSetup
import Verif.Props.SinglePhase
import Verif.Props.SinglePhaseGravity
import Verif.Props.SolverControl
import Verif.Props.SolverLife
import Verif.Props.Statistics
import Verif.Props.Steady
import Verif.Props.SteadyChain
import Verif.Props.SteadyFlows
import Verif.Props.SteadyManager
import Verif.Props.SteadyTool
import Verif.Props.Steps
import Verif.Props.Stiffness
import Verif.Props.Subsample
import Verif.Props.Superadditive
import Verif.Props.Transport
import Verif.Props.TransportDefs
import Verif.Props.TransportSource
import Verif.Props.Turn
import Verif.Props.Upscale
import Verif.Props.UpscalerInit
import Verif.Props.Uzawa
import Verif.Props.Variogram
import Verif.Props.ViscChain
import Verif.Props.ViscCopies
import Verif.Props.ViscGather
import Verif.Props.ViscLayers
import Verif.Props.ViscLimit
import Verif.Props.WaveSpeed
import Verif.Spec.Asm
import Verif.Spec.Bench
import Verif.Spec.Boundary
import Verif.Spec.BoundaryFaces
import Verif.Spec.BoundaryGrid
import Verif.Spec.CapStep
import Verif.Spec.CapUpscale
import Verif.Spec.Capillary
import Verif.Spec.CflLimits
import Verif.Spec.ChainMirror
import Verif.Spec.ChopOutput
import Verif.Spec.Chopper
import Verif.Spec.Coloring
import Verif.Spec.CommandLine
import Verif.Spec.Compare
import Verif.Spec.Control
import Verif.Spec.Copies
import Verif.Spec.Dense
import Verif.Spec.DepthTrend
import Verif.Spec.Dips
import Verif.Spec.Elastic
import Verif.Spec.ElasticSolvers
import Verif.Spec.ElasticTool
import Verif.Spec.ElasticUpscale
import Verif.Spec.Euler
import Verif.Spec.Evaluator
import Verif.Spec.ExplicitContraction
import Verif.Spec.FlowCopies
import Verif.Spec.Hybrid
import Verif.Spec.Implicit
import Verif.Spec.ImplicitContraction
import Verif.Spec.ImplicitRange
import Verif.Spec.ImplicitSetup
import Verif.Spec.ImplicitStep
import Verif.Spec.KnownAnswer
import Verif.Spec.Laminate
import Verif.Spec.Layers
import Verif.Spec.MatrixOps
import Verif.Spec.Mimetic
import Verif.Spec.Mirror
import Verif.Spec.MortarBCs
import Verif.Spec.Mpc
import Verif.Spec.NewtonVectors
import Verif.Spec.Numbering
import Verif.Spec.ParAssembly
import Verif.Spec.Pattern
import Verif.Spec.PcSampling
import Verif.Spec.PeriodicBCs
import Verif.Spec.PermTool
import Verif.Spec.PostProcess
import Verif.Spec.PressureCalls
import Verif.Spec.QuadGeometry
import Verif.Spec.RelPerm
import Verif.Spec.RelPermChain
import Verif.Spec.RelPermCopies
import Verif.Spec.RelPermFiles
import Verif.Spec.RelPermLayers
import Verif.Spec.RelPermMirror
import Verif.Spec.RelPermOutput
import Verif.Spec.RelPermReuse
import Verif.Spec.Relabel
import Verif.Spec.Reservoir
import Verif.Spec.ResistChain
import Verif.Spec.ResistCopies
import Verif.Spec.Resistivity
import Verif.Spec.RockFiles
import Verif.Spec.RockStore
import Verif.Spec.RockTables
import Verif.Spec.Schwarz
import Verif.Spec.SimOutput
import Verif.Spec.SimRange
import Verif.Spec.SimRun
import Verif.Spec.SinglePhase
import Verif.Spec.SolverControl
import Verif.Spec.SolverLife
import Verif.Spec.Statistics
import Verif.Spec.Steady
import Verif.Spec.SteadyChain
import Verif.Spec.SteadyManager
import Verif.Spec.SteadyTool
import Verif.Spec.Subsample
import Verif.Spec.TransportSource
import Verif.Spec.Turn
import Verif.Spec.Upscale
import Verif.Spec.UpscalerInit
import Verif.Spec.Uzawa
import Verif.Spec.Variogram
import Verif.Spec.ViscChain
import Verif.Spec.ViscCopies
import Verif.Spec.ViscLayers
import Verif.Spec.ViscLimit
import Verif.Spec.WaveSpeed
