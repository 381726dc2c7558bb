import Verif.Props.Asm
import Verif.Props.AsmChain
import Verif.Props.AsmForm
import Verif.Props.Average
import Verif.Props.AvgStress
import Verif.Props.Bench
import Verif.Props.BoundaryCoupling
import Verif.Props.BoundaryFaces
import Verif.Props.BoundaryFind
import Verif.Props.BoundaryInverse
import Verif.Props.BoundaryUniform
import Verif.Props.CapStep
import Verif.Props.CapUpscale
import Verif.Props.Capillary
import Verif.Props.CflLimits
import Verif.Props.ChainMirror
import Verif.Props.ChopOutput
import Verif.Props.Chopper
import Verif.Props.Chunks
import Verif.Props.Collect
import Verif.Props.Coloring
import Verif.Props.CommandLine
import Verif.Props.Compare
import Verif.Props.Control
import Verif.Props.Copies
import Verif.Props.Dense
import Verif.Props.DepthTrend
import Verif.Props.Dips
import Verif.Props.ElasticPeriodic
import Verif.Props.ElasticSolvers
import Verif.Props.ElasticTool
import Verif.Props.ElasticUpscale
import Verif.Props.Evaluator
import Verif.Props.ExplicitContraction
import Verif.Props.FlowCopies
import Verif.Props.FracFlow
import Verif.Props.Hybrid
import Verif.Props.HybridDefinite
import Verif.Props.Implicit
import Verif.Props.ImplicitAssembly
import Verif.Props.ImplicitContraction
import Verif.Props.ImplicitDeriv
import Verif.Props.ImplicitDriver
import Verif.Props.ImplicitGravity
import Verif.Props.ImplicitPeriodic
import Verif.Props.ImplicitRange
import Verif.Props.ImplicitSetup
import Verif.Props.ImplicitSteady
import Verif.Props.ImplicitStep
import Verif.Props.KnownAnswer
import Verif.Props.Laminate
import Verif.Props.Layers
import Verif.Props.Legendre
import Verif.Props.Linear
import Verif.Props.MaterialLoad
import Verif.Props.Materials
import Verif.Props.MatrixOps
import Verif.Props.Mimetic
import Verif.Props.Mirror
import Verif.Props.Mortar
import Verif.Props.MortarBCs
import Verif.Props.Mpc
import Verif.Props.Newton
import Verif.Props.NewtonVectors
import Verif.Props.Numbering
import Verif.Props.OneRock
import Verif.Props.ParAssembly
import Verif.Props.Partners
import Verif.Props.Pattern
import Verif.Props.PcSampling
import Verif.Props.Periodic
import Verif.Props.PeriodicBCs
import Verif.Props.PeriodicLayers
import Verif.Props.PermTool
import Verif.Props.PostProcess
import Verif.Props.PressureCalls
import Verif.Props.QuadGeometry
import Verif.Props.Regularize
import Verif.Props.RelPerm
import Verif.Props.RelPermChain
import Verif.Props.RelPermChainAniso
import Verif.Props.RelPermCopies
import Verif.Props.RelPermFiles
import Verif.Props.RelPermInput
import Verif.Props.RelPermLayers
import Verif.Props.RelPermMirror
import Verif.Props.RelPermMore
import Verif.Props.RelPermOutput
import Verif.Props.RelPermRelabel
import Verif.Props.RelPermReuse
import Verif.Props.RelPermSum
import Verif.Props.Relabel
import Verif.Props.Reservoir
import Verif.Props.ResistChain
import Verif.Props.ResistCopies
import Verif.Props.ResistLayers
import Verif.Props.Resistivity
import Verif.Props.RockFiles
import Verif.Props.RockStore
import Verif.Props.RockTables
import Verif.Props.Sampling
import Verif.Props.Schwarz
import Verif.Props.Shape
import Verif.Props.SimOutput
import Verif.Props.SimRange
import Verif.Props.SimRun
import Verif.Props.SimSetup
import Verif.Props.SinglePhase
import Verif.Props.SinglePhaseGravity
import Verif.Props.SolverControl
import Verif.Props.SolverLife
import Verif.Props.Statistics
import Verif.Props.Steady
import Verif.Props.SteadyChain
import Verif.Props.SteadyFlows
import Verif.Props.SteadyManager
import Verif.Props.SteadyTool
import Verif.Props.Steps
import Verif.Props.Stiffness
import Verif.Props.Subsample
import Verif.Props.Superadditive
import Verif.Props.Transport
import Verif.Props.TransportDefs
import Verif.Props.TransportSource
import Verif.Props.Turn
import Verif.Props.Upscale
import Verif.Props.UpscalerInit
import Verif.Props.Uzawa
import Verif.Props.Variogram
import Verif.Props.ViscChain
import Verif.Props.ViscCopies
import Verif.Props.ViscGather
import Verif.Props.ViscLayers
import Verif.Props.ViscLimit
import Verif.Props.WaveSpeed

/-! Prints, at build time, the axioms every property theorem depends on. -/

#print axioms Verif.Asm.C39_equations
#print axioms Verif.Asm.C39_violated_twice
#print axioms Verif.Asm.C42_prescribed
#print axioms Verif.Asm.C42_add
#print axioms Verif.Asm.C42_expand_partial
#print axioms Verif.Asm.C42_extract
#print axioms Verif.Asm.C42_violated_master
#print axioms Verif.Asm.C42_violated_offset
#print axioms Verif.Asm.C42_violated_order
#print axioms Verif.Asm.C42_chains
#print axioms Verif.Asm.C76_forms
#print axioms Verif.Asm.C76_equilibrium_partial
#print axioms Verif.Asm.C76_violated_prescribed
#print axioms Verif.Asm.C76_pattern
#print axioms Verif.Average.C23_chain
#print axioms Verif.Average.C23_symmetric
#print axioms Verif.Average.C23_vanish
#print axioms Verif.Average.C23_defining
#print axioms Verif.Elastic.C73_mean
#print axioms Verif.Elastic.C73_loadcase
#print axioms Verif.Elastic.C73_homogeneous
#print axioms Verif.Elastic.C73_scaled
#print axioms Verif.Elastic.C73_effective
#print axioms Verif.Elastic.C73_violated_stale
#print axioms Verif.Bench.C135_reference
#print axioms Verif.Bench.C135_violated_short
#print axioms Verif.Bench.C135_violated_junk
#print axioms Verif.Bench.C135_stone
#print axioms Verif.Bench.C135_verdict_partial
#print axioms Verif.Bench.C135_violated_pressure
#print axioms Verif.Bench.C135_violated_nan
#print axioms Verif.Bench.C135_violated_exit
#print axioms Verif.Bench.C135_violated_usage
#print axioms Verif.Bench.C135_violated_error
#print axioms Verif.Bench.C135_violated_rank
#print axioms Verif.Bench.C135_violated_blank
#print axioms Verif.Bench.C135_time
#print axioms Verif.BGrid.C81_weights
#print axioms Verif.BGrid.C81_rigid
#print axioms Verif.BGrid.C81_affine_partial
#print axioms Verif.BGrid.C81_violated_small
#print axioms Verif.BGrid.C82_numbering
#print axioms Verif.BGrid.C82_violated_single
#print axioms Verif.BGrid.C78_corners
#print axioms Verif.BGrid.C78_none
#print axioms Verif.BGrid.C78_unique
#print axioms Verif.BGrid.C78_shape
#print axioms Verif.BGrid.C79_partition
#print axioms Verif.BGrid.C79_columns
#print axioms Verif.BGrid.C80_extent_partial
#print axioms Verif.BGrid.C80_violated
#print axioms Verif.BGrid.C77_inverse_partial
#print axioms Verif.BGrid.C77_find
#print axioms Verif.BGrid.C77_found
#print axioms Verif.BGrid.C77_boxes
#print axioms Verif.BGrid.C77_located_partial
#print axioms Verif.BGrid.C77_violated_outside
#print axioms Verif.BGrid.C45_map
#print axioms Verif.BGrid.C45_residual
#print axioms Verif.BGrid.C45_exact_partial
#print axioms Verif.BGrid.C45_violated
#print axioms Verif.BGrid.C46_nodes
#print axioms Verif.BGrid.C46_numbers
#print axioms Verif.BGrid.C46_quads_partial
#print axioms Verif.BGrid.C46_one_row
#print axioms Verif.BGrid.C46_rectangle
#print axioms Verif.BGrid.C46_violated
#print axioms Verif.BGrid.C46_violated_small
#print axioms Verif.CapStep.C109_uniform
#print axioms Verif.CapStep.C109_balance
#print axioms Verif.CapStep.C109_mobilities
#print axioms Verif.CapStep.C109_fixed_partial
#print axioms Verif.CapStep.C109_result
#print axioms Verif.CapStep.C109_violated_pressure
#print axioms Verif.Cap.C102_table
#print axioms Verif.Cap.C102_rocks
#print axioms Verif.Cap.C102_uniform
#print axioms Verif.Cap.C102_interpolated
#print axioms Verif.Cap.C102_violated_points
#print axioms Verif.Cap.C102_ends
#print axioms Verif.Cap.C102_violated_thin
#print axioms Verif.Capillary.C52_range
#print axioms Verif.Capillary.C52_formula
#print axioms Verif.Capillary.C52_roundtrip
#print axioms Verif.Capillary.C52_back
#print axioms Verif.Capillary.C52_monotone
#print axioms Verif.Capillary.C52_violated_norock
#print axioms Verif.Capillary.C52_norock
#print axioms Verif.Capillary.C52_violated_angle
#print axioms Verif.Capillary.C53_value
#print axioms Verif.Capillary.C53_monotone
#print axioms Verif.Capillary.C53_root
#print axioms Verif.Capillary.C53_limit_partial
#print axioms Verif.Capillary.C53_violated_target
#print axioms Verif.Capillary.C86_conserves
#print axioms Verif.Capillary.C86_range
#print axioms Verif.Capillary.C87_mobility
#print axioms Verif.Euler.C106_gravity_partial
#print axioms Verif.Euler.C106_capillary
#print axioms Verif.Euler.C106_maximum_principle_partial
#print axioms Verif.Euler.C106_maximum_principle_balanced_partial
#print axioms Verif.Euler.C106_violated_inflow
#print axioms Verif.Euler.C106_violated_curves
#print axioms Verif.Euler.C106_violated_periodic
#print axioms Verif.Euler.C106_violated_boundary
#print axioms Verif.Euler.C106_violated_orientation
#print axioms Verif.ViscChain.C169_visc_tensors
#print axioms Verif.ViscChain.C169_visc_fixed
#print axioms Verif.ViscChain.C169_visc_periodic
#print axioms Verif.ResistChain.C169_resist_fixed
#print axioms Verif.ResistChain.C169_resist_periodic
#print axioms Verif.ChopOutput.C133_deck
#print axioms Verif.ChopOutput.C133_file
#print axioms Verif.ChopOutput.C133_read
#print axioms Verif.ChopOutput.C133_si_partial
#print axioms Verif.ChopOutput.C133_depth_partial
#print axioms Verif.ChopOutput.C133_violated_units
#print axioms Verif.Chopper.C29_chop
#print axioms Verif.Chopper.C29_band_covers
#print axioms Verif.Chopper.C29_nonempty
#print axioms Verif.Chopper.C29_band_tight
#print axioms Verif.Chopper.C29_depths
#print axioms Verif.Chopper.C29_cells_distinct
#print axioms Verif.Chopper.C65_geometry_partial
#print axioms Verif.Chopper.C65_vertical
#print axioms Verif.Chopper.C65_violated_slanted_reset
#print axioms Verif.Chopper.C30_history
#print axioms Verif.Chopper.C30_coord_size
#print axioms Verif.Chopper.C30_size_checked
#print axioms Verif.Chopper.C30_zcorn_size
#print axioms Verif.Chopper.C30_shoebox
#print axioms Verif.Chopper.C30_violated_inverted_range
#print axioms Verif.Chopper.C30_violated_rejection_mixes
#print axioms Verif.Coloring.C41_cover
#print axioms Verif.Coloring.C41_balanced
#print axioms Verif.Collect.C32_owner_valid
#print axioms Verif.Collect.C32_balanced
#print axioms Verif.Collect.C32_gathered
#print axioms Verif.Collect.C32_no_deadlock
#print axioms Verif.Collect.C32_terminates
#print axioms Verif.Coloring.C40_partition
#print axioms Verif.Coloring.C40_racefree
#print axioms Verif.Coloring.C40_serial
#print axioms Verif.Coloring.C40_direction
#print axioms Verif.Cmd.C101_accepts
#print axioms Verif.Cmd.C101_only
#print axioms Verif.Cmd.C101_unknown
#print axioms Verif.Cmd.C101_file
#print axioms Verif.Cmd.C101_noargs
#print axioms Verif.Cmd.C101_violated_value
#print axioms Verif.Cmd.C101_violated_file
#print axioms Verif.Cmd.C101_perm
#print axioms Verif.Cmd.C101_violated_unknown
#print axioms Verif.Cmd.C101_rocks
#print axioms Verif.Cmd.C101_rockpairs
#print axioms Verif.Cmd.C101_conditions
#print axioms Verif.Compare.C132_read
#print axioms Verif.Compare.C132_accepts
#print axioms Verif.Compare.C132_symmetric
#print axioms Verif.Compare.C132_violated_nan
#print axioms Verif.Compare.C132_violated_message
#print axioms Verif.Control.C24_get
#print axioms Verif.Control.C24_set
#print axioms Verif.Control.C24_roundtrip
#print axioms Verif.Control.C24_bijective
#print axioms Verif.Control.C25_line_partial
#print axioms Verif.Control.C25_symmetric_partial
#print axioms Verif.Control.C25_violated
#print axioms Verif.Control.C26_roundtrip
#print axioms Verif.Control.C26_roundtrip_exact
#print axioms Verif.Control.C26_violated_precision
#print axioms Verif.Control.C26_linear_range
#print axioms Verif.Control.C26_log_range
#print axioms Verif.Control.C26_range_edge
#print axioms Verif.ElasticUp.C162_copies
#print axioms Verif.Dense.C01_index_bijection
#print axioms Verif.Dense.C01_read_after_write
#print axioms Verif.Dense.C01_access_defined_iff
#print axioms Verif.Dense.C01_write_history
#print axioms Verif.Dense.C01_assign_preserves
#print axioms Verif.Dense.C01_equality_iff
#print axioms Verif.Dense.C01_inplace_arithmetic
#print axioms Verif.Dense.C01_add_defined_iff
#print axioms Verif.Dense.C01_zero_eye
#print axioms Verif.Dense.C01_constructor
#print axioms Verif.Dense.C02_prod
#print axioms Verif.Dense.C02_prodVec
#print axioms Verif.Dense.C02_trace
#print axioms Verif.Dense.C02_vecMulAddN
#print axioms Verif.Dense.C02_vecMulAddT
#print axioms Verif.Dense.C02_matMulAddNN
#print axioms Verif.Dense.C02_matMulAddNT
#print axioms Verif.Dense.C02_matMulAddTN
#print axioms Verif.Dense.C02_symmetricUpdate
#print axioms Verif.Dense.C02_symmetricUpdate2_partial
#print axioms Verif.Dense.C02_symmetricUpdate2_violated
#print axioms Verif.Dense.C03_inverse2x2
#print axioms Verif.Dense.C03_inverse3x3_partial
#print axioms Verif.Dense.C03_inverse3x3_violated
#print axioms Verif.DepthTrend.C118_fits
#print axioms Verif.DepthTrend.C118_defaults
#print axioms Verif.DepthTrend.C118_trend_partial
#print axioms Verif.DepthTrend.C118_no_rock
#print axioms Verif.DepthTrend.C118_violated_deep
#print axioms Verif.DepthTrend.C118_violated_forever
#print axioms Verif.DepthTrend.C118_violated_zmin
#print axioms Verif.Dips.C120_list
#print axioms Verif.Dips.C120_averages_partial
#print axioms Verif.Dips.C120_between
#print axioms Verif.Dips.C120_violated_empty
#print axioms Verif.Dips.C120_unweighted
#print axioms Verif.ElasticUp.C94_ties
#print axioms Verif.ElasticUp.C96_mean
#print axioms Verif.ElasticUp.C96_lower
#print axioms Verif.ElasticUp.C96_homogeneous
#print axioms Verif.ElasticUp.C96_definite
#print axioms Verif.ElasticUp.C97_report
#print axioms Verif.ElasticUp.C97_faithful_partial
#print axioms Verif.ElasticUp.C97_violated_units
#print axioms Verif.ElasticUp.C97_violated_definite
#print axioms Verif.ElasticSolvers.C130_total
#print axioms Verif.ElasticSolvers.C130_solvers
#print axioms Verif.ElasticSolvers.C130_schur
#print axioms Verif.ElasticSolvers.C130_private_partial
#print axioms Verif.ElasticSolvers.C130_violated_shared
#print axioms Verif.ElasticSolvers.C130_violated_twolevel
#print axioms Verif.ElasticSolvers.C130_solve
#print axioms Verif.ElasticSolvers.C130_violated_converged
#print axioms Verif.ElasticTool.C129_parameters
#print axioms Verif.ElasticTool.C129_linsolver
#print axioms Verif.ElasticTool.C129_words
#print axioms Verif.ElasticTool.C129_method
#print axioms Verif.ElasticTool.C129_violated_method
#print axioms Verif.ElasticTool.C129_box
#print axioms Verif.ElasticTool.C129_violated_fraction
#print axioms Verif.ElasticTool.C129_violated_missing
#print axioms Verif.ElasticTool.C129_violated_overwritten
#print axioms Verif.ElasticTool.C129_source
#print axioms Verif.ElasticTool.C129_violated_min
#print axioms Verif.ElasticTool.C129_preconditioner
#print axioms Verif.ElasticTool.C129_announced
#print axioms Verif.ElasticTool.C129_violated_heuristic
#print axioms Verif.ElasticTool.C129_violated_announced
#print axioms Verif.ElasticTool.C129_violated_mortar_precond
#print axioms Verif.ElasticTool.C129_layers
#print axioms Verif.ElasticTool.C129_cases
#print axioms Verif.ElasticTool.C129_mesh
#print axioms Verif.ElasticTool.C129_vtu
#print axioms Verif.ElasticTool.C129_violated_vtu
#print axioms Verif.ElasticUp.C94_stiffness
#print axioms Verif.ElasticUp.C94_bounds
#print axioms Verif.ElasticUp.C95_monotone
#print axioms Verif.ElasticUp.C95_independent
#print axioms Verif.ElasticUp.C95_factor
#print axioms Verif.Evaluator.C113_ready
#print axioms Verif.Evaluator.C113_build
#print axioms Verif.Evaluator.C113_evaluate
#print axioms Verif.Evaluator.C113_history
#print axioms Verif.Evaluator.C113_aniso
#print axioms Verif.Evaluator.C113_aniso_build
#print axioms Verif.Evaluator.C113_violated_other_cell
#print axioms Verif.Evaluator.C113_violated_rock
#print axioms Verif.SimRange.C153_order
#print axioms Verif.SimRange.C153_excess
#print axioms Verif.SimRange.C153_distance
#print axioms Verif.SimRange.C153_extremes
#print axioms Verif.SimRange.C153_solve
#print axioms Verif.SimRange.C153_needs_limit
#print axioms Verif.SinglePhase.C163_copies
#print axioms Verif.SinglePhase.C163_single_phase
#print axioms Verif.FracFlow.C15_velocity
#print axioms Verif.FracFlow.C15_gravity
#print axioms Verif.FracFlow.C15_capillary
#print axioms Verif.FracFlow.C15_violated_aniso_capillary
#print axioms Verif.FracFlow.C15_violated_aniso_limit
#print axioms Verif.FracFlow.C15_violated_aniso_norock
#print axioms Verif.FracFlow.C15_aniso_partial
#print axioms Verif.FracFlow.C16_fractional_flow
#print axioms Verif.FracFlow.C16_fractional_flow_aniso
#print axioms Verif.FracFlow.C16_phase_velocities
#print axioms Verif.FracFlow.C16_quadratic_derivative
#print axioms Verif.FracFlow.C16_quadratic_mobility
#print axioms Verif.FracFlow.C60_constant_velocity
#print axioms Verif.FracFlow.C60_order
#print axioms Verif.FracFlow.C60_partition
#print axioms Verif.FracFlow.C60_simple_interface
#print axioms Verif.Hybrid.C37_balance
#print axioms Verif.Hybrid.C37_total
#print axioms Verif.Hybrid.C38_dirichlet
#print axioms Verif.Hybrid.C38_interior
#print axioms Verif.Hybrid.C38_neumann
#print axioms Verif.Hybrid.C38_periodic
#print axioms Verif.Hybrid.C38_imbalance
#print axioms Verif.Hybrid.C38_violated_skew
#print axioms Verif.Hybrid.C75_symmetric
#print axioms Verif.Hybrid.C75_definite
#print axioms Verif.Hybrid.C75_solvable
#print axioms Verif.Implicit.C19_cancel
#print axioms Verif.Implicit.C20_upwind
#print axioms Verif.Implicit.C20_flux
#print axioms Verif.Implicit.C21_finish
#print axioms Verif.Implicit.C21_iteration
#print axioms Verif.Implicit.C21_start
#print axioms Verif.Implicit.C22_storage
#print axioms Verif.Implicit.C22_buffer
#print axioms Verif.Implicit.C22_nnz
#print axioms Verif.Implicit.C22_assemble
#print axioms Verif.Implicit.C19_total
#print axioms Verif.ImplicitStep.C152_flow
#print axioms Verif.ImplicitStep.C152_excess
#print axioms Verif.ImplicitStep.C152_unique
#print axioms Verif.ImplicitStep.C152_order
#print axioms Verif.ImplicitStep.C152_transport
#print axioms Verif.Implicit.C61_jacobian
#print axioms Verif.ImplicitDriver.C55_retries
#print axioms Verif.ImplicitDriver.C55_covers
#print axioms Verif.Implicit.C62_half_faces
#print axioms Verif.Implicit.C62_gravity
#print axioms Verif.Implicit.C62_boundary
#print axioms Verif.Implicit.C62_trans
#print axioms Verif.Implicit.C63_periodic_partial
#print axioms Verif.Implicit.C63_violated_periodic
#print axioms Verif.ImplicitStep.C150_periodic
#print axioms Verif.ImplicitStep.C150_violated_periodic
#print axioms Verif.ImplicitStep.C151_step
#print axioms Verif.ImplicitStep.C151_transport
#print axioms Verif.ImplicitStep.C151_still
#print axioms Verif.ImplicitStep.C151_two_rocks
#print axioms Verif.ImplicitSetup.C104_lists
#print axioms Verif.ImplicitSetup.C104_sources
#print axioms Verif.ImplicitSetup.C104_table
#print axioms Verif.ImplicitSetup.C104_violated_thin
#print axioms Verif.ImplicitStep.C150_steady
#print axioms Verif.ImplicitStep.C150_unique
#print axioms Verif.ImplicitStep.C150_balance
#print axioms Verif.ImplicitStep.C150_stationary
#print axioms Verif.ImplicitStep.C150_within
#print axioms Verif.ImplicitStep.C150_closed
#print axioms Verif.ImplicitStep.C150_transport_stationary
#print axioms Verif.ImplicitStep.C150_violated_division
#print axioms Verif.KnownAnswer.C138_problem
#print axioms Verif.KnownAnswer.C138_errors_partial
#print axioms Verif.KnownAnswer.C138_violated_l2
#print axioms Verif.KnownAnswer.C138_violated_verdict
#print axioms Verif.ElasticUp.C160_laminate
#print axioms Verif.ElasticUp.C160_across
#print axioms Verif.Layers.C154_strains
#print axioms Verif.Layers.C154_unique
#print axioms Verif.Layers.C154_same
#print axioms Verif.Layers.C154_arithmetic
#print axioms Verif.Layers.C154_harmonic
#print axioms Verif.PBC.C154_box
#print axioms Verif.Shape.C72_legendre
#print axioms Verif.Shape.C72_lobatto_newton
#print axioms Verif.Shape.C72_gauss_eigenvalues
#print axioms Verif.Shape.C72_violated_degree_zero
#print axioms Verif.Boundary.C07_linear_values
#print axioms Verif.Boundary.C07_linear_profile
#print axioms Verif.Boundary.C07_linear_rejects
#print axioms Verif.Boundary.C08_linear_history_partial
#print axioms Verif.Boundary.C08_linear_history_violated
#print axioms Verif.Boundary.C56_unique_ids_accepted
#print axioms Verif.Boundary.C56_rejected_ids_not_unique_partial
#print axioms Verif.Boundary.C56_duplicate_ids_accepted_violated
#print axioms Verif.Boundary.C57_region_based_exact
#print axioms Verif.Elastic.C74_lm
#print axioms Verif.Elastic.C74_km
#print axioms Verif.Elastic.C74_deck_lm
#print axioms Verif.Elastic.C74_deck_km
#print axioms Verif.Elastic.C74_deck_en
#print axioms Verif.Elastic.C74_deck_other
#print axioms Verif.Elastic.C74_cells
#print axioms Verif.Elastic.C74_fractions
#print axioms Verif.Elastic.C74_satnum
#print axioms Verif.Elastic.C74_density_partial
#print axioms Verif.Elastic.C74_violated_density
#print axioms Verif.Elastic.C74_violated_ratio
#print axioms Verif.Elastic.C74_violated_region_zero
#print axioms Verif.Elastic.C74_rocks
#print axioms Verif.Elastic.C74_rock_scale
#print axioms Verif.Elastic.C74_violated_cast
#print axioms Verif.Elastic.C43_hooke
#print axioms Verif.Elastic.C43_posdef
#print axioms Verif.Elastic.C43_inverse
#print axioms Verif.Elastic.C43_refused
#print axioms Verif.Elastic.C43_plane
#print axioms Verif.Elastic.C43_km
#print axioms Verif.Elastic.C43_vpvs
#print axioms Verif.Elastic.C43_lm_partial
#print axioms Verif.Elastic.C43_violated_lambda_zero
#print axioms Verif.Elastic.C43_en
#print axioms Verif.Elastic.C43_km_auxetic
#print axioms Verif.Elastic.C43_violated_fluid
#print axioms Verif.Elastic.C43_symmetric
#print axioms Verif.Elastic.C43_create_symmetric
#print axioms Verif.Elastic.C43_ti
#print axioms Verif.Elastic.C43_density
#print axioms Verif.Elastic.C43_violated_density
#print axioms Verif.Elastic.C43_orthotropic
#print axioms Verif.Elastic.C43_violated_stale
#print axioms Verif.Elastic.C43_create
#print axioms Verif.Elastic.C43_create_count
#print axioms Verif.MatrixOps.C47_axpy
#print axioms Verif.MatrixOps.C47_axpy_sizes
#print axioms Verif.MatrixOps.C47_augment_partial
#print axioms Verif.MatrixOps.C47_saddle
#print axioms Verif.MatrixOps.C47_violated_augment
#print axioms Verif.MatrixOps.C47_violated_mirror
#print axioms Verif.MatrixOps.C47_diagonal
#print axioms Verif.MatrixOps.C47_extractDiagonal
#print axioms Verif.MatrixOps.C47_extractDiagonal_missing
#print axioms Verif.MatrixOps.C47_extractBlock
#print axioms Verif.MatrixOps.C47_fromDense
#print axioms Verif.MatrixOps.C47_saveAsc
#print axioms Verif.Mimetic.C36_symmetric
#print axioms Verif.Mimetic.C36_psd
#print axioms Verif.Mimetic.C36_posdef
#print axioms Verif.Mimetic.C36_exact
#print axioms Verif.Mimetic.C36_mobility
#print axioms Verif.Mimetic.C36_gravity
#print axioms Verif.Mimetic.C36_aniso_exact
#print axioms Verif.Mimetic.C36_aniso_symmetric_partial
#print axioms Verif.Mimetic.C36_violated_aniso
#print axioms Verif.Mimetic.C36_aniso_isotropic
#print axioms Verif.SinglePhase.C159_mirror
#print axioms Verif.SinglePhase.C159_single_phase
#print axioms Verif.SinglePhase.C159_symmetric
#print axioms Verif.Asm.C83_coupling_partial
#print axioms Verif.Asm.C83_columns
#print axioms Verif.Asm.C83_pattern
#print axioms Verif.Asm.C83_violated
#print axioms Verif.Asm.C146_constraint_partial
#print axioms Verif.Asm.C146_matching
#print axioms Verif.Asm.C146_violated_single
#print axioms Verif.Mpc.C137_order
#print axioms Verif.Mpc.C137_order_slave
#print axioms Verif.Mpc.C137_set
#print axioms Verif.Mpc.C137_set_slave
#print axioms Verif.Mpc.C137_violated_nan
#print axioms Verif.Mpc.C137_add
#print axioms Verif.Mpc.C137_change
#print axioms Verif.Mpc.C137_print
#print axioms Verif.Mpc.C137_print_dof
#print axioms Verif.Newton.C18_bounded
#print axioms Verif.Newton.C18_flag
#print axioms Verif.Newton.C18_truthful
#print axioms Verif.Newton.C18_monotone
#print axioms Verif.Newton.C18_converged_start
#print axioms Verif.Newton.C18_violated_stale_residual
#print axioms Verif.NewtonVec.C110_refines
#print axioms Verif.NewtonVec.C110_history
#print axioms Verif.NewtonVec.C110_block
#print axioms Verif.NewtonVec.C110_norms
#print axioms Verif.NewtonVec.C110_residual
#print axioms Verif.NewtonVec.C110_linear
#print axioms Verif.NewtonVec.C110_violated_linear_solver
#print axioms Verif.Numbering.C39_faces_partial
#print axioms Verif.Numbering.C39_interior_first
#print axioms Verif.Numbering.C39_topology
#print axioms Verif.Numbering.C39_violated_order
#print axioms Verif.Numbering.C39_partners
#print axioms Verif.Numbering.C39_face_indices
#print axioms Verif.RelPermChain.C157_capillary
#print axioms Verif.RelPermChain.C157_capillary_line
#print axioms Verif.ViscChain.C157_viscous
#print axioms Verif.Asm.C98_norace_partial
#print axioms Verif.Asm.C98_schedule_partial
#print axioms Verif.Asm.C98_ends
#print axioms Verif.Asm.C98_violated_collapsed
#print axioms Verif.Asm.C98_violated_tilted
#print axioms Verif.Boundary.C04_register_exact
#print axioms Verif.Boundary.C04_growth_keeps
#print axioms Verif.Boundary.C04_symmetric_partial
#print axioms Verif.Boundary.C04_registration_persists
#print axioms Verif.Boundary.C04_symmetry_violated_by_shrink
#print axioms Verif.Boundary.C04_symmetry_violated_by_id_zero
#print axioms Verif.Boundary.C09_periodic_kind_invariant
#print axioms Verif.Boundary.C09_call_effect
#print axioms Verif.Boundary.C09_unique_ids_follow_type
#print axioms Verif.Pattern.C103_structure
#print axioms Verif.Pattern.C103_assembly
#print axioms Verif.Pattern.C103_numbering
#print axioms Verif.RelPerm.C88_increasing
#print axioms Verif.RelPerm.C88_sound
#print axioms Verif.RelPerm.C88_covers
#print axioms Verif.RelPerm.C88_resolved
#print axioms Verif.RelPerm.C88_point
#print axioms Verif.RelPerm.C88_violated_empty
#print axioms Verif.RelPerm.C88_terminates
#print axioms Verif.RelPerm.C88_sampling
#print axioms Verif.Boundary.C05_partner_is_image
#print axioms Verif.Boundary.C05_partner_iff_image_partial
#print axioms Verif.Boundary.C05_symmetry_violated
#print axioms Verif.Boundary.C05_assertion_violated
#print axioms Verif.Boundary.C06_side_flux_distributed
#print axioms Verif.Boundary.C08_fixed_exact
#print axioms Verif.Boundary.C08_illegal_type_rejected
#print axioms Verif.Boundary.C08_periodic_exact
#print axioms Verif.PBC.C99_constraints
#print axioms Verif.PBC.C99_periodic
#print axioms Verif.PBC.C99_sound
#print axioms Verif.PBC.C99_torus
#print axioms Verif.PBC.C99_homogeneous
#print axioms Verif.PBC.C99_box
#print axioms Verif.PBC.C99_violated_small
#print axioms Verif.SinglePhase.C91_parallel
#print axioms Verif.SinglePhase.C91_series
#print axioms Verif.PermTool.C123_each
#print axioms Verif.PermTool.C123_layout
#print axioms Verif.PermTool.C123_usage
#print axioms Verif.PermTool.C123_runs
#print axioms Verif.PermTool.C123_order
#print axioms Verif.PermTool.C123_porosity
#print axioms Verif.PermTool.C123_violated_linear
#print axioms Verif.PermTool.C123_violated_porosity
#print axioms Verif.PermTool.C123_type
#print axioms Verif.Hybrid.C38_postprocess
#print axioms Verif.Hybrid.C38_postprocess_id
#print axioms Verif.Calls.C134_settings
#print axioms Verif.Calls.C134_singlePhase
#print axioms Verif.Calls.C134_first_direction
#print axioms Verif.Calls.C134_other_direction_partial
#print axioms Verif.Calls.C134_violated_gravity
#print axioms Verif.Calls.C134_violated_permeability
#print axioms Verif.Calls.C134_violated_unprepared
#print axioms Verif.QuadGeo.C105_map
#print axioms Verif.QuadGeo.C105_jacobian
#print axioms Verif.QuadGeo.C105_area
#print axioms Verif.QuadGeo.C105_injective
#print axioms Verif.QuadGeo.C105_local
#print axioms Verif.QuadGeo.C105_residual
#print axioms Verif.QuadGeo.C105_parallelogram
#print axioms Verif.QuadGeo.C105_coupling
#print axioms Verif.QuadGeo.C105_coupling_defined
#print axioms Verif.QuadGeo.C105_corners
#print axioms Verif.QuadGeo.C105_violated_volume
#print axioms Verif.QuadGeo.C105_volume_rectangle
#print axioms Verif.QuadGeo.C105_violated_endless
#print axioms Verif.QuadGeo.C105_violated_offset
#print axioms Verif.Regularize.C121_columns_partial
#print axioms Verif.Regularize.C121_layers
#print axioms Verif.Regularize.C121_violated_never
#print axioms Verif.Regularize.C121_violated_lower
#print axioms Verif.Regularize.C121_violated_upper
#print axioms Verif.Regularize.C121_violated_finer
#print axioms Verif.Regularize.C121_violated_zero
#print axioms Verif.Regularize.C121_violated_written
#print axioms Verif.Regularize.C121_violated_aborts
#print axioms Verif.Regularize.C121_zcorn_partial
#print axioms Verif.Regularize.C121_violated_depth
#print axioms Verif.RelPerm.C68_mean
#print axioms Verif.RelPerm.C68_defined
#print axioms Verif.RelPerm.C68_bounds
#print axioms Verif.RelPerm.C68_antitone
#print axioms Verif.RelPerm.C68_pressurePoints
#print axioms Verif.RelPerm.C66_covers_partial
#print axioms Verif.RelPerm.C66_tight
#print axioms Verif.RelPerm.C66_endpoints_partial
#print axioms Verif.RelPerm.C33_isotropic
#print axioms Verif.RelPermChain.C143_unit
#print axioms Verif.RelPermChain.C143_periodic
#print axioms Verif.RelPermChain.C143_monotone
#print axioms Verif.RelPermChain.C143_full
#print axioms Verif.RelPermChain.C143_monotone_periodic
#print axioms Verif.RelPermChain.C143_unit_anisotropic_partial
#print axioms Verif.RelPermChain.C143_monotone_anisotropic
#print axioms Verif.RelPermChain.C143_violated_anisotropic
#print axioms Verif.RelPermChain.C164_copies
#print axioms Verif.RelPermOut.C125_isotropic_both
#print axioms Verif.RelPermOut.C125_isotropic_one
#print axioms Verif.RelPermOut.C125_anisotropic
#print axioms Verif.RelPermOut.C125_accepted
#print axioms Verif.RelPermOut.C125_count
#print axioms Verif.RelPermOut.C125_violated_message
#print axioms Verif.RelPermOut.C125_option
#print axioms Verif.RelPerm.C31_accepted
#print axioms Verif.RelPerm.C31_rejected_iff
#print axioms Verif.RelPerm.C31_load
#print axioms Verif.RelPerm.C31_violated_unlimited_permy
#print axioms Verif.RelPerm.C70_checkCurve
#print axioms Verif.RelPermChain.C155_parallel
#print axioms Verif.RelPermChain.C155_series
#print axioms Verif.RelPermChain.C155_parallel_periodic
#print axioms Verif.RelPermChain.C155_series_periodic
#print axioms Verif.RelPermChain.C166_tensors
#print axioms Verif.RelPermChain.C166_fixed
#print axioms Verif.RelPermChain.C166_periodic
#print axioms Verif.RelPerm.C33_anisotropic_partial
#print axioms Verif.RelPerm.C33_single
#print axioms Verif.RelPerm.C33_violated_norock
#print axioms Verif.RelPerm.C33_violated_single_anisotropic
#print axioms Verif.RelPerm.C66_violated
#print axioms Verif.RelPerm.C67_head_partial
#print axioms Verif.RelPerm.C67_violated_inactive
#print axioms Verif.RelPerm.C67_thickness
#print axioms Verif.RelPerm.C69_full
#print axioms Verif.RelPerm.C69_diagonal
#print axioms Verif.RelPerm.C69_identity
#print axioms Verif.RelPerm.C69_endpoints
#print axioms Verif.RelPerm.C69_violated_offdiagonal
#print axioms Verif.RelPerm.C66_computed
#print axioms Verif.RelPermOut.C126_table
#print axioms Verif.RelPermOut.C126_interpolated
#print axioms Verif.RelPermOut.C126_eclipse
#print axioms Verif.RelPermOut.C126_names
#print axioms Verif.RelPermOut.C126_violated_path
#print axioms Verif.RelPermOut.C126_violated_krow
#print axioms Verif.RelPermOut.C126_violated_one
#print axioms Verif.RelPermChain.C165_tensors
#print axioms Verif.RelPermChain.C165_fixed
#print axioms Verif.RelPermChain.C165_periodic
#print axioms Verif.RelPermOut.C147_headings
#print axioms Verif.RelPermOut.C147_reuse_partial
#print axioms Verif.RelPermOut.C147_violated_phases
#print axioms Verif.RelPermOut.C147_pressure_partial
#print axioms Verif.RelPermOut.C147_violated_pressure
#print axioms Verif.RelPermChain.C143_sum
#print axioms Verif.RelPermChain.C143_sum_periodic
#print axioms Verif.SinglePhase.C158_relabel
#print axioms Verif.SinglePhase.C158_single_phase
#print axioms Verif.SinglePhase.C158_violated_tiny
#print axioms Verif.Reservoir.C50_classify
#print axioms Verif.Reservoir.C50_tensor
#print axioms Verif.Reservoir.C50_reject
#print axioms Verif.Reservoir.C50_symmetric
#print axioms Verif.Reservoir.C50_position_partial
#print axioms Verif.Reservoir.C50_violated_pair
#print axioms Verif.Reservoir.C50_threshold
#print axioms Verif.Reservoir.C50_none
#print axioms Verif.Reservoir.C51_fields
#print axioms Verif.Reservoir.C51_reject
#print axioms Verif.Reservoir.C51_violated_rock
#print axioms Verif.Reservoir.C85_uniform
#print axioms Verif.Reservoir.C85_violated_unset
#print axioms Verif.Reservoir.C84_legacy
#print axioms Verif.ResistChain.C148_fixed
#print axioms Verif.ResistChain.C148_monotone
#print axioms Verif.ResistChain.C148_periodic
#print axioms Verif.ResistChain.C148_monotone_periodic
#print axioms Verif.ResistChain.C148_uniform
#print axioms Verif.ResistChain.C168_copies
#print axioms Verif.ResistChain.C168_fixed
#print axioms Verif.ResistChain.C168_periodic
#print axioms Verif.ResistChain.C148_parallel
#print axioms Verif.ResistChain.C148_series
#print axioms Verif.ResistChain.C148_parallel_periodic
#print axioms Verif.ResistChain.C148_series_periodic
#print axioms Verif.Resist.C111_check
#print axioms Verif.Resist.C111_accepted
#print axioms Verif.Resist.C111_violated_small_perm
#print axioms Verif.Resist.C111_resistivity
#print axioms Verif.Resist.C111_monotone
#print axioms Verif.Resist.C111_point
#print axioms Verif.Resist.C111_saturation
#print axioms Verif.Resist.C111_sampling
#print axioms Verif.Resist.C111_range
#print axioms Verif.Resist.C111_range_sane
#print axioms Verif.Resist.C111_wanted
#print axioms Verif.Resist.C111_violated_one_point
#print axioms Verif.Resist.C111_ranks
#print axioms Verif.Resist.C111_lines
#print axioms Verif.Resist.C111_interpolated
#print axioms Verif.Resist.C111_fixed
#print axioms Verif.Resist.C111_uniform
#print axioms Verif.RockFiles.C142_file
#print axioms Verif.RockFiles.C142_named
#print axioms Verif.RockFiles.C142_violated_no_density
#print axioms Verif.RockFiles.C142_list
#print axioms Verif.RockFiles.C142_list_exit
#print axioms Verif.RockFiles.C142_violated_list
#print axioms Verif.RockFiles.C142_uniform
#print axioms Verif.RockFiles.C142_violated_no_rocks
#print axioms Verif.RockFiles.C142_rebuild
#print axioms Verif.RockFiles.C142_parameters
#print axioms Verif.RockFiles.C142_violated_rebuild
#print axioms Verif.RockFiles.C142_no_parameter
#print axioms Verif.RockFiles.C142_text
#print axioms Verif.RockFiles.C142_violated_text
#print axioms Verif.RockStore.C116_history
#print axioms Verif.RockStore.C116_same
#print axioms Verif.RockStore.C116_violated_sizes
#print axioms Verif.RockTables.C107_table_partial
#print axioms Verif.RockTables.C107_result
#print axioms Verif.RockTables.C107_garbage
#print axioms Verif.RockTables.C107_aniso_partial
#print axioms Verif.RockTables.C107_pair
#print axioms Verif.RockTables.C107_list_partial
#print axioms Verif.RockTables.C107_directory
#print axioms Verif.RockTables.C107_words
#print axioms Verif.RockTables.C107_violated_minus
#print axioms Verif.RockTables.C107_violated_cut
#print axioms Verif.RockTables.C107_violated_empty
#print axioms Verif.RockTables.C107_violated_short
#print axioms Verif.RockTables.C107_violated_blank
#print axioms Verif.Control.C64_pressure_drops
#print axioms Verif.Control.C64_saturations
#print axioms Verif.Control.C64_stops
#print axioms Verif.Control.C64_limits_idempotent
#print axioms Verif.Control.C64_limits
#print axioms Verif.Schwarz.C131_columns
#print axioms Verif.Schwarz.C131_cover
#print axioms Verif.Schwarz.C131_couplings
#print axioms Verif.Schwarz.C131_periodic
#print axioms Verif.Schwarz.C131_violated_direction
#print axioms Verif.Shape.C44_gradient
#print axioms Verif.Shape.C44_square
#print axioms Verif.Shape.C44_cube
#print axioms Verif.Shape.C44_violated_line
#print axioms Verif.Shape.C44_lagrange_nodal
#print axioms Verif.Shape.C44_lagrange_reproduce
#print axioms Verif.Shape.C44_lagrange_unity
#print axioms Verif.Shape.C44_lagrange_repeated
#print axioms Verif.Shape.C44_violated_lagrange_gradient
#print axioms Verif.Shape.C44_lagrange_gradient_partial
#print axioms Verif.Shape.C44_pn_order
#print axioms Verif.Shape.C44_pn_nodal
#print axioms Verif.Shape.C44_pn_unity
#print axioms Verif.SimOutput.C136_vtk_partial
#print axioms Verif.SimOutput.C136_violated_empty
#print axioms Verif.SimOutput.C136_part
#print axioms Verif.SimOutput.C136_field
#print axioms Verif.SimOutput.C136_ecl_partial
#print axioms Verif.SimOutput.C136_violated_time
#print axioms Verif.SimOutput.C136_violated_unit
#print axioms Verif.SimOutput.C136_vtk_names
#print axioms Verif.SimOutput.C136_ecl_names_partial
#print axioms Verif.SimOutput.C136_violated_names
#print axioms Verif.SimRange.C141_step
#print axioms Verif.SimRange.C141_solve
#print axioms Verif.SimRange.C141_run
#print axioms Verif.SimRange.C141_balanced
#print axioms Verif.SimRange.C141_blocks
#print axioms Verif.SimRange.C141_needs_balance
#print axioms Verif.SimRange.C141_refused
#print axioms Verif.SimRun.C140_blocks
#print axioms Verif.SimRun.C140_blocks_order
#print axioms Verif.SimRun.C140_density
#print axioms Verif.SimRun.C140_run
#print axioms Verif.SimRun.C140_water
#print axioms Verif.SimRun.C140_noflow
#print axioms Verif.SimRun.C140_violated_order
#print axioms Verif.SimRun.C140_violated_overlap
#print axioms Verif.SimRun.C140_violated_again
#print axioms Verif.SimSetup.C124_pressures
#print axioms Verif.SimSetup.C124_fluxes
#print axioms Verif.SimSetup.C124_upscaling
#print axioms Verif.SimSetup.C124_upscaling_refused
#print axioms Verif.SimSetup.C124_region
#print axioms Verif.SimSetup.C124_refused
#print axioms Verif.SimSetup.C124_saturation
#print axioms Verif.SimSetup.C124_init
#print axioms Verif.SimSetup.C124_violated_again
#print axioms Verif.SimSetup.C124_violated_range
#print axioms Verif.SimSetup.C124_violated_stale
#print axioms Verif.SinglePhase.C89_homogeneous
#print axioms Verif.SinglePhase.C89_homogeneous_fixed
#print axioms Verif.SinglePhase.C90_bounds
#print axioms Verif.SinglePhase.C90_parallel
#print axioms Verif.SinglePhase.C90_series
#print axioms Verif.SinglePhase.C91_bounds
#print axioms Verif.SinglePhase.C92_scaling
#print axioms Verif.SinglePhase.C92_monotone_fixed
#print axioms Verif.SinglePhase.C92_monotone_periodic
#print axioms Verif.SinglePhase.C89_single_phase
#print axioms Verif.SinglePhase.C90_single_phase
#print axioms Verif.SinglePhase.C91_single_phase
#print axioms Verif.SinglePhase.C93_gravity_fixed
#print axioms Verif.SinglePhase.C93_gravity
#print axioms Verif.SinglePhase.C93_violated
#print axioms Verif.SinglePhase.C93_partial
#print axioms Verif.SolverControl.C108_outcome
#print axioms Verif.SolverControl.C108_current
#print axioms Verif.SolverControl.C108_preconditioner
#print axioms Verif.SolverControl.C108_solution_partial
#print axioms Verif.SolverControl.C108_solvable
#print axioms Verif.SolverControl.C108_guess
#print axioms Verif.SolverControl.C108_upscaler
#print axioms Verif.SolverControl.C108_violated_singular
#print axioms Verif.SolverControl.C108_violated_unbalanced
#print axioms Verif.SolverControl.C108_violated_first
#print axioms Verif.SolverControl.C108_violated_size
#print axioms Verif.SolverLife.C139_explicit
#print axioms Verif.SolverLife.C139_current
#print axioms Verif.SolverLife.C139_violated_constructor
#print axioms Verif.SolverLife.C139_capillary
#print axioms Verif.SolverLife.C139_implicit
#print axioms Verif.SolverLife.C139_violated_repeats
#print axioms Verif.SolverLife.C139_violated_ignored
#print axioms Verif.SolverLife.C139_unset
#print axioms Verif.SolverLife.C139_violated_grid
#print axioms Verif.SolverLife.C139_violated_porosity
#print axioms Verif.SolverLife.C139_violated_reset
#print axioms Verif.Stat.C100_report_partial
#print axioms Verif.Stat.C100_rocktypes_partial
#print axioms Verif.Stat.C100_porosity_partial
#print axioms Verif.Stat.C100_order_partial
#print axioms Verif.Stat.C100_violated_small
#print axioms Verif.Stat.C100_violated_single
#print axioms Verif.Steady.C34_bounded
#print axioms Verif.Steady.C34_schedule
#print axioms Verif.Steady.C34_step_range
#print axioms Verif.Steady.C34_step_positive
#print axioms Verif.Steady.C34_success
#print axioms Verif.Steady.C34_violated_initial_step
#print axioms Verif.Steady.C34_explicit
#print axioms Verif.SteadyChain.C71_relperm
#print axioms Verif.SteadyChain.C71_violated_zz
#print axioms Verif.SteadyChain.C149_fixed
#print axioms Verif.SteadyChain.C149_periodic
#print axioms Verif.SteadyChain.C149_uniform
#print axioms Verif.SteadyChain.C149_state
#print axioms Verif.Steady.C35_both
#print axioms Verif.Steady.C35_destripe
#print axioms Verif.Steady.C35_roundtrip
#print axioms Verif.Steady.C35_violated_destripe
#print axioms Verif.Steady.C35_limits
#print axioms Verif.Steady.C54_total
#print axioms Verif.Steady.C54_defined
#print axioms Verif.Steady.C54_fractions
#print axioms Verif.Steady.C54_periodic_balance
#print axioms Verif.Steady.C71_mobility
#print axioms Verif.Steady.C71_contrast
#print axioms Verif.Steady.C71_relperm_partial
#print axioms Verif.Steady.C71_identity
#print axioms Verif.SteadyManager.C145_schedule
#print axioms Verif.SteadyManager.C145_refused
#print axioms Verif.SteadyManager.C145_setup_fails
#print axioms Verif.SteadyManager.C145_files
#print axioms Verif.SteadyManager.C145_violated_header
#print axioms Verif.SteadyTool.C127_rocks
#print axioms Verif.SteadyTool.C127_rocknumbers
#print axioms Verif.SteadyTool.C127_limits
#print axioms Verif.SteadyTool.C127_bounds
#print axioms Verif.SteadyTool.C127_sampling
#print axioms Verif.SteadyTool.C127_start
#print axioms Verif.SteadyTool.C127_usage
#print axioms Verif.SteadyTool.C127_violated_results
#print axioms Verif.SteadyTool.C127_violated_grid
#print axioms Verif.SteadyTool.C127_violated_aniso
#print axioms Verif.SteadyTool.C127_violated_endless
#print axioms Verif.SteadyTool.C127_violated_directory
#print axioms Verif.Euler.C12_success_iff
#print axioms Verif.Euler.C12_result
#print axioms Verif.Euler.C12_failure
#print axioms Verif.Euler.C12_no_overflow
#print axioms Verif.Euler.C12_violated_not_restored
#print axioms Verif.Euler.C12_bounds
#print axioms Verif.Euler.C12_respects_cfl
#print axioms Verif.Euler.C12_minimal
#print axioms Verif.Elastic.C49_strain
#print axioms Verif.Elastic.C49_strain_plane
#print axioms Verif.Elastic.C49_jacobian
#print axioms Verif.Elastic.C49_linear
#print axioms Verif.Elastic.C49_forces
#print axioms Verif.Elastic.C49_energy
#print axioms Verif.Elastic.C49_symmetric
#print axioms Verif.Elastic.C49_load
#print axioms Verif.Elastic.C49_load_work
#print axioms Verif.Elastic.C49_psd
#print axioms Verif.Elastic.C49_definite
#print axioms Verif.Elastic.C49_rigid
#print axioms Verif.Elastic.C49_load_hex
#print axioms Verif.Subsample.C112_box
#print axioms Verif.Subsample.C112_depth_partial
#print axioms Verif.Subsample.C112_whole
#print axioms Verif.Subsample.C112_limits
#print axioms Verif.Subsample.C112_violated_start
#print axioms Verif.Subsample.C112_violated_depth
#print axioms Verif.Subsample.C112_violated_length
#print axioms Verif.Subsample.C112_table_partial
#print axioms Verif.Subsample.C112_lines
#print axioms Verif.Subsample.C112_fractions
#print axioms Verif.Subsample.C112_saturations
#print axioms Verif.Subsample.C112_pressures
#print axioms Verif.Subsample.C112_violated_rows
#print axioms Verif.Subsample.C112_violated_history
#print axioms Verif.Subsample.C112_violated_ntg
#print axioms Verif.Subsample.C112_violated_norock
#print axioms Verif.Subsample.C112_dip
#print axioms Verif.Subsample.C112_azimuth_partial
#print axioms Verif.Subsample.C112_azimuth_axis
#print axioms Verif.Subsample.C112_violated_azimuth
#print axioms Verif.SinglePhase.C92_parts_fixed
#print axioms Verif.SinglePhase.C92_parts_periodic
#print axioms Verif.Euler.C10_conservation
#print axioms Verif.Euler.C10_local_balance
#print axioms Verif.Euler.C10_closed_system
#print axioms Verif.Euler.C11_order
#print axioms Verif.Euler.C11_divide
#print axioms Verif.Euler.C11_each_cell_once
#print axioms Verif.Euler.C11_splitting
#print axioms Verif.Euler.C11_serial_history_independent
#print axioms Verif.Euler.C11_violated_reinit
#print axioms Verif.Euler.C11_parallel_disjoint
#print axioms Verif.Euler.C11_violated_lost_update
#print axioms Verif.Euler.C11_violated_instance
#print axioms Verif.Euler.C11_events
#print axioms Verif.Euler.C13_clamp
#print axioms Verif.Euler.C13_noclamp
#print axioms Verif.Euler.C13_step
#print axioms Verif.Euler.C10_partner_face
#print axioms Verif.Euler.C59_upstream
#print axioms Verif.Euler.C59_capillary
#print axioms Verif.Euler.C59_capillary_outer
#print axioms Verif.Euler.C58_gravity_off_partial
#print axioms Verif.Euler.C58_violated
#print axioms Verif.Euler.C59_gravity_partial
#print axioms Verif.Euler.C59_violated_countercurrent
#print axioms Verif.Euler.C59_violated_orientation
#print axioms Verif.Euler.C14_limit
#print axioms Verif.Euler.C14_maximum_principle
#print axioms Verif.TransportDefs.C117_permeability
#print axioms Verif.TransportDefs.C117_porevolume
#print axioms Verif.TransportDefs.C117_sources
#print axioms Verif.TransportDefs.C117_state
#print axioms Verif.TransportDefs.C117_fixed
#print axioms Verif.TransportDefs.C117_densities
#print axioms Verif.TSource.C17_list
#print axioms Verif.TSource.C17_no_leak
#print axioms Verif.TSource.C17_wrong_phases
#print axioms Verif.TSource.C17_create_failure
#print axioms Verif.TSource.C17_first_growth_failure
#print axioms Verif.TSource.C17_violated_growth_failure
#print axioms Verif.TSource.C17_all_fail
#print axioms Verif.ElasticUp.C161_turned
#print axioms Verif.ElasticUp.C161_symmetric
#print axioms Verif.Upscale.C27_porosity
#print axioms Verif.Upscale.C27_ntg
#print axioms Verif.Upscale.C27_swcr
#print axioms Verif.Upscale.C27_sowcr
#print axioms Verif.Upscale.C27_saturation
#print axioms Verif.Upscale.C27_net_porosity
#print axioms Verif.Upscale.C27_bounds
#print axioms Verif.Upscale.C27_constant
#print axioms Verif.Upscale.C27_order
#print axioms Verif.Upscale.C27_net_times_ntg
#print axioms Verif.Upscale.C28_velocity
#print axioms Verif.Upscale.C28_delta
#print axioms Verif.Upscale.C28_order
#print axioms Verif.Upscale.C28_uniform
#print axioms Verif.Upscale.C28_extent
#print axioms Verif.Upscale.C28_fixed_diagonal
#print axioms Verif.Upscale.C28_homogeneous
#print axioms Verif.Upscale.C28_unset_id_counts_as_high_x
#print axioms Verif.UInit.C122_supported
#print axioms Verif.UInit.C122_user
#print axioms Verif.UInit.C122_same
#print axioms Verif.UInit.C122_deck
#print axioms Verif.UInit.C122_rock
#print axioms Verif.UInit.C122_box
#print axioms Verif.UInit.C122_throws
#print axioms Verif.UInit.C122_control
#print axioms Verif.UInit.C122_steady
#print axioms Verif.UInit.C122_violated_again
#print axioms Verif.UInit.C122_violated_memory
#print axioms Verif.UInit.C122_violated_ecl
#print axioms Verif.UInit.C122_violated_override
#print axioms Verif.UInit.C122_violated_type
#print axioms Verif.UInit.C122_violated_cfl
#print axioms Verif.MatrixOps.C48_operator
#print axioms Verif.MatrixOps.C48_scaled_partial
#print axioms Verif.MatrixOps.C48_violated_scale
#print axioms Verif.MatrixOps.C48_uzawa
#print axioms Verif.MatrixOps.C48_violated_rhs
#print axioms Verif.MatrixOps.C48_schur
#print axioms Verif.MatrixOps.C48_columns_partial
#print axioms Verif.MatrixOps.C48_violated_columns
#print axioms Verif.MatrixOps.C48_preconditioner
#print axioms Verif.Variogram.C119_pair_partial
#print axioms Verif.Variogram.C119_refused
#print axioms Verif.Variogram.C119_table
#print axioms Verif.Variogram.C119_all_or_nothing
#print axioms Verif.Variogram.C119_cut
#print axioms Verif.Variogram.C119_violated_direction
#print axioms Verif.Variogram.C119_violated_zmax
#print axioms Verif.ViscChain.C144_unit_partial
#print axioms Verif.ViscChain.C144_periodic_partial
#print axioms Verif.ViscChain.C144_monotone
#print axioms Verif.ViscChain.C144_monotone_periodic
#print axioms Verif.ViscChain.C144_rising
#print axioms Verif.ViscChain.C144_full
#print axioms Verif.ViscChain.C144_violated_anisotropic
#print axioms Verif.ViscChain.C167_copies
#print axioms Verif.ViscChain.C167_tensors
#print axioms Verif.ViscChain.C167_fixed
#print axioms Verif.ViscChain.C167_periodic
#print axioms Verif.VGather.C115_owner
#print axioms Verif.VGather.C115_gathered
#print axioms Verif.VGather.C115_no_deadlock
#print axioms Verif.VGather.C115_terminates
#print axioms Verif.VGather.C115_completes
#print axioms Verif.ViscChain.C144_sum
#print axioms Verif.ViscChain.C144_sum_periodic
#print axioms Verif.ViscChain.C156_parallel
#print axioms Verif.ViscChain.C156_series
#print axioms Verif.ViscChain.C156_parallel_periodic
#print axioms Verif.ViscChain.C156_series_periodic
#print axioms Verif.Visc.C114_check
#print axioms Verif.Visc.C114_check_passes
#print axioms Verif.Visc.C114_volumes
#print axioms Verif.Visc.C114_mean
#print axioms Verif.Visc.C114_bounds
#print axioms Verif.Visc.C114_monotone
#print axioms Verif.Visc.C114_ends
#print axioms Verif.Visc.C114_table
#print axioms Verif.Visc.C114_interval
#print axioms Verif.Visc.C114_equal_ratio
#print axioms Verif.Visc.C114_range
#print axioms Verif.Visc.C114_samples
#print axioms Verif.Visc.C114_points
#print axioms Verif.Visc.C114_violated_one_point
#print axioms Verif.Visc.C114_values
#print axioms Verif.Visc.C114_contrast
#print axioms Verif.Visc.C114_single_contrast
#print axioms Verif.Visc.C114_violated_single_contrast
#print axioms Verif.Visc.C114_samples_end
#print axioms Verif.Visc.C114_row
#print axioms Verif.Visc.C114_lines
#print axioms Verif.Visc.C114_violated_dry
#print axioms Verif.Visc.C114_interp
#print axioms Verif.Visc.C114_violated_interp
#print axioms Verif.Visc.C114_violated_z
#print axioms Verif.Wave.C128_direction
#print axioms Verif.Wave.C128_christoffel
#print axioms Verif.Wave.C128_speeds
#print axioms Verif.Wave.C128_isotropic
#print axioms Verif.Wave.C128_opposite
#print axioms Verif.Wave.C128_real
#print axioms Verif.Wave.C128_positive
#print axioms Verif.Wave.C128_driver
#print axioms Verif.Wave.C128_violated_density
#print axioms Verif.Wave.C128_violated_order
