# Formal model of OPM/opm-upscaling: design

## Technique and layout

Lean 4.33.0 with single Mathlib modules. All Lean sources live under `lean/Verif/`:

* `Verif/Model/*.lean` - the executable model, function by function. Every definition cites the file and lines of `/repo` it models and states its simplifications.
* `Verif/Spec/*.lean` - small specifications, written without reference to the model, that the property statements use.
* `Verif/Lemmas/*.lean` - helper lemmas.
* `Verif/Props/*.lean` - the property theorems (named `Cnn_...`), each followed by an `example` showing that a concrete, non-trivial case meets its hypotheses. Where the code violates a property the negation is proved there with a concrete witness (`Cnn_..._violated...`) and the provable part carries the suffix `_partial`.

`MANIFEST.json` maps property ids to theorem names; `seeded/LOG.jsonl` records the wrong programs the theorems were tested against.

## Trusted base

* Lean's kernel (and the parser/elaborator that turns the source text into the checked statements).
* Axioms: at most `propext`, `Classical.choice`, `Quot.sound`. No axioms are added, no `sorry`, no `native_decide`, no `bv_decide`. `Verif/Axioms.lean` prints the axioms of every property theorem at build time.
* The reading of the C++ code: the model was written by hand from the source text; the code was neither compiled nor run.

### Conventions of the model

* `double` is an arbitrary linearly ordered field `K` (so every theorem holds in Q and R). Rounding, overflow, NaN and signed zero are **not** modelled. A division by zero is modelled explicitly wherever the code can reach one (`Option`/error result or an explicit hypothesis that mirrors the guard in the code), never through Lean's `x/0 = 0`.
* `sqrt`, `exp`, `log` and table look-ups are parameters with the properties that are needed stated as hypotheses.
* `int`/`size_t` are `Int`/`Nat`; overflow is not modelled unless the property is about wrap-around.
* Exceptions are `Except`/`Option` results; the state left behind by a throwing method is modelled when a property talks about it.
* Undefined behaviour (out-of-range access, freed pointers, empty vectors) is a distinct outcome (`ub`, `none`) rather than a default value.
* Grids (Dune `CpGrid`) are abstract: lists of cells with lists of faces, volumes, areas, centroids. BLAS/LAPACK, Dune-ISTL solvers, the deck parser and `MonotCubicInterpolator` are external; where used they are parameters with stated assumptions.

## What is modelled and what is not

One row per source file of the library and the programs, generated from the citations in `Verif/Model`. The second column counts lines of code (no comments, blank lines, preprocessor lines or lone braces) inside cited ranges; the last column says what is left out. Tests and benchmarks are not modelled. What a citation covers is the behaviour described in the comment of the definition, with the simplifications named there; printing, timing and memory reservation inside a cited range are left out throughout, as are rounding, overflow of `int` (unless a property is about it) and the linear solvers behind `Dune`, which appear as parameters with a contract.

In all 11641 of 16678 lines of code.

| file | lines | modelled | in | not modelled |
|---|---|---|---|---|
| `examples/SimulatorTester.hpp` | 25/31 | 59-106 | SimRun | text output |
| `examples/SimulatorTesterFlexibleBC.hpp` | 54/65 | 54-99, 108-137 | SimRun | text output |
| `examples/aniso_implicitcap_test.cpp` | 0/15 | - | - | a main function that runs SimulatorTester; parameters and output |
| `examples/aniso_simulator_test.cpp` | 0/15 | - | - | a main function that runs SimulatorTester; parameters and output |
| `examples/cpchop.cpp` | 311/461 | 74-89, 114-116, 119-120, 182-185, 207, 214-215, 228-235, 275-277, 283-567, 595-642, 645-714 | Subsample | text output, parameters |
| `examples/cpchop_depthtrend.cpp` | 85/118 | 80-92, 118-120, 134-236 | DepthTrend | text output, declarations of the options |
| `examples/cpregularize.cpp` | 108/139 | 112-280 | Regularize | the part modelled is what runs before the program throws; includes, text output |
| `examples/exp_variogram.cpp` | 110/145 | 105-262 | Variogram | text output, declarations of the options |
| `examples/grdecldips.cpp` | 47/78 | 90-151 | Dips | usage text, opening of the deck |
| `examples/implicitcap_test.cpp` | 0/15 | - | - | a main function that runs SimulatorTester; parameters and output |
| `examples/known_answer_test.cpp` | 66/117 | 79-83, 85-89, 105-110, 118-127, 149-178, 190-211, 237-268 | KnownAnswer | writing of the grid, set-up of the parameters |
| `examples/mimetic_aniso_solver_test.cpp` | 0/91 | - | - | driver: one call of the pressure solver, output |
| `examples/mimetic_periodic_test.cpp` | 0/36 | - | - | driver: one call of the pressure solver, output |
| `examples/mimetic_solver_test.cpp` | 0/63 | - | - | driver: one call of the pressure solver, output |
| `examples/sim_steadystate_explicit.cpp` | 0/15 | - | - | a main function that runs the manager of C35/C71; parameters and output |
| `examples/sim_steadystate_implicit.cpp` | 0/23 | - | - | a main function that runs the manager of C104; parameters and output |
| `examples/steadystate_test_implicit.cpp` | 0/22 | - | - | a main function that runs SteadyStateUpscalerImplicit; parameters and output |
| `examples/upscale_avg.cpp` | 282/297 | 88-531 | CommandLine, Statistics | text output |
| `examples/upscale_cap.cpp` | 305/350 | 137-218, 239-746 | CapUpscale, CommandLine, PcSampling | text output, checks of options |
| `examples/upscale_cond.cpp` | 326/580 | 155-262, 341-420, 456-568, 573-580, 592-617, 657-708, 762-782, 808-936, 1072-1159 | CommandLine, ResistChain, Resistivity | reading of options, output of tables |
| `examples/upscale_elasticity.cpp` | 225/339 | 91-95, 98-148, 150-195, 275-437, 456-467, 470-503 | ElasticTool, ElasticUpscale, WaveSpeed | usage text, text of the result file, clock |
| `examples/upscale_perm.cpp` | 183/207 | 98-388 | CommandLine, PermTool | usage text |
| `examples/upscale_relperm.cpp` | 307/544 | 172-195, 204-260, 301-404, 406-443, 463-497, 566-603, 864-1088 | CommandLine, RelPermOutput, RelPermReuse | usage text and the text of the header of the result |
| `examples/upscale_relpermvisc.cpp` | 707/972 | 206-402, 415-469, 503-638, 644-850, 890-991, 993-1089, 1098-1147, 1185-1209, 1249-1254, 1270, 1292-1417, 1427, 1430-1441, 1447-1458, 1490-1506, 1610-1681 | CommandLine, ViscChain, ViscGather, ViscLimit | usage text, text of the header of the result |
| `examples/upscale_steadystate_implicit.cpp` | 225/255 | 98-166, 177-433 | SteadyTool | usage text, clock |
| `opm/core/transport/implicit/ImplicitAssembly.hpp` | 119/142 | 60-62, 85-260 | Implicit, ImplicitStep, NewtonVectors | type definitions |
| `opm/core/transport/implicit/ImplicitTransport.hpp` | 95/147 | 45-68, 116-216 | ImplicitStep, Newton, NewtonVectors, SolverLife | type definitions, parameters, text output |
| `opm/core/transport/implicit/JacobianSystem.hpp` | 62/118 | 50-81, 86-98, 104-118, 125-128, 142-156, 186-189, 230-237, 243-244 | NewtonVectors | type definitions, declarations |
| `opm/core/transport/implicit/NormSupport.hpp` | 34/36 | 46-96 | NewtonVectors | - |
| `opm/core/transport/implicit/SinglePointUpwindTwoPhase.hpp` | 293/344 | 92-262, 284, 292, 298-343, 357-472, 477-498, 509-587, 600-624, 627-718 | Implicit, ImplicitSetup, ImplicitStep | type definitions, forwarding constructors |
| `opm/core/transport/implicit/transport_source.c` | 77/77 | 44-180 | TransportSource | - |
| `opm/core/transport/implicit/transport_source.h` | 9/24 | 43-54 | TransportSource | declarations |
| `opm/core/utility/Average.hpp` | 19/23 | 50-92 | Average, Euler | concept checks on the numeric type |
| `opm/elasticity/applier.hpp` | 0/28 | - | - | adaptors from matrices and preconditioners to operators of dune-istl |
| `opm/elasticity/asmhandler.hpp` | 24/73 | 33-36, 47-49, 168-173, 198-232 | Asm | declarations |
| `opm/elasticity/asmhandler_impl.hpp` | 237/269 | 20-30, 51-202, 213-232, 249-373, 375-408 | Asm, ElasticUpscale, ParAssembly | text output |
| `opm/elasticity/boundarygrid.cpp` | 249/256 | 24-78, 85-104, 117-388 | BoundaryFaces, BoundaryGrid, PeriodicBCs, QuadGeometry | text output |
| `opm/elasticity/boundarygrid.hh` | 98/198 | 58-118, 218-236, 322-340, 344-349, 366-369, 381-403, 405-421, 427-455, 457-475 | BoundaryGrid, QuadGeometry | declarations, text output |
| `opm/elasticity/elasticity.cpp` | 35/35 | 23-62 | WaveSpeed | LAPACK (dgeev) is a parameter |
| `opm/elasticity/elasticity.hpp` | 0/31 | - | - | declarations of what is modelled from elasticity_impl.hpp |
| `opm/elasticity/elasticity_impl.hpp` | 56/68 | 20-72, 89-114 | Stiffness | type definitions, eigenvalues by LAPACK |
| `opm/elasticity/elasticity_preconditioners.cpp` | 29/43 | 33, 37-73 | ElasticSolvers, Schwarz | construction of AMG of dune-istl |
| `opm/elasticity/elasticity_preconditioners.hpp` | 2/75 | 132, 198 | ElasticSolvers | declarations; construction of AMG and Schwarz preconditioners of dune-istl, whose effect is a parameter of C48 |
| `opm/elasticity/elasticity_upscale.hpp` | 88/186 | 51-185, 480-481 | ElasticTool, ElasticUpscale | declarations |
| `opm/elasticity/elasticity_upscale_impl.hpp` | 685/739 | 29-130, 143-393, 433-815, 845-852, 855-884, 891-1086, 1088-1095 | BoundaryFaces, ElasticSolvers, ElasticUpscale, MaterialLoad, Mortar, MortarBCs, ParAssembly, PeriodicBCs, QuadGeometry, RockFiles, Stiffness, Uzawa | nodes on lines (fixLine, isOnLine), which no program calls; text output |
| `opm/elasticity/logutils.hpp` | 11/28 | 31-40, 47-50 | Coloring | text output to the console |
| `opm/elasticity/material.cpp` | 93/97 | 23-64, 66-143 | Materials, RockFiles | - |
| `opm/elasticity/material.hh` | 13/28 | 36, 52-86 | Materials, RockFiles | declarations |
| `opm/elasticity/materials.cpp` | 87/97 | 20-76, 78-146, 155-211 | Materials, RockFiles | text output |
| `opm/elasticity/materials.hh` | 10/57 | 41-51, 105-113, 146-154 | RockFiles | declarations |
| `opm/elasticity/matrixops.cpp` | 169/181 | 24-71, 87-275 | ElasticSolvers, MatrixOps | text output (saveAsc) |
| `opm/elasticity/matrixops.hpp` | 0/19 | - | - | declarations of what is modelled from matrixops.cpp |
| `opm/elasticity/meshcolorizer.cpp` | 67/68 | 24-116 | Coloring | - |
| `opm/elasticity/meshcolorizer.hpp` | 25/44 | 66-96 | Coloring | text output of the colours |
| `opm/elasticity/mortar_evaluator.hpp` | 17/29 | 41-68 | Uzawa | declarations, work vectors |
| `opm/elasticity/mortar_schur.hpp` | 12/28 | 51-55, 61-75 | Uzawa | declarations, work vectors |
| `opm/elasticity/mortar_schur_precond.hpp` | 15/43 | 71-91 | Uzawa | declarations, copies of parts of vectors (C48 uses their effect) |
| `opm/elasticity/mortar_utils.hpp` | 5/9 | 27-41 | Uzawa | declarations |
| `opm/elasticity/mpc.cpp` | 39/43 | 25-85, 87-90 | Mpc | destructor |
| `opm/elasticity/mpc.hh` | 37/39 | 23-162 | Asm, Mpc, PeriodicBCs | destructor |
| `opm/elasticity/shapefunctions.hpp` | 141/229 | 26-86, 108-117, 121-133, 158-165, 185, 209-269, 288-299, 301-309, 329-369, 402-406 | Shape | type definitions, the singleton |
| `opm/elasticity/uzawa_solver.hpp` | 18/37 | 57-76 | Uzawa | type definitions |
| `opm/porsol/common/BCRSMatrixBlockAssembler.hpp` | 37/97 | 59-102, 138-146 | NewtonVectors | type definitions, solver of dune-istl |
| `opm/porsol/common/BoundaryConditions.hpp` | 155/195 | 58, 101-209, 215-319, 341-449 | Boundary, Euler | text output |
| `opm/porsol/common/BoundaryPeriodicity.cpp` | 19/20 | 25-49 | Boundary | - |
| `opm/porsol/common/BoundaryPeriodicity.hpp` | 81/85 | 37-73, 86-178 | Boundary, SinglePhase | declarations |
| `opm/porsol/common/GridInterfaceEuler.hpp` | 73/264 | 476-481, 489-601 | Numbering | thin wrappers of grid objects of dune-grid |
| `opm/porsol/common/ImplicitTransportDefs.cpp` | 11/11 | 29-44 | TransportDefs | - |
| `opm/porsol/common/ImplicitTransportDefs.hpp` | 106/140 | 33-79, 81-158, 194-206, 208-219 | ImplicitStep, NewtonVectors, TransportDefs | type definitions, set-up of a solver of dune-istl |
| `opm/porsol/common/Matrix.hpp` | 305/382 | 63-215, 266-564, 601-708, 828-926, 963-1012, 1050-1322 | DenseMatrix, Euler, RockStore | text output, type definitions; QR factorisation is a parameter |
| `opm/porsol/common/MatrixInverse.hpp` | 54/56 | 49-123 | DenseMatrix, Steady | - |
| `opm/porsol/common/PeriodicHelpers.hpp` | 112/153 | 53-82, 104-129, 182-292 | Boundary, SinglePhase | variants without pressure drop, text output |
| `opm/porsol/common/ReservoirPropertyCapillary.hpp` | 16/40 | 47-74 | Capillary, Euler | declarations |
| `opm/porsol/common/ReservoirPropertyCapillaryAnisotropicRelperm.hpp` | 27/51 | 49-98 | Euler | declarations |
| `opm/porsol/common/ReservoirPropertyCapillaryAnisotropicRelperm_impl.hpp` | 50/92 | 54-70, 118-145, 152-168 | FracFlow | opening of files, text output |
| `opm/porsol/common/ReservoirPropertyCapillary_impl.hpp` | 99/153 | 44-56, 83-88, 100-187, 214-248, 271-280 | FracFlow | text output, variants with other argument types |
| `opm/porsol/common/ReservoirPropertyCommon.hpp` | 0/77 | 52-53, 76-80 | Euler, Reservoir | declarations |
| `opm/porsol/common/ReservoirPropertyCommon_impl.hpp` | 322/412 | 70-143, 188-243, 255-335, 405-414, 466-477, 491-529, 546-576, 592-818 | Capillary, Reservoir, RockTables, UpscalerInit | variants of writing, text output |
| `opm/porsol/common/ReservoirPropertyFixedMobility.hpp` | 14/23 | 56-77 | SteadyChain, TransportDefs | constructors |
| `opm/porsol/common/ReservoirPropertyTracerFluid.hpp` | 16/17 | 40-66 | SinglePhase | - |
| `opm/porsol/common/Rock.hpp` | 2/28 | 44, 89-92 | RockStore | declarations |
| `opm/porsol/common/RockAnisotropicRelperm.hpp` | 46/71 | 88-151 | RockTables | opening of the file, output |
| `opm/porsol/common/RockJfunc.hpp` | 80/110 | 99-112, 129-219, 221-229 | Capillary, RockTables | opening of the file, text output |
| `opm/porsol/common/Rock_impl.hpp` | 68/75 | 36-91, 94-106, 117-130, 132-181 | RockStore | text output |
| `opm/porsol/common/SimulatorBase.hpp` | 43/96 | 84-92, 96-109, 142-143, 157-190 | SimRun, SimSetup | type definitions, declarations |
| `opm/porsol/common/SimulatorTraits.hpp` | 0/38 | - | - | type definitions |
| `opm/porsol/common/SimulatorUtilities.hpp` | 121/141 | 72-86, 93-172, 184-188, 195-211, 233-296 | FracFlow, SimOutput | the writers of dune-grid and the ECL library |
| `opm/porsol/common/Wells.hpp` | 0/57 | - | - | no wells in the solvers used here (empty interface) |
| `opm/porsol/common/blas_lapack.cpp` | 0/62 | - | - | calls of BLAS and LAPACK; their effect is modelled in DenseMatrix |
| `opm/porsol/common/blas_lapack.hpp` | 0/115 | - | - | declarations of BLAS and LAPACK; their effect is modelled in DenseMatrix |
| `opm/porsol/common/fortran.hpp` | 0/0 | - | - | macros for the names of Fortran routines |
| `opm/porsol/common/setupBoundaryConditions.hpp` | 110/115 | 51-164, 170-179, 183-223 | Boundary, SimSetup | reading of parameters |
| `opm/porsol/common/setupGridAndProps.cpp` | 3/4 | 41-45 | PermTool | includes |
| `opm/porsol/common/setupGridAndProps.hpp` | 74/84 | 67-155, 160-186 | UpscalerInit | the grid processing of opm-grid |
| `opm/porsol/euler/CflCalculator.hpp` | 85/90 | 54-174 | CflLimits, Euler, FracFlow, SimRange | text output |
| `opm/porsol/euler/EulerUpstream.hpp` | 0/57 | - | - | declarations |
| `opm/porsol/euler/EulerUpstreamImplicit.hpp` | 6/63 | 129-136 | ImplicitStep | declarations |
| `opm/porsol/euler/EulerUpstreamImplicit_impl.hpp` | 192/209 | 58-217, 225-340 | ImplicitDriver, ImplicitSetup, ImplicitStep, SolverLife | text output |
| `opm/porsol/euler/EulerUpstreamResidual.hpp` | 0/48 | - | - | declarations |
| `opm/porsol/euler/EulerUpstreamResidual_impl.hpp` | 212/256 | 58-67, 89-291, 294-327, 338-345, 355-417, 457-528 | Euler, SimRun, SolverLife | TBB loop (C14 covers the order), text output |
| `opm/porsol/euler/EulerUpstream_impl.hpp` | 178/182 | 58-219, 264-331, 337-390 | Euler, SimRange, SolverLife | text output, checks switched off by macros |
| `opm/porsol/euler/ImplicitCapillarity.cpp` | 0/4 | - | - | includes only |
| `opm/porsol/euler/ImplicitCapillarity.hpp` | 0/45 | - | - | declarations |
| `opm/porsol/euler/ImplicitCapillarity_impl.hpp` | 120/129 | 56-117, 134-249 | CapStep, Capillary, Euler, SolverLife | text output |
| `opm/porsol/euler/MatchSaturatedVolumeFunctor.hpp` | 30/49 | 48-64, 71-86, 88-95, 97-100 | Capillary | type definitions and storage |
| `opm/porsol/mimetic/IncompFlowSolverHybrid.hpp` | 561/725 | 107-130, 471-481, 490-553, 640-696, 700-736, 747-801, 946-1056, 1069-1206, 1210-1226, 1229-1245, 1266-1283, 1285-1298, 1310-1408, 1458-1460, 1464-1662, 1694-1703, 1705-1723, 1732-1775, 1789-1804, 1824-1891 | Hybrid, Numbering, Pattern, PressureCalls, SinglePhase, SolverControl | text output, type definitions, set-up of the solvers of dune-istl |
| `opm/porsol/mimetic/MimeticIPAnisoRelpermEvaluator.hpp` | 100/126 | 134-140, 157-270, 296-427 | Evaluator, MimeticIP | constructors, declarations |
| `opm/porsol/mimetic/MimeticIPEvaluator.hpp` | 169/183 | 103-109, 119-141, 158-446, 477-524, 541-549, 551-556 | Evaluator, MimeticIP, SinglePhase | declarations |
| `opm/upscaling/CornerpointChopper.hpp` | 242/276 | 42-63, 95-324, 351-396, 398-442 | ChopOutput, Chopper | opening of files and parsing by opm-common |
| `opm/upscaling/ParserAdditions.cpp` | 0/12 | - | - | registers keywords in the parser of opm-common |
| `opm/upscaling/ParserAdditions.hpp` | 0/2 | - | - | declaration |
| `opm/upscaling/RelPermUtils.cpp` | 528/646 | 54-92, 95-116, 137-168, 172-206, 220-225, 251, 253-272, 276-306, 313-314, 318-329, 335-349, 355-613, 637-645, 687-991, 1007-1025, 1034, 1047-1182 | Collect, Control, PcSampling, RelPerm, RelPermChain, RelPermReuse | text output, MPI reductions of scalars |
| `opm/upscaling/RelPermUtils.hpp` | 0/68 | - | - | declarations of what is modelled from RelPermUtils.cpp |
| `opm/upscaling/SinglePhaseUpscaler.hpp` | 0/3 | - | - | type definition; the class is modelled through UpscalerBase_impl.hpp |
| `opm/upscaling/SteadyStateUpscaler.hpp` | 0/35 | - | - | declarations |
| `opm/upscaling/SteadyStateUpscalerImplicit.hpp` | 0/44 | - | - | declarations |
| `opm/upscaling/SteadyStateUpscalerImplicit_impl.hpp` | 301/314 | 54-163, 176-383, 395-408, 415-512 | Capillary, Control, ImplicitStep, PressureCalls, SimOutput, Steady, SteadyChain, Upscale, UpscalerInit | parameters, text output |
| `opm/upscaling/SteadyStateUpscalerManager.hpp` | 75/116 | 53-132, 155-170, 214-239 | Control | opening of files, text output |
| `opm/upscaling/SteadyStateUpscalerManagerImplicit.hpp` | 100/133 | 100-133, 139-276 | Control, SteadyManager | opening of files |
| `opm/upscaling/SteadyStateUpscaler_impl.hpp` | 100/216 | 131-284 | Steady, SteadyChain | computeInOutFlows (does not compile), constructor, parameters |
| `opm/upscaling/UpscalerBase.hpp` | 2/63 | 58, 68 | PressureCalls, SinglePhase, SolverControl, UpscalerInit | declarations |
| `opm/upscaling/UpscalerBase_impl.hpp` | 228/244 | 47-66, 77-122, 138-174, 189-213, 218-451 | Boundary, PermTool, PressureCalls, SinglePhase, SolverControl, Upscale, UpscalerInit | reading of parameters, text output |
| `opm/upscaling/UpscalingTraits.hpp` | 0/4 | - | - | type definitions |
| `opm/upscaling/initCPGrid.cpp` | 0/24 | - | - | calls the grid processing of opm-grid |
| `opm/upscaling/initCPGrid.hpp` | 0/2 | - | - | declaration |
| `opm/upscaling/writeECLData.cpp` | 32/56 | 68-85, 116-146 | SimOutput | calls of the ECL output library |
| `opm/upscaling/writeECLData.hpp` | 0/9 | - | - | declarations |

## Per-property plan

| id | model | proof |
|----|-------|-------|
| C01 | `FullMatrix` with flat `List` storage and both index formulas | injectivity/bijectivity of the index maps by `Nat` division; get/set laws; fold of elementwise copy |
| C02 | BLAS kernels (reference semantics of GEMV/GEMM/SYRK on flat buffers with leading dimension) + wrappers | entrywise equality with `Matrix` products |
| C03 | `inverse2x2`, `inverse3x3` with division outcome | `field_simp; ring`; witness for m(2,2)=0 |
| C04 | `PeriodicConditionHandler` as state machine | invariant by induction over operations |
| C05 | `match`, the partner loop, `createPeriodicImpl` | invariant; witness of asymmetry; partial theorem under unique candidates |
| C06 | `storeFlowCond` | sum over list |
| C07 | `createLinear` | field inequalities, fold over faces |
| C08 | `setupUpscalingConditions` | case analysis, history independence |
| C09 | `setBoundaryConditionType` | invariant over call list |
| C10 | `UpdateForCell` + `smallTimeStep` | sum over cells of antisymmetric contributions |
| C11 | fold of cell updates, `IndirectRange` splitting tree; interleaving semantics | commutation, permutation; lost-update trace |
| C12 | `transportSolve` with an arbitrary oracle for attempts | induction over attempts |
| C13 | `checkAndPossiblyClampSat` | case analysis, list induction |
| C14 | `findCFLtimeVelocity`, one upstream step | fold-min lemma; maximum principle by field arithmetic |
| C15 | CFL factor folds of both property classes | fold-max; witness for the anisotropic variant |
| C16 | `fractionalFlow`, `computePhaseVelocities` | field inequalities |
| C17 | `TransportSource` heap model with allocation oracle | refinement to a list by induction over operations; double-free trace |
| C18 | Newton loop with oracle norms | termination measure, invariants |
| C19/C20 | `fluxConnection`, `upwindMobility` | case split on signs |
| C21 | `initStep`, `initIteration`, `finishStep` | list induction |
| C22 | `countConnections`, `createRowStructure`, buffer offsets | arithmetic on offsets, list sums |
| C23 | `Average.hpp` | field inequalities (sqrt as real `Real.sqrt`) |
| C24/C25 | Voigt table, `writeRelPerm` | permutation over the finite table; injectivity witness |
| C26 | control file token stream | parser/printer round trip by induction |
| C27 | weighted sums of `UpscalerBase` | list induction |
| C28 | `upscaleEffectivePerm`, `computeAverageVelocity` | list induction, permutation |
| C29/C30 | `CornerPointChopper` | index arithmetic, list lemmas |
| C31 | `sanityCheckInput` | post-conditions by list induction |
| C32 | rank assignment, `collectResults` message model | modular arithmetic, permutation of messages |
| C33 | phase-permeability truncation | fold-max |
| C34 | steady-state loop with oracle | invariant |
| C35 | layout conversions | list induction |
| C36 | matrix algebra of `buildStaticContrib` | Mathlib matrices over Fin n |
| C37/C38 | `buildCellContrib`, `addCellContrib`, `computePressureAndFluxes`, regularisation; `postProcessFluxes` | residual of a row as an additive functional over the loop; Schur complement is definite; invariants over the two passes |
| C75 | the same assembly | the bilinear form of the assembled matrix as a sum over cells plus penalties; definiteness over linked faces |
| C39 | numbering loops | invariant over folds |
| C40 | `calcGroups`, `getStripDirection` | strips as boxes of cells; alternating offsets are a partition of the direction; strips of one colour are separated by at least two layers |
| C41 | `LoggerHelper` | closed form of the bounds; concatenation of the ranges |
| C42 | `ASMHandler` | list induction; well-founded chain resolution |
| C76 | `addElement`, `addDOF`, `nodeAdjacency`, `determineAdjacencyPattern` | bilinear form as an additive functional over the loops; membership of accessed entries |
| C43 | `materials.cpp`, `material.cpp` | field algebra, sums of squares |
| C44 | shape function tables, Lagrange functions | finite tables, products over lists |
| C72 | Legendre recursion, derivative, Gauss-Lobatto step | joint induction on the derivative identities, `HasDerivAt` over the reals |
| C45 | `bilinearSolve`, `Q4inv`, `Quad::pos` | resultants of the two bilinear equations; residual bound for quantities below the tolerances |
| C46 | `uniform`, `add` | closed form of the loops over cells; index arithmetic |
| C77 | `find`, `Q4inv`, bounding boxes | order of the roots; the solution with positive Jacobian comes last; witness |
| C78 | corner selection, for any sorting function | four-element lists; strict positions determine the corners |
| C79 | map of columns as a sorted association list | invariant of the fold |
| C80 | `findBoundaries` | invariant of the fold; witness |
| C81 | `addMPC`, `periodicPlane` on top of `find` | partition of unity; exact inversion (C45) |
| C82 | `renumber` | closed form of every row of nodes, induction over rows and elements |
| C83 | `addBBlockMortar`, `assembleBBlockMortar` with given local matrices | bilinear form as an additive functional; membership of accessed entries |
| C47 | `matrixops.cpp` (all functions but `print`) over sparse matrices as partial maps, with assignments outside of the pattern as failures | writes at distinct stored positions by list induction; `C47_saddle` specialises to the matrix of the direct solver |
| C48 | `MortarUtils`, `MortarEvaluator`, `MortarBlockEvaluator`, `MortarSchurPre`, `UzawaSolver`, `applyMortarBlock`; block solvers as parameters with exactness hypotheses; `pre`/`post` calls and the Krylov methods not modelled | products as finite sums; block elimination |
| C49 | B-matrix and stiffness | matrix algebra |
| C73 | element loops of `averageStress` with the matrix kept between elements | bilinear energy product; Hill's lemma and Voigt's bound |
| C74 | `loadMaterialsFromGrid`, `loadMaterialsFromRocklist` | invariant of the loop over cells; list sums; witnesses |
| C50 | `classifyPermeability`, `fillTensor`, `setScalarPermIfNeeded`, `assignPermeability` | all 512 sets of components by kernel computation (the whole domain), lifted to all arrays by naturality of the filling |
| C51 | `assignPorosity/NTG/SWCR/SOWCR`, `assignRockTable`, `init` | list maps; rejection by inversion |
| C52 | `RockJfunc::capPress/satFromCapPress`, `ReservoirPropertyCommon::capillaryPressure` etc.; tables as functions | order lemmas, field identities |
| C53 | `MatchSaturatedVolumeFunctor`, `initSatLimits`, `setToCapillaryLimit`; root finder as an arbitrary sequence of evaluations | sums; monotonicity cell by cell |
| C84 | `writeSintefLegacyFormat` (values, not formatting) | reconstruction from the written values, per kind |
| C85 | `init(num_cells, uniform_poro, uniform_perm)` | unfolding |
| C86 | update in `ImplicitCapillarity::transportSolve`; pressure solution as a parameter | linearity of the average |
| C87 | capillary mobilities, scalar case | field identities |
| C88 | sampling loop of `upscaleCapillaryPressure`, table as sorted list, `getMissingX` by its specification | invariants of the loop; termination by uniform continuity and a bound on the number of separated points |
| C89 | `upscaleEffectivePerm` end to end (`Model/SinglePhase`): `setupUpscalingConditions`, face numbering, periodic partners, mimetic inner products, hybrid system, post-processing, `computeAverageVelocity`, `computeDelta` composed; linear solver and `orthogonalizeColumns` by specification | existence and uniqueness of the discrete flow field; the linear pressure solves the discrete problem |
| C90 | same | energy (Dirichlet principle) and flux (Thomson principle) comparison with uniform gradients and velocities; exact solutions for layers |
| C91 | same | reciprocity of the three flow problems, energy comparison, Cauchy-Schwarz; for layers the exact pressure field and uniqueness |
| C92 | same, two rocks on one grid | linearity of the inner product; comparison of energies |
| C93 | same, gravity not zero | change to potentials; violated |
| C94 | `Model/ElasticUpscale`: `initForAssembly`, `assemble` by colours, load vector, solve, `extractValues`, `averageStress` | assembled forms = products of strains; solvability by orthogonality to the kernel; energy minimisation |
| C95 | same | energy characterisation, polarisation |
| C96 | same, with trilinear hexahedra and periodic constraints | `detJ` times inverse = adjugate; integral of the determinant of three gradients = six face fluxes (polynomial identity); faces cancel in pairs |
| C97 | `CLAMP`, exchange of rows and columns in the driver | case analysis; violated |
| C98 | additions of `addElement` as loads and stores of threads, the parallel loop over both colours, any schedule | invariant over the steps of all threads: memory plus outstanding additions; separation of strips; violated for collapsed layers and tilted grids |
| C99 | `periodicBCs` with all it calls (fixed corners, extraction of sides, boundary grid search, constraints) on a mesh given by nodes and cells | characterise the constraints node by node, equivalence with periodic fields, then C96; box grids by digit arithmetic; violated for small cells |
| C100 | `examples/upscale_avg.cpp` from the arrays of the deck to the printed numbers (per cell arrays, totals, means, rock types, variances); log and exp are parameters | refine every reported number to a finite sum over active cells; order of means over the reals; fibre sums over rock types; violated for tiny cells and for one cell |
| C54 | `computeInOutFlows` | sums over face lists |
| C55 | implicit `transportSolve` | induction over attempts |
| C56 | uniqueness check of boundary ids | list induction; witness |
| C57 | region-based boundary conditions | list induction |
| C58/C59 | gravity influence and upstream mobility in explicit transport | case split on signs; witnesses |
| C60 | cell velocity estimates | list sums, vector algebra |
| C61 | assembled Jacobian versus residual | `HasDerivAt` over the reals, sums over lists |
| C62/C63 | static gravity, face transmissibility, periodic faces | list sums, field algebra; witness |
| C64 | sampling loop of the managers, `initSatLimits` | induction over the pressure drops with an oracle solver |
| C71 | `maxMobility`, `thresholdMobility`, relperm from effective permeability | least upper bound characterisation; matrix algebra with C03 |
| C66-C70 | `RelPermUtils.cpp`: heads, pressure range, mean saturation, relperm tensor, curve check (C31, C33: input check and permeability limits) | list folds, matrix algebra; witnesses |
| C65 | corner positions before and after `chop` | pillar interpolation; witness |
| C101 | the argument loops of the six programs, the choice of rock files, the letters of the boundary conditions; arguments are lists of characters, reading `argv[argc]` is `ub` | induction over the argument list: accepted iff of the specified form; the undefined lines characterised exactly; violated theorems |
| C102 | `upscale_cap.cpp` from the arrays of the deck, the inverted curves and the grid to the printed rows, including the checks, end points, the sampling loop and the tables of the rock types; `getMissingX` and the interpolation are parameters | loop invariants for the scan of the grid; the loop refines the sampling of C88 with 200 parts; tables of rock types aligned with the main table; concrete violation |
| C103 | row sizes, calls of `addindex` with the capacity of the rows, assembly with checked accesses and the assertions of `addCellContrib` | sizes are the lengths of lists of slots and every position has its slot, so no row overflows; case analysis on which of two faces of a cell are replaced by their partners; refinement to the unchecked assembly of C37 |
| C104 | `initObj` of the implicit transport solver (map between face numbers, table of periodic faces by identifier, lists with all assertions, fractional flow), the sources of `transportSolve`, `makefhfQPeriodic` with all assertions; `makeQPeriodic` of another library by its effect | positions in a flattened list of half faces; fold invariants; each loop writes its own faces; concrete violation |
| C105 | `HexGeometry<2,2>` (both constructors, `global`, `local` with its loop, Jacobians, integration element, volume), `extract`, local matrix `lE` of `assembleBBlockMortar` with its assertion; the linear algebra of Dune by its specification | the error after a Newton step is a multiple of a fixed direction; the determinant stays positive after the first step and the errors halve from the second; exact secant identity at the midpoint for injectivity; sums over the rule |
| C106 | `findCFLtimeGravity`, `findCFLtimeCapillary` (with the 3x3 inverse of C03) over the transport model of C10-C14 | fold invariants; flux of a connection bounded by the mobilities of the cell it leaves, phase by phase; residual as the sum over the own faces of a cell |
| C107 | `RockJfunc::read`, `readStatoilFormat`, `RockAnisotropicRelperm::read`, `readAnisoFormat`, `readRocks` on lines of number tokens; file opening as a parameter | induction over header lines, tokens and lines of the list |
| C108 | `solve` and the four `solveLinearSystem*` up to the iterations as a state machine over calls (stored operator and preconditioner), first guess, iteration limit; the calls of `upscaleEffectivePerm` | induction over the history (last call that kept a preconditioner); kernel of the assembled matrix from C75; fluxes invariant under constants |
| C109 | `ImplicitCapillarity::transportSolve` for scalar mobilities: mobilities, conditions and sources of the capillary pressure problem, pressures of the hybrid solver, matching of volumes, relaxation, final check | zero right-hand side and kernel of the assembled matrix (C75, C108) give a uniform pressure; monotonicity and equal weighted sums give equal saturations |
| C110 | vector operations, norms, block assembly, and `ImplicitTransport::solve` on residual, increment, solution and matrix in memory, with the fluid data of the last `initIteration` | simulation of the abstract driver of C18 by the vector-level driver, by induction over line-search passes and iterations |
| C111 | `Model/Resistivity.lean` (with `Model/Collect.lean`, `Model/PcSampling.lean`, `Model/SinglePhase.lean`): the check, Archie's formula with division by zero, range, points, the loop of every process with what other points left in its grid, gathering, output; sqrt, pow, the interpolations and the flow solver are parameters | cell by cell; an invariant of the loop of a process says that the rows it owns are right and all rows have the right size; gathering by the results on C32 after showing that only owned rows are sent; the tensor by C89 and C90 |
| C112 | `Model/Subsample.lean` (with `Model/Chopper.lean`, `Model/PcSampling.lean`): options, draws as contracts of the distributions, the parts of the loop over subsamples on the vectors that live across subsamples, header and lines; the results of upscaler, inspector and parser belong to the description of a subsample | an invariant of the loop: every vector holds the values of the subsamples kept so far; then entry by entry; the fold over cells by induction; angles by the identities of arccos and arctan |
| C113 | `Model/Evaluator.lean` on `Model/DenseMatrix.lean`: members, views on the beginning of a work array, loop over the faces, the BLAS calls in the order of the code | each matrix operation represents the operation on mathematical matrices (C01, C02); loop over faces by induction with the rows filled so far; histories by an invariant on all rows (for tensor mobilities over an inductively defined set of reachable objects) |
| C114 | `Model/ViscLimit.lean`: checks of the cells, volumes by rock type, end saturations, tables of ratios, sampling, phase permeabilities, output; library interpolators are parameters with a stated promise | summation over rock types equals summation over cells (invariant of the loop); bracketing in the tables; sampling by the proofs of C88, generalised to functions that do not fall; deviations by witnesses |
| C115 | `Model/ViscGather.lean`: transition system of master and ranks with channels; loop position counts phase and point | invariant by induction over steps: contents of the channels are the owned positions between the two loops; measure for termination |
| C116 | `Model/RockStore.lean`: flat array, validity flags, views with the epoch of the array they point into; `Spec/RockStore.lean`: cells, tensors as functions, cell of each view | simulation between the two, by induction over the history; the loops that fill the flat array by induction over the cells |
| C117 | `Model/TransportDefs.lean`: loops over flat arrays | induction over cells and rows; positions are different by division with remainder |
| C118 | `Model/DepthTrend.lean`: the loop with fuel over the chopper of `Model/Chopper.lean`, the upscaler as a parameter | induction over the passes of the loop with C29 and C30; the number of passes by the Archimedean property |
| C119 | `Model/Variogram.lean`: the loop over pairs with the chopper of `Model/Chopper.lean`, the upscaler as a parameter | induction over pairs with C29 and C30 |
| C120 | `Model/Dips.lean`: the three loops with six vectors and a counter, the grid inspector as a parameter | induction over the three loops |
| C121 | `Model/Regularize.lean`: index maps, layers, the loops up to the exception, the written pillars | division with remainder; case distinction |
| C122 | `Model/UpscalerInit.lean`: parameter record, insertion of parameters, both `init`s, `setupGridAndProps`, `SteadyStateUpscalerImplicit::initImpl` | case distinction over formats, types and presence of parameters |
| C123 | `Model/PermTool.lean`: conditions, both upscalers, changes of type, report; the single computation is a parameter | case distinction over conditions with C101 for the word |
| C124 | `Model/SimSetup.lean`: `SimulatorBase::init` without solvers, `setupBoundaryConditions`; reading a file is a parameter | case distinction; C57 for regions |
| C125 | `Model/RelPermOutput.lean`: the loop over rock types with its reads; loading of two columns of a file is a parameter | induction over rock types |
| C126 | `Model/RelPermOutput.lean`: scaling, interpolation, table, Eclipse files; the interpolant is a parameter | total maps over rows; folds for the range |
| C127 | `Model/SteadyTool.lean`: the whole program; the single computation and reading of curves are parameters | fold over cells; C26 for the ranges, C64 for the loop |
| C128 | Model/WaveSpeed.lean: direction, matrix D, E = D C Dt, sorted roots; driver call with its arguments. Real numbers; eigenvalues are any list whose elements are the roots of the characteristic polynomial. | Expansion of the sums; equality of multisets of roots of polynomials; spectral theorem for reality; eigenvector and the strain n(x)v for positivity. |
| C129 | `Model/ElasticTool.lean`: the command line as typed partial functions from names; the plan of the run as a record; conversion errors left out | case analysis; induction over the file name |
| C130 | `Model/ElasticSolvers.lean`: preconditioners as objects on a heap, `copy` flag, solvers by kind and object; numerical content left out | induction over threads, columns and clones; `C41_cover` for the chunks of columns |
| C131 | `Model/Schwarz.lean`: sets of equations as lists without repetitions over the handler of C39/C42/C76 | induction over cells and insertions; preservation of directions through `resolveMPCChain` |
| C132 | `Model/Compare.lean`: files as lists of characters, doubles as field elements with infinities and nan | induction over characters, words and lines; case analysis of the comparison |
| C133 | ChopOutput.lean: the deck as SPECGRID record and list of keywords with dimension, unit system and values; the file as list of characters; number formatting a parameter. | C133_deck by collecting the conditional additions; C133_file by induction over full lines; C133_read by running the word splitter over the lines; C133_si_partial and C133_depth_partial from the sub-box relation of C29. |
| C134 | PressureCalls.lean: state machine of the upscaler; grids, tensors, saturations and numbers of any type; a solve records the data it is computed with. | Induction over the history: the members equal the settings read off the calls (Spec.After); the solver holds the rock of the last upscaling. |
| C135 | Bench.lean: both readers character by character (number parsing a parameter, words read in full or not at all), the comparison loops with their breaks, redirection of the streams; the upscaling itself is a parameter. | Induction over the lines and over the points left; case analysis on the console. |
| C136 | SimOutput.lean: the data handed to the writers; loop records from Steady.lean; number formatting and fluid properties are parameters. | Scatter over a permutation of the cells; induction over the passes of the loop with the accumulated time; unique decoding of names. |
| C137 | Mpc.lean: comparison over lists of masters, null pointers, doubles with infinities and nan; text as a list of pieces. | Strict weak order by recursion over both lists; induction over the history of insertions; a grammar of equations with values. |
| C138 | KnownAnswer.lean: solution, right hand side and comparison over the reals; the solver is a parameter; permeability and mobility from Reservoir.lean and FracFlow.lean. | Second partial derivatives in Mathlib; induction over the cells. |
| C139 | SolverLife.lean: objects with addresses and changing contents, the three solvers as state machines; a solve is the record of the data it works with; loops of a build without threads. | Induction over the history from its end; each member equals the most recent value read off the list of calls. |
| C140 | SparseVector by contract (append with optional assertions, lower_bound look-up), block loop, initSources, step loop over arbitrary solvers, composition with the explicit transport solver of C10/C12 | binary search correct on increasing indices; induction over the cells of a block; induction over the steps; C10 and C12 composed for the water in place |
| C141 | computeCflTime, first number of steps, retry loop, small steps with sources, step loop of the simulator; pressure system of C38 | residual between -Q fw and Q (1 - fw) with Q the larger of inflow and outflow, also with a source; induction over small steps and steps; the other side of a face is an involution on the faces, so that the two lists of fluxes are permutations of each other |
| C142 | Model/RockFiles.lean: input stream over words with failure flag, the grammar of Material::create, rock list, uniform arrangement, numPar/getPar/write | Spec/RockFiles.lean gives the grammar as an inductive relation; the reader is proved equivalent to it (C142_file); lists by Forall₂; shares by induction over the cells; rebuilding by cases on the number of parameters |
| C143 | Model/RelPermChain.lean: cell permeabilities, the flow problems of Model/SinglePhase.lean with them, inversion, Voigt storage and product, as one function from a pressure to the reported saturation and relative permeabilities | the phase permeability of every cell is at most its single phase permeability (floors included) and monotone in pressure; monotonicity of the upscaled tensor in the cell conductivities (C92) carries this to the quotient; eigenvalues by the quotient of quadratic forms |
| C144 | Model/ViscChain.lean: saturations of the rock types at a ratio, cell permeabilities of Model/ViscLimit.lean, the flow problems of Model/SinglePhase.lean with them, inversion, Voigt storage and product, as one function from a ratio to the reported saturation and relative permeabilities | the phase permeability of every cell is at most its single phase permeability (floors included) and monotone in the ratio; monotonicity of the upscaled tensor in the cell conductivities (C92) carries this to the quotient; eigenvalues by the quotient of quadratic forms; the sum of two phases by the law of parts of C92 (Props/ViscLayers.lean) |
| C145 | Model/SteadyManager.lean: parameters, schedule, file names, start state, loops of Model/Control.lean, lines of both files; the upscaler is a record of what its calls do, with exceptions | the rows of the two loops are those of a list of computations for a beginning of the schedule (induction over the schedule, C64), the lines of both files correspond to it (C25) |
| C146 | Model/MortarBCs.lean: steps 4 to 6 of periodicBCsMortar from Model/Mortar.lean and renumber of Model/BoundaryFaces.lean: four patterns, matrix with that pattern, four assemblies with signs and column offsets | form of the block from C83 for all four sides, numbering from C82 to turn columns into multiplier fields and back, vanishing of a linear form on all vectors |
| C147 | Model/RelPermReuse.lean: the line of headings; output and input from Model/RelPermOutput.lean, saturations from Model/RelPerm.lean | columns of the table from C126, what anisotropic input reads from C125, saturation at a pressure from C68 |
| C148 | Model/ResistChain.lean: cell resistivities from Model/Resistivity.lean, flow problems from Model/SinglePhase.lean, inversion, Voigt entries | bounds and monotonicity of the conductivity from C90, C91 and C143, carried over to the inverse by the variational form of the inverse; layered samples by the layer theorems of C90, C91 through `flow_parallel`, `flow_series` (Props/ResistLayers.lean) |
| C149 | Model/SteadyChain.lean: the loop and limits of Model/Steady.lean, then the flow problems of Model/SinglePhase.lean with limited mobilities | C90-C92 for samples with limited mobilities; a new law of the flow problems (C92, parts): if conductivities of two samples add up to at most those of a third, so do the upscaled ones |
| C150 | Model/ImplicitStep.lean: assembly (Model/Implicit.lean), Newton driver with memory (Model/NewtonVectors.lean) and time step control (Model/ImplicitDriver.lean) put together | C110 and C18 give the residual of the returned change; C19/C20 say what it is; the upwind water volume is unique (monotone phase fluxes), so the two faces of a periodic pair agree; sums over faces cancel by an involution of faces |
| C151 | The model of C150: `Model/ImplicitStep.lean`. Specification in `Spec/ImplicitRange.lean` (`OneFluid`, `Incompressible`, `InjectsBelow`, `InjectsAbove`). | By C150 the returned saturations balance the water of every cell. Over a face out of a cell with the most water flows at least the fraction of water of that cell (`out_ge`, four cases of upwind directions, capillary force outwards), so the balance of that cell cannot hold if it has gained water; the lowest saturation by exchanging the phases. Substeps by induction (`C151_step`, `C151_transport`, `C151_still`, `C151_two_rocks`). |
| C152 | The model of C150: `Model/ImplicitStep.lean`. Specification in `Spec/ImplicitContraction.lean` (`Ordered`, `excess`, `distance`, `Precise`, `Moderate`). | The water flow over a face rises with the water in the first cell and falls with that in the second, whatever directions the phases take (`C152_flow`, by the water potential). So the differences of flows, weighted by the indicator of cells that have more, do not lose in sum over the grid (`weighted`, with the twins of C150), nor do those of the sources; with the balances of C150 this bounds the excess (`C152_excess`, `C152_unique`, `C152_order`, `C152_transport`). |
| C153 | The models of C10-C14 and C141: `Model/Euler.lean`, `Model/SimRange.lean`. Specification in `Spec/ExplicitContraction.lean` (`Rising`, `Below`, `excess`, `distance`, `OneRock`, `EntersAbove`, `EntersBelow`). | The step is written as saturation plus time times net inflow over pore volume, limiting having no effect (`step_eq`, by C141 and C13). The inflow falls with the own saturation by at most the larger of inflow and outflow times the rise of the fractional flow, and rises with the others (`inflow_order`); so the step is monotone within the limit (`C153_order`). Water entering the grid falls with the state (`gain_anti`); comparing with the larger of the two states gives the bound on the excess (`C153_excess`, after Crandall and Tartar), hence on the distance, and by induction on solves (`C153_solve`). Extremes by comparison with uniform states (`C153_extremes`). `C153_needs_limit` is a step beyond the limit that reverses the order. |
| C154 | The models of C94-C99: `Model/ElasticUpscale.lean`, `Model/PeriodicBCs.lean`. Specification in `Spec/Layers.lean` (`stress`, `Laminate`, `Effective`). | Displacements that are linear in every layer with the strain of laminate theory are periodic (`C154_box`, by C99) and in equilibrium: their in-plane stresses are constant per layer, and the mean in-plane strain of a periodic field vanishes layer by layer (`layer_mean`, shifting cells to their neighbours); the other stresses are constant, and the mean strain vanishes over the whole sample. A field in equilibrium gives the upscaled matrix (`equilibrium`, by C95). `C154_strains` inverts the linear system for the strains of the layers (injective by positive definiteness). |
| C155 | The model of C143: `Model/RelPermChain.lean`. Specification in `Spec/RelPermLayers.lean` (`absK`, `phaseK`, `NoFloor`, `AlongLayers`, `AcrossLayers`, `EndsMatch`). | Without floors the permeabilities handed to the solver are those of the cells (`cellK_eq`, `singleK_eq`); both flow problems are layered, so C90 and C91 give their permeabilities exactly (`flow_parallel`, `flow_series`, and with periodic conditions); the relative permeability is their quotient (C143, C69). |
| C156 | The model of C144: `Model/ViscChain.lean`, `Model/ViscLimit.lean`. Specification in `Spec/ViscLayers.lean` (`absK`, `mobK`, `phaseK`, `NoFloor`), layers as in C155. | Without floors the permeabilities handed to the grid are those of the cells (`grid_eq`, `single_eq`); both flow problems are layered (`flow_parallel`, `flow_series` of C155); the relative permeability is their quotient (C144). |
| C157 | The models of C143 and C144: `Model/RelPermChain.lean`, `Model/ViscChain.lean`. Specification in `Spec/RelPermChain.lean`, `Spec/RelPermLayers.lean`, `Spec/ViscChain.lean`, `Spec/ViscLayers.lean`. | The permeabilities for the phase are r times those of the rock; the flow problem is homogeneous in the permeabilities (C92, `flow_scale`), so the upscaled phase permeability is r times the single phase one; its product with the inverse of the latter is r times the identity (`relPerm_multiple`). The mean of equal saturations is that saturation. |
| C158 | The model of C61 to C92: `Model/SinglePhase.lean`, `Model/MimeticIP.lean`. Specification in `Spec/Relabel.lean` (`SameSample`); the conditions on each description are those of `Spec/SinglePhase.lean`. | The local inner product does not depend on which orthonormal basis of the span of the centroid differences is used, so it is multiplied by the factor of lengths (`inner_relabel`). Sides, neighbours and periodic partners correspond (`side_relabel`, `twin_relabel`, `mate_relabel`), and with them the conditions imposed (`cnd_relabel`). The solution for the second description, read in the numbering of the first, then solves the first problem with the inner product multiplied; by uniqueness (`sol_scale`) its fluxes are the multiplied fluxes. Areas and extents cancel the factor. |
| C159 | The model of C61 to C92: `Model/SinglePhase.lean`, `Model/MimeticIP.lean`. Specification in `Spec/Mirror.lean` (`mirror`) and, for samples that are their own image, `Spec/Relabel.lean`. | The inner products do not change (`mirror_ip`); the sides of mirrored directions are exchanged (`mirror_side`). If the direction of the pressure drop is mirrored, one minus the pressures of the image solves the problem of the sample, otherwise the pressures themselves; by uniqueness (`sol_scale`) the fluxes are the same up to sign, and the average velocity in a mirrored direction changes sign (`mirror_avg`). `C159_symmetric` combines this with C158. |
| C160 | The model of C94 and C96: `Model/ElasticUpscale.lean`. Specification in `Spec/Laminate.lean`: layers (`Layers`), strains and stresses of the layers (`layerStrain`, `layerStress`), displacements that share a mean strain between layers (`Shares`). | A stress that is constant within layers and whose traction is continuous between them does no work on admissible displacements (`layers_mean`): the integral over a cell is a sum over its faces; faces within a layer cancel in pairs, and the flux through faces between layers is proportional to their normal (`side_plane`). So the energy of the displacements of the laminate is the minimum of C94, and comparing the energy of neighbouring mean strains gives the stress. |
| C161 | The model of C94 and C96: `Model/ElasticUpscale.lean`. Specification in `Spec/Turn.lean`: turned strains, stresses and materials (`turnStrain`, `turn`, `TurnedMatrix`), turned samples (`Turned`). | The Jacobian of a turned cell is the turned Jacobian (`turn_jacobian`), so the strain of turned displacements is the turned strain (`strain_turned`) and the energy of the samples agrees up to the volume (`turned_energy`). Minima of the energy (C94) agree, and comparing neighbouring strains gives the matrix. |
| C162 | The model of C94 and C96: `Model/ElasticUpscale.lean`. Specification in `Spec/Copies.lean`: periodic conditions as ties of nodes (`PeriodicTies`), samples that consist of copies (`Copies`). | Displacements of one copy, repeated, are admissible for the large sample (`copies_extend`). The mean over the copies of admissible displacements of the large sample, moved so that the corners are at rest, is admissible for one copy (`copies_mean`) and has at most the mean of the energies (`energy_mean`). So the minima of C94 agree per volume. |
| C163 | The model of C90 and C91: `Model/SinglePhase.lean`. Specification in `Spec/FlowCopies.lean`: a sample made of copies (`Stacked`). | `Lemmas/FlowCopies.lean`: the face opposite to (or on the other side of) a copied face is the copy of the opposite face at the next place, around the ends (`mate_copy`). The pressures of one sample, lowered by one from copy to copy and divided by the number of copies, solve the flow problem of the large sample. A column of the tensor follows from any solution (`periodic_column`). Example: two cubes with different permeabilities and two copies of them. |
| C164 | The model of C143: `Model/RelPermChain.lean`. Specification in `Spec/FlowCopies.lean` (`StackedGrid`) and `Spec/RelPermCopies.lean` (`CopiedRock`). | The limits are greatest values over the cells, and depend only on the set of values (`greatest_eq`); with the same limits, the permeabilities of the copies are those of the original cells, and C163 applies (`flow_copies`). Numerator and denominator of the mean saturation are multiplied by the number of copies. Example: the sample of C163. |
| C165 | The model of C143: `Model/RelPermChain.lean`. Specification in `Spec/Relabel.lean` (`SameGrid`) and `Spec/RelPermCopies.lean` (`CopiedRock`). | Limits and mean saturation as in C164 (`copied_rock`), tensors by C158 (`flow_relabel`); the relative permeability tensor is the unique quotient of the two tensors. Example: the sample of C158 with its second description. |
| C166 | The model of C143: `Model/RelPermChain.lean`. Specification in `Spec/Mirror.lean` (`mirror`) and `Spec/RelPermMirror.lean` (`mirrorJob`). | Isotropic permeabilities are their own mirror images (`setPerms_mirror`), so the tensors follow from C159; the relative permeability tensor is the unique quotient of the two tensors. Example: the cells of C159 with rock data. |
| C167 | The model of C144: `Model/ViscChain.lean`. Specification in `Spec/FlowCopies.lean` (`StackedGrid`), `Spec/Relabel.lean` (`SameGrid`) and `Spec/ViscCopies.lean` (`CopiedCells`). | The limits are greatest values over the cells, and depend only on the set of values (`maxPhase_set`); numerator and denominator of the mean saturation change by the same factor (`copied_cells`); the tensors follow from C163 and C158. Examples: two anisotropic cells and two copies of them; the sample of C158 with its second description. |
| C168 | The model of C148: `Model/ResistChain.lean`. Specification in `Spec/FlowCopies.lean` (`StackedGrid`), `Spec/Relabel.lean` (`SameGrid`) and `Spec/ResistCopies.lean` (`CopiedCells`). | The resistivity of a cell does not depend on its volume; numerator and denominator of the mean saturation change by the same factor (`copied_cells`); the tensors of conductivity follow from C163 and C158, and the inverse is unique (`inverse_relabel`). Examples: two cells and two copies of them; the sample of C158 with its second description. |
| C169 | The models of C144 and C148: `Model/ViscChain.lean`, `Model/ResistChain.lean`. Specification in `Spec/Mirror.lean` and `Spec/ChainMirror.lean` (`mirrorJob`). | Setting diagonal permeabilities commutes with mirroring (`setPerms_mirror`); the tensors follow from C159, the entries from the uniqueness of quotient and inverse. Examples: the sample of C159 with anisotropic cell data, and with the rock of C148. |

No property is considered inexpressible; what each model leaves out is recorded below.

## Deviations between code and property found so far

Each is proved as a theorem with a concrete witness, named `Cnn_violated...`.

* C02 `symmetricUpdate(A,B)` computes `A*B*A'` only for diagonal `A`.
* C03 `inverse3x3` divides by zero for some invertible matrices (`m(2,2) = 0`).
* C04 shrinking the periodic table or registering boundary id 0 breaks the symmetry of the partner relation.
* C05 a later periodic match silently overwrites an earlier one, so partners need not be symmetric when a face has two candidates.
* C08 linear set-up keeps partner entries of an earlier periodic set-up.
* C56 the uniqueness check of boundary ids accepts 1,1,3.
* C11 `initObj` called again does not clear the table of cell ranges: cells are processed more than once (`SteadyStateUpscaler` calls `initObj` for every solve). Parallel processing of ranges loses updates of shared neighbour cells.
* C12 when the last attempt fails the caller is left with a partially advanced saturation.
* C15 the capillary CFL factor of the anisotropic model is 1e100 whatever the rocks are (and below -1e100 without rocks).
* C58 switching gravity off does not make the transport residual independent of gravity.
* C59 with gravity and the total flux into the visited cell the "trivial phase" argument of the comment in the code is wrong: the mobility of a countercurrent phase comes from its downstream cell.
* C17 when growing a non-empty source table fails, the blocks that were obtained are freed but the struct keeps pointing to the old (moved) ones: destroying or appending again is undefined behaviour.
* C18 with the increment tolerance convergence can be reported although the solution is out of range, and the residual norm reported belongs to an earlier iterate.
* C63 implicit transport: partner faces of a periodic boundary each get the transmissibility of their own half face only (`initGravityTrans` runs over half faces, each periodic face has one), so the capillary flux is not conservative unless the two agree.
* C25 `writeRelPerm` writes entry (1,2) twice and never (1,0): unsymmetric tensors cannot be recovered from the table.
* C26 `writeControl` uses the default precision of six digits, so values with more digits do not survive a round trip.
* C30 `verifyInscribedShoebox` accepts inverted ranges (`imin > imax`); a rejected `chop` leaves the new dimensions and pillars next to the depths and fields of the previous request.
* C31 y- and z-permeabilities are checked to be non-negative but not limited to the range the x-permeabilities are limited to; rock number 1000 is accepted although the message asks for less than 1000.
* C33 anisotropic input with a rock-free cell (SATNUM 0) reads the empty `phasePermValuesDiag[p][cell]`; `minSinglePhasePerm` looks at x-permeabilities only, so the single phase contrast of anisotropic input is unlimited.
* C66 `Pcmin -= dPmax; Pcmax -= dPmin` although cells see `P - dP`: for heads that are not balanced around 0 the range misses the ends of the curves. Heads are balanced only if the top of the model is at depth 0.
* C67 `dP` is filled in the order of grid cells and read with deck cell numbers: wrong cell or out of range with inactive cells.
* C69 the end point check also zeroes off-diagonal elements, including large negative ones.
* C65 `chop` with the origin moved replaces the depths of the pillar end points but keeps their horizontal coordinates, so cells between slanted pillars are sheared.
* C34 an initial step above the maximal step is used unchanged, so the documented maximum does not bound the first steps.
* C35 `destripe` writes past its result when the size is not a multiple of the stride.
* C43 `(lambda, mu)` with `lambda = 0` gives 0/0; `nu = 1/2` (fluid) is accepted at creation, refused by `getConstitutiveMatrix`, and the refusal is ignored by the callers; `create` drops the density of transversely isotropic and anisotropic materials; `OrthotropicD` writes the diagonal only and keeps the other entries of the matrix it is given.
* C44 the one-dimensional linear set reads past its coefficient tables; every component of the Lagrange gradient divides by zero (its own node is not skipped); `evaluateGradient` of the tensor product has no return statement.
* C72 the Legendre functions write past their array for degree 0.
* C73 `averageStress` (and `assemble`) keep the matrix `C` between elements, so the off-diagonal entries of an `OrthotropicD` element come from the previous element or uninitialised memory.
* C74 `upscaledRho` starts at -1, which stays in the sum; sums not above zero are not divided by the volume. Poisson ratios of one half and more are accepted from decks. SATNUM 0 accesses element -1. Scaling a rock list casts every rock to `Isotropic`.
* C54 `computeInOutFlows` of the explicit upscaler has the periodic test inverted and refers to undeclared names (`in`, `out`); it is a template and never instantiated.
* C36 With tensor mobilities the inverse inner product uses mobility times permeability, which is not symmetric in general, although the assembly (mirrored upper triangle) and the linear solvers (CG) assume it.
* C38 With a non-symmetric inverse inner product exactly solved systems give discontinuous fluxes (C38_violated_skew). A pure Neumann problem whose sources and boundary fluxes do not add up is solved without any diagnosis; the imbalance appears on face 0 (C38_imbalance).
* C39 `enumerateGridDof` takes the number of faces of a cell by cell number from a list stored in iteration order; wrong numbers if the two differ (C39_violated_order). `preprocess` of the elasticity assembly does not reset the number of equations (C39_violated_twice).
* C42 A prescribed, non-zero master is ignored (C42_violated_master), so is the constant of a constraint (C42_violated_offset); prescribing an unknown after constraining it adds both values (C42_violated_order).
* C76 Non-zero prescribed values are not moved to the load vector (C76_violated_prescribed).
* C81 In quads of less than a millimetre (area above the 1e-7 below which quads are dropped) the dropped terms are not small: the value at a coupled node of a linear displacement is off by more than 1/40 of the size of the quad (C81_violated_small).
* C71 If the zz element of the given single phase permeability is zero, its inverse is not computed (C71_violated_zz); positive definite tensors are proved in full (C71_relperm).
* C45 Coefficients between zero and the tolerance are treated as zero, so the returned coordinates do not map back exactly (C45_residual bounds the error).
* C46 `uniform` never sets the second coordinate of the second vertex of a quad (it stays zero); quads with a bounding box of less than 1e-7 are dropped silently while their nodes stay numbered.
* C77 `Q4inv` accepts reference coordinates below `1 + eps` without any lower bound, so a point whose bounding box test succeeds in a leaning neighbour is attributed to that neighbour with negative reference coordinates. A later solution of the quadratic equation replaces an earlier one even if only the earlier one is inside; this is harmless for counterclockwise quads only.
* C80 `findBoundaries` starts from -1e5 and 1e5 instead of from a vertex: for a grid in map coordinates (all beyond 1e5) the minimum is 1e5 and no face is found there.
* C82 `renumber` reads `nodes[0]` while it is still being filled when there is one element: past the end of the vector.
* C83 `assembleBBlockMortar` adds the same contribution to every master of a constrained node and ignores the coefficients, which are interpolation weights when top and bottom do not match.
* C47 A symmetric `augment` of a matrix with more rows than columns inserts diagonal entries outside of the pattern; a block that meets its mirror image keeps the later of two assignments; `extractDiagonal` reads diagonal entries that are not stored.
* C48 `MortarEvaluator::applyscaleadd` does not scale the product with `B`: with factor `-1`, used for residuals by the iterative solvers, the multiplier part has the wrong sign. `UzawaSolver` ignores the right-hand side of the constraints. `applyMortarBlock` uses vectors of the length of the displacements for multipliers, which is too short if there are more multipliers.
* C50 if both components of a mirrored pair are supplied (`PERMXY` and `PERMYX`), the one above the diagonal is silently ignored.
* C51 rock numbers are not validated: `SATNUM` 0 gives rock number -1, and numbers beyond the rock list are accepted; the later access is outside of the array.
* C52 without rock data the saturation of every capillary pressure is 0, although the capillary pressure is `1e5 (1 - s)`. For a contact angle beyond 90 degrees saturation grows with pressure.
* C53 `setToCapillaryLimit` first moves the target into each cell's range, so a target outside of a rock's range is not matched.
* C88 If the end saturations agree the sampling loop is not entered and the table of the capillary pressure curve stays empty.
* C93 `upscaleEffectivePerm` passes the `gravity` parameter to the flow solver, so the upscaled permeability depends on it: `T_zz` becomes `T_zz (1 + ω g L_z)` (fixed), column `d` gains `ω g L_d` times the vertical column (linear, periodic).
* C97 `upscale_elasticity` replaces entries of the result below `1e-4` by zero, in the units of the input: a sample with moduli of `1e-6` is reported as a zero matrix, and a positive definite matrix with entries of very different size can become indefinite.
* C98 The colouring separates cells by their logical position. On grids with collapsed (inactive, zero thickness) layers, or with constraints that join different layers, two threads add to the same matrix entry and updates can be lost.
* C99 Cell sides below the absolute limit of 1e-7 square units (edges of 0.3 mm in metres) are dropped from the boundary grid; the search for the counterpart of a node then fails and the program stops.
* C100 `upscale_avg` skips cells of volume at most 1e-10 (in the units of the deck) in all averages but divides by the volume with them: a core plug in millimetre sized cells given in metres is reported with porosity 0. With `-use_actnum 1` it prints `actnum[0]` and `actnum[1]`, the latter out of bounds for one cell.
* C85 the uniform initialization leaves net-to-gross, critical saturations and the kind of permeability unset.
* C101 An option in the last place of the command line, without a value, makes a string from the null pointer `argv[argc]` (upscale_cap, upscale_cond, upscale_relperm, upscale_relpermvisc, upscale_avg). `upscale_avg` with options but without a file opens a stream on the null pointer. `upscale_perm` does not reject an unknown option: it goes on without counting it and takes an earlier option or value for the file name.
* C102 `upscale_cap` skips the water of cells with volume at most 1e-10 (in the units of the deck) but counts them in the pore volume: a sample of such cells is reported dry at all pressures. With `-points 1` the interpolated saturations are 0/0.
* C104 `EulerUpstreamImplicit::initObj` asserts that the two cells of a periodic pair differ: samples that are one cell thick in a periodic direction cannot be used.
* C105 `HexGeometry::volume()` is `(c1-c0)_x (c2-c0)_y`, which is not the area of quads that are not rectangles along the axes; `center()` calls a member that does not exist.
* C105 `HexGeometry::local` has no limit on its passes: for a point outside of a convex quad it can cycle for ever (`C105_violated_endless`).
* C105 the multiplier grids of `periodicBCsMortar` come from `uniform`, whose quads are skewed unless the sample starts at zero in the vertical; for samples that start below zero the coupling stops at an assertion (`C105_violated_offset`).
* C106 `findCFLtimeGravity` sums only the gravity fluxes out of a cell; the flux into a small or impermeable cell is not limited, and half the limit can give saturation 2 (`C106_violated_inflow`).
* C106 the gravity factor is derived from curves at one saturation, the flux uses mobilities of two cells: with relative permeabilities s^4 and (1-s)^4 half the limit gives a saturation above 3/2 (`C106_violated_curves`).
* C106 `findCFLtimeGravity`/`findCFLtimeCapillary` take the own permeability at periodic faces, the residual the mean of both sides (`C106_violated_periodic`).
* C106 at outer faces the residual leaves out the gravity term but still selects upstream cells with gravity, which can empty a cell below zero within all limits (`C106_violated_boundary`).
* C107 `RockJfunc::readStatoilFormat` extracts the first `-` and compares it with itself: every first line that starts with `-` is skipped, not only `--` (`C107_violated_minus`).
* C107 a rock file that is cut off within a row is read without that row (`C107_violated_cut`); one without a complete row accesses an empty vector (`C107_violated_empty`).
* C107 `readRocks` never ends on a list with fewer lines than announced (`C107_violated_short`); a blank or carriage return after the count is taken for the first rock (`C107_violated_blank`).
* C108 with `same_matrix` the regularisation is skipped although the matrix is assembled anew: the second and third solve of a periodic upscaling have a singular matrix, with the preconditioner of a regular one (`C108_violated_singular`), and no solution if sources do not balance (`C108_violated_unbalanced`).
* C108 `same_matrix` before a fresh AMG solve dereferences a null pointer, after another solver type throws `std::bad_cast` (`C108_violated_first`); `init` and `clear` keep the preconditioner of the old grid (`C108_violated_size`).
* C109 `ImplicitCapillarity::transportSolve` resets periodic flow conditions only: pressures prescribed for the flow become prescribed capillary pressures, and a state of capillary equilibrium does not persist (`C109_violated_pressure`).
* C110 `LinearSolverBICGSTAB::solve` drops the convergence result and `ImplicitTransport::solve` does not ask for it: an increment of zero from a failed solve is reported as convergence with flag 3 (`C110_violated_linear_solver`).
* C111: upscale_cond.cpp:451-452 says permeabilities are set to minPerm if zero or less than minPerm; line 471 only replaces zero, a positive permeability below minPerm is kept (`C111_violated_small_perm`).
* C111: with points=1 the wanted saturation is (Swor-Swir)/0*0, not a number (`C111_violated_one_point`).
* C112: cpchop.cpp:305-307 starts at column and row 0 if use_random is false, whatever imin and jmin (`C112_violated_start`).
* C112: cpchop.cpp:277 widens an empty depth range by 1e-6, the box can end below zmax (`C112_violated_depth`).
* C112: an ilen larger than imax-imin passes the check of the chopper; the integer distribution then has b < a (`C112_violated_length`).
* C112: an exception in a part after the first leaves the values of the earlier parts in the vectors; the lines of all later subsamples are shifted against each other (`C112_violated_rows`). The number in the first column counts finished subsamples and is not the number of the subsample.
* C112: Pcmin and Pcmax (cpchop.cpp:301-302) are not reset for a new subsample; its capillary pressures depend on the ones before (`C112_violated_history`).
* C112: with endpoints=true, upscale=false and NTG in the deck the table reads netporos and ntgs, which are empty (`C112_violated_ntg`).
* C112: satnum 0 indexes rockVolumes at -1 (`C112_violated_norock`).
* C112: atan of a quotient does not tell a dip from the opposite one (`C112_violated_azimuth`).
* C113: MimeticIPEvaluator keeps totmob_ and mob_dens_ for the object, not for the cell; computeDynamicParams for another cell before getInverseMatrix gives the wrong mobility (`C113_violated_other_cell`).
* C113: MimeticIPAnisoRelpermEvaluator keeps a pointer to the rock of the last buildStaticContrib; with two rocks lambdaK of a cell uses the second and Kg_ the first (`C113_violated_rock`).
* C114: upscale_relpermvisc.cpp:1066 builds `FracFlowRatioInvZ` from `fY`; `fZ` is computed and never used (C114_violated_z).
* C114: the loops writing the lines end after a line with zero saturation (upscale_relpermvisc.cpp:1667, 1680), but points start with the least saturation, so a model with Swir = 0 gets a table of one line (C114_violated_dry).
* C114: interpolated output evaluates the saturation as a function of the ratio at a saturation (upscale_relpermvisc.cpp:1627), so the column v_w/v_o holds no ratios (C114_violated_interp).
* C114: the floor of single phase permeabilities looks at PERMX only (upscale_relpermvisc.cpp:913, 932), so with PERMY or PERMZ the contrast can exceed the largest one (C114_violated_single_contrast).
* C114: `points=1` divides zero by zero (upscale_relpermvisc.cpp:1252; C114_violated_one_point).
* C116: `Rock<3>::init` from a deck does not check the sizes of PORO and of the permeability arrays (`C116_violated_sizes`): too long arrays are accepted with values of the wrong cells, too short ones are read past the end.
* C118 **C118** `cpchop_depthtrend` begins at depth 0 instead of `zmin` (`C118_violated_zmin`). Because `chop` is called outside the `try` block, the first request above the grid ends the program: no table is ever printed for a grid with a top corner at least `zlen` deep (`C118_violated_deep`). `zresolution=0` is accepted and never ends (`C118_violated_forever`).
* C119 **C119** `exp_variogram` takes every direction other than `vertical` and `vert` as horizontal; the check for an undefined direction cannot be reached (`C119_violated_direction`). If `zlen` is larger than `zmax-zmin` the subsamples reach below `zmax` (`C119_violated_zmax`).
* C120 **C120** `grdecldips` prints 0/0 as average dips if no cell is larger than `mincellvolume` (`C120_violated_empty`). The average is not weighted with the volumes (`C120_unweighted`).
* C121 **C121** `cpregularize` throws `logic_error` for the first coarse cell, outside the `try` block, so it never writes a grid with cells (`C121_violated_never`). `imin` and `jmin` have no effect (`C121_violated_lower`); the columns are spread over the whole grid also if `imax` is smaller, so that coarse columns are empty or inverted (`C121_violated_upper`); more coarse columns than fine ones give empty ones (`C121_violated_finer`); `ires=0` divides by zero (`C121_violated_zero`); with `zres=0` a grid without layers is written, with pillars that begin at 0 instead of the origin of the grid (`C121_violated_written`). Whenever the options pass the check and the resolutions are positive the run is aborted (`C121_violated_aborts`). The depths of the corners would be counted from 0 instead of `zmin` (`C121_violated_depth`).
* C122 **C122** `SteadyStateUpscalerImplicit::initImpl` takes the default of `init_stepsize` and `max_stepsize` from the member, which holds seconds after the first initialisation, so a second one multiplies them again (`C122_violated_again`); other values of an earlier initialisation stay as well (`C122_violated_memory`). `use_unique_boundary_ids=false` is accepted with linear conditions (`C122_violated_override`), and any number as type (`C122_violated_type`). `output_ecl` always throws with a deck (`C122_violated_ecl`). On a box the CFL factors use the default viscosities (`C122_violated_cfl`).
* C123 **C123** `upscale_perm -bc fl` computes linear conditions on a grid that was prepared for fixed ones (not cut), `-bc l` on a cut grid (`C123_violated_linear`); the porosity in the report is that of the cut grid or of the uncut one depending on the conditions (`C123_violated_porosity`).
* C124 **C124** `SimulatorBase::initControl` converts the member `stepsize_` from days again in a second set-up (`C124_violated_again`; the source has a comment on it); `setupBoundaryConditions` does not clear the table, so conditions of an earlier set-up stay (`C124_violated_stale`); initial saturations are not checked (`C124_violated_range`).
* C125 **C125** In `upscale_relperm` a relative-permeability column that the file does not have throws a `const char*` that nobody catches: the program is terminated without a message, while a missing capillary column is reported (`C125_violated_message`).
* C126 **C126** `upscale_relperm` cuts the output name at the last dot of the whole path: `-output ./result` writes `-X.SWOF` etc. and `results.d/kr` writes `results-X.SWOF` outside the directory (`C126_violated_path`).
* C126 **C126** `krow?swirr` changes tables for oil and water too, against the usage (`C126_violated_krow`); `interpolate 1` is ignored (`C126_violated_one`).
* C127 **C127** `upscale_steadystate_implicit` writes its results nowhere: whatever the computations give, the report is the same and no file is written (`C127_violated_results`); the upscaler is initialised from the parameter group, so without `fileformat` it upscales a box of one cell and not the grid in `gridfilename` (`C127_violated_grid`); `anisotropicrocks` is ignored (`C127_violated_aniso`).
* C127 **C127** A rock list that announces more rocks than it has is read for ever (`C127_violated_endless`); names in it are looked up in the working directory for the limits and in the directory of the list for the rocks (`C127_violated_directory`).
* C128: upscale_elasticity computes the wave speeds from the matrix before the exchange of rows and columns 3 and 5, although waveSpeeds expects Voigt order; reported speeds are those of another tensor when the shear moduli yz and xy differ (`C128_violated_order`).
* C128: upscale_elasticity passes density 1.0 instead of the upscaled density (`C128_violated_density`).
* C129 **C129** `upscale_elasticity`: `method=MPC` and `method=Mortar`, the words of the usage, leave the method uninitialised (`C129_violated_method`); coordinates can only be whole numbers (`C129_violated_fraction`); only those of x decide whether the sides are searched, so missing ones of y and z are -1 (`C129_violated_missing`) or given ones are thrown away (`C129_violated_overwritten`); the minima do not move a uniform grid (`C129_violated_min`).
* C129 **C129** `upscale_elasticity` announces a two-level preconditioner for flat cells but the type was fixed before and multigrid is used (`C129_violated_heuristic`, `C129_violated_announced`); the documented option `mortar_precond` is not read (`C129_violated_mortar_precond`); the vtu name is cut at the first ".vtu", also in a directory name (`C129_violated_vtu`).
* C130 **C130** `setupSolvers`: with `linsolver_mortarpre=schwarz` and a multigrid preconditioner all threads share one multigrid object, since the second set-up overwrites the flag `copy` of the first (`C130_violated_shared`); a two-level Schur complement is computed with multigrid if the heuristic has chosen (`C130_violated_twolevel`); `solve` does not look at the convergence flag (`C130_violated_converged`).
* C131 **C131** `Schwarz::setup2` looks up the equation of a master in the direction of the slave, so couplings through a constraint between directions lie in no subdomain (`C131_violated_direction`). Constraints of the tool are within one direction (`C131_periodic`).
* C132 **C132** `compareUpscaling` accepts nan in a result whatever the reference, and infinities against any number, since the comparisons with nan are false (`C132_violated_nan`); the message names the first value of the file, not the one that deviates (`C132_violated_message`).
* C137 C137: MPC::Less with a coefficient that is nan is no strict weak order; a set with such a constraint rejects others with the same slave and masters.
* C138 C138: known_answer_test prints sqrt(sum e^2 v)/V as "L2 error density" (the root mean square is sqrt(sum e^2 v / V)), and returns zero for every result.
* C139 C139: EulerUpstream(g, r, b) sets up only the residual computer, so transportSolve reads outside porevol_; cell_iters_ is not cleared, so a set-up with another grid object loops from the old grid to the new one; pore volumes are not updated when porosities change although everything else is read through pointers; EulerUpstreamImplicit has no initial value for max_repeats_, resets its Newton control with every parameter group (other parameters keep their values), copies the reservoir properties, and ignores the gravity and injection arguments as well as check_sat and clamp_sat.
* C140 C140: if a cell of the production block comes before (or is) a cell of the injection block, the rates are added to the sparse vector out of order: an assertion fails, and without assertions the transport solver reads wrong rates, possibly none, while the pressure solver uses them (SimulatorTesterFlexibleBC.hpp:124-135; `C140_violated_order`, `C140_violated_overlap`).
* C140 C140: initSources says that it zero-initialises, but resizes the rates of the pressure solver: a second initialisation keeps old rates there (SimulatorTesterFlexibleBC.hpp:59; `C140_violated_again`).
* C142 C142: a rock list announcing more rocks than it names, or naming files that cannot be opened, is accepted: the missing rocks are the default material (E=100, nu=0.38); a list file that cannot be read leaves the number of rocks uninitialized; `uniform` with no rocks computes a remainder modulo zero.
* C142 C142: a rock file with keyword `vpvs` and no density value is accepted and gives a material whose moduli are not numbers.
* C142 C142: `getPar` of a general symmetric material reports the internal order, so a material created from the reported parameters differs from the original; such materials print as the empty text.
* C143 C143: for anisotropic input the least single phase permeability comes from the x-permeabilities only, the least phase permeability from all directions: a homogeneous sample with x-permeability 1e-4 and y-permeability 1e4 gets relative permeability 10 in the x-direction with the default contrast of 1e7.
* C144 C144: upscale_relpermvisc derives the least single phase permeability from the x-permeabilities only, the least phase permeability from all directions: a homogeneous sample with x-permeability 1e-4 and y-permeability 1e4 gets relative permeability 10 in the x-direction with the default contrast of 1e7.
* C145 C145: the header of the files names the columns Pressuredrop Sw Krxx Kryy Krzz, every line has eleven numbers and the success flag.
* C146 C146: periodicBCsMortar with a single cell in the x- or y-direction (n1 = 1 or n2 = 1) is undefined behaviour: renumber reads nodes[0] past its end.
* C147 with anisotropic input (capillary pressures in Pa) upscale_relperm prints the pressures times surfaceTension * 1e-3, though the surface tension is for the conversion of the J-function; the stored reference results contain such pressures.
* C147 a table for both phases with periodic or linear boundary conditions (nine columns per phase) is accepted as anisotropic input of a next run, which takes the columns yz, xz, xy of the first phase for the second phase.
* C150 across a periodic boundary whose two sides have different permeabilities the implicit transport solver loses or creates water when capillary pressures differ (each of the two faces has the transmissibility of its own half face only): C150_violated_periodic, a successful step that loses more than five percent.
* C150 over a face without total flux between a first cell without mobile oil and a second without mobile water, with a capillary force towards the first, assembly divides zero by zero: C150_violated_division.
* C158 the unit of length matters for very small samples: `createLinear` and `findPeriodicPartners` compare coordinates with an absolute tolerance of 1e-6. If the sample is smaller than that, all boundary faces are put on the first side, none has a periodic partner, and the look-up in `enumerateBCDof` fails (an assertion; without assertions the end iterator is dereferenced). `C158_violated_tiny`.
* C133: subDeck declares all values metric although it copies the raw values of the input; writeGrdecl writes no unit system keyword. For a grid file in field units all lengths of the sub-grid are too large by 1/0.3048.
* C134: upscaleSteadyState calls flow_solver_.init only for flow_direction 0. For the other directions the velocity field is computed with the gravity of the preceding single phase upscaling (none by default) even if use_gravity is set, with permeabilities that may be outdated, and without any set-up if there was no upscaling before.
* C135: upscale_relperm_benchmark compares pressures with 100 times the tolerance it reports, accepts NaN, always returns 0 after a comparison, redirects cerr before printing the usage (never shown), writes to a destroyed buffer in its exception handler, never restores the streams on other MPI processes, and uses an unset value for an empty line in the reference. Rows of the reference that are too short repeat their last number and words that are not numbers count as zero (C135_violated_short, C135_violated_junk).
* C136: the Eclipse output of SteadyStateUpscalerImplicit writes PRESSURE in Pascal although INTEHEAD declares METRIC units, converts the elapsed seconds to int (undefined after 68 years), and names result sets by std::to_string (six decimals, and the character code instead of the letter of the direction); writeVtkOutput takes front() of an empty vector for an empty grid.
