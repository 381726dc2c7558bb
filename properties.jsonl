{"id": "C01", "title": "Dense matrix element access is a faithful two-dimensional array", "statement": "For a full matrix with either storage ordering, writing element (i,j) makes a later read of (i,j) return that value and leaves every other element (k,l) unchanged, all accesses inside the declared shape stay inside the allocated storage, and the slots are used exactly once each. Copying between matrices of different storage orderings preserves every element.", "quantifier": "every shape rows x cols, every in-range index pair, every stored value, both orderings and every sequence of writes", "why_tests_cant": "The index formula must be injective and in range for every shape; a test exercises a handful of shapes and a transposed formula is right on all square symmetric examples.", "anchors": ["opm/porsol/common/Matrix.hpp:COrdering", "opm/porsol/common/Matrix.hpp:FortranOrdering", "opm/porsol/common/Matrix.hpp:FullMatrix::operator()", "opm/porsol/common/Matrix.hpp:FullMatrix::operator="]}
{"id": "C02", "title": "Dense products equal the mathematical product for every storage ordering", "statement": "prod, vecMulAdd_N/T, matMulAdd_NN/NT/TN and the symmetric rank update compute alpha*op(A)*op(B)+beta*C (respectively alpha*A*x+beta*y, alpha*A*A^T+beta*C) entry by entry, and the variants for C-ordered operands, which hand the transposed buffer to the Fortran kernel, compute the same result as the Fortran-ordered variants.", "quantifier": "all shapes that agree, all entries, all alpha and beta, all ordering combinations offered by the API", "why_tests_cant": "Leading-dimension and transposition mistakes cancel for square or symmetric data; only a proof over all shapes and entries excludes them.", "anchors": ["opm/porsol/common/Matrix.hpp:prod", "opm/porsol/common/Matrix.hpp:vecMulAdd_N", "opm/porsol/common/Matrix.hpp:matMulAdd_NN", "opm/porsol/common/Matrix.hpp:matMulAdd_NT", "opm/porsol/common/Matrix.hpp:matMulAdd_TN", "opm/porsol/common/Matrix.hpp:symmetricUpdate"]}
{"id": "C03", "title": "Small-matrix inverses are two-sided inverses", "statement": "inverse2x2(m) is a two-sided inverse of m whenever m has non-zero determinant; inverse3x3(m) is a two-sided inverse of every invertible 3x3 matrix (in the code as it is this holds only when the (2,2) entry is non-zero; otherwise the routine divides by zero).", "quantifier": "every 2x2 and 3x3 matrix", "why_tests_cant": "The failure set (m(2,2)=0) has measure zero: random tests never hit it, while simple permutation matrices do.", "anchors": ["opm/porsol/common/MatrixInverse.hpp:inverse2x2", "opm/porsol/common/MatrixInverse.hpp:inverse3x3"]}
{"id": "C04", "title": "Periodic partner registration is always a symmetric matching", "statement": "After any sequence of clear, resize and successful partner registrations, partner(partner(b)) = b for every boundary id b that has a partner, no id is its own partner unless it was registered with itself, registering an id that already has a partner or is out of range is rejected, and growing the table does not disturb registered pairs.", "quantifier": "every history of clear/resize/setPeriodicPartners/setCanonicalBoundaryId operations and every id", "why_tests_cant": "The property is about all histories of a mutable table; tests exercise one construction order.", "anchors": ["opm/porsol/common/BoundaryConditions.hpp:PeriodicConditionHandler"]}
{"id": "C05", "title": "Periodic partners found by geometry are mutual, on opposite sides and coincide", "statement": "createPeriodic pairs a boundary face only with a face on the opposite side of the box with equal area and coinciding tangential centroid (within tolerance), and the pairing is symmetric: if face a is given partner b then b's partner is a. In the code a later search may overwrite an already matched face, so symmetry holds only if each face has at most one geometric candidate.", "quantifier": "every list of boundary faces and every choice of periodic sides", "why_tests_cant": "Symmetry depends on the sorted order and on which near-coincident faces exist; tests use clean Cartesian boxes with unique matches.", "anchors": ["opm/porsol/common/BoundaryPeriodicity.cpp:match", "opm/porsol/common/BoundaryPeriodicity.hpp:findPeriodicPartners", "opm/porsol/common/PeriodicHelpers.hpp:createPeriodicImpl"]}
{"id": "C06", "title": "A Neumann condition given for a side is distributed without loss", "statement": "When a total outflux is prescribed on a side of the box, the fluxes stored for the individual boundary faces of that side sum to exactly the prescribed value and are proportional to face area; faces on other sides receive exactly the condition of their own side.", "quantifier": "every set of boundary faces with positive areas, every assignment of faces to the six sides, every flux", "why_tests_cant": "A summation identity over arbitrary many faces and areas.", "anchors": ["opm/porsol/common/PeriodicHelpers.hpp:storeFlowCond", "opm/porsol/common/BoundaryPeriodicity.hpp:findPeriodicPartners"]}
{"id": "C07", "title": "Linear pressure conditions interpolate between the two ends", "statement": "With linear boundary conditions every boundary face gets a pressure that is an affine, non-increasing function of its coordinate in the drop direction, equals the pressure drop on the low end and zero on the high end, and always lies between them; no boundary id below the maximum is left without a condition when ids are unique.", "quantifier": "every box grid with non-zero extent, every pressure drop >= 0, every direction", "why_tests_cant": "Bounds and endpoint exactness over all coordinates.", "anchors": ["opm/porsol/common/PeriodicHelpers.hpp:createLinear"]}
{"id": "C08", "title": "Upscaling boundary set-up is determined by the request and not by history", "statement": "Setting up 'fixed' conditions leaves exactly two pressure faces (drop at the low side, zero at the high side of the chosen direction), no-flow on the other four, and this result is independent of the conditions stored before; 'periodic' gives opposite jumps +drop/-drop in the drop direction and zero elsewhere; a type outside 0..2 is rejected and leaves the conditions unchanged. ('linear' does not clear: conditions of ids not on the boundary survive.)", "quantifier": "every prior state of the condition table, every direction 0..2, every drop and saturation", "why_tests_cant": "History independence quantifies over all previous states.", "anchors": ["opm/porsol/common/setupBoundaryConditions.hpp:setupUpscalingConditions"]}
{"id": "C09", "title": "Boundary condition kind cannot cross the periodic boundary after init", "statement": "After an upscaler is initialised, any sequence of setBoundaryConditionType calls keeps 'is periodic' as it was at init; calls that would change it throw and leave the type unchanged; every other call takes effect.", "quantifier": "every initial type and every finite sequence of calls", "why_tests_cant": "Invariant over all call histories.", "anchors": ["opm/upscaling/UpscalerBase_impl.hpp:setBoundaryConditionType"]}
{"id": "C10", "title": "Explicit transport conserves phase volume", "statement": "With clamping off, one explicit transport step changes the total water volume (sum of saturation times pore volume) by exactly dt times the net boundary inflow plus sources: whatever leaves a cell through an internal or periodic face enters the neighbour.", "quantifier": "every grid topology, every face flux field, every upstream choice, every saturation, any dt", "why_tests_cant": "A conservation law over arbitrary grids; tests compare numbers on one grid with a tolerance.", "anchors": ["opm/porsol/euler/EulerUpstreamResidual_impl.hpp:UpdateForCell", "opm/porsol/euler/EulerUpstream_impl.hpp:smallTimeStep"]}
{"id": "C11", "title": "Residual assembly is independent of cell order and of range splitting", "statement": "The transport residual is the same for every order in which cells are processed and for every way the cell range is split into sub-ranges processed atomically; each cell is processed exactly once. When the sub-ranges run in parallel with unsynchronised read-modify-write of neighbour entries, an update can be lost.", "quantifier": "every grid, every permutation of the cells, every splitting tree; every interleaving for the negative part", "why_tests_cant": "Schedules cannot be enumerated by tests.", "anchors": ["opm/porsol/euler/EulerUpstreamResidual_impl.hpp:IndirectRange", "opm/porsol/euler/EulerUpstreamResidual_impl.hpp:computeResidual"]}
{"id": "C12", "title": "Explicit time stepping covers exactly the requested interval with bounded retries", "statement": "transportSolve uses equal substeps whose lengths sum to the requested time, with a number of substeps between the configured minimum and maximum on the first attempt; after each failure it restores the initial saturation and doubles the number of substeps; it gives up, rethrowing, after at most eleven attempts; on success the returned saturation is the one produced from the initial saturation by the last number of substeps alone.", "quantifier": "every requested time, CFL limit, configuration and every pattern of failing attempts", "why_tests_cant": "Failure patterns and retries form an unbounded set of executions.", "anchors": ["opm/porsol/euler/EulerUpstream_impl.hpp:transportSolve", "opm/porsol/euler/EulerUpstream_impl.hpp:computeCflTime"]}
{"id": "C13", "title": "Saturation limiting", "statement": "With clamping enabled every saturation after the check is in [0,1] and in-range values are untouched; with clamping disabled the field is never modified and the check throws exactly when some value exceeds 1.001 or is below -0.001.", "quantifier": "every saturation field and both settings", "why_tests_cant": "Exactness of the throw condition over all fields.", "anchors": ["opm/porsol/euler/EulerUpstream_impl.hpp:checkAndPossiblyClampSat", "opm/porsol/euler/ImplicitCapillarity_impl.hpp:checkAndPossiblyClampSat"]}
{"id": "C14", "title": "The CFL step is safe for every cell", "statement": "The velocity time-step limit is at most the pore volume divided by max(inflow,outflow) for every cell, it is attained by some cell (or the initial bound), and under this limit one explicit upstream step with a monotone fractional flow of slope at most the CFL factor and divergence-free flux keeps all saturations in [0,1].", "quantifier": "every grid, flux field and saturation field", "why_tests_cant": "Maximum principle for all flux fields.", "anchors": ["opm/porsol/euler/CflCalculator.hpp:findCFLtimeVelocity", "opm/porsol/euler/EulerUpstream_impl.hpp:smallTimeStep"]}
{"id": "C15", "title": "CFL factors bound the sampled derivatives of every rock", "statement": "The velocity and gravity CFL factors reported by the reservoir property object, multiplied by the slope of the (gravity) fractional flow between any two consecutive samples of any rock, give at most one, and the capillary factor bounds the product of gravity fractional flow and capillary slope at all samples of all rocks. (Violated for the capillary factor of the anisotropic relperm variant: it never leaves its initial value 1e100, and is below -1e100 without rocks.)", "quantifier": "every list of rocks and sampled derivatives", "why_tests_cant": "Fold initialisation errors are invisible when only one branch is printed.", "anchors": ["opm/porsol/common/ReservoirPropertyCapillary_impl.hpp:computeCflFactors", "opm/porsol/common/ReservoirPropertyCapillaryAnisotropicRelperm_impl.hpp:computeCflFactors"]}
{"id": "C16", "title": "Fractional flow and phase velocities are physical", "statement": "For non-negative, not both zero, mobilities the fractional flow lies in [0,1]; water and oil phase velocities add up to the total velocity in every cell; without rock tables the quadratic mobilities and their derivative are consistent.", "quantifier": "all mobilities, saturations and velocity fields", "why_tests_cant": "Range over all real inputs.", "anchors": ["opm/porsol/common/ReservoirPropertyCapillary_impl.hpp:fractionalFlow", "opm/porsol/common/SimulatorUtilities.hpp:computePhaseVelocities"]}
{"id": "C17", "title": "The transport source table behaves as an append-only list", "statement": "After any sequence of append and clear calls the table contains exactly the entries appended since the last clear, in order, each with its cell, pressure, flux, saturation and composition; the capacity never falls below the count; appending a source with the wrong number of phases returns -1 and changes nothing; if growing fails because memory is exhausted the call reports failure (and the code then leaves stale pointers that are freed again on destruction).", "quantifier": "every sequence of append/clear operations with every pattern of allocation failures", "why_tests_cant": "Growth boundaries and allocation-failure points are unbounded in number.", "anchors": ["opm/core/transport/implicit/transport_source.c:append_transport_source", "opm/core/transport/implicit/transport_source.c:expand_source_tables", "opm/core/transport/implicit/transport_source.c:clear_transport_source", "opm/core/transport/implicit/transport_source.c:destroy_transport_source"]}
{"id": "C18", "title": "The Newton driver terminates and reports truthfully", "statement": "The implicit solve performs at most max_it Newton iterations (max_it >= 1) with at most max_it_ls+2 line-search passes each; it reports convergence only if the final residual is below the absolute or relative tolerance or the update below the increment tolerance; the state update is finalised exactly once in all cases, also when not converged.", "quantifier": "every sequence of residual norms, increments and range violations the model can produce and every control setting with max_it >= 1", "why_tests_cant": "The oracle behaviour (norms) is arbitrary.", "anchors": ["opm/core/transport/implicit/ImplicitTransport.hpp:ImplicitTransport::solve"]}
{"id": "C19", "title": "Implicit upwind fluxes cancel across a face", "statement": "The flux a cell's equation receives through a face is the exact negative of the flux the neighbour's equation receives, including gravity and capillary parts, so that summing the residual over all cells leaves only accumulation and sources.", "quantifier": "every grid, every mobility, flux, gravity and capillary value, both orientations", "why_tests_cant": "Depends on a sign convention holding for every orientation and every upwind branch.", "anchors": ["opm/core/transport/implicit/SinglePointUpwindTwoPhase.hpp:fluxConnection", "opm/core/transport/implicit/SinglePointUpwindTwoPhase.hpp:upwindMobility"]}
{"id": "C20", "title": "Upwind mobilities are upwind with respect to both phase velocities", "statement": "The mobilities selected for a face come from the cell that each phase flows out of: when the selected water mobility is that of a cell, the water phase velocity computed with the selected mobilities does not point into that cell (and likewise for oil).", "quantifier": "every total flux, gravity+capillary flux of either sign and all non-negative mobilities", "why_tests_cant": "Many sign cases, continuous data.", "anchors": ["opm/core/transport/implicit/SinglePointUpwindTwoPhase.hpp:upwindMobility"]}
{"id": "C21", "title": "Finalised saturations are admissible", "statement": "After the implicit step is finalised every cell's two saturations sum to one and the water saturation is within the cell's [s_min,s_max] (s_min <= s_max), whatever increments Newton produced; states flagged as in range differ from limits by at most the tolerance.", "quantifier": "every state, increment and limits with s_min<=s_max", "why_tests_cant": "All real increments.", "anchors": ["opm/core/transport/implicit/SinglePointUpwindTwoPhase.hpp:finishStep", "opm/core/transport/implicit/SinglePointUpwindTwoPhase.hpp:initIteration", "opm/core/transport/implicit/SinglePointUpwindTwoPhase.hpp:initStep"]}
{"id": "C22", "title": "Jacobian structure and cell-contribution buffers", "statement": "The number of non-zeros reserved for the Jacobian equals the sum of the row sizes that are subsequently inserted, every block a cell assembles is within the reserved row pattern, and the per-cell work buffer is partitioned into disjoint in-bounds blocks.", "quantifier": "every grid topology, every number of connections per cell and of unknowns per cell", "why_tests_cant": "Memory layout must be right for all sizes.", "anchors": ["opm/core/transport/implicit/ImplicitAssembly.hpp:createSystem", "opm/core/transport/implicit/ImplicitAssembly.hpp:computeCellContrib", "opm/core/transport/implicit/SinglePointUpwindTwoPhase.hpp:ModelParameterStorage"]}
{"id": "C23", "title": "Averages lie between their arguments", "statement": "Arithmetic, geometric and harmonic averages of two positive numbers lie between the smaller and the larger, satisfy harmonic <= geometric <= arithmetic, are symmetric, and harmonic/geometric averages vanish when the product is not positive.", "quantifier": "all pairs of reals", "why_tests_cant": "Inequalities over all reals.", "anchors": ["opm/core/utility/Average.hpp"]}
{"id": "C24", "title": "Voigt packing is a lossless renumbering of the nine tensor entries", "statement": "Reading the nine Voigt components of a tensor and writing them back reproduces the tensor; the component order is xx,yy,zz,yz,xz,xy,zy,zx,yx; distinct components address distinct entries.", "quantifier": "every 3x3 tensor", "why_tests_cant": "A duplicated index is invisible on symmetric tensors, which is what upscaling tests produce.", "anchors": ["opm/upscaling/RelPermUtils.cpp:getVoigtValue", "opm/upscaling/RelPermUtils.cpp:setVoigtValue"]}
{"id": "C25", "title": "Written relative-permeability tables contain all nine tensor entries", "statement": "Each line of the relperm output written by the steady-state managers determines the full upscaled tensor. (Violated: the last column repeats the (1,2) entry and the (1,0) entry is never written; holds for symmetric tensors up to that column.)", "quantifier": "every 3x3 tensor", "why_tests_cant": "All regression data are symmetric.", "anchors": ["opm/upscaling/SteadyStateUpscalerManager.hpp:writeRelPerm"]}
{"id": "C26", "title": "Control files round-trip", "statement": "The control file written by the steady-state manager, read back, yields the same saturation and pressure-drop lists (and the sampling ranges generated from limits start and end exactly at the limits, are monotone and of the requested length).", "quantifier": "every list of saturations and list of lists of pressure drops", "why_tests_cant": "Lists of any length and nesting.", "anchors": ["opm/upscaling/SteadyStateUpscalerManager.hpp:readControl", "opm/upscaling/SteadyStateUpscalerManager.hpp:writeControl", "opm/upscaling/SteadyStateUpscalerManager.hpp:upscale"]}
{"id": "C27", "title": "Volume-weighted upscaled scalars are genuine averages", "statement": "Upscaled porosity, NTG, net porosity, SWCR, SOWCR and the upscaled final saturation lie between the minimum and maximum cell value (weights non-negative, total positive), reproduce a constant field, do not depend on cell order, and upscaled net porosity times upscaled NTG equals total net pore volume over total volume.", "quantifier": "every grid, every property field", "why_tests_cant": "All cell counts and volumes.", "anchors": ["opm/upscaling/UpscalerBase_impl.hpp:upscalePorosity", "opm/upscaling/UpscalerBase_impl.hpp:upscaleNetPorosity", "opm/upscaling/UpscalerBase_impl.hpp:upscaleNTG", "opm/upscaling/UpscalerBase_impl.hpp:upscaleSWCR", "opm/upscaling/UpscalerBase_impl.hpp:upscaleSOWCR"]}
{"id": "C28", "title": "Effective permeability under fixed conditions is diagonal; average velocity is the mean of the two side averages", "statement": "With fixed boundary conditions the upscaled tensor has zero off-diagonal entries; the velocity in a direction is the mean of the area-averaged fluxes through the two opposite sides and does not depend on face order; a constant velocity field is reproduced exactly.", "quantifier": "every grid, flux field and boundary numbering", "why_tests_cant": "Sums over arbitrary face sets.", "anchors": ["opm/upscaling/UpscalerBase_impl.hpp:upscaleEffectivePerm", "opm/upscaling/UpscalerBase_impl.hpp:computeAverageVelocity"]}
{"id": "C29", "title": "Chopping selects exactly the requested sub-box", "statement": "For an accepted request the chopped deck has (imax-imin)*(jmax-jmin)*nz cells, every new cell comes from a distinct old cell with i,j in the requested ranges and k in a contiguous band containing exactly the layers touching the clamped z-interval, every property value is the one of the originating cell, and all z-corners lie in [zmin,zmax]. For grids whose layers are contiguous nz is at least one.", "quantifier": "every grid size, every corner depth array and every request", "why_tests_cant": "Index arithmetic for all sizes.", "anchors": ["opm/upscaling/CornerpointChopper.hpp:chop", "opm/upscaling/CornerpointChopper.hpp:filterField"]}
{"id": "C30", "title": "Chopping is history independent and size checked", "statement": "The result of a chop depends only on the original deck and the last request, not on earlier chops; decks whose COORD or ZCORN arrays have the wrong length are rejected, as are empty z-intervals; a request accepted by verifyInscribedShoebox lies within the grid.", "quantifier": "every sequence of chop requests", "why_tests_cant": "All histories.", "anchors": ["opm/upscaling/CornerpointChopper.hpp:chop", "opm/upscaling/CornerpointChopper.hpp:verifyInscribedShoebox"]}
{"id": "C31", "title": "Input sanity check post-conditions", "statement": "If the relperm upscaler accepts a deck, then all porosities are in [minPoro,1] except in cells of rock type 0, where they are 0, x-permeabilities are within the configured limits, and rock numbers are in 0..1000; otherwise it throws. (y- and z-permeabilities are not limited; 1000 is accepted although the message says otherwise.)", "quantifier": "every field of values", "why_tests_cant": "All inputs.", "anchors": ["opm/upscaling/RelPermUtils.cpp:sanityCheckInput"]}
{"id": "C32", "title": "Every saturation point is computed exactly once, on any number of processes", "statement": "In a parallel run each pressure point is assigned to exactly one valid rank, the loads differ by at most one, and after results are gathered the master holds for every point the value computed by its owner, in whatever order messages are received.", "quantifier": "every number of points, every number of ranks, every message order", "why_tests_cant": "Interleavings and rank counts.", "anchors": ["opm/upscaling/RelPermUtils.cpp:upscalePermeability", "opm/upscaling/RelPermUtils.cpp:collectResults"]}
{"id": "C33", "title": "Phase permeability contrast limiting", "statement": "The cell phase permeabilities handed to the flow solver are never below the floor max(maxPhasePerm/contrast, minPerm), are unchanged when at or above it, and so the contrast in the solved system does not exceed the configured one (when the floor is governed by it).", "quantifier": "every cell field", "why_tests_cant": "All real inputs.", "anchors": ["opm/upscaling/RelPermUtils.cpp:upscalePermeability"]}
{"id": "C34", "title": "The steady-state iteration is bounded and its step size stays in range", "statement": "The implicit steady-state loop performs at most the configured number of iterations, reports success only if the last saturation change was below tolerance, the transport step size is always positive and never above the configured maximum, and a non-converged step halves it.", "quantifier": "every sequence of solver outcomes and saturation changes", "why_tests_cant": "All executions.", "anchors": ["opm/upscaling/SteadyStateUpscalerImplicit_impl.hpp:upscaleSteadyState"]}
{"id": "C35", "title": "Saturation conversions between one- and two-phase layout are inverse", "statement": "Interleaving water saturation to both-phase layout and extracting it back is the identity, both-phase entries sum to one, and initial saturation limiting keeps every value within [s_min+eps,s_max-eps] of its cell (when that interval is non-empty) leaving in-range values unchanged.", "quantifier": "every field", "why_tests_cant": "All sizes.", "anchors": ["opm/upscaling/SteadyStateUpscalerImplicit_impl.hpp:destripe", "opm/upscaling/SteadyStateUpscalerImplicit_impl.hpp:waterSatToBothSat", "opm/upscaling/SteadyStateUpscalerImplicit_impl.hpp:initSatLimits"]}
{"id": "C36", "title": "The mimetic inner product is symmetric, non-negative and consistent", "statement": "For symmetric (positive semidefinite) permeability the inverse inner product of a cell is symmetric and positive semidefinite, scales linearly with total mobility, and is exact for linear pressure fields on every cell whose area-weighted normals and centroid vectors satisfy the divergence identity.", "quantifier": "every cell geometry with any number of faces and every permeability tensor", "why_tests_cant": "Linear-algebra identities over all geometries.", "anchors": ["opm/porsol/mimetic/MimeticIPEvaluator.hpp:buildStaticContrib", "opm/porsol/mimetic/MimeticIPEvaluator.hpp:getInverseMatrix"]}
{"id": "C37", "title": "Computed fluxes balance the source in every cell", "statement": "Whatever face pressures the linear solver returns, the fluxes computed for a cell sum to exactly its source term.", "quantifier": "every cell, every face pressure vector, every right-hand side with non-zero cell coefficient", "why_tests_cant": "Holds for all linear solver outcomes, including inaccurate ones.", "anchors": ["opm/porsol/mimetic/IncompFlowSolverHybrid.hpp:computePressureAndFluxes", "opm/porsol/mimetic/IncompFlowSolverHybrid.hpp:buildCellContrib"]}
{"id": "C38", "title": "Face fluxes are continuous after solution and after post-processing", "statement": "If the face-pressure system is solved exactly, the two cell fluxes over every interior face cancel and a Neumann face carries the prescribed flux; flux post-processing makes every interior or periodic pair exactly antisymmetric, leaves other boundary faces unchanged, changes nothing when already antisymmetric, and returns the largest change.", "quantifier": "every grid topology and flux field", "why_tests_cant": "All topologies.", "anchors": ["opm/porsol/mimetic/IncompFlowSolverHybrid.hpp:addCellContrib", "opm/porsol/mimetic/IncompFlowSolverHybrid.hpp:postProcessFluxes"]}
{"id": "C39", "title": "Degrees of freedom are numbered without gaps or collisions", "statement": "Hybrid-solver faces, grid faces and elasticity unknowns each receive distinct numbers filling [0,n); the two sides of an interior face share one number; fixed or constrained unknowns receive none.", "quantifier": "every grid topology", "why_tests_cant": "All topologies and constraint sets.", "anchors": ["opm/porsol/mimetic/IncompFlowSolverHybrid.hpp:enumerateGridDof", "opm/porsol/common/GridInterfaceEuler.hpp:buildFaceIndices", "opm/elasticity/asmhandler_impl.hpp:preprocess"]}
{"id": "C40", "title": "Parallel element colouring is a partition and is race free", "statement": "The two colour groups together contain every active element exactly once, and two elements that are processed concurrently in different threads of the same colour never share a node of the logically Cartesian grid.", "quantifier": "every grid size, active-cell set and thread count", "why_tests_cant": "Thread counts and sizes are unbounded; races are not observable deterministically.", "anchors": ["opm/elasticity/meshcolorizer.cpp:MeshColorizer::calcGroups", "opm/elasticity/meshcolorizer.hpp"]}
{"id": "C41", "title": "Work chunks partition the index range", "statement": "The progress helper's consecutive groups cover [0,max) exactly once in order.", "quantifier": "every max and number of chunks >= 1", "why_tests_cant": "All sizes.", "anchors": ["opm/elasticity/logutils.hpp:LoggerHelper"]}
{"id": "C42", "title": "Constraint equations and prescribed values are applied consistently", "statement": "Expanding a reduced solution sets each free unknown to its equation value, each prescribed unknown to its prescribed value and each constrained unknown to the coefficient-weighted sum of its masters; repeated prescriptions for a node merge direction by direction with the last value winning; resolving chained constraints preserves the value of the constrained unknown.", "quantifier": "every set of constraints and prescriptions without cycles", "why_tests_cant": "All histories of constraint calls.", "anchors": ["opm/elasticity/asmhandler_impl.hpp:expandSolution", "opm/elasticity/asmhandler_impl.hpp:updateFixedNode", "opm/elasticity/asmhandler_impl.hpp:resolveMPCChain"]}
{"id": "C43", "title": "Isotropic constitutive matrices are symmetric, positive definite and correctly inverted", "statement": "For E>0 and 0<=nu<0.5 the material returns a symmetric positive definite matrix, the matrix returned with the inverse flag is its two-sided inverse, other Poisson ratios are refused, and the conversions from (lambda,mu), (K,mu) and (vp,vs) satisfy the defining relations of linear elasticity.", "quantifier": "all material parameters", "why_tests_cant": "Real parameters.", "anchors": ["opm/elasticity/materials.cpp:Isotropic::getConstitutiveMatrix", "opm/elasticity/material.cpp:Material::create"]}
{"id": "C44", "title": "Shape functions form a nodal partition of unity with consistent gradients", "statement": "Linear shape functions on the quadrilateral and hexahedron are one at their own node and zero at the others, sum to one everywhere, and their reported gradients sum to zero and are the derivatives; Lagrange cardinal functions satisfy the same nodal property for any set of distinct nodes. (The Lagrange gradient divides by zero.)", "quantifier": "every evaluation point, every node set", "why_tests_cant": "All points.", "anchors": ["opm/elasticity/shapefunctions.hpp"]}
{"id": "C45", "title": "Point inversion on bilinear boundary quads is exact", "statement": "Every reference coordinate returned by the quad inversion maps back to the queried point; the reference map sends unit-square corners to the quad's vertices and its four weights sum to one.", "quantifier": "every quad and point", "why_tests_cant": "All real coordinates.", "anchors": ["opm/elasticity/boundarygrid.cpp:BoundaryGrid::bilinearSolve", "opm/elasticity/boundarygrid.cpp:BoundaryGrid::Quad::pos"]}
{"id": "C46", "title": "Uniform boundary grids number their nodes consistently", "statement": "A uniform k1 x k2 boundary grid has k1*k2 quads, (k1+1)*(k2+1) nodes, node numbers in range and equal exactly for coinciding corner positions; quad corner coordinates tile the rectangle. (Violated: the second vertex's second coordinate is never set.)", "quantifier": "every k1,k2 and rectangle", "why_tests_cant": "All sizes; the error vanishes when the first row starts at zero.", "anchors": ["opm/elasticity/boundarygrid.cpp:BoundaryGrid::uniform"]}
{"id": "C47", "title": "Sparse matrix utilities compute the matrix they claim", "statement": "Axpy returns A+alpha*B, augment places B at the requested offset (mirrored if symmetric), extractDiagonal and extractBlock return exactly the selected entries and the dense conversion drops only entries of magnitude at most 1e-14.", "quantifier": "all sparse matrices", "why_tests_cant": "All patterns.", "anchors": ["opm/elasticity/matrixops.cpp"]}
{"id": "C48", "title": "The saddle-point solvers return the solution of the mortar system", "statement": "With exact inner and outer solvers the Uzawa solver returns (u,lambda) with A u + B lambda = b and B^T u = 0; the mortar operator applies the full saddle-point matrix. (The scaled-add variant scales only the A block, and a non-zero constraint right-hand side is ignored.)", "quantifier": "all matrices and right-hand sides", "why_tests_cant": "Linear algebra identities.", "anchors": ["opm/elasticity/uzawa_solver.hpp", "opm/elasticity/mortar_evaluator.hpp"]}
{"id": "C49", "title": "Element stiffness matrices are symmetric and positive semidefinite and do not see rigid motions", "statement": "For a symmetric positive semidefinite constitutive matrix and positive quadrature weights the element matrix is symmetric positive semidefinite, annihilates translations and infinitesimal rotations, and affine displacements of the nodes have exactly the strain of their gradient; the load vector of a load case balances the affine displacement with that strain.", "quantifier": "all element geometries", "why_tests_cant": "Linear algebra identities.", "anchors": ["opm/elasticity/elasticity_impl.hpp:getStiffnessMatrix", "opm/elasticity/elasticity_impl.hpp:getBmatrix"]}
{"id": "C50", "title": "Permeability input is classified and filled consistently", "statement": "Every permeability input is classified by which components are present; invalid combinations are rejected; for accepted inputs the assembled cell tensor is symmetric, uses each supplied component at its position, copies missing diagonal components as documented and enforces the minimum on the diagonal.", "quantifier": "every combination of supplied components and values", "why_tests_cant": "2^9 combinations times all values.", "anchors": ["opm/porsol/common/ReservoirPropertyCommon_impl.hpp:classifyPermeability", "opm/porsol/common/ReservoirPropertyCommon_impl.hpp:fillTensor"]}
{"id": "C51", "title": "Cell data are mapped from the input deck through the active-cell map", "statement": "Porosity, NTG, critical saturations and rock numbers of active cell c are those of its global cell (rock number minus one, SATNUM preferred over ROCKTYPE), with documented defaults when a keyword is absent; arrays of the wrong size are rejected.", "quantifier": "every deck and active-cell map", "why_tests_cant": "All maps.", "anchors": ["opm/porsol/common/ReservoirPropertyCommon_impl.hpp:assignPorosity", "opm/porsol/common/ReservoirPropertyCommon_impl.hpp:assignRockTable"]}
{"id": "C52", "title": "Capillary inversion is within the rock's saturation range", "statement": "The saturation reported for any capillary pressure lies within the rock's [s_min,s_max]; if the J-function inverse is exact, converting saturation to pressure and back is the identity inside the range; saturation is a non-increasing function of pressure for a decreasing J-function.", "quantifier": "every rock, cell and pressure", "why_tests_cant": "All reals.", "anchors": ["opm/porsol/common/RockJfunc.hpp:satFromCapPress", "opm/porsol/common/RockJfunc.hpp:capPress"]}
{"id": "C53", "title": "Matching a target saturated volume", "statement": "The function whose root sets the capillary-limit initial condition is the pore-volume weighted average saturation minus the target; it is monotone in the pressure offset, and at a root the resulting field has exactly the target average.", "quantifier": "every field and rock", "why_tests_cant": "All reals.", "anchors": ["opm/porsol/euler/MatchSaturatedVolumeFunctor.hpp"]}
{"id": "C54", "title": "Inflow and outflow of the steady state are complete", "statement": "The reported water and oil inflows (outflows) add up to the total flux of the boundary faces with flow into (out of) the domain, so each boundary face is counted in exactly one of them; water leaves with the fractional flow of its cell and enters with that of the prescribed saturation or of the periodic partner cell; with periodic boundaries what leaves equals what enters.", "quantifier": "every set of boundary faces and fluxes", "why_tests_cant": "All face sets.", "anchors": ["opm/upscaling/SteadyStateUpscalerImplicit_impl.hpp:computeInOutFlows"]}
{"id": "C55", "title": "Implicit transport retries", "statement": "The implicit transport driver makes at most max_repeats+2 attempts, doubling the number of substeps each time from the saved initial state, returns true only after an attempt in which every substep converged, and otherwise returns false while still exposing the last attempt's state.", "quantifier": "every pattern of convergence outcomes", "why_tests_cant": "All executions.", "anchors": ["opm/porsol/euler/EulerUpstreamImplicit_impl.hpp:transportSolve"]}
{"id": "C56", "title": "Boundary ids are checked for uniqueness before periodic or linear set-up", "statement": "A grid whose boundary faces carry the distinct ids 1..n is accepted by the periodic and linear set-up, and any grid whose largest id differs from the number of boundary faces is rejected without touching the conditions. (Violated in the other direction: duplicated ids such as 1,1,3 pass the check and one id is left without a condition.)", "quantifier": "every assignment of boundary ids", "why_tests_cant": "All id assignments.", "anchors": ["opm/porsol/common/PeriodicHelpers.hpp:createLinear", "opm/porsol/common/BoundaryPeriodicity.hpp:findPeriodicPartners"]}
{"id": "C57", "title": "Region-based conditions affect exactly the region", "statement": "Region-based set-up gives the block pressure to exactly those boundary ids that have a face with centroid strictly inside the region and keeps every other condition, saturation conditions included; it never fails.", "quantifier": "every grid, region and earlier table", "why_tests_cant": "All grids and regions.", "anchors": ["opm/porsol/common/setupBoundaryConditions.hpp:setupRegionBasedConditions"]}
{"id": "C58", "title": "Disabling gravity makes the result independent of the gravity vector", "statement": "With the gravity term switched off, the explicit transport residual does not depend on the gravity vector or on the densities. (Violated: the gravity influence still takes part in the choice of the upstream cell of the phases; it holds when all gravity influences vanish or the choice is not affected.)", "quantifier": "every grid, flux field, saturation and gravity vector", "why_tests_cant": "All inputs.", "anchors": ["opm/porsol/euler/EulerUpstreamResidual_impl.hpp:UpdateForCell"]}
{"id": "C59", "title": "Upstream weighting", "statement": "Each phase mobility in the transport flux of a face is taken from the cell the phase flows out of, so that the flux is the same from whichever side the face is visited: with viscous flow alone this is the cell the total flux comes from. (Violated with gravity when the total flux enters the visited cell and the flow is countercurrent: the mobility of the downstream cell is used, and the result depends on the numbering of the cells.)", "quantifier": "every pair of cells, mobilities, fluxes and gravity influences", "why_tests_cant": "All reals.", "anchors": ["opm/porsol/euler/EulerUpstreamResidual_impl.hpp:UpdateForCell"]}
{"id": "C60", "title": "Cell velocity estimates", "statement": "The estimated cell velocity is exact for a constant velocity field on every polyhedral cell, independent of the order of the faces, zero outside the selected partition, and the face-based variant gives the same value as the cell-based one.", "quantifier": "every cell shape, face order and flux field", "why_tests_cant": "All cell geometries.", "anchors": ["opm/porsol/common/SimulatorUtilities.hpp:estimateCellVelocity", "opm/porsol/common/SimulatorUtilities.hpp:estimateCellVelocitySimpleInterface"]}
{"id": "C61", "title": "The implicit Jacobian is the derivative of the residual", "statement": "The matrix assembled for an implicit transport step is the derivative of the assembled residual with respect to the saturation of every cell (upwind directions held fixed), including flux, capillary, accumulation and source terms, and the residual is the discretised water balance of each cell.", "quantifier": "every grid, fluid, saturation, flux field and set of sources", "why_tests_cant": "Derivatives are statements about all nearby points; tests can only compare finite differences.", "anchors": ["opm/core/transport/implicit/SinglePointUpwindTwoPhase.hpp:fluxConnection", "opm/core/transport/implicit/SinglePointUpwindTwoPhase.hpp:sourceTerms", "opm/core/transport/implicit/ImplicitAssembly.hpp:assemble"]}
{"id": "C62", "title": "Static gravity and face transmissibility in implicit transport", "statement": "The static gravity flux over an internal face equals the density difference times the face transmissibility times gravity along the vector between the two cell centroids; the face transmissibility is the harmonic combination of its two half-face transmissibilities (positive, below both, symmetric).", "quantifier": "every well-formed grid, gravity vector, dimension and positive half-face transmissibilities", "why_tests_cant": "All grids and real data.", "anchors": ["opm/core/transport/implicit/SinglePointUpwindTwoPhase.hpp:computeStaticGravity", "opm/core/transport/implicit/SinglePointUpwindTwoPhase.hpp:initGravityTrans", "opm/core/transport/implicit/SinglePointUpwindTwoPhase.hpp:gravityFlux"]}
{"id": "C63", "title": "Implicit transport conserves mass across periodic boundaries", "statement": "What a cell loses through a periodic face its periodic neighbour gains. (Violated with capillary pressure when the two half-face transmissibilities differ: each of the two partner faces uses only its own half-face transmissibility.)", "quantifier": "every pair of periodic partner faces and all cell data", "why_tests_cant": "All reals and orientations.", "anchors": ["opm/porsol/euler/EulerUpstreamImplicit_impl.hpp:initObj", "opm/core/transport/implicit/SinglePointUpwindTwoPhase.hpp:initGravityTrans", "opm/core/transport/implicit/SinglePointUpwindTwoPhase.hpp:capFlux"]}
{"id": "C64", "title": "Steady-state sampling loop", "statement": "The managers compute and write one row per (saturation, pressure drop) in the order given; each computation starts from the limited state left by the last successful computation of the same saturation (its initial profile if there is none); a thrown exception leaves all earlier rows and no later ones; limiting the initial saturations is idempotent and keeps values inside the limits.", "quantifier": "every list of saturations and pressure drops, every sequence of successes and failures", "why_tests_cant": "The number of combinations of failures is unbounded.", "anchors": ["opm/upscaling/SteadyStateUpscalerManager.hpp:upscale", "opm/upscaling/SteadyStateUpscalerManagerImplicit.hpp:upscale", "opm/upscaling/SteadyStateUpscalerImplicit_impl.hpp:initSatLimits"]}
{"id": "C65", "title": "Chopping preserves the position of cells in space", "statement": "Every corner of a chopped cell whose depth lies in the selected interval is at the position it had in the original grid; when the caller asks for the origin to be moved, all corners move by one common vector. (Violated when the origin is moved and pillars are slanted: the pillar end points keep their horizontal coordinates while their depths are replaced.)", "quantifier": "every deck, request and corner", "why_tests_cant": "All pillar geometries.", "anchors": ["opm/upscaling/CornerpointChopper.hpp:chop"]}
{"id": "C66", "title": "The capillary pressure range spans every cell's saturation curve", "statement": "The announced pressure range contains, for every cell with rock, the pressures at which that cell reaches its end saturations, so that at the largest and smallest pressure the upscaled saturation equals the announced irreducible and largest saturation. (Violated with gravity when the heads are not balanced around zero: the range is shifted in the wrong direction.)", "quantifier": "every system of cells, rock curves, heads and gravity", "why_tests_cant": "All rock curves and geometries.", "anchors": ["opm/upscaling/RelPermUtils.cpp:calculateMinMaxCapillaryPressure", "opm/upscaling/RelPermUtils.cpp:upscaleCapillaryPressure"]}
{"id": "C67", "title": "Gravity head of cells in relperm upscaling", "statement": "With gravity every cell sees the system pressure minus the density difference times gravity times the distance of the cell centre from half the model thickness, which is the mean bottom depth of the last layer minus the mean top depth of the first layer over active cells. (Violated with inactive cells: heads are stored by grid cell and read by deck cell.)", "quantifier": "every corner-point grid with any set of active cells", "why_tests_cant": "All grids and activity patterns.", "anchors": ["opm/upscaling/RelPermUtils.cpp:calculateCellPressureGradients", "opm/upscaling/RelPermUtils.cpp:upscaleCapillaryPressure", "opm/upscaling/RelPermUtils.cpp:ModelThickness"]}
{"id": "C68", "title": "Upscaled saturation and pressure points", "statement": "The upscaled saturation at a pressure is the pore-volume weighted mean of the cell saturations, lies between their bounds and falls with pressure when the rock curves do; permeability is upscaled at the requested number of pressures, the first the largest, the last the smallest, the others at equidistant saturations.", "quantifier": "every system of cells, every pressure and number of points", "why_tests_cant": "All reals; monotonicity is a statement about all pairs.", "anchors": ["opm/upscaling/RelPermUtils.cpp:upscaleCapillaryPressure", "opm/upscaling/RelPermUtils.cpp:upscalePermeability"]}
{"id": "C69", "title": "Relative permeability times permeability is phase permeability", "statement": "The relative permeability tensor returned for each point multiplied by the single phase tensor is the phase permeability tensor (identity if they agree), its elements being returned in Voigt order; the end point check fails exactly if neither end value is below the threshold and otherwise zeroes exactly the smaller end value. (Deviation: off-diagonal elements are zeroed as well, whatever their size.)", "quantifier": "every invertible single phase tensor and every phase tensor", "why_tests_cant": "All tensors.", "anchors": ["opm/upscaling/RelPermUtils.cpp:getRelPerm"]}
{"id": "C70", "title": "Check of critical saturations of input curves", "statement": "A monotone relperm curve is accepted exactly if its least value is below the threshold; after acceptance one of its ends has the value zero and nothing else was changed.", "quantifier": "every monotone curve and positive threshold", "why_tests_cant": "All curves.", "anchors": ["opm/upscaling/RelPermUtils.cpp:checkCurve", "opm/upscaling/RelPermUtils.cpp:checkCriticalSaturations"]}
{"id": "C71", "title": "Phase mobilities and relative permeabilities of the steady state", "statement": "Each mobility used to upscale a phase is the computed one raised, where necessary, to the relperm threshold over viscosity and to the largest mobility over the allowed contrast, never more; so mobilities of a phase differ at most by the contrast. The reported relative permeability times the single phase permeability equals viscosity times the effective phase permeability.", "quantifier": "every field of scalar or diagonal mobilities, every tensor", "why_tests_cant": "All fields of mobilities and all tensors.", "anchors": ["opm/upscaling/SteadyStateUpscalerImplicit_impl.hpp:thresholdMobility", "opm/upscaling/SteadyStateUpscalerImplicit_impl.hpp:upscaleSteadyState"]}
{"id": "C72", "title": "Legendre polynomials and Gauss-Lobatto points", "statement": "For every degree from one upward the Legendre evaluation solves Legendre's differential equation with value one at one and the reported derivative is its derivative, also at the end points; a step of the Gauss-Lobatto search is a Newton step for (1-x^2) times the derivative of the polynomial of one degree less than the number of points, so exactly the zeros of that function are kept. (Degree zero is outside the domain.)", "quantifier": "every degree and every real point", "why_tests_cant": "All degrees and points.", "anchors": ["opm/elasticity/shapefunctions.hpp:legendre", "opm/elasticity/shapefunctions.hpp:legendreDerivative", "opm/elasticity/shapefunctions.hpp:gaussLobattoLegendreGrid", "opm/elasticity/shapefunctions.hpp:gaussLegendreGrid"]}
{"id": "C73", "title": "Average stress and the upscaled elasticity matrix", "statement": "For each of the six load cases the average stress is the volume average of the stress of the total strain, with a scaling of the moduli undone exactly; in a homogeneous medium it is the column of the elasticity matrix; when the displacements are in equilibrium the matrix of the six averages is symmetric, positive semidefinite and not above the volume average of the elasticity matrices. Other load case numbers change nothing. (Violated for materials that write only the diagonal of the matrix they are given.)", "quantifier": "every medium, every set of displacements, every scaling", "why_tests_cant": "All media and displacement fields.", "anchors": ["opm/elasticity/elasticity_upscale_impl.hpp:averageStress", "opm/elasticity/elasticity_impl.hpp:getStressVector", "opm/elasticity/elasticity_upscale_impl.hpp:assemble"]}
{"id": "C74", "title": "Materials, volume fractions and density read from input", "statement": "Moduli given as (lambda, mu) or (K, mu) become the isotropic material with these moduli; decks with a negative Poisson ratio are refused; every active cell gets the material of its deck cell (or the rock of its region), equal materials being shared; volume fractions are volumes of cells over the total volume and sum to one; the density is the volume average. (Violated: the density is off by one over the volume, ratios from one half on are accepted, region zero and scaled anisotropic rocks are undefined behaviour.)", "quantifier": "every deck, every set of active cells, every rock list", "why_tests_cant": "All decks.", "anchors": ["opm/elasticity/elasticity_upscale_impl.hpp:loadMaterialsFromGrid", "opm/elasticity/elasticity_upscale_impl.hpp:loadMaterialsFromRocklist"]}
{"id": "C75", "title": "The pressure system is definite and uniquely solvable", "statement": "If every face is connected, over cells, faces and periodic boundaries, to a face with prescribed pressure, or no pressure is prescribed and every face is connected to the first one, the matrix that the flow solver hands to its linear solver is symmetric positive definite, so there is exactly one solution, for all sources and boundary values.", "quantifier": "every grid, every set of boundary conditions, sources and positive definite inner products", "why_tests_cant": "All grids and boundary conditions.", "anchors": ["opm/porsol/mimetic/IncompFlowSolverHybrid.hpp:addCellContrib", "opm/porsol/mimetic/IncompFlowSolverHybrid.hpp:solve"]}
{"id": "C76", "title": "Assembly of element matrices with constraints", "statement": "The form of the assembled matrix is the sum of the forms of all elements at the displacements that are expanded from the unknowns with constraints and zero prescribed values, the load vector does the same work as the element loads, so a solution is in equilibrium on all admissible displacements; every matrix entry that is accessed is in the sparsity pattern. (Violated for non-zero prescribed values: they do not enter the load.)", "quantifier": "every mesh, every set of element matrices and loads, every set of constraints", "why_tests_cant": "All meshes and constraints.", "anchors": ["opm/elasticity/asmhandler_impl.hpp:addElement", "opm/elasticity/asmhandler_impl.hpp:addDOF", "opm/elasticity/asmhandler_impl.hpp:determineAdjacencyPattern"]}
{"id": "C77", "title": "Locating a point on a boundary grid", "statement": "Locating a point on a boundary grid yields a node of a quad at a distance below 1e-8, or a quad whose bounding box holds the point together with reference coordinates that map back to the point; a point inside a well shaped quad is found with its own reference coordinates. (Violated: reference coordinates are only checked from above, so a neighbouring quad that does not contain the point may be returned.)", "quantifier": "every boundary grid, every point", "why_tests_cant": "All grids and points.", "anchors": ["opm/elasticity/boundarygrid.cpp:find", "opm/elasticity/boundarygrid.cpp:Q4inv", "opm/elasticity/boundarygrid.hh:BoundedPredicate"]}
{"id": "C78", "title": "Corners of an extracted face", "statement": "The quad built for a cell face uses each of its four vertices once, lower left first, then lower right, upper right and upper left (the last two swapped in the other convention), whatever the order of the vertices in the grid; faces between vertical lines give quads with a positive Jacobian.", "quantifier": "every set of four vertices in every order, every sorting algorithm", "why_tests_cant": "All vertex positions and orders.", "anchors": ["opm/elasticity/boundarygrid.cpp:minXminY", "opm/elasticity/boundarygrid.cpp:maxXmaxY", "opm/elasticity/elasticity_upscale_impl.hpp:extractMasterFace"]}
{"id": "C79", "title": "Columns of a boundary grid", "statement": "Every quad of a face is in exactly one column; columns are the quads with the same first coordinate of the lower left corner, ordered by this coordinate, when these coordinates are equal or at least 1e-7 apart.", "quantifier": "every list of quads", "why_tests_cant": "All lists and coordinates.", "anchors": ["opm/elasticity/elasticity_upscale_impl.hpp:extractMasterFace", "opm/elasticity/boundarygrid.hh:addToColumn"]}
{"id": "C80", "title": "Extent of the model", "statement": "The extents used to detect boundary faces are the smallest and the largest coordinate of the vertices. (Violated for grids farther than 1e5 from the origin.)", "quantifier": "every non-empty list of vertices", "why_tests_cant": "All coordinates.", "anchors": ["opm/elasticity/elasticity_upscale_impl.hpp:findBoundaries"]}
{"id": "C81", "title": "Periodic couplings reproduce rigid and linear displacements", "statement": "The coefficients of a periodic coupling sum to one, so rigid translations satisfy every coupling; displacements that vary linearly over the face are reproduced at the position of the coupled node.", "quantifier": "every boundary grid, every node to be coupled, every linear displacement", "why_tests_cant": "All grids and positions.", "anchors": ["opm/elasticity/elasticity_upscale_impl.hpp:addMPC", "opm/elasticity/elasticity_upscale_impl.hpp:periodicPlane", "opm/elasticity/boundarygrid.cpp:find"]}
{"id": "C82", "title": "Numbering of multipliers", "statement": "The multipliers of a mortar face are numbered without gaps or duplicates, shared by neighbouring elements and periodic around the face, with one of them fixed. (Violated: undefined behaviour for a face with a single element.)", "quantifier": "every number of elements and every order", "why_tests_cant": "All sizes.", "anchors": ["opm/elasticity/elasticity_upscale_impl.hpp:renumber"]}
{"id": "C83", "title": "Coupling block of the mortar method", "statement": "The assembled coupling block couples the multipliers with the displacements that are expanded from the unknowns, and every entry that is accessed is in its sparsity pattern. (Violated for weighted constraints: the coefficients of masters are ignored.)", "quantifier": "every mesh, every set of constraints, every set of local matrices", "why_tests_cant": "All meshes and constraints.", "anchors": ["opm/elasticity/elasticity_upscale_impl.hpp:addBBlockMortar", "opm/elasticity/elasticity_upscale_impl.hpp:assembleBBlockMortar"]}
{"id": "C84", "title": "Legacy output of the permeability", "statement": "For every accepted input the permeability file can be written; it holds a fixed number of values per cell (nine, three or one) from which the permeability tensor of every cell is recovered.", "quantifier": "every deck, every list of active cells, every threshold", "why_tests_cant": "All decks and kinds of permeability.", "anchors": ["opm/porsol/common/ReservoirPropertyCommon_impl.hpp:writeSintefLegacyFormat"]}
{"id": "C85", "title": "Uniform properties", "statement": "After initialization with uniform values every cell has the given porosity, the given permeability times the identity and the first rock. (Violated for the other members: net-to-gross and critical saturations are left empty and the legacy output fails.)", "quantifier": "every object, number of cells and values", "why_tests_cant": "All sizes.", "anchors": ["opm/porsol/common/ReservoirPropertyCommon_impl.hpp:init(num_cells, uniform_poro, uniform_perm)"]}
{"id": "C86", "title": "Capillary update conserves saturated volume", "statement": "The update of the implicit capillarity solver leaves the average saturation (weighted with pore volumes) unchanged at a root of the matching function, for every relaxation factor, and keeps saturations in [0,1].", "quantifier": "every grid, rock, capillary pressure field, relaxation factor and sequence of evaluations of the root finder", "why_tests_cant": "All fields and evaluation histories.", "anchors": ["opm/porsol/euler/ImplicitCapillarity_impl.hpp:transportSolve", "opm/porsol/euler/MatchSaturatedVolumeFunctor.hpp"]}
{"id": "C87", "title": "Capillary mobilities", "statement": "For positive phase mobilities the capillary mobility does not depend on the order of the phases and is half their harmonic mean, but at least 1e-10.", "quantifier": "all positive mobilities", "why_tests_cant": "All values.", "anchors": ["opm/porsol/euler/ImplicitCapillarity_impl.hpp:transportSolve", "opm/porsol/common/ReservoirPropertyCapillary.hpp:ScalarMobility"]}
{"id": "C88", "title": "Sampling of the upscaled capillary pressure curve", "statement": "For cells with continuous falling saturation curves the sampling of saturation against capillary pressure ends; the table then starts at the least and ends at the greatest pressure, holds at each pressure the pore-volume weighted mean of the cell saturations, and neighbouring saturations differ by at most 1/500 of the saturation range. (Violated for equal end saturations: the table stays empty.)", "quantifier": "every set of cells and saturation curves, every range of pressures and saturations", "why_tests_cant": "Termination of an adaptive loop and accuracy for all curves.", "anchors": ["opm/upscaling/RelPermUtils.cpp:RelPermUpscaleHelper::upscaleCapillaryPressure"]}
{"id": "C89", "title": "Upscaling a homogeneous sample", "statement": "Single-phase upscaling of a box-shaped sample in which every cell has the same permeability returns exactly that permeability (times the total mobility): any tensor with linear or periodic boundary conditions, any diagonal tensor with fixed ones; whatever the state of the upscaler before the call.", "quantifier": "every conforming grid that fills a box, every shape and number of cells, every permeability, every exact linear solver", "why_tests_cant": "All grids and tensors.", "anchors": ["opm/upscaling/UpscalerBase_impl.hpp:upscaleEffectivePerm", "opm/upscaling/UpscalerBase_impl.hpp:upscaleSinglePhase", "opm/porsol/common/setupBoundaryConditions.hpp:setupUpscalingConditions", "opm/porsol/mimetic/IncompFlowSolverHybrid.hpp:solve"]}
{"id": "C90", "title": "Bounds with fixed boundary conditions", "statement": "With fixed boundary conditions single-phase upscaling succeeds and returns a diagonal tensor; every diagonal entry is positive and lies between the volume weighted harmonic mean (inverse tensors) and the arithmetic mean of the cell permeabilities; layers along the flow give exactly the arithmetic, layers across exactly the harmonic mean.", "quantifier": "every conforming grid that fills a box, every permeability field, every exact linear solver", "why_tests_cant": "All grids and permeability fields.", "anchors": ["opm/upscaling/UpscalerBase_impl.hpp:upscaleEffectivePerm", "opm/upscaling/UpscalerBase_impl.hpp:upscaleSinglePhase", "opm/porsol/common/setupBoundaryConditions.hpp:setupUpscalingConditions", "opm/porsol/mimetic/IncompFlowSolverHybrid.hpp:solve"]}
{"id": "C91", "title": "Bounds with periodic boundary conditions", "statement": "With periodic boundary conditions single-phase upscaling succeeds and returns a symmetric positive definite tensor that lies, as a quadratic form, between harmonic and arithmetic mean of the cell permeabilities; layers along a direction give exactly the arithmetic, layers across it exactly the harmonic mean in that direction, without cross flow.", "quantifier": "every conforming grid that fills a box with matching sides, every permeability field, every exact linear solver", "why_tests_cant": "All grids and permeability fields.", "anchors": ["opm/upscaling/UpscalerBase_impl.hpp:upscaleEffectivePerm", "opm/upscaling/UpscalerBase_impl.hpp:upscaleSinglePhase", "opm/porsol/common/setupBoundaryConditions.hpp:setupUpscalingConditions", "opm/porsol/mimetic/IncompFlowSolverHybrid.hpp:solve"]}
{"id": "C92", "title": "Scaling and monotonicity of the upscaled permeability", "statement": "Multiplying all permeabilities (or all mobilities) by a number multiplies the upscaled tensor by it; raising permeabilities anywhere does not lower the upscaled one in any direction, and if the permeabilities of two samples add up to at most those of a third in every cell, so do the upscaled ones (fixed and periodic conditions).", "quantifier": "every conforming grid that fills a box, all pairs of permeability fields", "why_tests_cant": "All pairs of inputs.", "anchors": ["opm/upscaling/UpscalerBase_impl.hpp:upscaleEffectivePerm", "opm/upscaling/UpscalerBase_impl.hpp:upscaleSinglePhase", "opm/porsol/common/setupBoundaryConditions.hpp:setupUpscalingConditions", "opm/porsol/mimetic/IncompFlowSolverHybrid.hpp:solve"]}
{"id": "C93", "title": "Gravity does not influence the upscaled permeability", "statement": "The upscaled permeability is a property of the rock: it is the same for every value of the gravity parameter. (Violated: with density w and gravity g the vertical entry is multiplied by 1 + w g L for fixed conditions; for linear and periodic ones w g L_d times the vertical column is added to column d.)", "quantifier": "every conforming grid that fills a box, every permeability field, gravity and uniform density", "why_tests_cant": "All inputs.", "anchors": ["opm/upscaling/UpscalerBase_impl.hpp:upscaleEffectivePerm", "opm/upscaling/UpscalerBase_impl.hpp:upscaleSinglePhase", "opm/porsol/common/setupBoundaryConditions.hpp:setupUpscalingConditions", "opm/porsol/mimetic/IncompFlowSolverHybrid.hpp:solve"]}
{"id": "C94", "title": "The upscaled elasticity matrix is a stiffness", "statement": "Elasticity upscaling with constraints runs for all six load cases on every sample with symmetric positive semidefinite materials; the matrix of average stresses is symmetric, positive semidefinite and not above the volume average of the material matrices, and its quadratic form at a mean strain times the volume is the least elastic energy of that mean strain over all displacements that satisfy the constraints.", "quantifier": "every grid of hexahedra, every field of materials, every acyclic system of constraints, every colouring, every exact linear solver", "why_tests_cant": "All grids and materials; every system must be solvable although it may be singular.", "anchors": ["opm/elasticity/elasticity_upscale_impl.hpp:assemble", "opm/elasticity/elasticity_upscale_impl.hpp:averageStress", "opm/elasticity/asmhandler_impl.hpp:ASMHandler", "examples/upscale_elasticity.cpp:run"]}
{"id": "C95", "title": "Scaling and monotonicity of the upscaled elasticity matrix", "statement": "The upscaled elasticity matrix depends on geometry, constraints and materials only: not on the numerical scaling of the moduli, the colouring of the grid, uninitialised memory or the choice among exact solvers. Multiplying all moduli by a number multiplies the result by it; stiffer materials never give a softer result.", "quantifier": "all pairs of samples with the same geometry and constraints", "why_tests_cant": "All pairs of inputs.", "anchors": ["opm/elasticity/elasticity_upscale_impl.hpp:assemble", "opm/elasticity/elasticity_upscale_impl.hpp:averageStress", "opm/elasticity/asmhandler_impl.hpp:ASMHandler", "examples/upscale_elasticity.cpp:run"]}
{"id": "C96", "title": "Upscaling of periodic samples", "statement": "On a conforming periodic grid the mean strain of every load case is the applied one; a homogeneous sample returns exactly its elasticity matrix whatever the shapes of its cells; the result is not below the inverse of the average of the inverse matrices, and it is positive definite if all materials are.", "quantifier": "every conforming periodic grid of hexahedra, every field of materials, every quadrature rule exact for quadratic functions of each coordinate", "why_tests_cant": "All grids and materials.", "anchors": ["opm/elasticity/elasticity_upscale_impl.hpp:assemble", "opm/elasticity/elasticity_upscale_impl.hpp:averageStress", "opm/elasticity/asmhandler_impl.hpp:ASMHandler", "examples/upscale_elasticity.cpp:run", "opm/elasticity/elasticity_upscale_impl.hpp:periodicBCs", "opm/elasticity/elasticity_impl.hpp:getBmatrix"]}
{"id": "C97", "title": "The reported elasticity matrix", "statement": "The matrix printed and written by the upscaling program is the upscaled matrix in Voigt order. (Violated: entries below 1e-4 in the units of the input are replaced by zero, which can lose the whole matrix or its definiteness.)", "quantifier": "every sample", "why_tests_cant": "All samples and units.", "anchors": ["examples/upscale_elasticity.cpp:run"]}
{"id": "C98", "title": "Parallel assembly", "statement": "Whatever the order in which the threads load and store, the parallel assembly of the elasticity equations ends and gives the matrix and the load vector of an assembly of one element after the other; elements that are processed at the same time never write to the same entry, also through the masters of constraints. (Violated on grids with collapsed layers, where cells that are not neighbours in the logical grid share nodes, and for constraints that join nodes of different layers.)", "quantifier": "every grid, set of active cells, number of threads, system of acyclic constraints, and every interleaving of the memory accesses of the threads", "why_tests_cant": "All interleavings of the threads; a lost update is rare and depends on timing.", "anchors": ["opm/elasticity/elasticity_upscale_impl.hpp:assemble", "opm/elasticity/meshcolorizer.cpp:calcGroups", "opm/elasticity/asmhandler_impl.hpp:addElement", "opm/elasticity/asmhandler_impl.hpp:addDOF"]}
{"id": "C99", "title": "Periodic boundary conditions", "statement": "On every mesh whose opposite sides match, the periodic boundary conditions fix exactly the corners and tie every other node of an upper side to the node opposite to it; the displacements that satisfy them are exactly the periodic ones that vanish at the corners. A homogeneous sample on a mesh of boxes of any numbers and sizes returns exactly its elasticity matrix. (Violated for cell sides smaller than 1e-7 square units: they are dropped and the program stops.)", "quantifier": "every mesh of hexahedra with matching opposite sides, every sorting order of equal keys", "why_tests_cant": "All meshes; corners and edges of the box lie on several sides and are tied in chains.", "anchors": ["opm/elasticity/elasticity_upscale_impl.hpp:periodicBCs", "opm/elasticity/elasticity_upscale_impl.hpp:periodicPlane", "opm/elasticity/elasticity_upscale_impl.hpp:extractMasterFace", "opm/elasticity/elasticity_upscale_impl.hpp:fixCorners", "opm/elasticity/elasticity_upscale_impl.hpp:addMPC"]}
{"id": "C100", "title": "Statistics of a corner point grid", "statement": "The statistics program reports, for the active cells that exist in the grid, the total volume, pore volume and net volume, the volume weighted averages of porosity and net-to-gross, and arithmetic, geometric and harmonic averages of each permeability, weighted by volume and unweighted; harmonic <= geometric <= arithmetic, all between the extremes. Rock types add up to the totals in volume, pore volume and number of cells, and averages and variances of rock types combine to those of the grid. (Violated: cells below 1e-10 in volume count in the total volume but nowhere else; with ACTNUM in use a grid of one cell is read out of bounds.)", "quantifier": "every grid, every choice of keywords present, every assignment of rock types", "why_tests_cant": "All grids and subsets of keywords.", "anchors": ["examples/upscale_avg.cpp:main"]}
{"id": "C101", "title": "Command lines of the programs", "statement": "A program takes options in any order, each with the value that follows (the last value counts), then the Eclipse file and the rock files; every other line is rejected with the usage message. One rock file is used for all rock types, otherwise there is one for each type in order; the boundary conditions computed are those whose letters are given. (Violated: an option in the last place reads a missing argument; the statistics and permeability programs open a missing file name; the permeability program does not reject unknown options.)", "quantifier": "every list of arguments, every table of options", "why_tests_cant": "All argument lists.", "anchors": ["examples/upscale_cap.cpp:main", "examples/upscale_cond.cpp:main", "examples/upscale_relperm.cpp:parseCommandLine", "examples/upscale_relpermvisc.cpp:main", "examples/upscale_avg.cpp:main", "examples/upscale_perm.cpp:upscale"]}
{"id": "C102", "title": "Upscaling of capillary pressure", "statement": "The capillary pressure program ends and prints a table of increasing pressures and non-increasing saturations that begins where the first cell starts to drain, at the largest mean saturation, and ends where the last cell stops, at the smallest; every row holds the pore volume weighted mean saturation of the sample and of each rock type at that pressure, the water of the rock types is that of the sample, and neighbouring rows differ by at most 1/200 of the range. Homogeneous rock returns the curve of its cells. With interpolation the saturations are uniform. (Violated: cells smaller than 1e-10 count in the pore volume but not in the water; one interpolation point divides zero by zero.)", "quantifier": "every grid, porosity, permeability, assignment of rock types and falling saturation curves; every implementation of the search for the largest gap", "why_tests_cant": "All samples; the number of passes of the loop depends on the curves.", "anchors": ["examples/upscale_cap.cpp:main"]}
{"id": "C103", "title": "The structure of the pressure matrix covers its assembly", "statement": "On every sane grid, with any periodic boundary conditions that pair boundary faces, the structure of the pressure matrix can be set up in the allocated space; it is symmetric, inside the matrix, and holds every position that the assembly of the cells ever reads or writes, so that no access to a missing entry happens in any order of cells and for any values.", "quantifier": "every grid, numbering of cells and faces, every set of mutual periodic partners, every value of permeability, gravity, source and boundary data", "why_tests_cant": "A position is missing only for particular relations between the numbers of a face, its partner and their neighbours, which depend on the order of iteration.", "anchors": ["opm/porsol/mimetic/IncompFlowSolverHybrid.hpp:allocateConnections, allocateGridConnections, allocateBCConnections, setConnections, setGridConnections, setBCConnections, addCellContrib"]}
{"id": "C104", "title": "Boundaries of the implicit transport solver", "statement": "Setting up the implicit transport solver lists every periodic boundary face exactly once with its own cell and the cell, face and half face across the boundary, so that afterwards each of the two sides of a periodic face refers to the half face that the cell on that side sees and all other faces are unchanged; every boundary face that is neither periodic nor closed becomes exactly one source with the fractional flow of its boundary saturation and the flux that enters through it. (Violated: a periodic sample that is one cell thick stops at an assertion.)", "quantifier": "every grid, every numbering of faces in the two grid descriptions, all periodic pairings and boundary data", "why_tests_cant": "The tables are filled in the order of iteration and refer to each other; an error shows only for particular orders and orientations.", "anchors": ["opm/porsol/euler/EulerUpstreamImplicit_impl.hpp:initObj", "opm/porsol/euler/EulerUpstreamImplicit_impl.hpp:transportSolve", "opm/core/transport/implicit/SinglePointUpwindTwoPhase.hpp:makefhfQPeriodic"]}
{"id": "C105", "title": "Geometry of boundary quads and coupling matrices", "statement": "For every quad of a boundary grid, in the corner order of Dune: mapping local to global coordinates is the bilinear interpolation of the corners and stays in their convex hull; the Jacobian is its exact derivative and the reported inverse is one; for strictly convex quads the integration element is positive, integrates to the area, and the map is injective; mapping a point of a strictly convex quad back always ends within 2e-10 of its coordinates, any result maps back to the point up to 1e-20 times the distortion, and parallelograms are inverted exactly. The local coupling matrix of a boundary quad evaluates the multipliers at the right points, reproduces the quadrature of interpolated displacements, and its entries sum to the area of the quad. (Violated: volume() is wrong for quads that are not rectangles; inversion need not end for points outside; a sample that starts below zero aborts in the coupling.)", "quantifier": "all corners, all points, all quadrature rules that are exact for affine functions, all multiplier functions", "why_tests_cant": "Newton's method from a fixed start must succeed for every convex shape and every point; tests see a few shapes, mostly rectangles.", "anchors": ["opm/elasticity/boundarygrid.hh:HexGeometry<2,cdim,GridImp>", "opm/elasticity/elasticity_upscale_impl.hpp:assembleBBlockMortar", "opm/elasticity/boundarygrid.cpp:BoundaryGrid::extract"]}
{"id": "C106", "title": "Time step limits for gravity and capillarity; maximum principle with gravity", "statement": "The gravity limit is the largest number not above 1e100 and, for every cell with gravity flux out of it, not above the factor times the pore volume over that flux; the capillary limit the largest number not above 1e100 and d.x/factor for every face, where P x = d for the vector d from cell to face and the mean permeability P; both are positive for positive data. An explicit step with viscous and gravity forces that is no longer than the time the solver computes with its default Courant number 1/2 succeeds and keeps all saturations in [0,1], when the curves obey the slope bounds the factors stand for and the gravity flux into cells obeys the limit too (which it does when the gravity fluxes of cells balance). (Violated: flux into small cells; curves that are not linear; periodic faces; outer faces with flux and gravity; connections with their flux towards the lower-numbered cell.)", "quantifier": "all grids, permeabilities, boundary conditions, gravity vectors, mobility curves, saturations and divergence-free fluxes; every step up to the limit", "why_tests_cant": "stability must hold in every cell of every grid and for every saturation field; a test runs a few segregation columns.", "anchors": ["opm/porsol/euler/CflCalculator.hpp:findCFLtimeGravity", "opm/porsol/euler/CflCalculator.hpp:findCFLtimeCapillary", "opm/porsol/euler/EulerUpstream_impl.hpp:computeCflTime", "opm/porsol/euler/EulerUpstreamResidual_impl.hpp:UpdateForCell"]}
{"id": "C107", "title": "Reading rock tables and lists of rocks", "statement": "A rock file with comment lines followed by rows of numbers, broken into lines in any way, is read row by row: the tables hold its columns in order, the water relative permeability is set to zero in the first row and the oil one in the last, saturation limits are the first and last saturation. Every rock that is read has consistent, ordered, non-empty tables; text that is no number is rejected; a pair of direction-dependent files is accepted only with equal capillary pressures. A list that announces n rocks and has n non-empty lines gives n rocks in the order of its lines, relative to its directory. (Violated: a first line that starts with '-' is dropped; a cut-off last row is dropped; a file without rows is accessed out of bounds; a short list loops for ever; a blank after the count counts as a line.)", "quantifier": "all files (any number and breaking of lines, any numbers), all lists of rocks", "why_tests_cant": "input files come from users; tests read two or three well-formed ones.", "anchors": ["opm/porsol/common/RockJfunc.hpp:readStatoilFormat", "opm/porsol/common/RockAnisotropicRelperm.hpp:readAnisoFormat", "opm/porsol/common/ReservoirPropertyCommon_impl.hpp:readRocks"]}
{"id": "C108", "title": "Choice of the linear solver and reuse of the matrix", "statement": "Whatever problems a pressure solver object has solved before, for every solver type and with or without `same_matrix`, the linear system that is solved is the one of the present call, never an old one; any solution gives the fluxes that a fresh solve of the present problem gives, and its face and cell pressures up to one constant, which is zero if a pressure is prescribed or nothing is reused. A fresh call works after any history, an unknown solver type is refused, reuse takes the preconditioner of the last fresh call of types 1 to 3. The first guess is defined in every unknown and has the prescribed pressures. The three solves of a permeability upscaling always run and give the fluxes of fresh solves. (Violated: reuse without prescribed pressures solves a singular system, which has no solution if sources do not balance; reuse before a fresh solve dereferences a null pointer, after another solver type throws bad_cast, after a change of grid takes a preconditioner of another size.)", "quantifier": "all series of calls on one solver object, all grids, cell data, boundary conditions, solver types, flags and iteration limits", "why_tests_cant": "the outcome depends on the history of the object; a test runs a few calls on one grid.", "anchors": ["opm/porsol/mimetic/IncompFlowSolverHybrid.hpp:solve", "opm/porsol/mimetic/IncompFlowSolverHybrid.hpp:solveLinearSystemAMG", "opm/upscaling/UpscalerBase_impl.hpp:upscaleEffectivePerm"]}
{"id": "C109", "title": "A step of the implicit capillarity solver", "statement": "In a closed or periodic domain, a state in capillary equilibrium in which viscous and gravity flow leave every cell in balance is a fixed point of the implicit capillarity solver, for every relaxation factor, all mobilities and pressure drops, with or without clamping, provided the linear system is solved and the root finder ends in a root. In general the capillary flow found makes up for the residual of the other flows in every cell and is conservative over interior and periodic faces if the residuals cancel. (Violated for prescribed pressures: those of the flow problem are taken over as capillary pressures.)", "quantifier": "all grids with consistent faces, definite inner products and monotone capillary pressure functions, all saturations, mobilities, relaxation factors and evaluation points", "why_tests_cant": "a statement about all equilibrium states and grids.", "anchors": ["opm/porsol/euler/ImplicitCapillarity_impl.hpp:transportSolve", "opm/porsol/euler/MatchSaturatedVolumeFunctor.hpp:MatchSaturatedVolumeFunctor"]}
{"id": "C110", "title": "Vectors, norms and memory of the Newton driver", "statement": "A step of the implicit transport solver, as it works on the residual, increment and solution vectors and the matrix kept in memory, never accesses a vector out of range, does not depend on what an earlier step left there, and reports and hands on exactly what the Newton driver (C18) prescribes for the residual and matrix that are the sums of the cell, connection and source contributions. With the maximum norm, flags 1 and 2 mean that the residual of every single cell is below the tolerance. For an affine residual and an exact linear solver one iteration solves the equations. (Violated: an unsuccessful linear solve is not noticed and can be reported as convergence.)", "quantifier": "all sizes, contribution lists, linear solvers, control parameters with at least one iteration, and all contents of the memory before the step", "why_tests_cant": "a statement about all problems and all histories of the reused memory.", "anchors": ["opm/core/transport/implicit/JacobianSystem.hpp:NewtonVectorCollection", "opm/core/transport/implicit/NormSupport.hpp:AccumulationNorm", "opm/core/transport/implicit/ImplicitTransport.hpp:solve", "opm/porsol/common/BCRSMatrixBlockAssembler.hpp:VectorBlockAssembler", "opm/porsol/common/ImplicitTransportDefs.hpp:LinearSolverBICGSTAB"]}
{"id": "C111", "title": "Resistivity upscaling gives a table that does not depend on the number of processes", "statement": "upscale_cond accepts exactly the cells with sensible rock type, porosity and permeability and raises small values to the limits of the options. For every capillary pressure each cell gets the resistivity of Archie's law for its saturation at that pressure, positive, at most the cutoff (mud and cells without rock have their own value), never increasing with saturation or porosity. The reported saturation is the pore volume weighted mean, between the end saturations. Whatever the number of processes and the order of their messages, the master ends up with the same table: for every pressure the upscaled saturation and the result of upscaling the cell conductivities of that pressure. The resistivity tensor is that of the cells if these are all the same; with fixed boundary conditions it is diagonal and between harmonic and arithmetic mean. Output lines are the computed points, or interpolations at evenly spaced saturations from the smallest to the largest.", "quantifier": "all cells, curves, options, numbers of points and of processes, interleavings of sends and receives, pressures; all grids and boundary types for the tensor", "why_tests_cant": "A test runs one model on a fixed number of processes and compares with numbers computed by the same program; it sees one interleaving, and no extreme saturations, where the formula divides by zero.", "anchors": ["examples/upscale_cond.cpp: main"]}
{"id": "C112", "title": "Subsampling with cpchop reports every subsample that could be upscaled, with its own numbers", "statement": "Every subsample that cpchop can draw lies in the requested rows, columns and depths and has the requested size. The table of results has one line for each subsample that could be upscaled, in order, and none for the others; the columns are those of the header, and the entries are the numbers of that subsample: upscaled porosity and permeability in milli darcy, pore volume weighted end saturations (in order and within [0,1]), capillary pressures at five evenly spaced saturations, angles of the mean dip, and the fractions of the rock types, which are not negative and sum to one.", "quantifier": "all options, draws, sequences of subsamples with or without exceptions, cells, rock curves, slopes", "why_tests_cant": "A test runs one seed on one deck; which subsamples throw, in which part, and what the earlier ones leave in the shared vectors depends on the whole history of the run.", "anchors": ["examples/cpchop.cpp: main"]}
{"id": "C113", "title": "The evaluators of the inner product keep the cells apart in their shared storage", "statement": "The evaluators of the mimetic inner product use one set of work arrays for all cells and keep one row per cell. After init and reserveMatrices, any sequence of calls of buildStaticContrib and computeDynamicParams for any cells in any order succeeds; afterwards computeDynamicParams, getInverseMatrix and gravityFlux for a cell give exactly the inverse inner product and the gravity fluxes of that cell, for the geometry and permeability of its last buildStaticContrib and its own mobilities, whatever the arrays held before. evaluate gives the same matrix and leaves what is stored for the cells alone.", "quantifier": "all fields, dimensions, cells with any number of faces, permeabilities in either ordering, histories of calls, previous contents of work arrays", "why_tests_cant": "A wrong result needs leftovers of a larger or different cell in an array that is used again; a test sees a few histories and mostly cells with the same number of faces.", "anchors": ["opm/porsol/mimetic/MimeticIPEvaluator.hpp: MimeticIPEvaluator::init, reserveMatrices, buildStaticContrib, computeDynamicParams, getInverseMatrix, evaluate, gravityFlux", "opm/porsol/mimetic/MimeticIPAnisoRelpermEvaluator.hpp: MimeticIPAnisoRelpermEvaluator::buildStaticContrib, computeDynamicParams, getInverseMatrix, gravityFlux"]}
{"id": "C114", "title": "Viscous limit: equal ratio of mobilities in all cells, mean saturation, limited contrast, complete output", "statement": "upscale_relpermvisc upscales relative permeabilities assuming the ratio of the mobilities of water and oil is the same in all cells. For every deck that passes the checks: rock types, porosities and permeabilities are within the stated limits; the end saturations are pore-volume weighted means of the ends of the tables; at a chosen ratio the saturation of every rock type gives that ratio up to one step of a table of 1000 saturations; the upscaled saturation is the pore-volume weighted mean over the cells and does not fall with the ratio; the ratios are sampled until neighbouring saturations differ by at most 1/500 of the range; phase permeabilities given to the solver are relative permeability times permeability, raised to a floor such that no two differ by more than the largest contrast; and the output has one line for each point with its ratio, saturation and tensor entries.", "quantifier": "all lists of cells, rock types, curves with the stated monotonicity, viscosities, options, numbers of points, with and without directions", "why_tests_cant": "Tests compare a few models with reference output; the statements are about all decks and rock curves, including rock types with different curves in z direction and tables that start at saturation zero.", "anchors": ["examples/upscale_relpermvisc.cpp: main"]}
{"id": "C115", "title": "Viscous limit: both phases of all points reach the master under every interleaving of the ranks", "statement": "In a parallel run of upscale_relpermvisc every point is computed by one rank, and the ranks send saturation and permeabilities, one message for each phase and point. For every number of ranks and points and every interleaving, with buffered sends or sends that wait for the receiver: no deadlock, every run ends, and then the master holds for every point the saturation and the permeabilities of both phases of the rank that computed it, although messages do not name their phase.", "quantifier": "all numbers of ranks, points and tensor elements, values, interleavings, both kinds of sends", "why_tests_cant": "Tests run on one rank or a few with the interleaving that happens; messages of the two phases could be mixed up in another one.", "anchors": ["examples/upscale_relpermvisc.cpp: main (MPI part)"]}
{"id": "C116", "title": "Rock data: every history of initializations, views and writes reads back what the user set", "statement": "For every history of calls on a rock object (initialization from a deck or with uniform values, views of single cells, writes through views) the calls fail exactly when the user's picture says so (inadmissible deck, cell or component out of range, view taken before the last initialization), and otherwise porosities and permeability numbers read are the last ones set, cells do not influence each other, and a permeability never set cannot be read. A deck accepted by the class of reservoir properties gives the same values here. Arrays of the wrong size should be refused.", "quantifier": "all histories, decks, active cells, thresholds, cells, components, values", "why_tests_cant": "Tests use one initialization; the claims are about all histories and the positions in one flat array shared by all views.", "anchors": ["opm/porsol/common/Rock_impl.hpp: init, porosity, permeability, permeabilityModifiable, assignPorosity, assignPermeability", "opm/porsol/common/Rock.hpp: Rock"]}
{"id": "C117", "title": "Containers of the implicit transport solver: homogeneous rock, pore volumes, sources, fixed mobilities", "statement": "For every number of cells and dimension, a homogeneous permeability is that number times the identity in each cell whatever was set before. Pore volumes are porosity times volume and a rock of the wrong size is refused. After any sequence of added sources each one is found at its place with its saturations. A new state has zero arrays of the right sizes. A fluid with fixed mobilities has the given total mobility, carried by the first phase with density one, for every saturation.", "quantifier": "all numbers of cells and dimensions, values, sequences of sources", "why_tests_cant": "The positions in flat arrays must be right for every size and dimension.", "anchors": ["opm/porsol/common/ImplicitTransportDefs.hpp: ReservoirState, Rock, TransportSource, append_transport_source", "opm/porsol/common/ImplicitTransportDefs.cpp: compute_porevolume", "opm/porsol/common/ReservoirPropertyFixedMobility.hpp: ReservoirPropertyFixedMobility"]}
{"id": "C118", "title": "Depth trend: which subsamples are cut and what the table holds", "statement": "For every well-formed grid and accepted options, the depth trend tool cuts subsamples of the given size at regular depths and prints one line per subsample whose upscaling works, in order of depth, with the properties of exactly that part of the grid. The depths begin at the given upper limit, the subsamples stay within the given lower limit, and the run ends.", "quantifier": "all well-formed grids, options, random draws, upscaler outcomes", "why_tests_cant": "The depths, the number of lines and the end of the run depend on every combination of limits, step and height.", "anchors": ["examples/cpchop_depthtrend.cpp: main"]}
{"id": "C119", "title": "Experimental variogram: pairs, distances and differences", "statement": "For every well-formed grid, accepted options and random draws, the variogram tool compares as many pairs of subsamples as asked for. Both lie in the given part of the grid; a horizontal pair has the same depth, a vertical pair the same place. Each line has the distance of the pair and the absolute differences of porosity and diagonal permeabilities of exactly those parts of the grid. An unknown direction is refused.", "quantifier": "all well-formed grids, options, random draws, upscaler outcomes", "why_tests_cant": "The draws are random, and every pair must satisfy this.", "anchors": ["examples/exp_variogram.cpp: main"]}
{"id": "C120", "title": "Dips: which cells are counted, and their average", "statement": "For every grid and volume limit, the dip tool lists every cell with a volume above the limit exactly once, columns fastest, with its indices, dips and volume. The two counts it prints add up to the number of cells. The averages are the arithmetic means over the listed cells and lie between the smallest and the largest dip; there always is a number.", "quantifier": "all grid sizes, cell volumes, cell dips, volume limits", "why_tests_cant": "Order, counts and averages must be right for every pattern of small cells.", "anchors": ["examples/grdecldips.cpp: main"]}
{"id": "C121", "title": "Regularising a grid: coarse columns, rows and layers", "statement": "For every grid, part of the grid and coarse resolution, the coarse columns follow each other without gaps from the lower to the upper limit, none is empty and their widths differ by at most one fine column; the coarse layers have equal thickness between the two depths. The tool writes a grid with these cells.", "quantifier": "all grids, limits and resolutions", "why_tests_cant": "Whether the spread of the remainder is right depends on the remainder for every pair of sizes.", "anchors": ["examples/cpregularize.cpp: main"]}
{"id": "C122", "title": "Initialisation of an upscaler from parameters", "statement": "For every set of parameters and every deck: if the user leaves it open, the grid gets exactly the support that the boundary condition type needs (ids for each face, cut top and bottom, periodic extension); initialising from parameters gives the same upscaler as initialising from a deck and arguments; given values are used, absent ones have the documented defaults and units, whatever was initialised before; initialisation throws exactly for missing or unknown input.", "quantifier": "all parameter groups, decks and earlier states of the upscaler", "why_tests_cant": "The parameters that are inserted, the defaults and the two ways of initialisation meet in many combinations.", "anchors": ["opm/upscaling/UpscalerBase_impl.hpp: init, initImpl", "opm/porsol/common/setupGridAndProps.hpp: setupGridAndProps, setupGridAndPropsEclipse", "opm/upscaling/SteadyStateUpscalerImplicit_impl.hpp: initImpl"]}
{"id": "C123", "title": "upscale_perm: results for each boundary condition", "statement": "For every deck, every choice of boundary conditions and all options, `upscale_perm` prints for each condition that is named, and no other, the tensor in millidarcy that is computed with that condition on the grid prepared for it, independent of what else is named; order and repetition of letters do not matter; the file gets the same report; usage is printed exactly for wrong input; the porosity is that of the model.", "quantifier": "all decks, words for the conditions and options", "why_tests_cant": "The upscaler is shared between conditions and changes state between the computations; all combinations must be right.", "anchors": ["examples/upscale_perm.cpp: upscale", "opm/upscaling/UpscalerBase_impl.hpp: init, setBoundaryConditionType"]}
{"id": "C124", "title": "Set-up of a simulator from parameters", "statement": "For every set of parameters and every grid, the simulator gets the boundary conditions that are asked for (pressures or balanced fluxes on the left and right and no flow elsewhere; upscaling conditions; a block with given pressure), the initial saturations given or read from the file if and only if all counts agree, steps in seconds, and no sources; nothing of an earlier set-up remains; values that make no sense are refused.", "quantifier": "all parameters, grids, saturation files and earlier states", "why_tests_cant": "The switches, defaults and files combine in many ways, and the object may have been used before.", "anchors": ["opm/porsol/common/SimulatorBase.hpp: SimulatorBase", "opm/porsol/common/setupBoundaryConditions.hpp: setupBoundaryConditions, setupRegionBasedConditions"]}
{"id": "C125", "title": "upscale_relperm: saturation functions that are read", "statement": "For every number of rock types and every list of files, `upscale_relperm` goes on exactly if there is one file or one for each rock type, all are readable and their capillary columns are strictly monotone; each rock type then gets, in order, the inverse of the capillary curve and the relative permeabilities from the documented columns for the kind of input and for one or two phases, all from its own file.", "quantifier": "all numbers of rock types, lists of files, contents, column numbers and choices of phases and kind of input", "why_tests_cant": "A curve attached to the wrong type, phase or direction gives plausible results; combinations of files and modes are unbounded.", "anchors": ["examples/upscale_relperm.cpp: extractSaturationFunctions, invertCapillaryPressureIsotropic, invertCapillaryPressureAnIsotropic"]}
{"id": "C126", "title": "upscale_relperm: tables that are written", "statement": "For all results `upscale_relperm` prints one row for each saturation with the capillary pressure, the saturation and all components of the relative permeabilities; with `interpolate` n it prints n rows on equally spaced saturations from the smallest to the largest one; the output file has the same table, and with two phases three Eclipse tables are written beside it with saturation, both relative permeabilities and pressure in bar.", "quantifier": "all results, surface tensions, numbers of points, names of files and options", "why_tests_cant": "Rows, columns and names must be right for every number of points, components and every path.", "anchors": ["examples/upscale_relperm.cpp: writeEclipseOutput, getEclipseOutputFile, upscale"]}
{"id": "C127", "title": "upscale_steadystate_implicit: samples, order of computations and results", "statement": "For every model, rock list and all parameters `upscale_steadystate_implicit` upscales on the grid it is given for `num_sats` saturations, equally spaced between the pore-volume averages of the limits of the rocks, and `num_pdrops` pressure drops each, starting each computation from the last successful one with the same saturation; it prints the results, writes them to the named files, and prints the usage exactly for wrong input.", "quantifier": "all decks, rock lists, numbers of samples, options and outcomes of the single computations", "why_tests_cant": "Averages, ranges and the chain of start values must be right for every model and every pattern of failures.", "anchors": ["examples/upscale_steadystate_implicit.cpp: main, getExtremeSats"]}
{"id": "C128", "title": "Wave speeds of an upscaled elastic tensor", "statement": "For every elastic tensor in Voigt notation and every dip and azimuth, waveSpeeds takes the unit vector of these angles, forms the Christoffel matrix of the tensor (entry i,k is the sum over j,l of C_ijkl n_j n_l) and returns the three roots of its eigenvalues divided by the density, the fastest first. For a symmetric tensor the eigenvalues are real; with positive strain energy all speeds are positive; opposite directions have equal speeds; an isotropic material has speeds sqrt((lambda+2mu)/rho), sqrt(mu/rho), sqrt(mu/rho) in every direction. The driver reports the speeds of the matrix and the density that it prints.", "quantifier": "all 6x6 tensors, all angles, all positive densities, every order in which eigenvalues are found", "why_tests_cant": "Tests compare with reference output of a few samples, which contain the same errors; statement ranges over all tensors and directions.", "anchors": ["opm/elasticity/elasticity.cpp: waveSpeeds", "examples/upscale_elasticity.cpp: run (wave speeds, Voigt order)"]}
{"id": "C129", "title": "upscale_elasticity: options, grid, sides, preconditioner and load cases", "statement": "For every command line upscale_elasticity reads the options under the documented names with the documented defaults, takes the method, the solver, the preconditioners and the smoother that are named, uses the given coordinates of the sides where they are given and those found by traversal of the grid where not, makes a uniform grid of the given extent, uses the preconditioner that it announces, and treats all six load cases, storing or loading vectors as asked.", "quantifier": "all command lines, all grids (as functions of the source), all shapes of cells", "why_tests_cant": "Tests run a handful of fixed command lines; combinations of options that are left out and words that are not among the accepted ones are never run.", "anchors": ["examples/upscale_elasticity.cpp: parseCommandLine, run, runAMG, main", "opm/elasticity/elasticity_upscale.hpp: LinSolParams::parse"]}
{"id": "C130", "title": "Elasticity solvers: one solver and one private preconditioner per thread", "statement": "For every choice of options, number of threads and number of multipliers the set-up of the linear solvers gives one solver of the asked kind for each thread, right-hand sides with one entry for each equation and multiplier, a Schur complement of which every column is computed exactly once with the asked preconditioner, and preconditioners such that threads and columns that run at the same time do not disturb each other; a load case is solved by the solver of the thread that treats it, and a solve that has not converged is reported.", "quantifier": "all options, numbers of threads, equations, rows of the coupling and multipliers; all solvers as functions", "why_tests_cant": "Whether threads share an object is not visible in the result of a run; tests use one preconditioner and few threads.", "anchors": ["opm/elasticity/elasticity_upscale_impl.hpp: setupSolvers, solve", "opm/elasticity/elasticity_preconditioners.hpp: setup", "opm/elasticity/elasticity_preconditioners.cpp: FastAMG::setup, Schwarz::setup2"]}
{"id": "C131", "title": "Schwarz preconditioner: subdomains cover all equations and all couplings", "statement": "For every grid and every set of constraints the Schwarz preconditioner has one subdomain for each column of cells, which consists of exactly the equations that take part in the displacements at the vertices of the cells of the column; every equation lies in a subdomain, and any two equations that are coupled by the matrix lie in a common one.", "quantifier": "all grids (as lists of cells with column and vertices), all prescribed values and constraints, all elements", "why_tests_cant": "Missing equations make the preconditioner singular or slow only for some grids and constraints; a converged solution does not show it.", "anchors": ["opm/elasticity/elasticity_preconditioners.cpp: Schwarz::setup2", "opm/elasticity/asmhandler_impl.hpp: addElement, resolveMPCChain", "opm/elasticity/elasticity_upscale_impl.hpp: periodicBCs"]}
{"id": "C132", "title": "compareUpscaling accepts exactly the results that agree with the reference", "statement": "For all pairs of files and tolerances the comparison program succeeds exactly if both files can be read, have the same number of values outside of comments, and each pair of values agrees to the absolute or to the relative tolerance; otherwise it fails and names the value that deviates. Results that are infinite or not a number do not agree with a reference.", "quantifier": "all file contents, all tolerances, all values including infinities and nan", "why_tests_cant": "The program is the oracle of the regression tests; no test checks it, and it must be right for all results.", "anchors": ["tests/compareUpscaling.cpp: readData, startTest, main"]}
{"id": "C133", "title": "The chopped grid as deck and as GRDECL file", "statement": "After a chop, the returned deck and the written file describe the same grid: both hold the new dimensions and exactly the fields that have data (COORD, ZCORN, ACTNUM, PORO, NTG, SWCR, SOWCR, PERMX, PERMY, PERMZ, SATNUM, in this order) with the values of the chopped grid. In the file each keyword and each closing slash stands alone on its line, a line holds at most 3 numbers of COORD, 4 of another field or 20 integers, and splitting the file at white space and slashes gives back the dimensions and the values as printed. In SI units the deck gives every cell and corner the value it has in the input.", "quantifier": "all chopped grids: any dimensions, any set of fields, any number of values, any way of printing numbers as words without blanks", "why_tests_cant": "the layout depends on the number of values modulo the numbers per line and on which fields exist", "anchors": ["opm/upscaling/CornerpointChopper.hpp: CornerPointChopper::subDeck, writeGrdecl, addDoubleKeyword_, addIntKeyword_, outputField, hasNTG, hasSWCR, hasSOWCR"]}
{"id": "C134", "title": "Every pressure solution of an upscaler uses the current data", "statement": "Whatever was called before (init, setPermeability, setBoundaryConditionType, upscalings), a single phase upscaling computes three pressure solutions, one per direction, with the grid, permeabilities, gravity and boundary condition type the user set last, and reuses the matrix only where just the right hand side differs. A steady state upscaling computes its velocity field with the same current data, the requested direction, pressure drop and gravity, and then three solutions for each phase.", "quantifier": "all sequences of calls of any length on an upscaler, all directions, settings and saturations", "why_tests_cant": "depends on the whole history of calls: the solver keeps data between calls", "anchors": ["opm/upscaling/SteadyStateUpscalerImplicit_impl.hpp: upscaleSteadyState", "opm/upscaling/UpscalerBase_impl.hpp: upscaleEffectivePerm, upscaleSinglePhase, setPermeability, setBoundaryConditionType", "opm/porsol/mimetic/IncompFlowSolverHybrid.hpp: init, solve"]}
{"id": "C135", "title": "The benchmark reads its tables and judges the curves", "statement": "The benchmark of relative permeability upscaling reads saturations, relative permeabilities and the J-function from the columns of the stone file, and points from the lines of the reference. It reports the computed curves as equal to the reference within its absolute tolerance if and only if the number of points agrees and every saturation, pressure and relative permeability is within the tolerance, tells the caller by its exit code, and shows usage and errors. Total time is shown as whole minutes and less than sixty seconds.", "quantifier": "all tables of any length with comments and white space, all computed curves, all tolerances, all processes and numbers of arguments", "why_tests_cant": "one embedded model is run; the verdict on wrong curves, missing values and errors is never exercised", "anchors": ["benchmarks/upscale_relperm_benchmark.cpp: main, usageandexit"]}
{"id": "C136", "title": "Output files of the simulators show the computed state", "statement": "A VTK file of a simulation shows for every cell, at its index, saturation, pressure, capillary pressure, fractional flow, velocity and the velocities of both phases. A restart file of a steady state run has one report for each transport step that converged, in order, with the time simulated so far, the date that belongs to it, and pressure (in the units the header names) and water saturation of every cell. Files of different runs, directions and steps have different names. A field written as text can be read back.", "quantifier": "all grids and iteration orders, all saturations, fluxes and properties, all sequences of converged and failed steps with any step sizes, all names", "why_tests_cant": "tests check no output file; errors show only for long runs or close parameters", "anchors": ["opm/porsol/common/SimulatorUtilities.hpp: getCellPressure, computeCapPressure, writeVtkOutput, writeField", "opm/upscaling/SteadyStateUpscalerImplicit_impl.hpp: upscaleSteadyState", "opm/upscaling/writeECLData.cpp: writeECLData"]}
{"id": "C137", "title": "Constraint equations: sets, changes and text", "statement": "A set of multi-point constraints holds every constraint that was inserted exactly once, whatever the order of insertion; with compareSlaveDofOnly it holds for every slave the constraint inserted first. Adding, changing or removing a master and changing the constant change the value that the constraint gives its slave by exactly the term concerned; a master is left out only if its coefficient is within the tolerance. The printed equation has the value of the constraint.", "quantifier": "all constraints with any number of masters and any coefficients, all histories of insertions, all displacements of the masters, all positions", "why_tests_cant": "the order compares lists of any length; a set that loses a constraint does so only for particular histories", "anchors": ["opm/elasticity/mpc.cpp: MPC::Less::operator(), operator<", "opm/elasticity/mpc.cpp: operator<<", "opm/elasticity/mpc.hh: addMaster, updateMaster, removeMaster, addOffset, setSlaveCoeff, MPCSet"]}
{"id": "C138", "title": "The known answer test poses the problem whose answer it knows", "statement": "The pressure problem that known_answer_test poses (permeability, mobility, sources, boundary pressures) is solved by the function it compares with. The printed L1 density, L2 density and Linf error are the mean, the root mean square and the largest error, and vanish if and only if all pressures are exact; the exit code tells whether the pressures are accepted.", "quantifier": "all grids with cells of positive volume, all computed pressures", "why_tests_cant": "that the analytic right hand side is the Laplacian of the solution is a statement about all points; a test that is itself wrong cannot be found by running it", "anchors": ["examples/known_answer_test.cpp: u, Lu, assign_src, FunctionBoundaryConditions, compare_pressure, main"]}
{"id": "C139", "title": "Set-up of the transport solvers", "statement": "Whatever the history of constructor, parameter groups, set-ups and changes of the reservoir, a transport solve works with the parameter values given last (each by itself, defaults for those never given), the grid of the last set-up, its reservoir properties and boundary conditions as they are at the time of the solve, pore volumes that are volume times porosity, and every cell once. (Violated: the three-argument constructor of the explicit solver leaves the pore volumes unset; set-ups with a second grid are mixed with the first; porosities changed after the set-up reach only part of the computation; the implicit solver uses an unset number of repetitions without a parameter group, forgets tolerances not repeated in a later group, and ignores gravity, injection rates, check_sat and clamp_sat.)", "quantifier": "every constructor, every sequence of calls and of changes to reservoir properties and boundary conditions, every grid", "why_tests_cant": "A test sets a solver up once and solves; the state depends on the whole history of calls.", "anchors": ["opm/porsol/euler/EulerUpstream_impl.hpp:EulerUpstream,init,initObj,setCourantNumber,transportSolve", "opm/porsol/euler/EulerUpstreamImplicit_impl.hpp:EulerUpstreamImplicit,init,initObj,transportSolve", "opm/porsol/euler/ImplicitCapillarity_impl.hpp:ImplicitCapillarity,init,initObj,transportSolve", "opm/porsol/euler/EulerUpstreamResidual_impl.hpp:initObj,initFinal", "opm/core/transport/implicit/ImplicitTransport.hpp:NRControl"]}
{"id": "C140", "title": "Sources and steps of the simulators", "statement": "A simulator with an injection and a production block gives both of its solvers the same rates: density times volume in every cell whose centre lies strictly inside the box, with the sign of the block, zero in all other cells, and it prints their sums. A run makes the requested steps, each from the state of the previous one with fluxes computed for that state, writes two numbered files and the largest change of saturation for each of them, and stops at the first failure with the files written before. In a closed reservoir an explicit run changes the water in place by at most the injected volume and at least the injected minus the produced volume.", "quantifier": "all grids (centres, volumes), all block parameters, builds with and without assertions, all pressure solvers, rocks, mobilities, gravity, capillarity, numbers of steps and step sizes, all failures", "why_tests_cant": "The blocks, the grid and the number of steps are unbounded, and the conservation statement concerns all trajectories of the composed loop (steps, retries, small steps), of which a test sees one.", "anchors": ["examples/SimulatorTesterFlexibleBC.hpp: initSources, isInside, setSourceBlock", "examples/SimulatorTester.hpp: SimulatorTester::run", "opm/porsol/common/SimulatorBase.hpp: injection_rates_, injection_rates_psolver_", "opm/porsol/euler/EulerUpstreamResidual_impl.hpp: UpdateForCell", "opm/porsol/euler/EulerUpstream_impl.hpp: transportSolve"]}
{"id": "C141", "title": "Explicit simulations stay in range", "statement": "A simulation with the pressure solver and the explicit transport solver, with viscous forces and any injection and production blocks, keeps every saturation it writes between 0 and 1 and never has to repeat a transport step, as long as the time step can be covered by the largest number of small steps: fluid is injected as water, produced at the fractional flow of its cell, and the fluxes of the pressure solver agree on both sides of each connection and add up to the source of each cell.", "quantifier": "all grids (interior, periodic and outer faces), all fluids with bounded slopes of the fractional flow at the ends, all sources, initial saturations, numbers and sizes of steps, Courant numbers up to 1, clamping on or off", "why_tests_cant": "The claim is an invariant over all steps, small steps and cells of a composed loop of two solvers; a test follows one trajectory.", "anchors": ["examples/SimulatorTester.hpp: SimulatorTester::run", "examples/SimulatorTesterFlexibleBC.hpp: initSources", "opm/porsol/euler/EulerUpstream_impl.hpp: transportSolve, computeCflTime", "opm/porsol/euler/CflCalculator.hpp: findCFLtimeVelocity", "opm/porsol/euler/EulerUpstreamResidual_impl.hpp: UpdateForCell", "opm/porsol/mimetic/IncompFlowSolverHybrid.hpp: solve"]}
{"id": "C142", "title": "Rock files, rock lists and the parameters of a material", "statement": "A rock file is accepted exactly if it consists of a keyword, the numbers belonging to it, the word density and the density, and then it means just that; a rock list gives the materials of the files it names, in order; with the arrangement \"uniform\" the rocks take turns cell by cell and volume fractions are shares of the total volume summing to one; the parameters a material reports make the same material again and its printed text tells them. (Violated: rocks named in a list but missing, or not named at all, silently become a default material; a missing rock list is undefined behaviour, as is \"uniform\" without rocks; velocities without a density give a material that is not a number; the parameters of general materials come back in another order and make another material; their text is empty.)", "quantifier": "every text of a rock file and a rock list, every file system, every list of cell volumes, every parameter list", "why_tests_cant": "All texts and all parameters.", "anchors": ["opm/elasticity/material.cpp:Material::create", "opm/elasticity/materials.cpp:OrthotropicSym::getPar", "opm/elasticity/materials.cpp:OrthotropicD::write", "opm/elasticity/elasticity_upscale_impl.hpp:loadMaterialsFromRocklist"]}
{"id": "C143", "title": "Upscaled relative permeability: between zero and one, monotone curves", "statement": "Relative permeability upscaling with fixed boundary conditions reports, for every capillary pressure, values that are positive and at most one, together with the pore volume weighted mean saturation; with periodic conditions all eigenvalues of the reported tensor are positive and at most one. Where every rock conducts the phase fully the values are exactly one. Of two points of the upscaled curve the one with larger water saturation has relative permeabilities that are not smaller for a phase whose rock curves rise with saturation and not larger for one whose rock curves fall. (Violated for anisotropic input: relative permeability in the x-direction can exceed one because the least single phase permeability is derived from x-permeabilities only.) If the relative permeabilities of two phases add up to at most one in every rock, then so do the upscaled ones at each point, save for what the floor on phase permeabilities adds.", "quantifier": "every grid filling a box, every assignment of rock types, porosities and permeabilities, every monotone saturation curve, relative permeability curve and capillary pressure", "why_tests_cant": "The values come from solutions of flow problems on arbitrary grids; every grid, every heterogeneity and every pressure would have to be run.", "anchors": ["opm/upscaling/RelPermUtils.cpp:RelPermUpscaleHelper::upscalePermeability", "opm/upscaling/RelPermUtils.cpp:RelPermUpscaleHelper::upscaleSinglePhasePermeability", "opm/upscaling/RelPermUtils.cpp:RelPermUpscaleHelper::getRelPerm", "opm/upscaling/UpscalerBase_impl.hpp:upscaleEffectivePerm"]}
{"id": "C144", "title": "Viscous limit: upscaled relative permeability between zero and one, monotone curves", "statement": "Relative permeability upscaling in the viscous limit (upscale_relpermvisc) with fixed boundary conditions reports, for every fractional flow ratio, values that are positive and at most one, together with the pore volume weighted mean saturation; with periodic conditions all eigenvalues of the reported tensor are positive and at most one. Where every rock conducts the phase fully the values are exactly one. The reported saturation does not fall with the ratio, and of two points of the upscaled curve the one with larger water saturation has relative permeabilities that are not smaller for a phase whose rock curves rise with saturation and not larger for one whose rock curves fall. (Violated for anisotropic input: relative permeability in the x-direction can exceed one because the least single phase permeability is derived from x-permeabilities only.) If the relative permeabilities of the two phases add up to at most one in every rock, then so do the upscaled ones at each ratio (isotropic input), save for what the floor on phase permeabilities adds.", "quantifier": "every grid filling a box, every assignment of rock types, porosities and permeabilities, every pair of physical relative permeability curves per rock and every fractional flow ratio", "why_tests_cant": "The values come from solutions of flow problems on arbitrary grids; every grid, every heterogeneity and every ratio would have to be run.", "anchors": ["examples/upscale_relpermvisc.cpp:main", "opm/upscaling/UpscalerBase_impl.hpp:upscaleEffectivePerm", "opm/upscaling/RelPermUtils.cpp:getVoigtValue", "opm/upscaling/RelPermUtils.cpp:setVoigtValue"]}
{"id": "C145", "title": "Files of the steady state upscaling manager", "statement": "The steady state upscaling manager works through its schedule, either the one of the control file or every saturation of a linear range with every pressure drop of a logarithmic range. It writes one line per computation to the water file and one to the oil file, in the same order, with pressure drop, saturation reached, entries of the tensor of that phase and the success flag. For every saturation the first computation starts from the capillary limit, if asked for and found, otherwise from the uniform saturation, and every later one from the limited state of the last successful one. If a computation throws, both files hold the lines of all computations before it. A control file that cannot be opened ends the run before any file is touched; if the upscaler cannot be set up both files hold the header alone. (Violated: the header names five columns, lines have twelve.)", "quantifier": "every parameter set, every control file, every behaviour of the upscaler including exceptions and failures at any computation", "why_tests_cant": "The history of failures and exceptions over a schedule of any length decides what the files hold; tests see a few schedules that succeed.", "anchors": ["opm/upscaling/SteadyStateUpscalerManagerImplicit.hpp:upscale", "opm/upscaling/SteadyStateUpscalerManagerImplicit.hpp:writeRelPerm"]}
{"id": "C146", "title": "Mortar conditions: periodicity of the mean", "statement": "Periodic conditions by the mortar method with given numbers of cells and multiplier orders assemble a coupling block that stays within its sparsity pattern and has three columns for every free multiplier of the two multiplier grids. Displacements satisfy the constraint of the saddle point system iff their integrals over the left and the right side agree against every periodic multiplier field that vanishes at the fixed multiplier, and so do those over the front and the back side; in particular displacements that agree at corresponding points of matching sides satisfy it. (Violated: with a single cell in one of the directions the numbering of the multipliers reads past the end of a vector; weighted constraints on top and bottom are ignored, see C83.)", "quantifier": "every number of columns, every multiplier order, every number of quads per column, every local matrix, every set of constraints of coefficient one and all displacements", "why_tests_cant": "All meshes, orders and displacements; a test sees whether one upscaled matrix is about right, not which displacements are admitted.", "anchors": ["opm/elasticity/elasticity_upscale_impl.hpp:periodicBCsMortar", "opm/elasticity/elasticity_upscale_impl.hpp:addBBlockMortar", "opm/elasticity/elasticity_upscale_impl.hpp:assembleBBlockMortar", "opm/elasticity/elasticity_upscale_impl.hpp:renumber"]}
{"id": "C147", "title": "Results of upscale_relperm: headings, pressures, and use as input", "statement": "The table of upscale_relperm has one heading for each column, and each column of relative permeabilities stands under the name of its phase and tensor component. Without gravity, the model has the printed saturation at the printed capillary pressure. The table can be the anisotropic saturation functions of a next run, for any number of rock types: if pressures are strictly monotone the run accepts it and gets the saturation at each printed pressure and the relative permeabilities of each direction and phase at each saturation. (Violated: with anisotropic input the printed pressures are those of the input times the surface tension; with periodic or linear boundary conditions and both phases, a next run takes off-diagonal components of the first phase for the relative permeabilities of the second.)", "quantifier": "every number of points, all data, fluid systems, boundary conditions, numbers of phases and rock types", "why_tests_cant": "All tables and all pairs of runs; tests compare tables with stored ones that contain the same pressures.", "anchors": ["examples/upscale_relperm.cpp:main", "examples/upscale_relperm.cpp:invertCapillaryPressureAnIsotropic", "opm/upscaling/RelPermUtils.cpp:RelPermUpscaleHelper"]}
{"id": "C148", "title": "Upscaled resistivity lies between means of the resistivities of the cells and falls with saturation", "statement": "For every capillary pressure, upscale_cond reports the mean saturation of the rock and a resistivity that lies between the harmonic and the arithmetic mean, weighted with volume, of the resistivities of the cells by Archie's law: in each coordinate direction with fixed boundary conditions, and with periodic ones for each direction of space, where the tensor is symmetric. It does not depend on conditions left by an earlier computation. Of two points the one with the higher saturation has no higher resistivity in any direction. If all cells have the same resistivity, it is the result, for all types of boundary conditions. If rock does not change in the direction of the current it is exactly the harmonic mean, if rock changes in that direction only, exactly the arithmetic mean.", "quantifier": "every grid that fills a box, all cell data, options and curves of rock types, every capillary pressure and pair of pressures", "why_tests_cant": "Bounds and monotonicity concern the solutions of the flow problems for all distributions of conductivities.", "anchors": ["examples/upscale_cond.cpp:main", "opm/upscaling/UpscalerBase_impl.hpp:upscaleSinglePhase", "opm/porsol/common/Matrix.hpp:invert"]}
{"id": "C149", "title": "Steady state relative permeabilities keep within the bounds of the cells", "statement": "If the upscaled permeability given to the steady state upscaler is the result of its single phase upscaling, the upscaled relative permeabilities of both phases exist for every initial saturation and do not depend on conditions left by an earlier computation. They are at least the relative permeability threshold, they are at most the largest relative permeability of the phase in a cell at the saturations the upscaler ends with (or the threshold), at least the smallest, and the sum of both phases is at most the largest sum in a cell plus twice the larger of the threshold and that sum divided by the mobility contrast: with fixed boundary conditions for each coordinate direction, where the tensors are diagonal; with periodic ones as quadratic forms of the phase permeabilities, which are symmetric. A phase with the same relative permeability in all cells gets it as upscaled relative permeability, for all types of boundary conditions.", "quantifier": "every grid that fills a box, all permeabilities, mobility functions, viscosities, limits, transport solvers and initial saturations", "why_tests_cant": "Bounds concern the solutions of the flow problems for all distributions of mobilities.", "anchors": ["opm/upscaling/SteadyStateUpscalerImplicit_impl.hpp:upscaleSteadyState", "opm/upscaling/SteadyStateUpscaler_impl.hpp:upscaleSteadyState", "opm/upscaling/UpscalerBase_impl.hpp:upscaleEffectivePerm", "opm/porsol/common/ReservoirPropertyFixedMobility.hpp:phaseMobilities"]}
{"id": "C150", "title": "Implicit transport balances the water of every cell and conserves it", "statement": "Every call of the implicit transport solver returns one saturation per cell within the limits of the cell. A step that reports that a tolerance is met returns saturations that balance the water of every cell: pore volume times change plus what flows out over faces plus what wells and open boundaries take, with mobilities at these very saturations taken from the side each phase comes from, vanishes up to the tolerance and what is cut off at the limits. Without sources the water in the reservoir is kept, in grids whose faces are listed by both cells and across periodic boundaries whose two half faces have the same transmissibility. A state of uniform fractional flow and capillary pressure is returned unchanged with success, and the steady state upscaler ends after one call and gives uniform relative permeabilities exactly.", "quantifier": "every consistent grid, all rocks and fluids with mobile phases, sources, total fluxes, time steps, tolerances, linear solvers, earlier contents of the system and initial saturations", "why_tests_cant": "The balance concerns the state after any number of Newton iterations with line search and repeated shorter steps, whatever the linear solver returns.", "anchors": ["opm/porsol/euler/EulerUpstreamImplicit_impl.hpp:transportSolve", "opm/core/transport/implicit/ImplicitTransport.hpp:solve", "opm/core/transport/implicit/SinglePointUpwindTwoPhase.hpp:fluxConnection", "opm/core/transport/implicit/SinglePointUpwindTwoPhase.hpp:initIteration", "opm/core/transport/implicit/SinglePointUpwindTwoPhase.hpp:finishStep", "opm/upscaling/SteadyStateUpscalerImplicit_impl.hpp:upscaleSteadyState"]}
{"id": "C151", "title": "Implicit transport makes no new extremes of saturation, whatever the length of the step", "statement": "If all cells have the same relative permeabilities, viscosities, capillary pressure and saturation limits, with mobilities that rise for water and fall for oil and a capillary pressure that does not rise with the water saturation, and the total fluxes over the faces balance the sources in every cell, then the saturations an implicit transport step returns with success lie between the lowest and highest of the initial saturations and of the saturations that belong to the injected fluid, up to the tolerances. There is no limit on the length of the step, and none on permeabilities, pore volumes or the shape of the grid. The same holds of a whole transport solve with its repetitions at halved steps. With different capillary pressures in different cells it does not hold.", "quantifier": "every grid, set of permeabilities, pore volumes and fluxes, every monotone fluid, every length of step, every initial state, every linear solver, every number of repetitions", "why_tests_cant": "A simulation shows the range for the steps it takes; that no length of step, however long, and no contrast of permeability makes an overshoot needs a proof over all solutions of the nonlinear balance.", "anchors": ["opm/core/transport/implicit/SinglePointUpwindTwoPhase.hpp: fluxConnection, initIteration, finishStep", "opm/core/transport/implicit/ImplicitTransport.hpp: solve", "opm/porsol/euler/EulerUpstreamImplicit_impl.hpp: transportSolve"]}
{"id": "C152", "title": "The result of an implicit transport step does not depend on how it is computed, and steps keep the order and distance of states", "statement": "In a medium in which water is not less and oil not more mobile with more water and the capillary pressure does not rise with it, possibly with different rocks in every cell: two implicit steps of the same length that report success, with any linear solvers, Newton settings and earlier contents of the system, give from the same state the same saturations up to the tolerances. From two different states, the water by which the results differ is at most the water by which the states differ, up to the tolerances, and if one state has no less water in any cell, then so has its result. The same holds of transport solves with the same number of substeps.", "quantifier": "every grid whose connections agree on both sides (also periodic), all rocks and fluids with monotone curves, sources, fluxes, lengths of steps, pairs of states, pairs of linear solvers and settings", "why_tests_cant": "A test compares two solvers on one problem; that the nonlinear system of the step has only one solution up to the tolerance, whatever the step length and the rocks, needs a proof.", "anchors": ["opm/core/transport/implicit/SinglePointUpwindTwoPhase.hpp: fluxConnection, upwindMobility", "opm/core/transport/implicit/ImplicitTransport.hpp: solve", "opm/porsol/euler/EulerUpstreamImplicit_impl.hpp: transportSolve"]}
{"id": "C153", "title": "Explicit transport within the limit keeps the order and the distance of states and makes no new extremes", "statement": "With viscous forces, fluxes that add up to the sources of the cells, and fractional flows that do not fall with the saturation and rise with slopes of at most one over the factor (possibly different in every cell): an explicit transport step no longer than the limit the solver computes from the fluxes keeps the order of states - if one state has no less water in any cell, so has its result - and the water by which two results differ is at most the water by which the states differ. The same holds of whole transport solves, which take the same number of steps from both states. In a grid with one rock, saturations do not fall below the least one present or entering, and, if no source injects, do not rise above the largest one present or entering.", "quantifier": "every grid whose connections agree on both sides (also periodic), all rocks with rising fractional flow, boundary saturations, injection and production rates, balanced fluxes, pairs of states, lengths of steps within the limit, solver settings", "why_tests_cant": "A test runs a few states; order and contraction compare all pairs of states, with all rocks and fluxes.", "anchors": ["opm/porsol/euler/EulerUpstream_impl.hpp: transportSolve, smallTimeStep", "opm/porsol/euler/EulerUpstreamResidual_impl.hpp: computeResidual", "opm/porsol/euler/CflCalculator.hpp: findCFLtimeVelocity"]}
{"id": "C154", "title": "Layered samples are upscaled exactly to the average of laminate theory", "statement": "A sample that consists of horizontal layers, of any number, thicknesses and materials, upscaled with periodic boundary conditions on a grid of boxes, returns exactly the elasticity matrix of laminate theory (Backus averaging): for every mean strain its stresses are the mean stresses of layers that are all strained like the whole in their plane and exert equal tractions on each other. These strains exist for every mean strain, and only one matrix has this property. In particular the moduli for compression and for shear across the layers are the harmonic means of those of the layers, and the modulus for shear along them is the arithmetic mean.", "quantifier": "every box grid whose cells are not too small, all sizes of the boxes, every number of layers, all positive semidefinite symmetric elasticity matrices of layers, exact linear solver and quadrature", "why_tests_cant": "Tests compare one layered model with stored numbers; exactness is claimed for all layers and grids.", "anchors": ["opm/elasticity/elasticity_upscale_impl.hpp: assemble, averageStress, periodicBCs", "opm/elasticity/elasticity_impl.hpp: getBmatrix, getStiffnessMatrix, getStressVector", "examples/upscale_elasticity.cpp: run"]}
{"id": "C155", "title": "Relative permeability upscaling of layered samples gives the analytical averages", "statement": "In the capillary limit, with isotropic input and fixed or periodic boundary conditions, when no floor on permeabilities is active: if rock does not change in the direction of flow, the upscaled relative permeability in that direction is exactly the mean of the relative permeabilities of the cells at their saturations, weighted with volume times permeability; if rock changes only in the direction of flow, it is exactly the mean resistance to a single phase divided by the mean resistance to the phase. With periodic conditions, a gradient along or across the layers drives no flow in the other directions.", "quantifier": "every grid that fills a box, all layers, permeabilities, relative permeability and capillary pressure curves, every capillary pressure, both types of boundary conditions", "why_tests_cant": "Tests compare stored numbers of a few samples; the averages are claimed for all layered samples and curves.", "anchors": ["opm/upscaling/RelPermUtils.cpp: upscalePermeability, upscaleSinglePhasePermeability, getRelPerm", "opm/upscaling/UpscalerBase_impl.hpp: upscaleEffectivePerm"]}
{"id": "C156", "title": "Viscous-limit upscaling of layered samples gives the analytical averages", "statement": "In the viscous limit, with isotropic input and fixed or periodic boundary conditions, when no floor on permeabilities is active: if rock does not change in the direction of flow, the upscaled relative permeability in that direction, reported for the pore volume weighted mean saturation, is exactly the mean of the relative permeabilities of the rocks at their saturations for the ratio of flows, weighted with volume times permeability; if rock changes only in the direction of flow, it is exactly the mean resistance to a single phase divided by the mean resistance to the phase. With periodic conditions, a gradient along or across the layers drives no flow in the other directions.", "quantifier": "every grid that fills a box, all layers, permeabilities, relative permeability curves and fractional flow ratios, both types of boundary conditions", "why_tests_cant": "Tests compare stored numbers of a few samples; the averages are claimed for all layered samples and curves.", "anchors": ["examples/upscale_relpermvisc.cpp: main (phase permeability loop)", "opm/upscaling/UpscalerBase_impl.hpp: upscaleEffectivePerm"]}
{"id": "C157", "title": "Where all cells have the same relative permeability, upscaling returns it", "statement": "With isotropic input, when no floor on permeabilities is active: in the capillary limit, if a phase has the same relative permeability r in all cells, the upscaled relative permeability is r in all directions and zero off the diagonal, whatever the permeabilities of the cells; if moreover all cells have the same saturation, that saturation is reported with it, so a line of the input curve is returned as it is. In the viscous limit, for a sample of one rock with any permeabilities, every line of the result is a point of the input curves of that rock: its saturation at the ratio of mobilities and its relative permeability there. This holds for fixed, periodic and (if the single phase permeability has an inverse) linear boundary conditions.", "quantifier": "every grid that fills a box, all permeabilities of the cells, all curves and points, all types of boundary conditions", "why_tests_cant": "Tests compare stored numbers of a few samples; that upscaling adds nothing of its own must hold for all grids and permeability fields.", "anchors": ["opm/upscaling/RelPermUtils.cpp: RelPermUpscaleHelper::upscalePermeability, RelPermUpscaleHelper::getRelPerm", "examples/upscale_relpermvisc.cpp: main (phase permeability loop)", "opm/upscaling/UpscalerBase_impl.hpp: upscaleEffectivePerm"]}
{"id": "C158", "title": "Numbering, unit of length, origin and names of the axes do not change the result", "statement": "If two inputs describe the same sample, one with other numbers of the cells and of the faces of each cell, lengths multiplied by a positive factor, the origin moved and the coordinate axes renamed, upscaling succeeds for both and gives the same permeability tensor, with its rows and columns renamed like the axes. This holds for fixed, linear and periodic boundary conditions and for single-phase upscaling. With fixed conditions the size does not matter; with linear and periodic conditions both descriptions must be large enough that sides, and with periodic conditions also partners, can be told apart with the absolute tolerance of 1e-6.", "quantifier": "every grid that fills a box, all renumberings of cells and faces, all shifts and (within the condition on the size) all factors of lengths, all permutations of the axes, all symmetric positive definite permeabilities, all types of boundary conditions", "why_tests_cant": "Tests run each sample in one orientation with one numbering; independence of the description must hold for every sample and every pair of descriptions.", "anchors": ["opm/upscaling/UpscalerBase_impl.hpp: upscaleEffectivePerm, upscaleSinglePhase, computeAverageVelocity, computeDelta", "opm/porsol/mimetic/MimeticIPEvaluator.hpp: buildStaticContrib, getInverseMatrix", "opm/porsol/mimetic/IncompFlowSolverHybrid.hpp: solve", "opm/porsol/common/setupBoundaryConditions.hpp: setupUpscalingConditions"]}
{"id": "C159", "title": "The mirror image of a sample has the mirror image of the permeability", "statement": "Mirroring a sample in one or more of the coordinate directions (coordinates, normals and permeability tensors of the cells) changes nothing in the upscaled tensor but the sign of the entries that couple a mirrored direction with one that is not mirrored. So the direction in which the pressure falls does not matter, and a sample that is its own mirror image, up to numbering and origin, has no such entries. This holds for fixed, linear and periodic boundary conditions and for single-phase upscaling.", "quantifier": "every grid that fills a box, all choices of mirrored directions, all symmetric positive definite permeabilities, all types of boundary conditions for which sample and image are suited", "why_tests_cant": "Tests apply the pressure drop in one sense to samples in one orientation; symmetry of the result must hold for every sample.", "anchors": ["opm/upscaling/UpscalerBase_impl.hpp: upscaleEffectivePerm, upscaleSinglePhase, computeAverageVelocity, computeDelta", "opm/porsol/mimetic/MimeticIPEvaluator.hpp: buildStaticContrib, getInverseMatrix", "opm/porsol/mimetic/IncompFlowSolverHybrid.hpp: solve", "opm/porsol/common/setupBoundaryConditions.hpp: setupUpscalingConditions"]}
{"id": "C160", "title": "Layers in any direction upscale to the laminate average", "statement": "Not only for horizontal layers of boxes (C154): a periodic sample of hexahedra of any shape that consists of layers between parallel planes, each of one material, has the stiffness of a laminate (Backus average): the stress reported for a mean strain is the average over the volume of the stresses of the layers, whose strains differ from the mean only by displacements that depend on the height, such that the forces between layers are in balance. In particular, across layers normal to an axis, the upscaled moduli of stretching and shear of isotropic or orthotropic layers are the harmonic means of those of the layers.", "quantifier": "every conforming periodic grid of hexahedra in layers between parallel planes in any direction, any number of cells and layers, materials of any symmetry, every quadrature rule exact for quadratic functions of each coordinate, every mean strain", "why_tests_cant": "Tests compare a few layered samples with reference values; the formula must hold for every stack of layers and every grid of it.", "anchors": ["opm/elasticity/elasticity_upscale_impl.hpp: assemble, averageStress, periodicBCs", "opm/elasticity/elasticity_impl.hpp: getBmatrix, getStiffnessMatrix, getStressVector", "opm/elasticity/asmhandler_impl.hpp: addElement, expandSolution", "examples/upscale_elasticity.cpp: run"]}
{"id": "C161", "title": "Turned, mirrored, moved, enlarged or renumbered elastic samples", "statement": "Upscaling a sample of hexahedra that is turned or mirrored, moved, enlarged and whose cells, nodes and local vertices are numbered differently gives the elasticity matrix of the original sample, turned likewise: the stress reported for a turned strain is the turned stress. A sample that a rotation or reflection maps to itself has an elasticity matrix with that symmetry.", "quantifier": "every sample of hexahedra of any shape, materials of any symmetry, every rotation or reflection, factor and displacement, every numbering of cells and nodes and of the vertices within a cell, every set of constraints that fix nodes or tie unknowns to each other, every quadrature rule that is symmetric under the renumbering of vertices", "why_tests_cant": "Tests upscale samples in one orientation and numbering; the result must be covariant for all of them.", "anchors": ["opm/elasticity/elasticity_upscale_impl.hpp: assemble, averageStress", "opm/elasticity/elasticity_impl.hpp: getBmatrix, getStiffnessMatrix, getStressVector", "opm/elasticity/asmhandler_impl.hpp: addElement, expandSolution", "examples/upscale_elasticity.cpp: run"]}
{"id": "C162", "title": "Copies of a periodic sample have the stiffness of one", "statement": "Upscaling with periodic conditions does not depend on how many periods the sample contains: a sample that consists of any number of copies of a periodic sample, put together in any directions, has the upscaled elasticity matrix of a single copy.", "quantifier": "every periodic sample of hexahedra of any shape, materials of any symmetry, any number and arrangement of copies, every numbering of the nodes and cells of the large sample, every quadrature rule", "why_tests_cant": "Tests upscale samples with a fixed number of periods; the result must be the same for every number.", "anchors": ["opm/elasticity/elasticity_upscale_impl.hpp: assemble, averageStress, periodicBCs", "opm/elasticity/elasticity_impl.hpp: getBmatrix, getStiffnessMatrix, getStressVector", "opm/elasticity/asmhandler_impl.hpp: addElement, expandSolution", "examples/upscale_elasticity.cpp: run"]}
{"id": "C163", "title": "Copies of a periodic sample have the permeability of one", "statement": "Upscaling permeability with periodic boundary conditions does not depend on how many periods the sample contains: a sample that consists of any number of copies of a sample whose opposite sides match, put next to each other in the three directions, has the upscaled permeability tensor of a single copy.", "quantifier": "every grid of polyhedra that fills a box with matching opposite sides, every symmetric positive definite permeability field, every number of copies in each of the three directions, every numbering of the cells and faces of the large sample, every position of it in space", "why_tests_cant": "Tests upscale samples with a fixed number of periods; the result must be the same for every number.", "anchors": ["opm/upscaling/UpscalerBase_impl.hpp: upscaleEffectivePerm, computeAverageVelocity, computeDelta", "opm/porsol/common/setupBoundaryConditions.hpp: setupUpscalingConditions", "opm/porsol/common/PeriodicHelpers.hpp: createPeriodic", "opm/porsol/mimetic/IncompFlowSolverHybrid.hpp: solve", "opm/upscaling/SinglePhaseUpscaler.hpp: SinglePhaseUpscaler"]}
{"id": "C164", "title": "Copies of a periodic sample have the relative permeabilities of one", "statement": "Upscaling relative permeability with periodic boundary conditions does not depend on how many periods the sample contains: at every capillary pressure, a sample that consists of any number of copies of a sample whose opposite sides match has the upscaled saturation, the single-phase permeability, the phase permeability and the relative permeability tensor of a single copy, with the limits on least permeability and contrast taken into account.", "quantifier": "every grid of polyhedra that fills a box with matching opposite sides, all rock numbers (also impermeable cells), porosities, permeabilities and curves, every capillary pressure, every number of copies in each of the three directions, every numbering of the cells and faces of the large sample, every position of it in space", "why_tests_cant": "Tests upscale samples with a fixed number of periods; the result must be the same for every number.", "anchors": ["opm/upscaling/RelPermUtils.cpp: upscalePermeability, upscaleSinglePhasePermeability, getRelPerm", "opm/upscaling/UpscalerBase_impl.hpp: upscaleEffectivePerm", "opm/upscaling/UpscalerBase_impl.hpp: setPermeability", "opm/porsol/common/PeriodicHelpers.hpp: createPeriodic"]}
{"id": "C165", "title": "Numbering, unit of length, origin and names of the axes do not change relative permeabilities", "statement": "Two descriptions of the same sample that differ in the numbers of cells and faces, the unit of length, the origin and the names of the axes give the same upscaled saturation at every capillary pressure, and the same single-phase permeability, phase permeability and relative permeability, up to the names of the axes, with the limits on least permeability and contrast taken into account.", "quantifier": "every grid of polyhedra that fills a box, all rock numbers (also impermeable cells), porosities, permeabilities and curves, every capillary pressure, every renumbering of cells and faces, every change of unit and origin, every renaming of the axes, fixed, linear (tensors) and periodic boundary conditions", "why_tests_cant": "Tests run one description of a sample; the result must be the same for every other.", "anchors": ["opm/upscaling/RelPermUtils.cpp: upscalePermeability, upscaleSinglePhasePermeability, getRelPerm", "opm/upscaling/UpscalerBase_impl.hpp: upscaleEffectivePerm", "opm/upscaling/UpscalerBase_impl.hpp: setPermeability"]}
{"id": "C166", "title": "The mirror image of a sample has the mirror image of the relative permeabilities", "statement": "Reversing one or more coordinate axes of a sample leaves upscaled saturation at every capillary pressure unchanged, and turns single-phase permeability, phase permeability and relative permeability into their mirror images: entries that couple a reversed direction with one that is not reversed change sign, all others stay; with fixed boundary conditions the reported relative permeabilities do not change at all.", "quantifier": "every grid of polyhedra that fills a box, all rock numbers, porosities, permeabilities and curves, every capillary pressure, every choice of reversed axes, fixed, linear (tensors) and periodic boundary conditions, every numbering of the boundary faces of the image", "why_tests_cant": "Tests run one orientation of a sample; the result must be consistent for every sample and orientation.", "anchors": ["opm/upscaling/RelPermUtils.cpp: upscalePermeability, upscaleSinglePhasePermeability, getRelPerm", "opm/upscaling/UpscalerBase_impl.hpp: upscaleEffectivePerm"]}
{"id": "C167", "title": "Viscous limit: copies of a periodic sample and other descriptions of a sample have the same relative permeabilities", "statement": "In the viscous limit, at every ratio of mobilities: a sample that consists of any number of copies of a periodic sample has the upscaled saturation and relative permeabilities of a single copy, and two descriptions of the same sample that differ in the numbers of cells and faces, the unit of length, the origin and the names of the axes give the same upscaled saturation and relative permeabilities, up to the names of the axes. The limits on least permeability and contrast are included.", "quantifier": "every grid of polyhedra that fills a box, all rock types, porosities, permeabilities and curves, every ratio of mobilities, every number of copies, every renumbering, unit, origin and renaming of the axes; copies with periodic conditions, isotropic and anisotropic input; descriptions with fixed, linear (tensors) and periodic conditions, isotropic input", "why_tests_cant": "Tests run one sample in one description; the result must be the same for every number of periods and every description.", "anchors": ["examples/upscale_relpermvisc.cpp: main (phase permeability loop)", "opm/upscaling/UpscalerBase_impl.hpp: upscaleEffectivePerm", "opm/porsol/common/PeriodicHelpers.hpp: createPeriodic"]}
{"id": "C168", "title": "Resistivity: copies of a periodic sample and other descriptions of a sample have the same resistivity", "statement": "At every capillary pressure, a sample that consists of any number of copies of a periodic sample has the upscaled water saturation and resistivity of a single copy, and two descriptions of the same sample that differ in the numbers of cells and faces, the unit of length, the origin and the names of the axes give the same saturation and the same resistivity, up to the names of the axes.", "quantifier": "every grid of polyhedra that fills a box, all rock types, porosities, permeabilities, curves and Archie parameters accepted by the program, every capillary pressure, every number of copies, every renumbering, unit, origin and renaming of the axes; copies with periodic conditions, descriptions with fixed and periodic conditions", "why_tests_cant": "Tests run one sample in one description; the result must be the same for every number of periods and every description.", "anchors": ["examples/upscale_cond.cpp:main", "opm/upscaling/UpscalerBase_impl.hpp:upscaleSinglePhase", "opm/porsol/common/Matrix.hpp:invert", "opm/porsol/common/PeriodicHelpers.hpp: createPeriodic"]}
{"id": "C169", "title": "Viscous limit and resistivity: the mirror image of a sample has the mirror image of the result", "statement": "The mirror image of a sample has, in the viscous limit, the same upscaled saturation and the mirror image of the relative permeabilities at every ratio of mobilities, and the same upscaled saturation and the mirror image of the resistivity at every capillary pressure: with fixed boundary conditions the reported numbers are the same, with periodic boundary conditions only the entries that couple a mirrored direction with one that is not mirrored change sign.", "quantifier": "every grid of polyhedra that fills a box, all rock types, porosities, permeabilities and curves, isotropic and anisotropic input in the viscous limit, every mirroring of one, two or three axes, every ratio of mobilities and capillary pressure; fixed and periodic conditions, and linear ones for the tensors of the viscous limit", "why_tests_cant": "Tests run one sample, not its mirror image; the symmetry must hold for every sample.", "anchors": ["examples/upscale_relpermvisc.cpp: main (phase permeability loop)", "examples/upscale_cond.cpp:main", "opm/upscaling/UpscalerBase_impl.hpp: upscaleEffectivePerm", "opm/porsol/common/Matrix.hpp:invert"]}
