{
 "claims": [
  {
   "property": "C01",
   "status": "proved",
   "theorems": [
    "Verif.Dense.C01_index_bijection",
    "Verif.Dense.C01_read_after_write",
    "Verif.Dense.C01_access_defined_iff",
    "Verif.Dense.C01_write_history",
    "Verif.Dense.C01_assign_preserves",
    "Verif.Dense.C01_equality_iff",
    "Verif.Dense.C01_inplace_arithmetic",
    "Verif.Dense.C01_add_defined_iff",
    "Verif.Dense.C01_zero_eye",
    "Verif.Dense.C01_constructor"
   ],
   "note": ""
  },
  {
   "property": "C02",
   "status": "partial",
   "theorems": [
    "Verif.Dense.C02_prod",
    "Verif.Dense.C02_prodVec",
    "Verif.Dense.C02_trace",
    "Verif.Dense.C02_vecMulAddN",
    "Verif.Dense.C02_vecMulAddT",
    "Verif.Dense.C02_matMulAddNN",
    "Verif.Dense.C02_matMulAddNT",
    "Verif.Dense.C02_matMulAddTN",
    "Verif.Dense.C02_symmetricUpdate",
    "Verif.Dense.C02_symmetricUpdate2_partial",
    "Verif.Dense.C02_symmetricUpdate2_violated"
   ],
   "note": "All product routines proved; the two-sided symmetric update B <- A*B*A' is right only for diagonal A (the only use in the code) and the violation for general A is proved."
  },
  {
   "property": "C03",
   "status": "partial",
   "theorems": [
    "Verif.Dense.C03_inverse2x2",
    "Verif.Dense.C03_inverse3x3_partial",
    "Verif.Dense.C03_inverse3x3_violated"
   ],
   "note": "2x2 proved; 3x3 proved for m(2,2) != 0, violation otherwise proved (permutation matrix)."
  },
  {
   "property": "C04",
   "status": "partial",
   "theorems": [
    "Verif.Boundary.C04_register_exact",
    "Verif.Boundary.C04_growth_keeps",
    "Verif.Boundary.C04_symmetric_partial",
    "Verif.Boundary.C04_registration_persists",
    "Verif.Boundary.C04_symmetry_violated_by_shrink",
    "Verif.Boundary.C04_symmetry_violated_by_id_zero"
   ],
   "note": "Proved for histories that never shrink the table and never register id 0; both exceptions are proved to break symmetry. Acceptance condition, persistence and growth are proved without restriction."
  },
  {
   "property": "C05",
   "status": "partial",
   "theorems": [
    "Verif.Boundary.C05_partner_is_image",
    "Verif.Boundary.C05_partner_iff_image_partial",
    "Verif.Boundary.C05_symmetry_violated",
    "Verif.Boundary.C05_assertion_violated"
   ],
   "note": "Soundness of partners proved for all grids; symmetry and completeness proved when no face has two candidates; violation with two candidates proved."
  },
  {
   "property": "C06",
   "status": "proved",
   "theorems": [
    "Verif.Boundary.C06_side_flux_distributed"
   ],
   "note": ""
  },
  {
   "property": "C07",
   "status": "proved",
   "theorems": [
    "Verif.Boundary.C07_linear_values",
    "Verif.Boundary.C07_linear_profile",
    "Verif.Boundary.C07_linear_rejects"
   ],
   "note": ""
  },
  {
   "property": "C08",
   "status": "partial",
   "theorems": [
    "Verif.Boundary.C08_linear_history_partial",
    "Verif.Boundary.C08_linear_history_violated",
    "Verif.Boundary.C08_fixed_exact",
    "Verif.Boundary.C08_illegal_type_rejected",
    "Verif.Boundary.C08_periodic_exact"
   ],
   "note": "Fixed, periodic and rejected types proved in full; linear set-up keeps partner entries from earlier set-ups (violation proved), conditions of boundary ids are history independent."
  },
  {
   "property": "C09",
   "status": "proved",
   "theorems": [
    "Verif.Boundary.C09_periodic_kind_invariant",
    "Verif.Boundary.C09_call_effect",
    "Verif.Boundary.C09_unique_ids_follow_type"
   ],
   "note": ""
  },
  {
   "property": "C10",
   "status": "proved",
   "theorems": [
    "Verif.Euler.C10_conservation",
    "Verif.Euler.C10_local_balance",
    "Verif.Euler.C10_closed_system",
    "Verif.Euler.C10_partner_face"
   ],
   "note": ""
  },
  {
   "property": "C11",
   "status": "proved",
   "theorems": [
    "Verif.Euler.C11_order",
    "Verif.Euler.C11_divide",
    "Verif.Euler.C11_each_cell_once",
    "Verif.Euler.C11_splitting",
    "Verif.Euler.C11_serial_history_independent",
    "Verif.Euler.C11_violated_reinit",
    "Verif.Euler.C11_parallel_disjoint",
    "Verif.Euler.C11_violated_lost_update",
    "Verif.Euler.C11_violated_instance",
    "Verif.Euler.C11_events"
   ],
   "note": "Independence of order and splitting proved for atomic sub-ranges; re-initialisation duplicates the range table and unsynchronised parallel updates can be lost (both proved as violations)."
  },
  {
   "property": "C12",
   "status": "proved",
   "theorems": [
    "Verif.Euler.C12_success_iff",
    "Verif.Euler.C12_result",
    "Verif.Euler.C12_failure",
    "Verif.Euler.C12_no_overflow",
    "Verif.Euler.C12_violated_not_restored",
    "Verif.Euler.C12_bounds",
    "Verif.Euler.C12_respects_cfl",
    "Verif.Euler.C12_minimal"
   ],
   "note": "Retry logic, covered interval, bounds, CFL and minimality proved; the saturation is not restored when the last attempt fails (violation proved)."
  },
  {
   "property": "C13",
   "status": "proved",
   "theorems": [
    "Verif.Euler.C13_clamp",
    "Verif.Euler.C13_noclamp",
    "Verif.Euler.C13_step"
   ],
   "note": ""
  },
  {
   "property": "C14",
   "status": "proved",
   "theorems": [
    "Verif.Euler.C14_limit",
    "Verif.Euler.C14_maximum_principle"
   ],
   "note": ""
  },
  {
   "property": "C15",
   "status": "partial",
   "theorems": [
    "Verif.FracFlow.C15_velocity",
    "Verif.FracFlow.C15_gravity",
    "Verif.FracFlow.C15_capillary",
    "Verif.FracFlow.C15_violated_aniso_capillary",
    "Verif.FracFlow.C15_violated_aniso_limit",
    "Verif.FracFlow.C15_violated_aniso_norock",
    "Verif.FracFlow.C15_aniso_partial"
   ],
   "note": "Isotropic model in full; anisotropic velocity and gravity factors proved, its capillary factor is proved to be 1e100 always."
  },
  {
   "property": "C16",
   "status": "proved",
   "theorems": [
    "Verif.FracFlow.C16_fractional_flow",
    "Verif.FracFlow.C16_fractional_flow_aniso",
    "Verif.FracFlow.C16_phase_velocities",
    "Verif.FracFlow.C16_quadratic_derivative",
    "Verif.FracFlow.C16_quadratic_mobility"
   ],
   "note": ""
  },
  {
   "property": "C17",
   "status": "partial",
   "theorems": [
    "Verif.TSource.C17_list",
    "Verif.TSource.C17_no_leak",
    "Verif.TSource.C17_wrong_phases",
    "Verif.TSource.C17_create_failure",
    "Verif.TSource.C17_first_growth_failure",
    "Verif.TSource.C17_violated_growth_failure",
    "Verif.TSource.C17_all_fail"
   ],
   "note": "List refinement, release of all memory and failure at creation or first growth proved; a failed growth of a non-empty table is proved to leave pointers to freed memory."
  },
  {
   "property": "C18",
   "status": "proved",
   "theorems": [
    "Verif.Newton.C18_bounded",
    "Verif.Newton.C18_flag",
    "Verif.Newton.C18_truthful",
    "Verif.Newton.C18_monotone",
    "Verif.Newton.C18_converged_start",
    "Verif.Newton.C18_violated_stale_residual"
   ],
   "note": "The residual norm reported is proved to be that of the returned solution when the absolute or relative tolerance is met; with the increment tolerance it can be stale (C18_violated_stale_residual)."
  },
  {
   "property": "C19",
   "status": "proved",
   "theorems": [
    "Verif.Implicit.C19_cancel",
    "Verif.Implicit.C19_total"
   ],
   "note": ""
  },
  {
   "property": "C20",
   "status": "proved",
   "theorems": [
    "Verif.Implicit.C20_upwind",
    "Verif.Implicit.C20_flux"
   ],
   "note": ""
  },
  {
   "property": "C21",
   "status": "proved",
   "theorems": [
    "Verif.Implicit.C21_finish",
    "Verif.Implicit.C21_iteration",
    "Verif.Implicit.C21_start"
   ],
   "note": ""
  },
  {
   "property": "C22",
   "status": "proved",
   "theorems": [
    "Verif.Implicit.C22_storage",
    "Verif.Implicit.C22_buffer",
    "Verif.Implicit.C22_nnz",
    "Verif.Implicit.C22_assemble"
   ],
   "note": "Buffer partition for any number of unknowns per cell; the assembly itself is modelled with one unknown per cell, the only instance in the code."
  },
  {
   "property": "C23",
   "status": "proved",
   "theorems": [
    "Verif.Average.C23_chain",
    "Verif.Average.C23_symmetric",
    "Verif.Average.C23_vanish",
    "Verif.Average.C23_defining"
   ],
   "note": ""
  },
  {
   "property": "C24",
   "status": "proved",
   "theorems": [
    "Verif.Control.C24_get",
    "Verif.Control.C24_set",
    "Verif.Control.C24_roundtrip",
    "Verif.Control.C24_bijective"
   ],
   "note": ""
  },
  {
   "property": "C25",
   "status": "partial",
   "theorems": [
    "Verif.Control.C25_line_partial",
    "Verif.Control.C25_symmetric_partial",
    "Verif.Control.C25_violated"
   ],
   "note": "Line contents proved; the tensor is determined for symmetric tensors; in general entry (1,0) is never written (violation proved)."
  },
  {
   "property": "C26",
   "status": "proved",
   "theorems": [
    "Verif.Control.C26_roundtrip",
    "Verif.Control.C26_roundtrip_exact",
    "Verif.Control.C26_violated_precision",
    "Verif.Control.C26_linear_range",
    "Verif.Control.C26_log_range",
    "Verif.Control.C26_range_edge"
   ],
   "note": "Character-level round trip proved up to the rounding of number formatting (a parameter), exact when formatting is exact; with the stream's default six digits a seven-digit saturation is changed (proved). Ranges proved in full."
  },
  {
   "property": "C27",
   "status": "proved",
   "theorems": [
    "Verif.Upscale.C27_porosity",
    "Verif.Upscale.C27_ntg",
    "Verif.Upscale.C27_swcr",
    "Verif.Upscale.C27_sowcr",
    "Verif.Upscale.C27_saturation",
    "Verif.Upscale.C27_net_porosity",
    "Verif.Upscale.C27_bounds",
    "Verif.Upscale.C27_constant",
    "Verif.Upscale.C27_order",
    "Verif.Upscale.C27_net_times_ntg"
   ],
   "note": ""
  },
  {
   "property": "C28",
   "status": "proved",
   "theorems": [
    "Verif.Upscale.C28_velocity",
    "Verif.Upscale.C28_delta",
    "Verif.Upscale.C28_order",
    "Verif.Upscale.C28_uniform",
    "Verif.Upscale.C28_extent",
    "Verif.Upscale.C28_fixed_diagonal",
    "Verif.Upscale.C28_homogeneous",
    "Verif.Upscale.C28_unset_id_counts_as_high_x"
   ],
   "note": "The pressure solver is a parameter; for the exact uniform flow on a box the tensor is recovered."
  },
  {
   "property": "C29",
   "status": "proved",
   "theorems": [
    "Verif.Chopper.C29_chop",
    "Verif.Chopper.C29_band_covers",
    "Verif.Chopper.C29_nonempty",
    "Verif.Chopper.C29_band_tight",
    "Verif.Chopper.C29_depths",
    "Verif.Chopper.C29_cells_distinct"
   ],
   "note": "Sizes, originating cells, fields, pillars and depths for every well-formed deck and request inside the grid; the band equals the touching layers for grids whose depths do not decrease from layer to layer, and contains them always."
  },
  {
   "property": "C30",
   "status": "proved",
   "theorems": [
    "Verif.Chopper.C30_history",
    "Verif.Chopper.C30_coord_size",
    "Verif.Chopper.C30_size_checked",
    "Verif.Chopper.C30_zcorn_size",
    "Verif.Chopper.C30_shoebox",
    "Verif.Chopper.C30_violated_inverted_range",
    "Verif.Chopper.C30_violated_rejection_mixes"
   ],
   "note": "History independence for every sequence of requests including rejected ones. Deviations proved: inverted ranges pass the shoebox check; a rejected request leaves the members of two requests mixed."
  },
  {
   "property": "C31",
   "status": "proved",
   "theorems": [
    "Verif.RelPerm.C31_accepted",
    "Verif.RelPerm.C31_rejected_iff",
    "Verif.RelPerm.C31_load",
    "Verif.RelPerm.C31_violated_unlimited_permy"
   ],
   "note": "Acceptance, limiting and rejection for every input. Deviations proved: y- and z-permeabilities are not limited; rock number 1000 is accepted."
  },
  {
   "property": "C32",
   "status": "proved",
   "theorems": [
    "Verif.Collect.C32_owner_valid",
    "Verif.Collect.C32_balanced",
    "Verif.Collect.C32_gathered",
    "Verif.Collect.C32_no_deadlock",
    "Verif.Collect.C32_terminates"
   ],
   "note": "For every number of nodes and points and every interleaving of sends and receives."
  },
  {
   "property": "C33",
   "status": "partial",
   "theorems": [
    "Verif.RelPerm.C33_isotropic",
    "Verif.RelPerm.C33_anisotropic_partial",
    "Verif.RelPerm.C33_single",
    "Verif.RelPerm.C33_violated_norock",
    "Verif.RelPerm.C33_violated_single_anisotropic"
   ],
   "note": "Isotropic input in full (phase and single phase); anisotropic input when every cell has rock. Violated: anisotropic input with a rock-free cell reads an empty vector; the single phase limit of anisotropic input looks at x-permeabilities only."
  },
  {
   "property": "C34",
   "status": "proved",
   "theorems": [
    "Verif.Steady.C34_bounded",
    "Verif.Steady.C34_schedule",
    "Verif.Steady.C34_step_range",
    "Verif.Steady.C34_step_positive",
    "Verif.Steady.C34_success",
    "Verif.Steady.C34_violated_initial_step",
    "Verif.Steady.C34_explicit"
   ],
   "note": "Both upscalers. The step bound needs init_stepsize <= max_stepsize: C34_violated_initial_step. The square root is a parameter with its defining property."
  },
  {
   "property": "C35",
   "status": "proved",
   "theorems": [
    "Verif.Steady.C35_both",
    "Verif.Steady.C35_destripe",
    "Verif.Steady.C35_roundtrip",
    "Verif.Steady.C35_violated_destripe",
    "Verif.Steady.C35_limits"
   ],
   "note": "destripe itself is unsafe for sizes that are not a multiple of the stride (C35_violated_destripe); never called that way."
  },
  {
   "property": "C36",
   "status": "partial",
   "theorems": [
    "Verif.Mimetic.C36_symmetric",
    "Verif.Mimetic.C36_psd",
    "Verif.Mimetic.C36_posdef",
    "Verif.Mimetic.C36_exact",
    "Verif.Mimetic.C36_mobility",
    "Verif.Mimetic.C36_gravity",
    "Verif.Mimetic.C36_aniso_exact",
    "Verif.Mimetic.C36_aniso_symmetric_partial",
    "Verif.Mimetic.C36_violated_aniso",
    "Verif.Mimetic.C36_aniso_isotropic"
   ],
   "note": "Q (LAPACK QR) enters through what it documents. The tensor-mobility evaluator is exact, but symmetric only if mobility times permeability is (C36_aniso_symmetric_partial, C36_violated_aniso)."
  },
  {
   "property": "C37",
   "status": "proved",
   "theorems": [
    "Verif.Hybrid.C37_balance",
    "Verif.Hybrid.C37_total"
   ],
   "note": "No symmetry needed."
  },
  {
   "property": "C38",
   "status": "proved",
   "theorems": [
    "Verif.Hybrid.C38_dirichlet",
    "Verif.Hybrid.C38_interior",
    "Verif.Hybrid.C38_neumann",
    "Verif.Hybrid.C38_periodic",
    "Verif.Hybrid.C38_imbalance",
    "Verif.Hybrid.C38_violated_skew",
    "Verif.Hybrid.C38_postprocess",
    "Verif.Hybrid.C38_postprocess_id"
   ],
   "note": "Exactly solved systems (any number of cells; Dirichlet, Neumann, periodic; regularised systems) and postProcessFluxes. Needs symmetric inner products: C38_violated_skew. C38_imbalance says where an incompatible pure Neumann problem puts the imbalance."
  },
  {
   "property": "C39",
   "status": "partial",
   "theorems": [
    "Verif.Asm.C39_equations",
    "Verif.Asm.C39_violated_twice",
    "Verif.Numbering.C39_faces_partial",
    "Verif.Numbering.C39_interior_first",
    "Verif.Numbering.C39_topology",
    "Verif.Numbering.C39_violated_order",
    "Verif.Numbering.C39_partners",
    "Verif.Numbering.C39_face_indices"
   ],
   "note": "Face numbers of the flow solver (numbers 0..n-1, each face one number, interior ones shared by exactly two cells, partners of periodic faces, sanity check), the numbering of faces of the Euler grid interface, and the equation numbers of the elasticity assembly. C39_faces_partial: the solver's loop reads num_cf of the cell number, the data is stored by iteration number; C39_violated_order shows what happens when they differ. C39_violated_twice: preprocessing twice."
  },
  {
   "property": "C40",
   "status": "proved",
   "theorems": [
    "Verif.Coloring.C40_partition",
    "Verif.Coloring.C40_racefree",
    "Verif.Coloring.C40_serial",
    "Verif.Coloring.C40_direction"
   ],
   "note": "All grid dimensions must be positive: with no element in the chosen direction the printed summary divides by zero (the model returns none). C40_direction: the strips are cut in the direction that leaves the fewest elements over, of several in the longest."
  },
  {
   "property": "C41",
   "status": "proved",
   "theorems": [
    "Verif.Coloring.C41_cover",
    "Verif.Coloring.C41_balanced"
   ],
   "note": "Machine integers unbounded; zero chunks is a division by zero (none)."
  },
  {
   "property": "C42",
   "status": "partial",
   "theorems": [
    "Verif.Asm.C42_prescribed",
    "Verif.Asm.C42_add",
    "Verif.Asm.C42_expand_partial",
    "Verif.Asm.C42_extract",
    "Verif.Asm.C42_violated_master",
    "Verif.Asm.C42_violated_offset",
    "Verif.Asm.C42_violated_order",
    "Verif.Asm.C42_chains"
   ],
   "note": "C42_expand_partial needs masters that are free or prescribed zero, no constants and no unknown both constrained and prescribed; the three violated theorems show each is needed. C42_chains: acyclic chains are resolved, up to coefficients below the threshold."
  },
  {
   "property": "C43",
   "status": "partial",
   "theorems": [
    "Verif.Elastic.C43_hooke",
    "Verif.Elastic.C43_posdef",
    "Verif.Elastic.C43_inverse",
    "Verif.Elastic.C43_refused",
    "Verif.Elastic.C43_plane",
    "Verif.Elastic.C43_km",
    "Verif.Elastic.C43_vpvs",
    "Verif.Elastic.C43_lm_partial",
    "Verif.Elastic.C43_violated_lambda_zero",
    "Verif.Elastic.C43_en",
    "Verif.Elastic.C43_km_auxetic",
    "Verif.Elastic.C43_violated_fluid",
    "Verif.Elastic.C43_symmetric",
    "Verif.Elastic.C43_create_symmetric",
    "Verif.Elastic.C43_ti",
    "Verif.Elastic.C43_density",
    "Verif.Elastic.C43_violated_density",
    "Verif.Elastic.C43_orthotropic",
    "Verif.Elastic.C43_violated_stale",
    "Verif.Elastic.C43_create",
    "Verif.Elastic.C43_create_count"
   ],
   "note": "All four moduli conversions, 2D (plane strain/stress) and 3D, isotropic and the other material classes. C43_lm_partial needs lambda > 0; lambda = 0, K = 0, nu = 1/2, lost densities and the diagonal-only OrthotropicD are proved as violations."
  },
  {
   "property": "C44",
   "status": "partial",
   "theorems": [
    "Verif.Shape.C44_gradient",
    "Verif.Shape.C44_square",
    "Verif.Shape.C44_cube",
    "Verif.Shape.C44_violated_line",
    "Verif.Shape.C44_lagrange_nodal",
    "Verif.Shape.C44_lagrange_reproduce",
    "Verif.Shape.C44_lagrange_unity",
    "Verif.Shape.C44_lagrange_repeated",
    "Verif.Shape.C44_violated_lagrange_gradient",
    "Verif.Shape.C44_lagrange_gradient_partial",
    "Verif.Shape.C44_pn_order",
    "Verif.Shape.C44_pn_nodal",
    "Verif.Shape.C44_pn_unity"
   ],
   "note": "Q4/H8 sets and tensor products of Lagrange functions of any order. The Lagrange gradient always divides by zero and the 1D set reads past its tables (proved violations); the tensor gradient has no return value and is not modelled."
  },
  {
   "property": "C45",
   "status": "partial",
   "theorems": [
    "Verif.BGrid.C45_map",
    "Verif.BGrid.C45_residual",
    "Verif.BGrid.C45_exact_partial",
    "Verif.BGrid.C45_violated"
   ],
   "note": "C45_exact_partial excludes quads whose coefficients are below the tolerances without vanishing; C45_residual bounds what is lost, C45_violated shows that exactness fails there."
  },
  {
   "property": "C46",
   "status": "partial",
   "theorems": [
    "Verif.BGrid.C46_nodes",
    "Verif.BGrid.C46_numbers",
    "Verif.BGrid.C46_quads_partial",
    "Verif.BGrid.C46_one_row",
    "Verif.BGrid.C46_rectangle",
    "Verif.BGrid.C46_violated",
    "Verif.BGrid.C46_violated_small"
   ],
   "note": "C46_quads_partial needs quads of area at least 1e-7 and leaves out the second coordinate of the second vertex, which is never set (C46_violated); smaller quads are dropped (C46_violated_small)."
  },
  {
   "property": "C47",
   "status": "partial",
   "theorems": [
    "Verif.MatrixOps.C47_axpy",
    "Verif.MatrixOps.C47_axpy_sizes",
    "Verif.MatrixOps.C47_augment_partial",
    "Verif.MatrixOps.C47_saddle",
    "Verif.MatrixOps.C47_violated_augment",
    "Verif.MatrixOps.C47_violated_mirror",
    "Verif.MatrixOps.C47_diagonal",
    "Verif.MatrixOps.C47_extractDiagonal",
    "Verif.MatrixOps.C47_extractDiagonal_missing",
    "Verif.MatrixOps.C47_extractBlock",
    "Verif.MatrixOps.C47_fromDense",
    "Verif.MatrixOps.C47_saveAsc"
   ],
   "note": "Scaled sum, block extraction, dense conversion, diagonal and text output proved for all matrices; augmentation for square (or wide) matrices and blocks that do not meet their mirror image, with the saddle point matrix of the direct solver as a case. Violations outside of these conditions are proved."
  },
  {
   "property": "C48",
   "status": "partial",
   "theorems": [
    "Verif.MatrixOps.C48_operator",
    "Verif.MatrixOps.C48_scaled_partial",
    "Verif.MatrixOps.C48_violated_scale",
    "Verif.MatrixOps.C48_uzawa",
    "Verif.MatrixOps.C48_violated_rhs",
    "Verif.MatrixOps.C48_schur",
    "Verif.MatrixOps.C48_columns_partial",
    "Verif.MatrixOps.C48_violated_columns",
    "Verif.MatrixOps.C48_preconditioner"
   ],
   "note": "Operator, block elimination, Schur complement and preconditioner proved for exact block solvers. The scaled operator is proved to do what it does (factor missing on the multiplier part), and shown to violate the claim; so are the ignored constraint right-hand side and the too short vectors for more multipliers than unknowns."
  },
  {
   "property": "C49",
   "status": "proved",
   "theorems": [
    "Verif.Elastic.C49_strain",
    "Verif.Elastic.C49_strain_plane",
    "Verif.Elastic.C49_jacobian",
    "Verif.Elastic.C49_linear",
    "Verif.Elastic.C49_forces",
    "Verif.Elastic.C49_energy",
    "Verif.Elastic.C49_symmetric",
    "Verif.Elastic.C49_load",
    "Verif.Elastic.C49_load_work",
    "Verif.Elastic.C49_psd",
    "Verif.Elastic.C49_definite",
    "Verif.Elastic.C49_rigid",
    "Verif.Elastic.C49_load_hex"
   ],
   "note": "Geometry enters as the Jacobian of the isoparametric map (C49_jacobian) and an inverse of it; the quadrature rule is arbitrary."
  },
  {
   "property": "C50",
   "status": "partial",
   "theorems": [
    "Verif.Reservoir.C50_classify",
    "Verif.Reservoir.C50_tensor",
    "Verif.Reservoir.C50_reject",
    "Verif.Reservoir.C50_symmetric",
    "Verif.Reservoir.C50_position_partial",
    "Verif.Reservoir.C50_violated_pair",
    "Verif.Reservoir.C50_threshold",
    "Verif.Reservoir.C50_none"
   ],
   "note": "Classification over all sets of components; accepted and rejected inputs; values of every position. Partial: of two mirrored components only the lower one is used (C50_violated_pair)."
  },
  {
   "property": "C51",
   "status": "proved",
   "theorems": [
    "Verif.Reservoir.C51_fields",
    "Verif.Reservoir.C51_reject",
    "Verif.Reservoir.C51_violated_rock"
   ],
   "note": "All cell data of accepted decks, rejection of wrong sizes. Rock numbers are not validated by the code (C51_violated_rock)."
  },
  {
   "property": "C52",
   "status": "partial",
   "theorems": [
    "Verif.Capillary.C52_range",
    "Verif.Capillary.C52_formula",
    "Verif.Capillary.C52_roundtrip",
    "Verif.Capillary.C52_back",
    "Verif.Capillary.C52_monotone",
    "Verif.Capillary.C52_violated_norock",
    "Verif.Capillary.C52_norock",
    "Verif.Capillary.C52_violated_angle"
   ],
   "note": "Range, both round trips and monotonicity; tables are functions with the stated hypotheses. The claim fails without rocks and for negative sigma cos(theta) (C52_violated_*)."
  },
  {
   "property": "C53",
   "status": "partial",
   "theorems": [
    "Verif.Capillary.C53_value",
    "Verif.Capillary.C53_monotone",
    "Verif.Capillary.C53_root",
    "Verif.Capillary.C53_limit_partial",
    "Verif.Capillary.C53_violated_target"
   ],
   "note": "Value, monotonicity, root; the capillary limit has the target average if the target lies in all rocks' ranges (C53_limit_partial, C53_violated_target). The root finder is an arbitrary sequence of evaluations."
  },
  {
   "property": "C54",
   "status": "proved",
   "theorems": [
    "Verif.Steady.C54_total",
    "Verif.Steady.C54_defined",
    "Verif.Steady.C54_fractions",
    "Verif.Steady.C54_periodic_balance"
   ],
   "note": "Implicit upscaler; the explicit one's version refers to undeclared names and cannot be instantiated."
  },
  {
   "property": "C55",
   "status": "proved",
   "theorems": [
    "Verif.ImplicitDriver.C55_retries",
    "Verif.ImplicitDriver.C55_covers"
   ],
   "note": ""
  },
  {
   "property": "C56",
   "status": "partial",
   "theorems": [
    "Verif.Boundary.C56_unique_ids_accepted",
    "Verif.Boundary.C56_rejected_ids_not_unique_partial",
    "Verif.Boundary.C56_duplicate_ids_accepted_violated"
   ],
   "note": "Unique ids are accepted and rejected tables are not unique; duplicated ids can be accepted (violation proved)."
  },
  {
   "property": "C57",
   "status": "proved",
   "theorems": [
    "Verif.Boundary.C57_region_based_exact"
   ],
   "note": ""
  },
  {
   "property": "C58",
   "status": "partial",
   "theorems": [
    "Verif.Euler.C58_gravity_off_partial",
    "Verif.Euler.C58_violated"
   ],
   "note": "Holds when the density difference vanishes; in general violated (witness proved)."
  },
  {
   "property": "C59",
   "status": "partial",
   "theorems": [
    "Verif.Euler.C59_upstream",
    "Verif.Euler.C59_capillary",
    "Verif.Euler.C59_capillary_outer",
    "Verif.Euler.C59_gravity_partial",
    "Verif.Euler.C59_violated_countercurrent",
    "Verif.Euler.C59_violated_orientation"
   ],
   "note": "Viscous case in full; with gravity proved when the total flux leaves the visited cell; countercurrent violation and orientation dependence proved."
  },
  {
   "property": "C60",
   "status": "proved",
   "theorems": [
    "Verif.FracFlow.C60_constant_velocity",
    "Verif.FracFlow.C60_order",
    "Verif.FracFlow.C60_partition",
    "Verif.FracFlow.C60_simple_interface"
   ],
   "note": ""
  },
  {
   "property": "C61",
   "status": "proved",
   "theorems": [
    "Verif.Implicit.C61_jacobian"
   ],
   "note": "For cells whose saturation is strictly inside its limits (the clamping of initIteration is not differentiated) and grids without self-connections."
  },
  {
   "property": "C62",
   "status": "proved",
   "theorems": [
    "Verif.Implicit.C62_half_faces",
    "Verif.Implicit.C62_gravity",
    "Verif.Implicit.C62_boundary",
    "Verif.Implicit.C62_trans"
   ],
   "note": ""
  },
  {
   "property": "C63",
   "status": "partial",
   "theorems": [
    "Verif.Implicit.C63_periodic_partial",
    "Verif.Implicit.C63_violated_periodic"
   ],
   "note": "Holds when the half-face transmissibilities of the partner faces agree; the violation otherwise is proved. The periodic grid modification itself (makeQPeriodic) is in opm-grid and is modelled by its effect."
  },
  {
   "property": "C64",
   "status": "proved",
   "theorems": [
    "Verif.Control.C64_pressure_drops",
    "Verif.Control.C64_saturations",
    "Verif.Control.C64_stops",
    "Verif.Control.C64_limits_idempotent",
    "Verif.Control.C64_limits"
   ],
   "note": ""
  },
  {
   "property": "C65",
   "status": "partial",
   "theorems": [
    "Verif.Chopper.C65_geometry_partial",
    "Verif.Chopper.C65_vertical",
    "Verif.Chopper.C65_violated_slanted_reset"
   ],
   "note": "Holds without moving the origin and for vertical pillars; violated for slanted pillars with the origin moved."
  },
  {
   "property": "C66",
   "status": "partial",
   "theorems": [
    "Verif.RelPerm.C66_covers_partial",
    "Verif.RelPerm.C66_tight",
    "Verif.RelPerm.C66_endpoints_partial",
    "Verif.RelPerm.C66_violated",
    "Verif.RelPerm.C66_computed"
   ],
   "note": "Without gravity, or with heads balanced around zero. Violated otherwise (the range is shifted the wrong way)."
  },
  {
   "property": "C67",
   "status": "partial",
   "theorems": [
    "Verif.RelPerm.C67_head_partial",
    "Verif.RelPerm.C67_violated_inactive",
    "Verif.RelPerm.C67_thickness"
   ],
   "note": "Without inactive cells. Violated with inactive cells (heads stored by grid index, read by deck index). Thickness for every grid."
  },
  {
   "property": "C68",
   "status": "proved",
   "theorems": [
    "Verif.RelPerm.C68_mean",
    "Verif.RelPerm.C68_defined",
    "Verif.RelPerm.C68_bounds",
    "Verif.RelPerm.C68_antitone",
    "Verif.RelPerm.C68_pressurePoints"
   ],
   "note": "Mean, definedness, bounds, monotonicity, pressure points. A single point is undefined (0/0) in the code and excluded."
  },
  {
   "property": "C69",
   "status": "proved",
   "theorems": [
    "Verif.RelPerm.C69_full",
    "Verif.RelPerm.C69_diagonal",
    "Verif.RelPerm.C69_identity",
    "Verif.RelPerm.C69_endpoints",
    "Verif.RelPerm.C69_violated_offdiagonal"
   ],
   "note": "For every inverse of the single phase tensor (the LAPACK inversion is assumed). Deviation proved: off-diagonal end values are zeroed."
  },
  {
   "property": "C70",
   "status": "proved",
   "theorems": [
    "Verif.RelPerm.C70_checkCurve"
   ],
   "note": "For monotone non-empty curves; the interpolation library itself is not modelled."
  },
  {
   "property": "C71",
   "status": "partial",
   "theorems": [
    "Verif.SteadyChain.C71_relperm",
    "Verif.SteadyChain.C71_violated_zz",
    "Verif.Steady.C71_mobility",
    "Verif.Steady.C71_contrast",
    "Verif.Steady.C71_relperm_partial",
    "Verif.Steady.C71_identity"
   ],
   "note": "Proved for positive definite single phase permeabilities (C71_relperm) and for all invertible ones whose zz element is not zero (C71_relperm_partial); violated otherwise (C71_violated_zz)."
  },
  {
   "property": "C72",
   "status": "proved",
   "theorems": [
    "Verif.Shape.C72_legendre",
    "Verif.Shape.C72_lobatto_newton",
    "Verif.Shape.C72_gauss_eigenvalues",
    "Verif.Shape.C72_violated_degree_zero"
   ],
   "note": "Over the reals. Degree 0 is undefined in the code (C72_violated_degree_zero)."
  },
  {
   "property": "C73",
   "status": "proved",
   "theorems": [
    "Verif.Elastic.C73_mean",
    "Verif.Elastic.C73_loadcase",
    "Verif.Elastic.C73_homogeneous",
    "Verif.Elastic.C73_scaled",
    "Verif.Elastic.C73_effective",
    "Verif.Elastic.C73_violated_stale"
   ],
   "note": "For materials that write the whole matrix (isotropic, general symmetric); equilibrium is assumed as orthogonality of the displacements to the residual forces. C73_violated_stale for OrthotropicD."
  },
  {
   "property": "C74",
   "status": "partial",
   "theorems": [
    "Verif.Elastic.C74_lm",
    "Verif.Elastic.C74_km",
    "Verif.Elastic.C74_deck_lm",
    "Verif.Elastic.C74_deck_km",
    "Verif.Elastic.C74_deck_en",
    "Verif.Elastic.C74_deck_other",
    "Verif.Elastic.C74_cells",
    "Verif.Elastic.C74_fractions",
    "Verif.Elastic.C74_satnum",
    "Verif.Elastic.C74_density_partial",
    "Verif.Elastic.C74_violated_density",
    "Verif.Elastic.C74_violated_ratio",
    "Verif.Elastic.C74_violated_region_zero",
    "Verif.Elastic.C74_rocks",
    "Verif.Elastic.C74_rock_scale",
    "Verif.Elastic.C74_violated_cast"
   ],
   "note": "C74_density_partial: what the code computes, off by 1/volume. Violations: density, ratio >= 1/2 or negative porosity, region 0, cast of anisotropic rocks."
  },
  {
   "property": "C75",
   "status": "proved",
   "theorems": [
    "Verif.Hybrid.C75_symmetric",
    "Verif.Hybrid.C75_definite",
    "Verif.Hybrid.C75_solvable"
   ],
   "note": "Exact arithmetic; the iterative solver itself is not modelled."
  },
  {
   "property": "C76",
   "status": "partial",
   "theorems": [
    "Verif.Asm.C76_forms",
    "Verif.Asm.C76_equilibrium_partial",
    "Verif.Asm.C76_violated_prescribed",
    "Verif.Asm.C76_pattern"
   ],
   "note": "C76_equilibrium_partial needs zero prescribed values, C76_violated_prescribed shows why; C76_forms and C76_pattern need no such condition."
  },
  {
   "property": "C77",
   "status": "partial",
   "theorems": [
    "Verif.BGrid.C77_inverse_partial",
    "Verif.BGrid.C77_find",
    "Verif.BGrid.C77_found",
    "Verif.BGrid.C77_boxes",
    "Verif.BGrid.C77_located_partial",
    "Verif.BGrid.C77_violated_outside"
   ],
   "note": "C77_inverse_partial needs counterclockwise quads whose lower and upper edges go in the positive first direction and quantities clear of the tolerances; C77_violated_outside shows that a quad not containing the point may be returned."
  },
  {
   "property": "C78",
   "status": "proved",
   "theorems": [
    "Verif.BGrid.C78_corners",
    "Verif.BGrid.C78_none",
    "Verif.BGrid.C78_unique",
    "Verif.BGrid.C78_shape"
   ],
   "note": ""
  },
  {
   "property": "C79",
   "status": "proved",
   "theorems": [
    "Verif.BGrid.C79_partition",
    "Verif.BGrid.C79_columns"
   ],
   "note": ""
  },
  {
   "property": "C80",
   "status": "partial",
   "theorems": [
    "Verif.BGrid.C80_extent_partial",
    "Verif.BGrid.C80_violated"
   ],
   "note": "C80_extent_partial needs some coordinate below 1e5 and some above -1e5; C80_violated shows why."
  },
  {
   "property": "C81",
   "status": "partial",
   "theorems": [
    "Verif.BGrid.C81_weights",
    "Verif.BGrid.C81_rigid",
    "Verif.BGrid.C81_affine_partial",
    "Verif.BGrid.C81_violated_small"
   ],
   "note": "C81_weights and C81_rigid hold for every coupling that is made; C81_affine_partial needs coefficients clear of the tolerances (as C45); C81_violated_small shows that the error is not small otherwise."
  },
  {
   "property": "C82",
   "status": "proved",
   "theorems": [
    "Verif.BGrid.C82_numbering",
    "Verif.BGrid.C82_violated_single"
   ],
   "note": "C82_numbering holds from two elements on; C82_violated_single: one element is undefined behaviour."
  },
  {
   "property": "C83",
   "status": "partial",
   "theorems": [
    "Verif.Asm.C83_coupling_partial",
    "Verif.Asm.C83_columns",
    "Verif.Asm.C83_pattern",
    "Verif.Asm.C83_violated"
   ],
   "note": "C83_coupling_partial needs constraints with coefficient one, C83_violated shows why; C83_pattern and C83_columns need no condition."
  },
  {
   "property": "C84",
   "status": "proved",
   "theorems": [
    "Verif.Reservoir.C84_legacy"
   ],
   "note": "Every deck, kind and cell."
  },
  {
   "property": "C85",
   "status": "proved",
   "theorems": [
    "Verif.Reservoir.C85_uniform",
    "Verif.Reservoir.C85_violated_unset"
   ],
   "note": "Cell data set by the uniform initialization; members that are not set: C85_violated_unset."
  },
  {
   "property": "C86",
   "status": "proved",
   "theorems": [
    "Verif.Capillary.C86_conserves",
    "Verif.Capillary.C86_range"
   ],
   "note": "Average and range after the update; the pressure solver and the root finder are parameters. The final check/clamp is the one of C13."
  },
  {
   "property": "C87",
   "status": "proved",
   "theorems": [
    "Verif.Capillary.C87_mobility"
   ],
   "note": "Scalar mobilities only."
  },
  {
   "property": "C88",
   "status": "partial",
   "theorems": [
    "Verif.RelPerm.C88_increasing",
    "Verif.RelPerm.C88_sound",
    "Verif.RelPerm.C88_covers",
    "Verif.RelPerm.C88_resolved",
    "Verif.RelPerm.C88_point",
    "Verif.RelPerm.C88_violated_empty",
    "Verif.RelPerm.C88_terminates",
    "Verif.RelPerm.C88_sampling"
   ],
   "note": "Soundness, coverage, resolution and termination (uniform continuity) of the loop; the library's getMissingX is specified as the midpoint of the largest gap. NaN pressures, chopFlatEndpoints and the final monotonicity check (library) are not modelled. Negation proved for equal end saturations."
  },
  {
   "property": "C89",
   "status": "proved",
   "theorems": [
    "Verif.SinglePhase.C89_homogeneous",
    "Verif.SinglePhase.C89_homogeneous_fixed",
    "Verif.SinglePhase.C89_single_phase"
   ],
   "note": "End to end: numbering, boundary setup, assembly, post-processing and averaging are the functions modelled for C04-C39 composed; the linear solver and orthogonalizeColumns enter by their specifications. twodim_hack_ off."
  },
  {
   "property": "C90",
   "status": "proved",
   "theorems": [
    "Verif.SinglePhase.C90_bounds",
    "Verif.SinglePhase.C90_parallel",
    "Verif.SinglePhase.C90_series",
    "Verif.SinglePhase.C90_single_phase"
   ],
   "note": "Variational bounds for the model of the whole computation (fixed conditions)."
  },
  {
   "property": "C91",
   "status": "proved",
   "theorems": [
    "Verif.SinglePhase.C91_parallel",
    "Verif.SinglePhase.C91_series",
    "Verif.SinglePhase.C91_bounds",
    "Verif.SinglePhase.C91_single_phase"
   ],
   "note": "Variational bounds for the model of the whole computation (periodic conditions)."
  },
  {
   "property": "C92",
   "status": "proved",
   "theorems": [
    "Verif.SinglePhase.C92_scaling",
    "Verif.SinglePhase.C92_monotone_fixed",
    "Verif.SinglePhase.C92_monotone_periodic",
    "Verif.SinglePhase.C92_parts_fixed",
    "Verif.SinglePhase.C92_parts_periodic"
   ],
   "note": "Scaling for all boundary conditions; monotonicity for fixed and periodic ones."
  },
  {
   "property": "C93",
   "status": "partial",
   "theorems": [
    "Verif.SinglePhase.C93_gravity_fixed",
    "Verif.SinglePhase.C93_gravity",
    "Verif.SinglePhase.C93_violated",
    "Verif.SinglePhase.C93_partial"
   ],
   "note": "Negation proved with a concrete input; exact formulas for the influence of gravity. What holds: rows without vertical coupling."
  },
  {
   "property": "C94",
   "status": "proved",
   "theorems": [
    "Verif.ElasticUp.C94_ties",
    "Verif.ElasticUp.C94_stiffness",
    "Verif.ElasticUp.C94_bounds"
   ],
   "note": "Model of the whole computation for constraints by elimination (method mpc): C39, C42, C49, C73, C76 composed; the linear solver enters by its specification."
  },
  {
   "property": "C95",
   "status": "proved",
   "theorems": [
    "Verif.ElasticUp.C95_monotone",
    "Verif.ElasticUp.C95_independent",
    "Verif.ElasticUp.C95_factor"
   ],
   "note": "From the energy characterisation of C94."
  },
  {
   "property": "C96",
   "status": "proved",
   "theorems": [
    "Verif.ElasticUp.C96_mean",
    "Verif.ElasticUp.C96_lower",
    "Verif.ElasticUp.C96_homogeneous",
    "Verif.ElasticUp.C96_definite"
   ],
   "note": "Divergence theorem for trilinear hexahedra proved by polynomial identities; the quadrature rule is any rule exact for products of quadratic functions (proved for the 2x2x2 Gauss rule)."
  },
  {
   "property": "C97",
   "status": "partial",
   "theorems": [
    "Verif.ElasticUp.C97_report",
    "Verif.ElasticUp.C97_faithful_partial",
    "Verif.ElasticUp.C97_violated_units",
    "Verif.ElasticUp.C97_violated_definite"
   ],
   "note": "Proved: order and symmetry; equality with the upscaled matrix only if no entry is small. Violations by concrete samples."
  },
  {
   "property": "C98",
   "status": "partial",
   "theorems": [
    "Verif.Asm.C98_norace_partial",
    "Verif.Asm.C98_schedule_partial",
    "Verif.Asm.C98_ends",
    "Verif.Asm.C98_violated_collapsed",
    "Verif.Asm.C98_violated_tilted"
   ],
   "note": "Threads interleave loads and stores in any order; invariant: memory plus outstanding additions is constant. Holds for logically Cartesian grids with matching constraints; violated (lost update) by two concrete grids."
  },
  {
   "property": "C99",
   "status": "partial",
   "theorems": [
    "Verif.PBC.C99_constraints",
    "Verif.PBC.C99_periodic",
    "Verif.PBC.C99_sound",
    "Verif.PBC.C99_torus",
    "Verif.PBC.C99_homogeneous",
    "Verif.PBC.C99_box",
    "Verif.PBC.C99_violated_small"
   ],
   "note": "Proved for meshes whose cell sides on the boundary exceed the limit of the boundary grid (1e-7 square units) and whose nodes are clear of the tolerances; C99_violated_small shows the failure below the limit."
  },
  {
   "property": "C100",
   "status": "partial",
   "theorems": [
    "Verif.Stat.C100_report_partial",
    "Verif.Stat.C100_rocktypes_partial",
    "Verif.Stat.C100_porosity_partial",
    "Verif.Stat.C100_order_partial",
    "Verif.Stat.C100_violated_small",
    "Verif.Stat.C100_violated_single"
   ],
   "note": "Proved for decks whose arrays have the length of the grid and whose cells are either absent or larger than the absolute volume limit 1e-10; C100_violated_small and C100_violated_single show what happens otherwise."
  },
  {
   "property": "C101",
   "status": "partial",
   "theorems": [
    "Verif.Cmd.C101_accepts",
    "Verif.Cmd.C101_only",
    "Verif.Cmd.C101_unknown",
    "Verif.Cmd.C101_file",
    "Verif.Cmd.C101_noargs",
    "Verif.Cmd.C101_violated_value",
    "Verif.Cmd.C101_violated_file",
    "Verif.Cmd.C101_perm",
    "Verif.Cmd.C101_violated_unknown",
    "Verif.Cmd.C101_rocks",
    "Verif.Cmd.C101_rockpairs",
    "Verif.Cmd.C101_conditions"
   ],
   "note": "Accepted lines, their meaning and the rejection of all others are proved for the programs with rock files; the lines with undefined behaviour are characterised exactly (an option in the last place). Violated there, and for upscale_avg and upscale_perm as the violated theorems say."
  },
  {
   "property": "C102",
   "status": "partial",
   "theorems": [
    "Verif.Cap.C102_table",
    "Verif.Cap.C102_rocks",
    "Verif.Cap.C102_uniform",
    "Verif.Cap.C102_interpolated",
    "Verif.Cap.C102_violated_points",
    "Verif.Cap.C102_ends",
    "Verif.Cap.C102_violated_thin"
   ],
   "note": "Proved for all meaningful inputs (Spec.Cap.Good: values in range, falling curves constant outside their points, cells above the absolute limit); termination over the reals with continuous curves. Violated for cells below 1e-10 and for -points 1."
  },
  {
   "property": "C103",
   "status": "proved",
   "theorems": [
    "Verif.Pattern.C103_structure",
    "Verif.Pattern.C103_assembly",
    "Verif.Pattern.C103_numbering"
   ],
   "note": "Proved for every numbering that fits together (Spec.Pattern.Good), and C103_numbering shows that the numbering of C39 does."
  },
  {
   "property": "C104",
   "status": "partial",
   "theorems": [
    "Verif.ImplicitSetup.C104_lists",
    "Verif.ImplicitSetup.C104_sources",
    "Verif.ImplicitSetup.C104_table",
    "Verif.ImplicitSetup.C104_violated_thin"
   ],
   "note": "Proved when the two descriptions of the grid agree, identifiers are unique and partners lie in different cells. Violated for samples one cell thick. makeQPeriodic belongs to another library and is assumed to enter the missing cell."
  },
  {
   "property": "C105",
   "status": "partial",
   "theorems": [
    "Verif.QuadGeo.C105_map",
    "Verif.QuadGeo.C105_jacobian",
    "Verif.QuadGeo.C105_area",
    "Verif.QuadGeo.C105_injective",
    "Verif.QuadGeo.C105_local",
    "Verif.QuadGeo.C105_residual",
    "Verif.QuadGeo.C105_parallelogram",
    "Verif.QuadGeo.C105_coupling",
    "Verif.QuadGeo.C105_coupling_defined",
    "Verif.QuadGeo.C105_corners",
    "Verif.QuadGeo.C105_violated_volume",
    "Verif.QuadGeo.C105_volume_rectangle",
    "Verif.QuadGeo.C105_violated_endless",
    "Verif.QuadGeo.C105_violated_offset"
   ],
   "note": "Proved, the inversion for all points of strictly convex quads (global convergence of Newton's method from the centre). Violated: volume() of quads that are not rectangles; endless loop for points outside; assertion for multiplier grids that start below zero. center() cannot be instantiated."
  },
  {
   "property": "C106",
   "status": "partial",
   "theorems": [
    "Verif.Euler.C106_gravity_partial",
    "Verif.Euler.C106_capillary",
    "Verif.Euler.C106_maximum_principle_partial",
    "Verif.Euler.C106_maximum_principle_balanced_partial",
    "Verif.Euler.C106_violated_inflow",
    "Verif.Euler.C106_violated_curves",
    "Verif.Euler.C106_violated_periodic",
    "Verif.Euler.C106_violated_boundary",
    "Verif.Euler.C106_violated_orientation"
   ],
   "note": "Limits proved (gravity and capillary: equal permeabilities across periodic faces); maximum principle for viscous and gravity transport at Courant number 1/2 proved under the conditions named, each shown necessary by a witness."
  },
  {
   "property": "C107",
   "status": "partial",
   "theorems": [
    "Verif.RockTables.C107_table_partial",
    "Verif.RockTables.C107_result",
    "Verif.RockTables.C107_garbage",
    "Verif.RockTables.C107_aniso_partial",
    "Verif.RockTables.C107_pair",
    "Verif.RockTables.C107_list_partial",
    "Verif.RockTables.C107_directory",
    "Verif.RockTables.C107_words",
    "Verif.RockTables.C107_violated_minus",
    "Verif.RockTables.C107_violated_cut",
    "Verif.RockTables.C107_violated_empty",
    "Verif.RockTables.C107_violated_short",
    "Verif.RockTables.C107_violated_blank"
   ],
   "note": "Proved for well-formed input, with the invariants of every result; five violations for malformed input proved as general statements."
  },
  {
   "property": "C108",
   "status": "partial",
   "theorems": [
    "Verif.SolverControl.C108_outcome",
    "Verif.SolverControl.C108_current",
    "Verif.SolverControl.C108_preconditioner",
    "Verif.SolverControl.C108_solution_partial",
    "Verif.SolverControl.C108_solvable",
    "Verif.SolverControl.C108_guess",
    "Verif.SolverControl.C108_upscaler",
    "Verif.SolverControl.C108_violated_singular",
    "Verif.SolverControl.C108_violated_unbalanced",
    "Verif.SolverControl.C108_violated_first",
    "Verif.SolverControl.C108_violated_size"
   ],
   "note": "Proved for all histories; pressures under reuse without prescribed pressures only up to a constant; the violations are proved. The iterations of the linear solver are not modelled."
  },
  {
   "property": "C109",
   "status": "partial",
   "theorems": [
    "Verif.CapStep.C109_uniform",
    "Verif.CapStep.C109_balance",
    "Verif.CapStep.C109_mobilities",
    "Verif.CapStep.C109_fixed_partial",
    "Verif.CapStep.C109_result",
    "Verif.CapStep.C109_violated_pressure"
   ],
   "note": "Proved for closed and periodic domains and scalar mobilities; the violation with prescribed pressures is proved. Linear solver and root finder by their results."
  },
  {
   "property": "C110",
   "status": "proved",
   "theorems": [
    "Verif.NewtonVec.C110_refines",
    "Verif.NewtonVec.C110_history",
    "Verif.NewtonVec.C110_block",
    "Verif.NewtonVec.C110_norms",
    "Verif.NewtonVec.C110_residual",
    "Verif.NewtonVec.C110_linear",
    "Verif.NewtonVec.C110_violated_linear_solver"
   ],
   "note": "Refinement of the abstract Newton driver proved at the level of the vectors. That failure of the linear solver is ignored is proved as a violation; the linear solver itself is a parameter."
  },
  {
   "property": "C111",
   "status": "partial",
   "theorems": [
    "Verif.Resist.C111_check",
    "Verif.Resist.C111_accepted",
    "Verif.Resist.C111_violated_small_perm",
    "Verif.Resist.C111_resistivity",
    "Verif.Resist.C111_monotone",
    "Verif.Resist.C111_point",
    "Verif.Resist.C111_saturation",
    "Verif.Resist.C111_sampling",
    "Verif.Resist.C111_range",
    "Verif.Resist.C111_range_sane",
    "Verif.Resist.C111_wanted",
    "Verif.Resist.C111_violated_one_point",
    "Verif.Resist.C111_ranks",
    "Verif.Resist.C111_lines",
    "Verif.Resist.C111_interpolated",
    "Verif.Resist.C111_fixed",
    "Verif.Resist.C111_uniform"
   ],
   "note": "proved: check of the input, Archie resistivity with cutoff and monotonicity, conductivities and saturation of a point, capillary pressure range, sampling, evenly spaced points, independence of the number of processes for every interleaving, output with and without interpolation, bounds of the upscaled tensor (fixed) and uniform samples; violated: positive permeabilities below the minimum are not raised although the comment says so; a single saturation point divides by zero."
  },
  {
   "property": "C112",
   "status": "partial",
   "theorems": [
    "Verif.Subsample.C112_box",
    "Verif.Subsample.C112_depth_partial",
    "Verif.Subsample.C112_whole",
    "Verif.Subsample.C112_limits",
    "Verif.Subsample.C112_violated_start",
    "Verif.Subsample.C112_violated_depth",
    "Verif.Subsample.C112_violated_length",
    "Verif.Subsample.C112_table_partial",
    "Verif.Subsample.C112_lines",
    "Verif.Subsample.C112_fractions",
    "Verif.Subsample.C112_saturations",
    "Verif.Subsample.C112_pressures",
    "Verif.Subsample.C112_violated_rows",
    "Verif.Subsample.C112_violated_history",
    "Verif.Subsample.C112_violated_ntg",
    "Verif.Subsample.C112_violated_norock",
    "Verif.Subsample.C112_dip",
    "Verif.Subsample.C112_azimuth_partial",
    "Verif.Subsample.C112_azimuth_axis",
    "Verif.Subsample.C112_violated_azimuth"
   ],
   "note": "proved: position and size of the box, header and lines of the table for runs in which a subsample throws in its first part or not at all and the pressure range is that of the whole run, fractions, saturations, pressures, dip and azimuth; violated: no random start ignores imin and jmin; the depth may be exceeded by a millionth; a length above the range is undefined behaviour; lines mix subsamples after an exception in a later part; the pressure range is that of all subsamples so far; endpoints without upscaling read empty vectors with NTG; cells without rock write in front of a vector; opposite dips have the same azimuth."
  },
  {
   "property": "C113",
   "status": "partial",
   "theorems": [
    "Verif.Evaluator.C113_ready",
    "Verif.Evaluator.C113_build",
    "Verif.Evaluator.C113_evaluate",
    "Verif.Evaluator.C113_history",
    "Verif.Evaluator.C113_aniso",
    "Verif.Evaluator.C113_aniso_build",
    "Verif.Evaluator.C113_violated_other_cell",
    "Verif.Evaluator.C113_violated_rock"
   ],
   "note": "proved: refinement of the storage by the formulas of C36 for all histories; violated: the dynamic numbers belong to the object, so a call for another cell in between changes the result; with tensor mobilities the rock of the last call is used for all cells. orthogonalizeColumns (QR of LAPACK) is a parameter."
  },
  {
   "property": "C114",
   "status": "partial",
   "theorems": [
    "Verif.Visc.C114_check",
    "Verif.Visc.C114_check_passes",
    "Verif.Visc.C114_volumes",
    "Verif.Visc.C114_mean",
    "Verif.Visc.C114_bounds",
    "Verif.Visc.C114_monotone",
    "Verif.Visc.C114_ends",
    "Verif.Visc.C114_table",
    "Verif.Visc.C114_interval",
    "Verif.Visc.C114_equal_ratio",
    "Verif.Visc.C114_range",
    "Verif.Visc.C114_samples",
    "Verif.Visc.C114_points",
    "Verif.Visc.C114_violated_one_point",
    "Verif.Visc.C114_values",
    "Verif.Visc.C114_contrast",
    "Verif.Visc.C114_single_contrast",
    "Verif.Visc.C114_violated_single_contrast",
    "Verif.Visc.C114_samples_end",
    "Verif.Visc.C114_row",
    "Verif.Visc.C114_lines",
    "Verif.Visc.C114_violated_dry",
    "Verif.Visc.C114_interp",
    "Verif.Visc.C114_violated_interp",
    "Verif.Visc.C114_violated_z"
   ],
   "note": "Violated in parts: the saturations for the z direction come from the ratios in y direction (C114_violated_z); a table whose first saturation is zero is cut after one line (C114_violated_dry); the interpolated output shows saturations in the column of ratios (C114_violated_interp); with PERMY and PERMZ the single phase contrast is not limited (C114_violated_single_contrast); one point is zero divided by zero (C114_violated_one_point). The remaining statements are proved."
  },
  {
   "property": "C115",
   "status": "proved",
   "theorems": [
    "Verif.VGather.C115_owner",
    "Verif.VGather.C115_gathered",
    "Verif.VGather.C115_no_deadlock",
    "Verif.VGather.C115_terminates",
    "Verif.VGather.C115_completes"
   ],
   "note": "proved: invariant over all interleavings; order of messages of one sender and point-to-point delivery as MPI promises."
  },
  {
   "property": "C116",
   "status": "partial",
   "theorems": [
    "Verif.RockStore.C116_history",
    "Verif.RockStore.C116_same",
    "Verif.RockStore.C116_violated_sizes"
   ],
   "note": "violated: arrays of the wrong size are accepted (the class of reservoir properties refuses them). Everything else proved for all histories by refinement."
  },
  {
   "property": "C117",
   "status": "proved",
   "theorems": [
    "Verif.TransportDefs.C117_permeability",
    "Verif.TransportDefs.C117_porevolume",
    "Verif.TransportDefs.C117_sources",
    "Verif.TransportDefs.C117_state",
    "Verif.TransportDefs.C117_fixed",
    "Verif.TransportDefs.C117_densities"
   ],
   "note": "proved."
  },
  {
   "property": "C118",
   "status": "partial",
   "theorems": [
    "Verif.DepthTrend.C118_fits",
    "Verif.DepthTrend.C118_defaults",
    "Verif.DepthTrend.C118_trend_partial",
    "Verif.DepthTrend.C118_no_rock",
    "Verif.DepthTrend.C118_violated_deep",
    "Verif.DepthTrend.C118_violated_forever",
    "Verif.DepthTrend.C118_violated_zmin"
   ],
   "note": "proved: which options are accepted, the defaults, the depths from 0, the sub-boxes, the table. violated: the depths begin at 0 and not at zmin; a grid that begins deeper than the height of a subsample never gives a table; a step of zero never ends."
  },
  {
   "property": "C119",
   "status": "partial",
   "theorems": [
    "Verif.Variogram.C119_pair_partial",
    "Verif.Variogram.C119_refused",
    "Verif.Variogram.C119_table",
    "Verif.Variogram.C119_all_or_nothing",
    "Verif.Variogram.C119_cut",
    "Verif.Variogram.C119_violated_direction",
    "Verif.Variogram.C119_violated_zmax"
   ],
   "note": "proved: which options are accepted, where the pairs lie, the table, no table if one subsample fails. violated: an unknown direction means horizontal; subsamples higher than the given depth interval reach below zmax."
  },
  {
   "property": "C120",
   "status": "partial",
   "theorems": [
    "Verif.Dips.C120_list",
    "Verif.Dips.C120_averages_partial",
    "Verif.Dips.C120_between",
    "Verif.Dips.C120_violated_empty",
    "Verif.Dips.C120_unweighted"
   ],
   "note": "proved: list, counts, averages and their bounds if a cell is listed. violated: if no cell is above the limit the averages are 0/0."
  },
  {
   "property": "C121",
   "status": "partial",
   "theorems": [
    "Verif.Regularize.C121_columns_partial",
    "Verif.Regularize.C121_layers",
    "Verif.Regularize.C121_violated_never",
    "Verif.Regularize.C121_violated_lower",
    "Verif.Regularize.C121_violated_upper",
    "Verif.Regularize.C121_violated_finer",
    "Verif.Regularize.C121_violated_zero",
    "Verif.Regularize.C121_violated_written",
    "Verif.Regularize.C121_violated_aborts",
    "Verif.Regularize.C121_zcorn_partial",
    "Verif.Regularize.C121_violated_depth"
   ],
   "note": "proved: columns for the whole width and a resolution that is not finer than the grid; layers. violated: an exception is thrown for every coarse cell, so no grid with cells is ever written; lower limits have no effect; upper limits give empty or inverted columns; resolution zero divides by zero; pillars ignore the origin of the grid."
  },
  {
   "property": "C122",
   "status": "partial",
   "theorems": [
    "Verif.UInit.C122_supported",
    "Verif.UInit.C122_user",
    "Verif.UInit.C122_same",
    "Verif.UInit.C122_deck",
    "Verif.UInit.C122_rock",
    "Verif.UInit.C122_box",
    "Verif.UInit.C122_throws",
    "Verif.UInit.C122_control",
    "Verif.UInit.C122_steady",
    "Verif.UInit.C122_violated_again",
    "Verif.UInit.C122_violated_memory",
    "Verif.UInit.C122_violated_ecl",
    "Verif.UInit.C122_violated_override",
    "Verif.UInit.C122_violated_type",
    "Verif.UInit.C122_violated_cfl"
   ],
   "note": "proved: support, agreement of both ways, values, defaults, exceptions. violated: a second initialisation multiplies step sizes that are not given by 86400 and 31536000; values of an earlier initialisation are used; the user can overrule the support without an error; any type number is accepted; ECL output always throws for decks; stability factors on boxes use default viscosities."
  },
  {
   "property": "C123",
   "status": "partial",
   "theorems": [
    "Verif.PermTool.C123_each",
    "Verif.PermTool.C123_layout",
    "Verif.PermTool.C123_usage",
    "Verif.PermTool.C123_runs",
    "Verif.PermTool.C123_order",
    "Verif.PermTool.C123_porosity",
    "Verif.PermTool.C123_violated_linear",
    "Verif.PermTool.C123_violated_porosity",
    "Verif.PermTool.C123_type"
   ],
   "note": "proved: each condition with its own type, ids and grid; fixed and periodic independent of the others; layout, file, usage, order. violated: linear results depend on whether fixed ones are named too, since the grid is then not cut; the porosity depends on the conditions named."
  },
  {
   "property": "C124",
   "status": "partial",
   "theorems": [
    "Verif.SimSetup.C124_pressures",
    "Verif.SimSetup.C124_fluxes",
    "Verif.SimSetup.C124_upscaling",
    "Verif.SimSetup.C124_upscaling_refused",
    "Verif.SimSetup.C124_region",
    "Verif.SimSetup.C124_refused",
    "Verif.SimSetup.C124_saturation",
    "Verif.SimSetup.C124_init",
    "Verif.SimSetup.C124_violated_again",
    "Verif.SimSetup.C124_violated_range",
    "Verif.SimSetup.C124_violated_stale"
   ],
   "note": "proved: conditions for each switch, refused input, saturations, first set-up. violated: a second set-up multiplies the step length by 86400 and keeps conditions of the first; saturations outside [0, 1] are accepted."
  },
  {
   "property": "C125",
   "status": "partial",
   "theorems": [
    "Verif.RelPermOut.C125_isotropic_both",
    "Verif.RelPermOut.C125_isotropic_one",
    "Verif.RelPermOut.C125_anisotropic",
    "Verif.RelPermOut.C125_accepted",
    "Verif.RelPermOut.C125_count",
    "Verif.RelPermOut.C125_violated_message",
    "Verif.RelPermOut.C125_option"
   ],
   "note": "proved: columns for all modes, one entry for each type in order, exact condition of acceptance. violated: a wrong column of the relative permeability ends the program without a message, a wrong capillary column gives one."
  },
  {
   "property": "C126",
   "status": "partial",
   "theorems": [
    "Verif.RelPermOut.C126_table",
    "Verif.RelPermOut.C126_interpolated",
    "Verif.RelPermOut.C126_eclipse",
    "Verif.RelPermOut.C126_names",
    "Verif.RelPermOut.C126_violated_path",
    "Verif.RelPermOut.C126_violated_krow",
    "Verif.RelPermOut.C126_violated_one"
   ],
   "note": "proved: rows, columns, interpolated grid, files, names for paths with one extension or none. violated: names are wrong if a directory has a dot; krow?swirr changes oil-water tables; one point is ignored."
  },
  {
   "property": "C127",
   "status": "partial",
   "theorems": [
    "Verif.SteadyTool.C127_rocks",
    "Verif.SteadyTool.C127_rocknumbers",
    "Verif.SteadyTool.C127_limits",
    "Verif.SteadyTool.C127_bounds",
    "Verif.SteadyTool.C127_sampling",
    "Verif.SteadyTool.C127_start",
    "Verif.SteadyTool.C127_usage",
    "Verif.SteadyTool.C127_violated_results",
    "Verif.SteadyTool.C127_violated_grid",
    "Verif.SteadyTool.C127_violated_aniso",
    "Verif.SteadyTool.C127_violated_endless",
    "Verif.SteadyTool.C127_violated_directory"
   ],
   "note": "proved: limits of the saturation and their bounds, ranges, order, start values, exact condition for the usage. violated: relative permeabilities are written nowhere; the grid named is not used unless fileformat is given; anisotropicrocks has no effect; a short rock list is read for ever; rock files are looked for in two places."
  },
  {
   "property": "C128",
   "status": "partial",
   "theorems": [
    "Verif.Wave.C128_direction",
    "Verif.Wave.C128_christoffel",
    "Verif.Wave.C128_speeds",
    "Verif.Wave.C128_isotropic",
    "Verif.Wave.C128_opposite",
    "Verif.Wave.C128_real",
    "Verif.Wave.C128_positive",
    "Verif.Wave.C128_driver",
    "Verif.Wave.C128_violated_density",
    "Verif.Wave.C128_violated_order"
   ],
   "note": "waveSpeeds itself: all proved. The driver: speeds are computed before rows and columns are brought into Voigt order and with density 1 (C128_violated_order, C128_violated_density); C128_driver gives the exact relation where the order does not matter."
  },
  {
   "property": "C129",
   "status": "partial",
   "theorems": [
    "Verif.ElasticTool.C129_parameters",
    "Verif.ElasticTool.C129_linsolver",
    "Verif.ElasticTool.C129_words",
    "Verif.ElasticTool.C129_method",
    "Verif.ElasticTool.C129_violated_method",
    "Verif.ElasticTool.C129_box",
    "Verif.ElasticTool.C129_violated_fraction",
    "Verif.ElasticTool.C129_violated_missing",
    "Verif.ElasticTool.C129_violated_overwritten",
    "Verif.ElasticTool.C129_source",
    "Verif.ElasticTool.C129_violated_min",
    "Verif.ElasticTool.C129_preconditioner",
    "Verif.ElasticTool.C129_announced",
    "Verif.ElasticTool.C129_violated_heuristic",
    "Verif.ElasticTool.C129_violated_announced",
    "Verif.ElasticTool.C129_violated_mortar_precond",
    "Verif.ElasticTool.C129_layers",
    "Verif.ElasticTool.C129_cases",
    "Verif.ElasticTool.C129_mesh",
    "Verif.ElasticTool.C129_vtu",
    "Verif.ElasticTool.C129_violated_vtu"
   ],
   "note": "proved: names and defaults, words, method, sides if none or all are given, extent of uniform grids, named preconditioners, choice by shape, layers, load cases, vtu names. violated: method words of the usage, coordinates given in part or as fractions, minima of a uniform grid, announced two-level preconditioner not used, mortar_precond not read, vtu name cut at the first \".vtu\"."
  },
  {
   "property": "C130",
   "status": "partial",
   "theorems": [
    "Verif.ElasticSolvers.C130_total",
    "Verif.ElasticSolvers.C130_solvers",
    "Verif.ElasticSolvers.C130_schur",
    "Verif.ElasticSolvers.C130_private_partial",
    "Verif.ElasticSolvers.C130_violated_shared",
    "Verif.ElasticSolvers.C130_violated_twolevel",
    "Verif.ElasticSolvers.C130_solve",
    "Verif.ElasticSolvers.C130_violated_converged"
   ],
   "note": "proved: success, sizes, kind and number of solvers, columns of the Schur complement, privacy unless the Schur complement is asked for with Schwarz beside another preconditioner. violated: then all threads share one multigrid preconditioner; two-level Schur complement computed with multigrid under the heuristic; non-convergence not reported."
  },
  {
   "property": "C131",
   "status": "partial",
   "theorems": [
    "Verif.Schwarz.C131_columns",
    "Verif.Schwarz.C131_cover",
    "Verif.Schwarz.C131_couplings",
    "Verif.Schwarz.C131_periodic",
    "Verif.Schwarz.C131_violated_direction"
   ],
   "note": "proved for constraints within one direction, which those of periodic boundary conditions are (C131_periodic); coverage for all constraints. violated: a constraint between directions is looked up in the wrong direction, so couplings are missing."
  },
  {
   "property": "C132",
   "status": "partial",
   "theorems": [
    "Verif.Compare.C132_read",
    "Verif.Compare.C132_accepts",
    "Verif.Compare.C132_symmetric",
    "Verif.Compare.C132_violated_nan",
    "Verif.Compare.C132_violated_message"
   ],
   "note": "proved: reading of values with white space and comments, exact acceptance criterion for numbers, symmetry and reflexivity. violated: nan is accepted against everything, infinity against every number; the message names the first value."
  },
  {
   "property": "C133",
   "status": "partial",
   "theorems": [
    "Verif.ChopOutput.C133_deck",
    "Verif.ChopOutput.C133_file",
    "Verif.ChopOutput.C133_read",
    "Verif.ChopOutput.C133_si_partial",
    "Verif.ChopOutput.C133_depth_partial",
    "Verif.ChopOutput.C133_violated_units"
   ],
   "note": "Proved for all chopped grids and printers. The SI claim is proved for input in metric units and fails for other unit systems (C133_violated_units): the raw values are copied, and labelled as metric."
  },
  {
   "property": "C134",
   "status": "partial",
   "theorems": [
    "Verif.Calls.C134_settings",
    "Verif.Calls.C134_singlePhase",
    "Verif.Calls.C134_first_direction",
    "Verif.Calls.C134_other_direction_partial",
    "Verif.Calls.C134_violated_gravity",
    "Verif.Calls.C134_violated_permeability",
    "Verif.Calls.C134_violated_unprepared"
   ],
   "note": "Proved for single phase upscaling and for the first direction of steady state upscaling after any history. For the other directions the velocity field is proved current only if an upscaling came before, nothing was changed since and gravity is the same; otherwise violated (three counterexamples), because the solver is set up again only for direction 0."
  },
  {
   "property": "C135",
   "status": "partial",
   "theorems": [
    "Verif.Bench.C135_reference",
    "Verif.Bench.C135_violated_short",
    "Verif.Bench.C135_violated_junk",
    "Verif.Bench.C135_stone",
    "Verif.Bench.C135_verdict_partial",
    "Verif.Bench.C135_violated_pressure",
    "Verif.Bench.C135_violated_nan",
    "Verif.Bench.C135_violated_exit",
    "Verif.Bench.C135_violated_usage",
    "Verif.Bench.C135_violated_error",
    "Verif.Bench.C135_violated_rank",
    "Verif.Bench.C135_violated_blank",
    "Verif.Bench.C135_time"
   ],
   "note": "Readers and time are proved in full. The verdict is proved for curves without NaN with pressures compared to 100 times the tolerance (C135_verdict_partial); violated: pressures beyond the stated tolerance, NaN, exit code 0 whatever the verdict, usage never shown, undefined behaviour after an exception, on other processes and for empty lines in the reference; short rows repeat their last number and words that are not numbers count as zero."
  },
  {
   "property": "C136",
   "status": "partial",
   "theorems": [
    "Verif.SimOutput.C136_vtk_partial",
    "Verif.SimOutput.C136_violated_empty",
    "Verif.SimOutput.C136_part",
    "Verif.SimOutput.C136_field",
    "Verif.SimOutput.C136_ecl_partial",
    "Verif.SimOutput.C136_violated_time",
    "Verif.SimOutput.C136_violated_unit",
    "Verif.SimOutput.C136_vtk_names",
    "Verif.SimOutput.C136_ecl_names_partial",
    "Verif.SimOutput.C136_violated_names"
   ],
   "note": "Proved for grids with at least one cell and runs below 2^31 seconds. Violated: grid without cells, runs beyond 68 years (conversion to int overflows), pressure is written in Pascal under a METRIC header, result sets whose boundary saturation and pressure drop agree to six decimals share a name."
  },
  {
   "property": "C137",
   "status": "partial",
   "theorems": [
    "Verif.Mpc.C137_order",
    "Verif.Mpc.C137_order_slave",
    "Verif.Mpc.C137_set",
    "Verif.Mpc.C137_set_slave",
    "Verif.Mpc.C137_violated_nan",
    "Verif.Mpc.C137_add",
    "Verif.Mpc.C137_change",
    "Verif.Mpc.C137_print",
    "Verif.Mpc.C137_print_dof"
   ],
   "note": "Order and sets without nan, changes and text are proved in full (std::set is a contract: insert keeps an equivalent element). Violated: a coefficient that is nan is equivalent to every number, so a set can lose a constraint."
  },
  {
   "property": "C138",
   "status": "partial",
   "theorems": [
    "Verif.KnownAnswer.C138_problem",
    "Verif.KnownAnswer.C138_errors_partial",
    "Verif.KnownAnswer.C138_violated_l2",
    "Verif.KnownAnswer.C138_violated_verdict"
   ],
   "note": "The problem, L1 and Linf are proved. Violated: the L2 density is the root mean square divided by the root of the volume, so it can be smaller than every error; the program returns zero whatever the errors are."
  },
  {
   "property": "C139",
   "status": "partial",
   "theorems": [
    "Verif.SolverLife.C139_explicit",
    "Verif.SolverLife.C139_current",
    "Verif.SolverLife.C139_violated_constructor",
    "Verif.SolverLife.C139_capillary",
    "Verif.SolverLife.C139_implicit",
    "Verif.SolverLife.C139_violated_repeats",
    "Verif.SolverLife.C139_violated_ignored",
    "Verif.SolverLife.C139_unset",
    "Verif.SolverLife.C139_violated_grid",
    "Verif.SolverLife.C139_violated_porosity",
    "Verif.SolverLife.C139_violated_reset"
   ],
   "note": "C139_explicit, C139_capillary and C139_implicit: what a solve works with after any history; C139_current: nothing is outdated if the objects are not changed after the set-up; C139_unset: no set-up, no solve. Violations: C139_violated_constructor, C139_violated_grid, C139_violated_porosity, C139_violated_repeats, C139_violated_reset, C139_violated_ignored."
  },
  {
   "property": "C140",
   "status": "partial",
   "theorems": [
    "Verif.SimRun.C140_blocks",
    "Verif.SimRun.C140_blocks_order",
    "Verif.SimRun.C140_density",
    "Verif.SimRun.C140_run",
    "Verif.SimRun.C140_water",
    "Verif.SimRun.C140_noflow",
    "Verif.SimRun.C140_violated_order",
    "Verif.SimRun.C140_violated_overlap",
    "Verif.SimRun.C140_violated_again"
   ],
   "note": "Holds on a new simulator when the cells of the injection block come before those of the production block (C140_blocks, and C140_blocks_order: needed). Proved violations: blocks in the other order or with common cells stop on an assertion or give the two solvers different rates; a second initialisation keeps old rates for the pressure solver. SparseVector is a library class, used by contract."
  },
  {
   "property": "C141",
   "status": "proved",
   "theorems": [
    "Verif.SimRange.C141_step",
    "Verif.SimRange.C141_solve",
    "Verif.SimRange.C141_run",
    "Verif.SimRange.C141_balanced",
    "Verif.SimRange.C141_blocks",
    "Verif.SimRange.C141_needs_balance",
    "Verif.SimRange.C141_refused"
   ],
   "note": "Composes C12-C14, C37, C38 and C140. The slopes at the ends are the ones that the factor of the limit stands for (C60 says when it is too large). Exact arithmetic: rounding of the pressure solution is not modelled."
  },
  {
   "property": "C142",
   "status": "partial",
   "theorems": [
    "Verif.RockFiles.C142_file",
    "Verif.RockFiles.C142_named",
    "Verif.RockFiles.C142_violated_no_density",
    "Verif.RockFiles.C142_list",
    "Verif.RockFiles.C142_list_exit",
    "Verif.RockFiles.C142_violated_list",
    "Verif.RockFiles.C142_uniform",
    "Verif.RockFiles.C142_violated_no_rocks",
    "Verif.RockFiles.C142_rebuild",
    "Verif.RockFiles.C142_parameters",
    "Verif.RockFiles.C142_violated_rebuild",
    "Verif.RockFiles.C142_no_parameter",
    "Verif.RockFiles.C142_text",
    "Verif.RockFiles.C142_violated_text"
   ],
   "note": "The violations are proved (C142_violated_*)."
  },
  {
   "property": "C143",
   "status": "partial",
   "theorems": [
    "Verif.RelPermChain.C143_unit",
    "Verif.RelPermChain.C143_periodic",
    "Verif.RelPermChain.C143_monotone",
    "Verif.RelPermChain.C143_full",
    "Verif.RelPermChain.C143_monotone_periodic",
    "Verif.RelPermChain.C143_unit_anisotropic_partial",
    "Verif.RelPermChain.C143_monotone_anisotropic",
    "Verif.RelPermChain.C143_violated_anisotropic",
    "Verif.RelPermChain.C143_sum",
    "Verif.RelPermChain.C143_sum_periodic"
   ],
   "note": "Proved for isotropic input with fixed and periodic conditions; for anisotropic input the curves are proved monotone, the bound one only if no y- or z-permeability exceeds the largest x-permeability, and the violation otherwise is proved (C143_violated_anisotropic). With linear conditions nothing is claimed."
  },
  {
   "property": "C144",
   "status": "partial",
   "theorems": [
    "Verif.ViscChain.C144_unit_partial",
    "Verif.ViscChain.C144_periodic_partial",
    "Verif.ViscChain.C144_monotone",
    "Verif.ViscChain.C144_monotone_periodic",
    "Verif.ViscChain.C144_rising",
    "Verif.ViscChain.C144_full",
    "Verif.ViscChain.C144_violated_anisotropic",
    "Verif.ViscChain.C144_sum",
    "Verif.ViscChain.C144_sum_periodic"
   ],
   "note": "Proved for isotropic input with fixed and periodic conditions; for anisotropic input the curves are proved monotone, the bound one only if no permeability exceeds the largest x-permeability, and the violation otherwise is proved (C144_violated_anisotropic). With linear conditions nothing is claimed."
  },
  {
   "property": "C145",
   "status": "partial",
   "theorems": [
    "Verif.SteadyManager.C145_schedule",
    "Verif.SteadyManager.C145_refused",
    "Verif.SteadyManager.C145_setup_fails",
    "Verif.SteadyManager.C145_files",
    "Verif.SteadyManager.C145_violated_header"
   ],
   "note": "Proved except that the column names of the header are wrong (C145_violated_header); the last number of a line repeats yz instead of giving yx (C25)."
  },
  {
   "property": "C146",
   "status": "partial",
   "theorems": [
    "Verif.Asm.C146_constraint_partial",
    "Verif.Asm.C146_matching",
    "Verif.Asm.C146_violated_single"
   ],
   "note": "Proved for constraints of coefficient one on top and bottom and at least two cells in both directions; the remaining cases violate it (C83_violated, C146_violated_single)."
  },
  {
   "property": "C147",
   "status": "partial",
   "theorems": [
    "Verif.RelPermOut.C147_headings",
    "Verif.RelPermOut.C147_reuse_partial",
    "Verif.RelPermOut.C147_violated_phases",
    "Verif.RelPermOut.C147_pressure_partial",
    "Verif.RelPermOut.C147_violated_pressure"
   ],
   "note": "Headings for all settings; pressures for isotropic input; use as input for fixed boundary conditions. The remaining cases violate it (C147_violated_pressure, C147_violated_phases)."
  },
  {
   "property": "C148",
   "status": "proved",
   "theorems": [
    "Verif.ResistChain.C148_fixed",
    "Verif.ResistChain.C148_monotone",
    "Verif.ResistChain.C148_periodic",
    "Verif.ResistChain.C148_monotone_periodic",
    "Verif.ResistChain.C148_uniform",
    "Verif.ResistChain.C148_parallel",
    "Verif.ResistChain.C148_series",
    "Verif.ResistChain.C148_parallel_periodic",
    "Verif.ResistChain.C148_series_periodic"
   ],
   "note": "From cell data to the printed entries, with an exact linear solver and an exact inversion."
  },
  {
   "property": "C149",
   "status": "proved",
   "theorems": [
    "Verif.SteadyChain.C149_fixed",
    "Verif.SteadyChain.C149_periodic",
    "Verif.SteadyChain.C149_uniform",
    "Verif.SteadyChain.C149_state"
   ],
   "note": "With an exact linear solver; scalar mobilities; the transport solver is arbitrary."
  },
  {
   "property": "C150",
   "status": "partial",
   "theorems": [
    "Verif.ImplicitStep.C150_periodic",
    "Verif.ImplicitStep.C150_violated_periodic",
    "Verif.ImplicitStep.C150_steady",
    "Verif.ImplicitStep.C150_unique",
    "Verif.ImplicitStep.C150_balance",
    "Verif.ImplicitStep.C150_stationary",
    "Verif.ImplicitStep.C150_within",
    "Verif.ImplicitStep.C150_closed",
    "Verif.ImplicitStep.C150_transport_stationary",
    "Verif.ImplicitStep.C150_violated_division"
   ],
   "note": "Partial: fails across periodic boundaries between different permeabilities (C150_violated_periodic), and assembly can divide zero by zero (C150_violated_division). No gravity, as the caller passes none. Only convergence by residual (flags 1 and 2) is a balance; flag 3 judges the size of the change."
  },
  {
   "property": "C151",
   "status": "proved",
   "theorems": [
    "Verif.ImplicitStep.C151_step",
    "Verif.ImplicitStep.C151_transport",
    "Verif.ImplicitStep.C151_still",
    "Verif.ImplicitStep.C151_two_rocks"
   ],
   "note": "maximum principle for returned saturations of steps and of whole transport solves; the requirement of one fluid is shown to be needed"
  },
  {
   "property": "C152",
   "status": "proved",
   "theorems": [
    "Verif.ImplicitStep.C152_flow",
    "Verif.ImplicitStep.C152_excess",
    "Verif.ImplicitStep.C152_unique",
    "Verif.ImplicitStep.C152_order",
    "Verif.ImplicitStep.C152_transport"
   ],
   "note": "contraction in the norm of volumes, order and uniqueness for returned saturations; convergence by the size of the change (flag 3) is excluded, as it says nothing on the residual"
  },
  {
   "property": "C153",
   "status": "proved",
   "theorems": [
    "Verif.SimRange.C153_order",
    "Verif.SimRange.C153_excess",
    "Verif.SimRange.C153_distance",
    "Verif.SimRange.C153_extremes",
    "Verif.SimRange.C153_solve",
    "Verif.SimRange.C153_needs_limit"
   ],
   "note": "viscous forces only (gravity and capillarity break monotonicity in the explicit scheme, see C59 and C106); the need for the limit is shown by a witness"
  },
  {
   "property": "C154",
   "status": "proved",
   "theorems": [
    "Verif.Layers.C154_strains",
    "Verif.Layers.C154_unique",
    "Verif.Layers.C154_same",
    "Verif.Layers.C154_arithmetic",
    "Verif.Layers.C154_harmonic",
    "Verif.PBC.C154_box"
   ],
   "note": "linear solver and quadrature exact (as in C94-C99); the grid is a grid of boxes on which C99 proves that the boundary conditions are built"
  },
  {
   "property": "C155",
   "status": "proved",
   "theorems": [
    "Verif.RelPermChain.C155_parallel",
    "Verif.RelPermChain.C155_series",
    "Verif.RelPermChain.C155_parallel_periodic",
    "Verif.RelPermChain.C155_series_periodic"
   ],
   "note": "exact linear solver; floors on permeabilities inactive (C143 bounds their effect)"
  },
  {
   "property": "C156",
   "status": "proved",
   "theorems": [
    "Verif.ViscChain.C156_parallel",
    "Verif.ViscChain.C156_series",
    "Verif.ViscChain.C156_parallel_periodic",
    "Verif.ViscChain.C156_series_periodic"
   ],
   "note": "exact linear solver; floors on permeabilities inactive (C144 bounds their effect)"
  },
  {
   "property": "C157",
   "status": "proved",
   "theorems": [
    "Verif.RelPermChain.C157_capillary",
    "Verif.RelPermChain.C157_capillary_line",
    "Verif.ViscChain.C157_viscous"
   ],
   "note": "exact linear solver; floors on permeabilities inactive (C143 and C144 bound their effect)"
  },
  {
   "property": "C158",
   "status": "proved",
   "theorems": [
    "Verif.SinglePhase.C158_relabel",
    "Verif.SinglePhase.C158_single_phase",
    "Verif.SinglePhase.C158_violated_tiny"
   ],
   "note": "exact linear solver; no gravity. The condition on the size cannot be dropped: C158_violated_tiny"
  },
  {
   "property": "C159",
   "status": "proved",
   "theorems": [
    "Verif.SinglePhase.C159_mirror",
    "Verif.SinglePhase.C159_single_phase",
    "Verif.SinglePhase.C159_symmetric"
   ],
   "note": "exact linear solver; no gravity. The image may have any boundary identifiers that suit the type of boundary conditions; other numberings of the image are covered by C158"
  },
  {
   "property": "C160",
   "status": "proved",
   "theorems": [
    "Verif.ElasticUp.C160_laminate",
    "Verif.ElasticUp.C160_across"
   ],
   "note": "exact linear solver; all constraints tie one unknown to another (periodic conditions). That displacements with forces in balance exist is a hypothesis on the mean strain; the formula then determines the stress"
  },
  {
   "property": "C161",
   "status": "proved",
   "theorems": [
    "Verif.ElasticUp.C161_turned",
    "Verif.ElasticUp.C161_symmetric"
   ],
   "note": "exact linear solver; homogeneous constraints; that the constraints of the two samples correspond is a hypothesis"
  },
  {
   "property": "C162",
   "status": "proved",
   "theorems": [
    "Verif.ElasticUp.C162_copies"
   ],
   "note": "exact linear solver; the periodic conditions of both samples are described by which nodes are the same point up to periods (PeriodicTies), with the corners held"
  },
  {
   "property": "C163",
   "status": "proved",
   "theorems": [
    "Verif.SinglePhase.C163_copies",
    "Verif.SinglePhase.C163_single_phase"
   ],
   "note": "exact linear solver and exact arithmetic, as in C91; both samples use periodic boundary conditions (with fixed or linear conditions the tensor may depend on the number of periods)"
  },
  {
   "property": "C164",
   "status": "proved",
   "theorems": [
    "Verif.RelPermChain.C164_copies"
   ],
   "note": "isotropic curves, periodic boundary conditions; exact linear solver and exact arithmetic, as in C143; the copies of a cell have its gravity head (without gravity this always holds; with gravity, when copies are not put above each other)"
  },
  {
   "property": "C165",
   "status": "proved",
   "theorems": [
    "Verif.RelPermChain.C165_tensors",
    "Verif.RelPermChain.C165_fixed",
    "Verif.RelPermChain.C165_periodic"
   ],
   "note": "isotropic curves; exact linear solver and exact arithmetic, as in C143; the gravity heads of a cell are the same in both descriptions (always so without gravity)"
  },
  {
   "property": "C166",
   "status": "proved",
   "theorems": [
    "Verif.RelPermChain.C166_tensors",
    "Verif.RelPermChain.C166_fixed",
    "Verif.RelPermChain.C166_periodic"
   ],
   "note": "isotropic curves; exact linear solver and exact arithmetic, as in C143; the gravity heads of the cells are those of the sample (always so without gravity)"
  },
  {
   "property": "C167",
   "status": "proved",
   "theorems": [
    "Verif.ViscChain.C167_copies",
    "Verif.ViscChain.C167_tensors",
    "Verif.ViscChain.C167_fixed",
    "Verif.ViscChain.C167_periodic"
   ],
   "note": "exact linear solver and exact arithmetic, as in C144"
  },
  {
   "property": "C168",
   "status": "proved",
   "theorems": [
    "Verif.ResistChain.C168_copies",
    "Verif.ResistChain.C168_fixed",
    "Verif.ResistChain.C168_periodic"
   ],
   "note": "From cell data to the printed entries, with an exact linear solver and an exact inversion, as in C148"
  },
  {
   "property": "C169",
   "status": "proved",
   "theorems": [
    "Verif.ViscChain.C169_visc_tensors",
    "Verif.ViscChain.C169_visc_fixed",
    "Verif.ViscChain.C169_visc_periodic",
    "Verif.ResistChain.C169_resist_fixed",
    "Verif.ResistChain.C169_resist_periodic"
   ],
   "note": "exact linear solver, inversion and arithmetic, as in C144 and C148"
  }
 ]
}