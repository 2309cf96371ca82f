{
 "claims": [
  {
   "property": "C01",
   "status": "proved",
   "theorems": [
    "Elliptica.Props.Params.C01_canonical",
    "Elliptica.Props.Params.C01_idempotent",
    "Elliptica.Props.Params.C01_same_iff",
    "Elliptica.Props.Params.C01_all_calls"
   ],
   "note": ""
  },
  {
   "property": "C02",
   "status": "proved",
   "theorems": [
    "Elliptica.Props.Params.C02_string_reads",
    "Elliptica.Props.Params.C02_array_reads",
    "Elliptica.Props.Params.C02_unique_names",
    "Elliptica.Props.Params.C02_write_read"
   ],
   "note": ""
  },
  {
   "property": "C03",
   "status": "partial",
   "theorems": [
    "Elliptica.Props.Params.C03_double_read_partial",
    "Elliptica.Props.Params.C03_setD_getD",
    "Elliptica.Props.Params.C03_violation"
   ],
   "note": "False in one case: a default written over an existing empty parameter does not reset the cached double (C03_violation); proved for all other histories."
  },
  {
   "property": "C04",
   "status": "proved",
   "theorems": [
    "Elliptica.Props.Params.C04_int_roundtrip"
   ],
   "note": ""
  },
  {
   "property": "C05",
   "status": "proved",
   "theorems": [
    "Elliptica.Props.Params.C05_schedule",
    "Elliptica.Props.Params.C05_others_unchanged",
    "Elliptica.Props.Params.C05_total_iterations"
   ],
   "note": "For histories of well-formed calls; the iteration count needs schedules that end with a value (no trailing arrow) and no user override of total_iterations_ip."
  },
  {
   "property": "C06",
   "status": "partial",
   "theorems": [
    "Elliptica.Props.Params.C06_multiplicity_partial",
    "Elliptica.Props.Params.C06_single_violation",
    "Elliptica.Props.Params.C06_zero_refused"
   ],
   "note": "Lists with at least one arrow are proved; a single value with a multiplicity is the violation."
  },
  {
   "property": "C07",
   "status": "partial",
   "theorems": [
    "Elliptica.MainLoop.C07_each_iteration_once",
    "Elliptica.MainLoop.C07_resolution_change",
    "Elliptica.MainLoop.C07_checkpoint_meaning_violation"
   ],
   "note": "The loop itself is fully proved; the violation shows that the iteration number a checkpoint stores means different things in a fresh and a restarted run."
  },
  {
   "property": "C08",
   "status": "partial",
   "theorems": [
    "Elliptica.Props.Text.C08_reads_exactly_partial",
    "Elliptica.Props.Text.C08_database",
    "Elliptica.Props.Text.C08_plain_last_line",
    "Elliptica.Props.Text.C08_comment_at_eof_violation",
    "Elliptica.Props.Text.C08_continuation_at_eof_violation",
    "Elliptica.Props.Text.C08_leading_newline_violation",
    "Elliptica.Props.Text.C08_empty_name_violation"
   ],
   "note": "Every file built from the documented line forms is read exactly; comment or continuation at the very end of the file, an empty parameter name and a leading newline are the cases where the code deviates (violations proved)."
  },
  {
   "property": "C09",
   "status": "partial",
   "theorems": [
    "Elliptica.Props.Text.C09_pieces_exist",
    "Elliptica.Props.Text.C09_items_partial",
    "Elliptica.Props.Text.C09_leading_ok",
    "Elliptica.Props.Text.C09_leading_violation",
    "Elliptica.Props.Text.C09_empty_item_violation"
   ],
   "note": "Holds for lists without empty items; empty items and leading separators are violations."
  },
  {
   "property": "C10",
   "status": "proved",
   "theorems": [
    "Elliptica.Index.C10_decode_encode",
    "Elliptica.Index.C10_encode_decode",
    "Elliptica.Index.C10_in_range",
    "Elliptica.Index.C10_bijection",
    "Elliptica.Index.C10_ij_bijection"
   ],
   "note": ""
  },
  {
   "property": "C11",
   "status": "proved",
   "theorems": [
    "Elliptica.Index.C11_symmetric",
    "Elliptica.Index.C11_bijection"
   ],
   "note": ""
  },
  {
   "property": "C12",
   "status": "proved",
   "theorems": [
    "Elliptica.Index.C12_edge",
    "Elliptica.Index.C12_invers_id",
    "Elliptica.Tol.C12_face"
   ],
   "note": ""
  },
  {
   "property": "C13",
   "status": "partial",
   "theorems": [
    "Elliptica.Tol.C13_trichotomy_partial",
    "Elliptica.Tol.C13_meaning",
    "Elliptica.Tol.C13_boundary_violation",
    "Elliptica.Tol.C13_refl_mono",
    "Elliptica.Tol.C13_not_transitive"
   ],
   "note": "Exactly one of less/equal/greater holds except when the difference is exactly the round-off constant."
  },
  {
   "property": "C14",
   "status": "proved",
   "theorems": [
    "Elliptica.Mat.C14_ccs2reg",
    "Elliptica.Mat.C14_roundtrip",
    "Elliptica.Mat.C14_roundtrip_rmo",
    "Elliptica.Mat.C14_stack"
   ],
   "note": ""
  },
  {
   "property": "C15",
   "status": "partial",
   "theorems": [
    "Elliptica.Mat.C15_cast_partial",
    "Elliptica.Mat.C15_to_ccs",
    "Elliptica.Mat.C15_copy_ccs",
    "Elliptica.Mat.C15_reg_to_reg_violation",
    "Elliptica.Mat.C15_reg_to_reg_witness"
   ],
   "note": "Casting regular to regular returns a zero matrix (violation); all other supported casts keep the entries."
  },
  {
   "property": "C16",
   "status": "partial",
   "theorems": [
    "Elliptica.Mat.C16_matrix_vector",
    "Elliptica.Mat.C16_product",
    "Elliptica.Mat.C16_product_transpose",
    "Elliptica.Mat.C16_product_transpose_into",
    "Elliptica.Mat.C16_ccs_sum_partial",
    "Elliptica.Mat.C16_compare"
   ],
   "note": "Products are proved for all formats; the CCS sum/difference is proved for operands on which the plain entry reader stays in bounds (see C35)."
  },
  {
   "property": "C17",
   "status": "partial",
   "theorems": [
    "Elliptica.Mat3.C17_det",
    "Elliptica.Mat3.C17_inverse_partial",
    "Elliptica.Mat3.C17_symmetric_partial",
    "Elliptica.Mat3.C17_zero_violation"
   ],
   "note": "True iff the first entry is non-zero; otherwise four entries are 0/0."
  },
  {
   "property": "C18",
   "status": "proved",
   "theorems": [
    "Elliptica.Mat.C18_same_solutions",
    "Elliptica.Mat.C18_remark"
   ],
   "note": "Assuming the sparse solver (UMFPACK, not modelled) is exact on the lower triangle."
  },
  {
   "property": "C35",
   "status": "partial",
   "theorems": [
    "Elliptica.Mat.C35_plain_partial",
    "Elliptica.Mat.C35_plain_sound",
    "Elliptica.Mat.C35_plain_violation",
    "Elliptica.Mat.C35_sliced"
   ],
   "note": "The sliced reader is fully proved; the plain reader reads out of bounds in the last column (violation)."
  },
  {
   "property": "C36",
   "status": "proved",
   "theorems": [
    "Elliptica.Mat.C36_inverse"
   ],
   "note": "Assuming the sparse solver (UMFPACK, not modelled) is exact."
  },
  {
   "property": "C19",
   "status": "partial",
   "theorems": [
    "Elliptica.Grid.C19_free_exact",
    "Elliptica.Grid.C19_unique_partial",
    "Elliptica.Grid.C19_duplicate_violation",
    "Elliptica.Grid.C19_params_exact",
    "Elliptica.Grid.C19_params_own"
   ],
   "note": "Numbers unique for histories that free a non-youngest grid only while at most 2 are live (how the program uses grids); with three live grids a duplicate arises (violation). Freeing a grid / its parameters removes exactly that grid / exactly its parameters."
  },
  {
   "property": "C20",
   "status": "partial",
   "theorems": [
    "Elliptica.Finder.C20_lists",
    "Elliptica.Finder.C20_finder_partial",
    "Elliptica.Finder.C20_iff",
    "Elliptica.Finder.C20_guess_and_in_violation",
    "Elliptica.Finder.C20_empty_needle",
    "Elliptica.Finder.C20_first",
    "Elliptica.Finder.C20_force"
   ],
   "note": "Exact for every needle that does not combine a failing guess list with an include list; that combination reallocates freed memory (violation)."
  },
  {
   "property": "C21",
   "status": "proved",
   "theorems": [
    "Elliptica.Coord.C21_there_and_back",
    "Elliptica.Coord.C21_back_and_there",
    "Elliptica.Coord.C21_geometric",
    "Elliptica.Coord.C21_surfaces",
    "Elliptica.Coord.C21_accepts",
    "Elliptica.Coord.C21_sound",
    "Elliptica.Coord.C21_xOfX_ok",
    "Elliptica.Coord.C21_cartesian"
   ],
   "note": "All six patch types, all six sides, any surface function; the surface interpolation and sqrt are parameters."
  },
  {
   "property": "C22",
   "status": "proved",
   "theorems": [
    "Elliptica.Angles.C22_arctan",
    "Elliptica.Angles.C22_angles",
    "Elliptica.Angles.direction_of_patch"
   ],
   "note": "Exact outside the round-off zone, within three round-offs everywhere."
  },
  {
   "property": "C37",
   "status": "partial",
   "theorems": [
    "Elliptica.Finder.C37_collect_partial",
    "Elliptica.Finder.C37_all",
    "Elliptica.Finder.C37_documented",
    "Elliptica.Finder.C37_documented_violation"
   ],
   "note": "Exact for items that pass the spell check; four documented region names do not pass it (violation)."
  },
  {
   "property": "C38",
   "status": "partial",
   "theorems": [
    "Elliptica.Angles.C38_coordinates_partial",
    "Elliptica.Angles.C38_last_angles_violation"
   ],
   "note": "Proved for angles more than the round-off away from the quarter turns; angles just below 2 pi stop the program (violation)."
  },
  {
   "property": "C39",
   "status": "proved",
   "theorems": [
    "Elliptica.Coord.C39_cover",
    "Elliptica.Coord.C39_disjoint",
    "Elliptica.Coord.C39_accepted_side"
   ],
   "note": ""
  },
  {
   "property": "C40",
   "status": "partial",
   "theorems": [
    "Elliptica.Coord.C40_node_partial",
    "Elliptica.Coord.C40_closest_violation"
   ],
   "note": "Exact when at most one node is within the tolerance; otherwise a farther node may be returned (violation)."
  },
  {
   "property": "C23",
   "status": "proved",
   "theorems": [
    "Elliptica.Field.C23_registry",
    "Elliptica.Field.C23_index_regex",
    "Elliptica.Field.C23_attributes"
   ],
   "note": "For every call history, against a finite map; the regular expression is an arbitrary predicate."
  },
  {
   "property": "C24",
   "status": "partial",
   "theorems": [
    "Elliptica.Coeff.C24_fresh_partial",
    "Elliptica.Coeff.C24_late_store_violation"
   ],
   "note": "Proved for every history in which values are written only between opening the field for writing and the next coefficient request; a store through a kept pointer after a request leaves stale coefficients (violation)."
  },
  {
   "property": "C41",
   "status": "proved",
   "theorems": [
    "Elliptica.Cheb.C41_exact_X",
    "Elliptica.Cheb.C41_exact_Y",
    "Elliptica.Cheb.C41_exact_Z",
    "Elliptica.Cheb.C41_exact_XY",
    "Elliptica.Cheb.C41_exact_XZ",
    "Elliptica.Cheb.C41_exact_YZ",
    "Elliptica.Cheb.C41_exact_XYZ",
    "Elliptica.Cheb.C41_node",
    "Elliptica.Cheb.C41_nodes_transform"
   ],
   "note": "Over the reals; points within round-off of an end of the box are evaluated at that end; cache consistency (Inv) is the invariant of C24."
  },
  {
   "property": "C43",
   "status": "proved",
   "theorems": [
    "Elliptica.Cheb.C43_T",
    "Elliptica.Cheb.C43_U",
    "Elliptica.Cheb.C43_dT",
    "Elliptica.Cheb.C43_d2T"
   ],
   "note": "Over the reals, points snapped to the end points within round-off as General2ChebyshevExtrema does; int products that fit."
  },
  {
   "property": "C32",
   "status": "proved",
   "theorems": [
    "Elliptica.General.C32_sum_cos",
    "Elliptica.General.C32_dsum",
    "Elliptica.General.C32_value",
    "Elliptica.General.C32_derivative",
    "Elliptica.General.generic_node"
   ],
   "note": "Over the reals; angles equal to a special angle or apart from it by round-off; all collocation points qualify (generic_node)."
  },
  {
   "property": "C33",
   "status": "proved",
   "theorems": [
    "Elliptica.General.C33_root_square",
    "Elliptica.General.C33_L2",
    "Elliptica.General.C33_L1",
    "Elliptica.General.C33_laws",
    "Elliptica.General.C33_maxMag",
    "Elliptica.General.C33_Linf",
    "Elliptica.General.C33_Linf_empty"
   ],
   "note": "Over the reals."
  },
  {
   "property": "C28",
   "status": "partial",
   "theorems": [
    "Elliptica.Root.C28_ok",
    "Elliptica.Root.C28_terminates",
    "Elliptica.Root.C28_refuses",
    "Elliptica.Root.C28_failure",
    "Elliptica.Root.C28_maxIter_violation"
   ],
   "note": "Everything the statement says holds whenever success is reported, and success is reported when the iterations suffice; when they run out the returned point is the initial content of the solution slot, which may lie outside the interval (violation)."
  },
  {
   "property": "C29",
   "status": "partial",
   "theorems": [
    "Elliptica.Root.C29_step",
    "Elliptica.Root.C29_never_worse_partial",
    "Elliptica.Root.C29_report",
    "Elliptica.Root.C29_terminates",
    "Elliptica.Root.C29_noImprovement_violation"
   ],
   "note": "Proved for every exit except 'no improvement', which can return a worse point for every tolerance (violation). A line search with three collinear values divides by zero (outcome overflow)."
  },
  {
   "property": "C44",
   "status": "proved",
   "theorems": [
    "Elliptica.Root.C44_given",
    "Elliptica.Root.C44_step",
    "Elliptica.Root.C44_fd"
   ],
   "note": "Over the reals."
  },
  {
   "property": "C30",
   "status": "partial",
   "theorems": [
    "Elliptica.Interp.C30_is_spline",
    "Elliptica.Interp.C30_unique",
    "Elliptica.Interp.C30_value",
    "Elliptica.Interp.C30_outside",
    "Elliptica.Interp.C30_node",
    "Elliptica.Interp.C30_decreasing",
    "Elliptica.Interp.C30_boundary_violation"
   ],
   "note": "Proved for every query point that is not exactly the round-off away from a table point; such a point is reported as outside (violation)."
  },
  {
   "property": "C31",
   "status": "partial",
   "theorems": [
    "Elliptica.Interp.C31_neville",
    "Elliptica.Interp.C31_node",
    "Elliptica.Interp.C31_distinct_iff",
    "Elliptica.Interp.C31_thinned_violation"
   ],
   "note": "Proved whenever the points used are different, with the exact condition for that; thinning out a long table may use a point twice (violation)."
  },
  {
   "property": "C45",
   "status": "partial",
   "theorems": [
    "Elliptica.Interp.C45_exists_unique",
    "Elliptica.Interp.C45_value",
    "Elliptica.Interp.C45_accepts_partial",
    "Elliptica.Interp.C45_decreasing",
    "Elliptica.Interp.C45_last_point_violation"
   ],
   "note": "Values proved for every answer; at the last table point and where too few points are left the program stops (violation of the documented range). The derivative table is given by the caller."
  },
  {
   "property": "C46",
   "status": "partial",
   "theorems": [
    "Elliptica.Props.TextSearch.C46_strcmp_i",
    "Elliptica.Props.TextSearch.C46_strstr_i",
    "Elliptica.Props.TextSearch.C46_find_index",
    "Elliptica.Props.TextSearch.C46_format_partial",
    "Elliptica.Props.TextSearch.C46_format_violation",
    "Elliptica.Props.TextSearch.C46_format_witness",
    "Elliptica.Props.TextSearch.C46_replace_partial",
    "Elliptica.Props.TextSearch.litFind_spec",
    "Elliptica.Props.TextSearch.C46_anchor_violation"
   ],
   "note": "Comparison, search and list lookup are proved in full. The format check never accepts formats that repeat their last delimiter (violation). Replacement is proved for literal patterns; a pattern tied to the beginning is matched again after each replacement (violation)."
  },
  {
   "property": "C42",
   "status": "partial",
   "theorems": [
    "Elliptica.Fourier.C42_coeffs",
    "Elliptica.Fourier.C42_exact",
    "Elliptica.Fourier.C42_roundtrip_partial",
    "Elliptica.Fourier.C42_even_violation",
    "Elliptica.Fourier.C42_even_witness",
    "Elliptica.Fourier.C42_empty",
    "Elliptica.Fourier.C42_interp2",
    "Elliptica.Fourier.C42_exact2",
    "Elliptica.Fourier.C42_derivative",
    "Elliptica.Fourier.C42_sphere"
   ],
   "note": "Exactness and derivatives are proved in full; the round trip of arbitrary data holds for odd sizes and fails for even sizes, where the highest mode is counted twice (violation). The alternative continuation chosen by the flag improve is not modelled."
  },
  {
   "property": "C47",
   "status": "proved",
   "theorems": [
    "Elliptica.Ylm.C47_legendre",
    "Elliptica.Ylm.C47_legendre_refused",
    "Elliptica.Ylm.C47_legendre_deriv",
    "Elliptica.Ylm.C47_ylm",
    "Elliptica.Ylm.C47_ylm_refused",
    "Elliptica.Ylm.C47_dphi",
    "Elliptica.Ylm.C47_dtheta",
    "Elliptica.Ylm.C47_lm2n",
    "Elliptica.Ylm.C47_lm2n_range",
    "Elliptica.Ylm.C47_lm2n_full",
    "Elliptica.Ylm.C47_n2lm_full",
    "Elliptica.Ylm.C47_interp",
    "Elliptica.Ylm.C47_interp_refused",
    "Elliptica.Ylm.C47_dfdphi",
    "Elliptica.Ylm.C47_dfdtheta"
   ],
   "note": "Over the reals, against Rodrigues' formula. The theta derivative is one-sided at the poles. The table of Legendre roots is a parameter."
  },
  {
   "property": "C48",
   "status": "partial",
   "theorems": [
    "Elliptica.Integ.C48_factorial",
    "Elliptica.Integ.C48_simpson",
    "Elliptica.Integ.C48_simpson_refused",
    "Elliptica.Integ.C48_simpson_one_violation",
    "Elliptica.Integ.C48_chebyshev",
    "Elliptica.Integ.C48_chebyshev_one_violation",
    "Elliptica.Integ.C48_chebyshev_zero",
    "Elliptica.Integ.C48_legendre",
    "Elliptica.Integ.C48_legendre_refused",
    "Elliptica.Integ.C48_lobatto",
    "Elliptica.Integ.C48_lobatto_refused",
    "Elliptica.Integ.C48_legendre_table",
    "Elliptica.Integ.C48_lobatto_table",
    "Elliptica.Integ.C48_volume",
    "Elliptica.Integ.C48_interval",
    "Elliptica.Integ.C48_surface_X",
    "Elliptica.Integ.C48_surface_Y",
    "Elliptica.Integ.C48_surface_Z",
    "Elliptica.Integ.C48_plan",
    "Elliptica.Integ.C48_plan_volume",
    "Elliptica.Integ.C48_plan_surface",
    "Elliptica.Integ.C48_plan_unset_violation"
   ],
   "note": "Exactness over the reals is proved for every quadrature and spectral integral. One-point Simpson and Chebyshev requests and volume integrals on other coordinate systems are not refused (violations). Error estimates are not modelled beyond the overflow of the factorial in them."
  },
  {
   "property": "C25",
   "status": "partial",
   "theorems": [
    "Elliptica.Ckpt.C25_roundtrip",
    "Elliptica.Ckpt.C25_params",
    "Elliptica.Ckpt.C25_query",
    "Elliptica.Ckpt.C25_empty_array_violation",
    "Elliptica.Ckpt.toyWorld_ok"
   ],
   "note": "Bytes written are read back: header, parameters (every representation), saved fields; unsaved fields keep their values. Hypothesis: strings of one-byte characters without NUL, non-empty arrays, a known grid kind. Missing: a parameter with an empty array stops the program while writing (violation); total_iterations_ip is recomputed."
  },
  {
   "property": "C26",
   "status": "partial",
   "theorems": [
    "Elliptica.Ckpt.C26_atomic",
    "Elliptica.Ckpt.C26_complete",
    "Elliptica.Ckpt.C26_history",
    "Elliptica.Ckpt.C26_sound_complete",
    "Elliptica.Ckpt.C26_sound_cut_partial",
    "Elliptica.Ckpt.C26_pick",
    "Elliptica.Ckpt.C26_cut_violation",
    "Elliptica.Ckpt.C26_leftover_violation",
    "Elliptica.Ckpt.C26_leftover_reachable"
   ],
   "note": "At every crash point, and after every history of crashes, the checkpoint file is the old one or a complete new one. Complete files pass the check; cut files are refused unless the final message occurs inside the file (violation). A left-over temporary file blocks later checkpoints (violation)."
  },
  {
   "property": "C27",
   "status": "partial",
   "theorems": [
    "Elliptica.Ckpt.C27_override_partial",
    "Elliptica.Ckpt.C27_array",
    "Elliptica.Ckpt.C27_new_list_violation"
   ],
   "note": "All data bases and override sets; hypothesis: names containing the mark begin with it. Missing: a new parameter given an iteration list keeps only its first value (violation)."
  },
  {
   "property": "C34",
   "status": "partial",
   "theorems": [
    "Elliptica.Schur.C34_exact",
    "Elliptica.Schur.C34_step",
    "Elliptica.Schur.C34_residual",
    "Elliptica.Schur.C34_completes",
    "Elliptica.Schur.C34_update",
    "Elliptica.Schur.C34_newton",
    "Elliptica.Schur.C34_linear",
    "Elliptica.Schur.C34_single",
    "Elliptica.Schur.C34_rhs",
    "Elliptica.Schur.C34_isolated_violation",
    "Elliptica.Schur.C34_drop_violation"
   ],
   "note": "With exact arithmetic and an exact sparse solver the Schur step solves the full block system, if no nonzero entry is below the drop thresholds; with dropped entries the residual is bounded (C34_residual) and can be nonzero (violation). The sparse solver (UMFPACK) is a parameter assumed sound. Missing: the entries of the Jacobian blocks (equation files), a grid with several patches one of which has no interface is refused (violation)."
  },
  {
   "property": "C50",
   "status": "proved",
   "theorems": [
    "Elliptica.Schur.C50_labels",
    "Elliptica.Schur.C50_succeeds"
   ],
   "note": "All sizes and subface lists."
  },
  {
   "property": "C51",
   "status": "partial",
   "theorems": [
    "Elliptica.Solve.C51_criterion",
    "Elliptica.Solve.C51_loop",
    "Elliptica.Solve.C51_abnormal_partial",
    "Elliptica.Solve.C51_abnormal_violation"
   ],
   "note": "Proved for all residual histories, except that a non-finite residual behind a patch that asks to go on does not stop the solver (violation)."
  },
  {
   "property": "C52",
   "status": "partial",
   "theorems": [
    "Elliptica.Solve.C52_equations",
    "Elliptica.Solve.C52_setup",
    "Elliptica.Solve.C52_grid",
    "Elliptica.Solve.C52_relaxation",
    "Elliptica.Solve.C52_no_prefix_violation"
   ],
   "note": "Proved for prefixed set-ups; without a prefix the solver looks for the field with the empty name (violation)."
  },
  {
   "property": "C53",
   "status": "partial",
   "theorems": [
    "Elliptica.Solve.C53_iterations",
    "Elliptica.Solve.C53_mix",
    "Elliptica.Solve.C53_repeated_violation",
    "Elliptica.Solve.C53_alias_violation"
   ],
   "note": "Proved for lists without repetition and solvers that leave backups alone; a repeated field is relaxed twice and an aliased one not at all (violations)."
  },
  {
   "property": "C49",
   "status": "partial",
   "theorems": [
    "Elliptica.Ylm.C49_coeffs",
    "Elliptica.Ylm.C49_roundtrip",
    "Elliptica.Ylm.C49_stable",
    "Elliptica.Ylm.C49_total",
    "Elliptica.Ylm.C49_recommended",
    "Elliptica.Ylm.C49_refused",
    "Elliptica.Ylm.C49_large_violation"
   ],
   "note": "Proved over the reals with exact roots in the table (the table's entries are within 1e-18 of them, C49_recommended). Missing: the recommended grid is refused for Lmax of 50 and more (violation)."
  },
  {
   "property": "C54",
   "status": "partial",
   "theorems": [
    "Elliptica.Deriv.C54_interpolant",
    "Elliptica.Deriv.C54_first",
    "Elliptica.Deriv.C54_rate",
    "Elliptica.Deriv.C54_cartesian",
    "Elliptica.Deriv.C54_cubed",
    "Elliptica.Deriv.C54_four_violation"
   ],
   "note": "Proved over the reals for Chebyshev grids with fewer than about 700000 points per direction: first derivatives on Cartesian and cubed-spherical patches (Jacobian of the patch as a parameter), up to three derivatives on Cartesian patches, two on cubed-spherical ones. Four or more directions always stop the program (violation)."
  },
  {
   "property": "C56",
   "status": "partial",
   "theorems": [
    "Elliptica.Fornberg.C56_exact",
    "Elliptica.Fornberg.C56_window",
    "Elliptica.Fornberg.C56_refuse",
    "Elliptica.Fornberg.C56_central_violation",
    "Elliptica.Fornberg.C56_central_violation_ex",
    "Elliptica.Fornberg.C56_outside_violation",
    "Elliptica.Fornberg.C56_points_violation",
    "Elliptica.Fornberg.C56_acc_violation",
    "Elliptica.Fornberg.C56_zero_violation"
   ],
   "note": "Exactness and the surrounding window are proved. At a grid point the window of an odd number of points is one point off centre; points outside the grid are accepted, exactly enough points are refused, accuracy 0 reads uninitialised memory (violations)."
  },
  {
   "property": "C57",
   "status": "proved",
   "theorems": [
    "Elliptica.Deriv.C57_inverse",
    "Elliptica.Deriv.C57_cartesian"
   ],
   "note": "All patches and points with regular dN/dx."
  },
  {
   "property": "C55",
   "status": "partial",
   "theorems": [
    "Elliptica.DerivName.C55_directions",
    "Elliptica.DerivName.C55_method",
    "Elliptica.DerivName.C55_task",
    "Elliptica.DerivName.C55_name",
    "Elliptica.DerivName.C55_name_refused",
    "Elliptica.DerivName.C55_field",
    "Elliptica.DerivName.C55_blank_violation",
    "Elliptica.DerivName.C55_override_violation",
    "Elliptica.DerivName.C55_comma_violation",
    "Elliptica.DerivName.C55_index_violation",
    "Elliptica.DerivName.C55_long_violation"
   ],
   "note": "Tasks without blanks and names by the convention are proved. The documented blanks around the bar are refused, an unknown method in the task is ignored, a leading comma doubles the derivative, upper indices are accepted, and names of 100 characters overrun the buffer (violations)."
  },
  {
   "property": "C58",
   "status": "partial",
   "theorems": [
    "Elliptica.EoS.C58_list",
    "Elliptica.EoS.C58_accepts",
    "Elliptica.EoS.C58_values",
    "Elliptica.EoS.C58_exists",
    "Elliptica.EoS.C58_total",
    "Elliptica.EoS.C58_vacuum",
    "Elliptica.EoS.C58_first_law",
    "Elliptica.EoS.C58_derivatives",
    "Elliptica.EoS.C58_polytrope",
    "Elliptica.EoS.C58_polytrope_derivatives",
    "Elliptica.EoS.C58_order_violation",
    "Elliptica.EoS.C58_short_violation",
    "Elliptica.EoS.C58_one_piece_violation",
    "Elliptica.EoS.C58_below_one_violation",
    "Elliptica.EoS.C58_hole_violation",
    "Elliptica.EoS.C58_long_violation"
   ],
   "note": "Values, existence and uniqueness, first law and derivatives are proved over the reals for every usable parameter set and every enthalpy from 1 + round-off on that is not within the round-off of a threshold without being equal to it. Missing: refusal of unordered last thresholds, short lists, single pieces, enthalpies below 1; an enthalpy exactly a round-off above a threshold stops the program; long lists overrun a buffer (violations)."
  },
  {
   "property": "C59",
   "status": "partial",
   "theorems": [
    "Elliptica.EoS.C59_samples",
    "Elliptica.EoS.C59_accepts",
    "Elliptica.EoS.C59_value",
    "Elliptica.EoS.C59_node",
    "Elliptica.EoS.C59_floor",
    "Elliptica.EoS.C59_sign_partial",
    "Elliptica.EoS.C59_sign_violation",
    "Elliptica.EoS.C59_above_violation"
   ],
   "note": "Proved over the reals. Missing: a spline value of exactly minus the round-off is passed on, and above enthalpy 2 the functions silently return vacuum (violations)."
  },
  {
   "property": "C60",
   "status": "partial",
   "theorems": [
    "Elliptica.EoS.C60_lines",
    "Elliptica.EoS.C60_units",
    "Elliptica.EoS.C60_mixed",
    "Elliptica.EoS.C60_constants",
    "Elliptica.EoS.C60_accepts",
    "Elliptica.EoS.C60_rows",
    "Elliptica.EoS.C60_clamp",
    "Elliptica.EoS.C60_density_derivative",
    "Elliptica.EoS.C60_derivative_violation",
    "Elliptica.EoS.C60_order_violation",
    "Elliptica.EoS.C60_small_violation",
    "Elliptica.EoS.C60_long_comment_violation"
   ],
   "note": "Proved over the reals, number scanning (sscanf) a parameter. Missing: the derivative functions forget the shift of the logarithm and are wrong at every inner row with a slope (violation); below the floor the density depends on the evaluation order of the compiler; tables of less than four rows are read past their end; the rest of a comment line longer than 998 characters is read as data (violations)."
  },
  {
   "property": "C61",
   "status": "partial",
   "theorems": [
    "Elliptica.Transform.C61_boost_product",
    "Elliptica.Transform.C61_boost_inverse",
    "Elliptica.Transform.C61_boost_rest",
    "Elliptica.Transform.C61_fast",
    "Elliptica.Transform.C61_small_violation",
    "Elliptica.Transform.C61_rotation",
    "Elliptica.Transform.C61_rotation_rigid",
    "Elliptica.Transform.C61_passive_partial",
    "Elliptica.Transform.C61_passive_violation",
    "Elliptica.Transform.C61_sphe_to_cart",
    "Elliptica.Transform.C61_cart_to_sphe_partial",
    "Elliptica.Transform.C61_no_direction"
   ],
   "note": "Proved over the reals. Missing: a boost whose squared velocity is positive but below the round-off threshold is not a Lorentz transformation (violation); the passive rotation undoes the active one only about a single axis (violation); Cartesian to spherical on the plane x = 0 (the matrix inverse macro divides by zero there, C17)."
  },
  {
   "property": "C62",
   "status": "partial",
   "theorems": [
    "Elliptica.DiffGeom.C62_christoffel",
    "Elliptica.DiffGeom.C62_levi_civita",
    "Elliptica.DiffGeom.C62_unique",
    "Elliptica.DiffGeom.C62_ricci",
    "Elliptica.DiffGeom.C62_ricci_symm",
    "Elliptica.DiffGeom.C62_trace",
    "Elliptica.DiffGeom.C62_bssn",
    "Elliptica.DiffGeom.C62_bssn_error",
    "Elliptica.DiffGeom.C62_degenerate"
   ],
   "note": "Proved over the reals for the translated node arithmetic. Missing: the exponents are decimal fractions, so the determinant of the scaled metric is one only up to a factor det^(7e-17) (bounded in C62_bssn_error); metrics whose first entry is zero (C17); a metric of non-positive determinant is not refused (C62_degenerate)."
  },
  {
   "property": "C63",
   "status": "partial",
   "theorems": [
    "Elliptica.Equation.Psi.C63_psi",
    "Elliptica.Equation.Psi.C63_psi_bc",
    "Elliptica.Equation.AlphaPsi.C63_alphaPsi",
    "Elliptica.Equation.AlphaPsi.C63_alphaPsi_bc",
    "Elliptica.Equation.Shift.C63_shift",
    "Elliptica.Equation.Shift.C63_shift_bc",
    "Elliptica.Equation.Phi.C63_phi",
    "Elliptica.Equation.Phi.C63_phi_T1",
    "Elliptica.Equation.Phi.C63_phi_bc",
    "Elliptica.Equation.Phi.C63_phi_bc3_partial",
    "Elliptica.Equation.Phi.C63_phi_bc3_violation"
   ],
   "note": "Proved over the reals for the translated node arithmetic, for all values of the fields (and, for the continuity equation, all differentiable fields). Missing: the surface condition of type 3 is the flow condition only in a conformally flat metric and without the enthalpy factor (violation); the small term that fixes the value of the potential at a central box; rounding."
  },
  {
   "property": "C64",
   "status": "partial",
   "theorems": [
    "Elliptica.Equation.Psi.C64_psi",
    "Elliptica.Equation.Psi.C64_psi_bc",
    "Elliptica.Equation.AlphaPsi.C64_alphaPsi",
    "Elliptica.Equation.AlphaPsi.C64_alphaPsi_bc",
    "Elliptica.Equation.Shift.C64_shift",
    "Elliptica.Equation.Shift.C64_shift_bc",
    "Elliptica.Equation.Phi.C64_phi",
    "Elliptica.Equation.Phi.C64_phi_bc",
    "Elliptica.Equation.Phi.C64_phi_bc3_partial",
    "Elliptica.Equation.Phi.C64_phi_bc3_violation",
    "Elliptica.Equation.Phi.C64_phi_inner_violation"
   ],
   "note": "Proved over the reals: derivative in the direction of the column's node, other unknowns fixed (the traceless extrinsic curvature follows the shift). Missing: the surface condition of type 3 in a curved metric (violation) and inner boundaries of star patches, whose rows are zero (violation); blocks between different components of the shift are left out by design; the small term at a central box."
  },
  {
   "property": "C65",
   "status": "proved",
   "theorems": [
    "Elliptica.Extrinsic.C65_metric",
    "Elliptica.Extrinsic.C65_KUU",
    "Elliptica.Extrinsic.C65_trace",
    "Elliptica.Extrinsic.C65_KDD",
    "Elliptica.Extrinsic.C65_raise",
    "Elliptica.Extrinsic.C65_ways",
    "Elliptica.Extrinsic.Xcts.C65_A",
    "Elliptica.Extrinsic.Xcts.C65_A2",
    "Elliptica.Extrinsic.Xcts.C65_traceless",
    "Elliptica.Extrinsic.Xcts.C65_dA",
    "Elliptica.Extrinsic.Sctt.C65_A",
    "Elliptica.Extrinsic.Sctt.C65_A2"
   ],
   "note": "Proved over the reals for the translated node arithmetic, for symmetric fields and an inverse metric that is the inverse (C62); rounding is not modelled."
  },
  {
   "property": "C66",
   "status": "proved",
   "theorems": [
    "Elliptica.Constraints.C66_scratch_ham",
    "Elliptica.Constraints.C66_scratch_mom",
    "Elliptica.Constraints.C66_ident_ham",
    "Elliptica.Constraints.C66_ident_mom",
    "Elliptica.Constraints.C66_agree_ham",
    "Elliptica.Constraints.C66_agree_mom",
    "Elliptica.Constraints.C66_residual_ham",
    "Elliptica.Constraints.C66_residual_mom"
   ],
   "note": "Proved over the reals for the translated node arithmetic with exact derivatives of the fields (that the spectral derivative is the derivative of the interpolating polynomial is C54); the sources with a weight are assumed to be the weight times the sources (C67)."
  },
  {
   "property": "C67",
   "status": "partial",
   "theorems": [
    "Elliptica.Fluid.metric_inverse",
    "Elliptica.Fluid.C67_u0",
    "Elliptica.Fluid.C67_future",
    "Elliptica.Fluid.C67_energy",
    "Elliptica.Fluid.C67_momentum",
    "Elliptica.Fluid.C67_stress",
    "Elliptica.Fluid.C67_prefactor",
    "Elliptica.Fluid.C67_euler",
    "Elliptica.Fluid.C67_bernoulli",
    "Elliptica.Fluid.C67_enthalpy_partial",
    "Elliptica.Fluid.C67_enthalpy_violation",
    "Elliptica.Fluid.C67_mass",
    "Elliptica.Fluid.C67_neat",
    "Elliptica.Fluid.C67_update",
    "Elliptica.Fluid.C67_density",
    "Elliptica.Fluid.C67_density_violation",
    "Elliptica.Fluid.C67_not_finite",
    "Elliptica.Fluid.C67_gamma",
    "Elliptica.Fluid.C67_force_balance"
   ],
   "note": "Proved over the reals for the translated node arithmetic. Missing: a constant above beta^i d_i phi gives the enthalpy of another constant (violation); without the clean-up an enthalpy below one gives a negative density when the polytropic exponent is an integer (violation); the force balance is proved for exact derivatives along a line (spectral derivative: C54, interpolation: C41) and where its own copy of the background shift is the shift (C69: not off the orbital plane of an infalling binary)."
  },
  {
   "property": "C68",
   "status": "proved",
   "theorems": [
    "Elliptica.Jac.C68_opt_first",
    "Elliptica.Jac.C68_opt_second",
    "Elliptica.Jac.C68_first",
    "Elliptica.Jac.C68_second",
    "Elliptica.Jac.C68_change",
    "Elliptica.Jac.C68_fill_first",
    "Elliptica.Jac.C68_fill_second",
    "Elliptica.Jac.C68_direct"
   ],
   "note": "Proved over the reals for Chebyshev extrema in every direction (the only collocation the entries and the interpolation are made for) and Cartesian or cubed spherical patches; rounding is not modelled."
  },
  {
   "property": "C69",
   "status": "partial",
   "theorems": [
    "Elliptica.Orbit.C69_value",
    "Elliptica.Orbit.C69_derivative",
    "Elliptica.Orbit.C69_total",
    "Elliptica.Orbit.C69_no_shear",
    "Elliptica.Orbit.C69_copy",
    "Elliptica.Orbit.C69_copy_violation"
   ],
   "note": "Proved over the reals. Missing: the copy in the force balance has no radial component along z, so it is not the background off the plane of the orbit when the infall velocity is not zero (violation)."
  },
  {
   "property": "C70",
   "status": "proved",
   "theorems": [
    "Elliptica.DInterp.C70_value",
    "Elliptica.DInterp.C70_derivative",
    "Elliptica.DInterp.C70_choice"
   ],
   "note": "Proved over the reals for points at which no tolerance test decides (equal to a grid point's angle or not within round-off of it; coordinate factor dN/dx zero or not within round-off of zero) and planes whose grid points are further apart than round-off; rounding is not modelled."
  },
  {
   "property": "C71",
   "status": "proved",
   "theorems": [
    "Elliptica.Sew.C71_blocks",
    "Elliptica.Sew.C71_residual",
    "Elliptica.Sew.C71_rows",
    "Elliptica.Sew.C71_change",
    "Elliptica.Sew.C71_newton"
   ],
   "note": "Proved over the reals for grids whose subfaces fit (the adjacent patch is another patch; collocated value-matched points are interface nodes on both sides, otherwise the code indexes an array with UINT_MAX; interpolation points lie in the adjacent patch and no tolerance test decides there). Rounding is not modelled; the construction of the subfaces is C72."
  },
  {
   "property": "C72",
   "status": "proved",
   "theorems": [
    "Elliptica.Iface.C72_cover",
    "Elliptica.Iface.C72_kinds",
    "Elliptica.Iface.C72_once",
    "Elliptica.Iface.C72_mirror",
    "Elliptica.Iface.C72_numbers",
    "Elliptica.Iface.C72_boundary",
    "Elliptica.Iface.C72_labels",
    "Elliptica.Iface.C72_no_ub",
    "Elliptica.Iface.C72_overlap_violation"
   ],
   "note": "Proved for the split cubed spherical method, for every geometry given as a table of answers of the coordinate and node searches (their own correctness: C20, C21). The last theorem shows that the condition of C72_no_ub is needed (overlapping patches). The general method (interface.c 1167-1950) is not modelled."
  },
  {
   "property": "C73",
   "status": "partial",
   "theorems": [
    "Elliptica.Iface.C73_face",
    "Elliptica.Iface.C73_partner",
    "Elliptica.Iface.C73_opposite",
    "Elliptica.Iface.C73_anchored",
    "Elliptica.Iface.C73_points",
    "Elliptica.Iface.C73_numbering_violation"
   ],
   "note": "Missing: the greedy assignment can leave a patch with conditions on derivatives only and then stops the program although another numbering of the patches of the same grid is accepted (violation: seven cubes)."
  },
  {
   "property": "C74",
   "status": "partial",
   "theorems": [
    "Elliptica.Coord.C74_jacobian",
    "Elliptica.Coord.C74_outermost"
   ],
   "note": "Proved over the reals for all types and sides, given that the stored surface values and their angular derivatives are those of the surface functions the map uses. Missing: outermost split patches with a non-spherical outer surface or a non-spherical, non-planar inner one (the code ignores the derivatives of the surfaces there; the grid builder does not make them), and that the interpolated plane of the inner cube is only approximately the exact plane the Jacobian uses."
  },
  {
   "property": "C75",
   "status": "proved",
   "theorems": [
    "Elliptica.Coord.C75_right_handed",
    "Elliptica.Coord.C75_determinant"
   ],
   "note": "Over the reals."
  },
  {
   "property": "C76",
   "status": "partial",
   "theorems": [
    "Elliptica.Tiling.C76_split",
    "Elliptica.Tiling.C76_accepts",
    "Elliptica.Tiling.C76_cover_partial",
    "Elliptica.Tiling.C76_within_partial",
    "Elliptica.Tiling.C76_disjoint_partial",
    "Elliptica.Tiling.C76_regular_partial",
    "Elliptica.Tiling.C76_corner_violation",
    "Elliptica.Tiling.C76_overlap_violation",
    "Elliptica.Tiling.C76_gap_violation"
   ],
   "note": "Proved over the reals under the conditions `Fits` (surface between its smallest radius and the first sphere around it, cubic central boxes, corners of the two cubes inside the first outermost sphere, exact interpolation of constants and of the flat surfaces). The program checks none of them: three grids it accepts are shown in which a patch sticks out of the outermost sphere, two patches overlap, and a point is in no patch."
  },
  {
   "property": "C77",
   "status": "proved",
   "theorems": [
    "Elliptica.Reader.C77_index",
    "Elliptica.Reader.C77_open",
    "Elliptica.Reader.C77_open_null",
    "Elliptica.Reader.C77_params",
    "Elliptica.Reader.C77_get_param",
    "Elliptica.Reader.C77_dispatch",
    "Elliptica.Reader.C77_unknown",
    "Elliptica.Reader.C77_fill",
    "Elliptica.Reader.C77_fill_total",
    "Elliptica.Reader.C77_refuses",
    "Elliptica.Reader.C77_schedule"
   ],
   "note": "The grid is given by the coordinate map, the fields and the interpolation of each patch (their correctness: C20, C21, C23, C41); lists of names in the form of C09 (separated by commas, none in front). The exporters of the projects are not in the repository: modelled is what they call. A negative npoints (which the check for zero lets through) is not modelled."
  },
  {
   "property": "C78",
   "status": "partial",
   "theorems": [
    "Elliptica.Reader.C78_fieldx",
    "Elliptica.Reader.C78_fieldx_agrees",
    "Elliptica.Reader.C78_coords",
    "Elliptica.Reader.C78_coords_bad",
    "Elliptica.Reader.C78_file",
    "Elliptica.Reader.C78_mt_violation",
    "Elliptica.Reader.C78_fieldx_violation",
    "Elliptica.Reader.C78_unpaired_violation",
    "Elliptica.Reader.C78_title_violation",
    "Elliptica.Reader.C78_free_violation",
    "Elliptica.Reader.C78_free_user_violation"
   ],
   "note": "Missing, with violations: the point-wise reader looks a name up in the dictionary but uses the position in id_field_names, documented as the names for ifields; it is refused for binary neutron stars; a first line of 998 characters breaks the file of coordinates; more fields than names reads outside the list; idr_free dereferences a null grid, and frees the coordinate arrays of the caller."
  },
  {
   "property": "C79",
   "status": "partial",
   "theorems": [
    "Elliptica.Tov.C79_step",
    "Elliptica.Tov.C79_enthalpy",
    "Elliptica.Tov.C79_equations",
    "Elliptica.Tov.C79_phi",
    "Elliptica.Tov.C79_masses",
    "Elliptica.Tov.C79_komar",
    "Elliptica.Tov.C79_isotropic",
    "Elliptica.Tov.C79_surface",
    "Elliptica.Tov.C79_rbar",
    "Elliptica.Tov.C79_mean_density",
    "Elliptica.Tov.C79_center",
    "Elliptica.Tov.C79_center_masses",
    "Elliptica.Tov.C79_c_center",
    "Elliptica.Tov.C79_virial",
    "Elliptica.Tov.C79_constant",
    "Elliptica.Tov.C79_center_violation",
    "Elliptica.Tov.C79_c_center_violation"
   ],
   "note": "Over the reals. Proved: equations, Runge-Kutta steps, metric functions, matching, masses, virial theorem and the meaning of the constant of the isotropic radius. Violations, for every star: the expansion used for the first radius lacks a factor 1/h_c, so that (program's radius / radius)^2 tends to h_c at the centre, not 1 (and the mass likewise); the integrand of the constant is set to 0 at the centre where it is -e/((e+3p)h_c). Missing: convergence of the table to the star as the number of points grows."
  },
  {
   "property": "C80",
   "status": "partial",
   "theorems": [
    "Elliptica.Tov.C80_solution",
    "Elliptica.Tov.C80_converges",
    "Elliptica.Tov.C80_single_partial",
    "Elliptica.Tov.C80_row_partial",
    "Elliptica.Tov.C80_table",
    "Elliptica.Tov.C80_maximum_violation",
    "Elliptica.Tov.C80_zero_violation",
    "Elliptica.Tov.C80_overrun_violation"
   ],
   "note": "Convergence for a Lipschitz mass function that reaches the wanted mass at one of the tried enthalpies. Violations: a mass near the maximum between two tried enthalpies is never found; with zero mass the drivers read null arrays; the mass-radius table runs past the last mass, and its first column is the requested mass even if the star has another (the status is not consulted)."
  },
  {
   "property": "C81",
   "status": "partial",
   "theorems": [
    "Elliptica.Schur.C81_residual",
    "Elliptica.Schur.C81_jacobian",
    "Elliptica.Schur.C81_check",
    "Elliptica.Schur.C81_disconnected_violation"
   ],
   "note": "For labelled patches whose boundary subfaces list nodes of faces and whose boundary flags agree with their subfaces. Violated: one disconnected patch among several passes the check and the solver then never completes a step."
  },
  {
   "property": "C82",
   "status": "proved",
   "theorems": [
    "Elliptica.Poisson.C82_residual",
    "Elliptica.Poisson.C82_jacobian",
    "Elliptica.Poisson.C82_step",
    "Elliptica.Poisson.C82_single",
    "Elliptica.Poisson.C82_polynomial",
    "Elliptica.Poisson.C82_exact",
    "Elliptica.Poisson.C82_unique"
   ],
   "note": "Over the reals, with a direct solver that only returns solutions and no nonzero matrix entry below the drop tolerance (C34 treats dropped entries). Convergence of the discrete to the continuous solution as the resolution grows is not claimed by the property."
  },
  {
   "property": "C83",
   "status": "proved",
   "theorems": [
    "Elliptica.Filter.C83_filter",
    "Elliptica.Filter.C83_formula",
    "Elliptica.Filter.C83_profile",
    "Elliptica.Filter.C83_unique",
    "Elliptica.Filter.C83_constant",
    "Elliptica.Filter.C83_refuses"
   ],
   "note": "over \u211d; erfc is the integral; the number of points is such that the round-off tolerance separates points (Good)"
  },
  {
   "property": "C84",
   "status": "partial",
   "theorems": [
    "Elliptica.Startup.C84_paths_partial",
    "Elliptica.Startup.C84_refuses",
    "Elliptica.Startup.C84_project",
    "Elliptica.Startup.C84_paths_violation"
   ],
   "note": "missing: paths whose last '.' lies in the directory part; the code has undefined behaviour there (C84_paths_violation)"
  },
  {
   "property": "C85",
   "status": "partial",
   "theorems": [
    "Elliptica.Startup.C85_names",
    "Elliptica.Startup.C85_make_partial",
    "Elliptica.Startup.C85_history",
    "Elliptica.Startup.C85_open_partial",
    "Elliptica.Startup.C85_make_violation",
    "Elliptica.Startup.C85_open_violation"
   ],
   "note": "missing: paths with spaces or missing parents, and opening a folder the program itself made; the code violates both (witnesses)"
  },
  {
   "property": "C86",
   "status": "partial",
   "theorems": [
    "Elliptica.Obs.C86_surface",
    "Elliptica.Obs.C86_isotropic",
    "Elliptica.Obs.C86_conformal",
    "Elliptica.Obs.C86_komar",
    "Elliptica.Obs.C86_integral",
    "Elliptica.Obs.C86_integral_none",
    "Elliptica.Obs.C86_mass_S2",
    "Elliptica.Obs.C86_komar_total",
    "Elliptica.Obs.C86_mass_total",
    "Elliptica.Obs.C86_agree",
    "Elliptica.Obs.C86_normal_partial",
    "Elliptica.Obs.C86_normal_violation"
   ],
   "note": "Derivatives of the fields are exact. The normal is the unit normal only for metrics proportional to the Euclidean one; otherwise the code normalises the gradient as if it were a vector (C86_normal_violation)."
  },
  {
   "property": "C87",
   "status": "partial",
   "theorems": [
    "Elliptica.Obs.C87_P",
    "Elliptica.Obs.C87_J",
    "Elliptica.Obs.C87_Rashti",
    "Elliptica.Obs.C87_constraint",
    "Elliptica.Obs.C87_J_constraint",
    "Elliptica.Obs.C87_momentum",
    "Elliptica.Obs.C87_Ossokine_partial",
    "Elliptica.Obs.C87_Ossokine_violation",
    "Elliptica.Obs.C87_spin",
    "Elliptica.Obs.C87_J_Ossokine",
    "Elliptica.Obs.C87_P_total",
    "Elliptica.Obs.C87_J_total",
    "Elliptica.Obs.C87_P_agree",
    "Elliptica.Obs.C87_J_agree"
   ],
   "note": "Everything proved but for 'Ossokine' with an inner volume: there the integrals use the physical metric although the integrand is a coordinate divergence (C87_Ossokine_violation)."
  },
  {
   "property": "C88",
   "status": "partial",
   "theorems": [
    "Elliptica.Bhf.C88_radial",
    "Elliptica.Bhf.C88_smooth",
    "Elliptica.Bhf.C88_find",
    "Elliptica.Bhf.C88_fill",
    "Elliptica.Bhf.C88_cutoff",
    "Elliptica.Bhf.C88_joined",
    "Elliptica.Bhf.C88_perfect",
    "Elliptica.Bhf.C88_names",
    "Elliptica.Bhf.C88_exp",
    "Elliptica.Bhf.C88_exp1",
    "Elliptica.Bhf.C88_exp1_violation",
    "Elliptica.Bhf.C88_names_violation"
   ],
   "note": "Over the reals; the interpolation on the outside patch is taken to return the field and its derivatives (C41). Missing: the exponential formula of order 1 has another slope at the surface (C88_exp1_violation), and for names that begin with an underscore and carry no index the names of the first derivatives are wrong (C88_names_violation). Directions on the coordinate planes other than phi=0 are excluded (see C38)."
  },
  {
   "property": "C89",
   "status": "proved",
   "theorems": [
    "Elliptica.Bhf.C89_smoother",
    "Elliptica.Bhf.C89_symmetric"
   ],
   "note": "over the reals"
  },
  {
   "property": "C90",
   "status": "partial",
   "theorems": [
    "Elliptica.Ks.C90_coordinates",
    "Elliptica.Ks.C90_R_pos",
    "Elliptica.Ks.C90_radius",
    "Elliptica.Ks.C90_split",
    "Elliptica.Ks.C90_at_rest",
    "Elliptica.Ks.C90_axis",
    "Elliptica.Ks.C90_params",
    "Elliptica.Ks.C90_extrinsic_static",
    "Elliptica.Ks.C90_extrinsic_moving_violation"
   ],
   "note": "Over the reals, with the literal 0.707106781186548 taken as 1/sqrt 2. For a hole at rest lapse and shift are right up to the factor sqrt(1-1e-14) the code introduces; boosts with |B|^2 below the round-off are dropped; the axis theorem needs spin components that are 0 or not below the round-off. Missing: the extrinsic curvature of a boosted hole leaves out the time derivative of the metric (C90_extrinsic_moving_violation)."
  },
  {
   "property": "C91",
   "status": "partial",
   "theorems": [
    "Elliptica.Ks.C91_metric_partial",
    "Elliptica.Ks.C91_functions",
    "Elliptica.Ks.C91_factor_partial",
    "Elliptica.Ks.C91_third_violation"
   ],
   "note": "First and second derivatives and the third derivatives with a repeated direction are proved for all parameters. The third derivatives along x, y, z of H, c and the metric are wrong in the code: a coefficient 120 is missing (C91_third_violation)."
  },
  {
   "property": "C92",
   "status": "partial",
   "theorems": [
    "Elliptica.Ks.C92_null",
    "Elliptica.Ks.C92_horizon",
    "Elliptica.Ks.C92_surface",
    "Elliptica.Ks.C92_surface_violation"
   ],
   "note": "The code takes R = M + sqrt(M^2 + a^2) where the horizon is at M + sqrt(M^2 - a^2): with spin the surface is nowhere null (C92_surface_violation, holes at rest). The root finder itself is C29."
  },
  {
   "property": "C93",
   "status": "partial",
   "theorems": [
    "Elliptica.Bh.C93_start_KerrSchild",
    "Elliptica.Bh.C93_start_sphere",
    "Elliptica.Bh.C93_start_close_violation",
    "Elliptica.Bh.C93_tune_step",
    "Elliptica.Bh.C93_tune_converges",
    "Elliptica.Bh.C93_chi_now",
    "Elliptica.Bh.C93_tune_chi",
    "Elliptica.Bh.C93_minMax"
   ],
   "note": "Over the reals. Missing: the start-off CloseKerrSchild sets the Christodoulou mass to the irreducible mass while the spin parameter is that of the right Christodoulou mass; the pair can violate a <= M (C93_start_close_violation). Spins in (1, 1+round-off] pass the check and make the C code take the root of a negative number."
  },
  {
   "property": "C94",
   "status": "partial",
   "theorems": [
    "Elliptica.Bh.C94_unit",
    "Elliptica.Bh.C94_orthogonal",
    "Elliptica.Bh.C94_orthogonal_violation",
    "Elliptica.Bh.C94_normal_deriv",
    "Elliptica.Bh.C94_shift",
    "Elliptica.Bh.C94_confChris",
    "Elliptica.Bh.C94_expansion",
    "Elliptica.Bh.C94_maxExpansion"
   ],
   "note": "Over the reals; derivatives of fields are exact. The 'normal' is the radial coordinate vector scaled to unit length: it is orthogonal to the surface only for metrics proportional to the Euclidean one (C94_orthogonal_violation)."
  },
  {
   "property": "C95",
   "status": "proved",
   "theorems": [
    "Elliptica.Fd.C95_iso_equations",
    "Elliptica.Fd.C95_iso_schwarzschild",
    "Elliptica.Fd.C95_pg_shift",
    "Elliptica.Fd.C95_pg_curvature",
    "Elliptica.Fd.C95_pg_constraints"
   ],
   "note": "Over the reals; derivatives are exact. The PG shift is exact unless |x| or |y| is non-zero and below the round-off (then within three round-offs over r)."
  },
  {
   "property": "C96",
   "status": "partial",
   "theorems": [
    "Elliptica.Fd.C96_plan",
    "Elliptica.Fd.C96_plan_accepts",
    "Elliptica.Fd.C96_conf_violation",
    "Elliptica.Fd.C96_rolloff",
    "Elliptica.Fd.C96_rolloff_const",
    "Elliptica.Fd.C96_rolloff_jump_violation",
    "Elliptica.Fd.C96_rolloff_abort_violation",
    "Elliptica.Fd.C96_superpose",
    "Elliptica.Fd.C96_KerrSchild"
   ],
   "note": "The plan is modelled by which fields each step reads and writes. Missing: with lambda=1 the roll-off is below 1 on the surface and jumps at rmax (C96_rolloff_jump_violation); the uncut roll-off with the ratio lambda stops the run beyond rmax (C96_rolloff_abort_violation); the scaled metric cannot be made from a null or another metric (C96_conf_violation)."
  },
  {
   "property": "C97",
   "status": "partial",
   "theorems": [
    "Elliptica.Tune.C97_parse",
    "Elliptica.Tune.C97_text",
    "Elliptica.Tune.C97_options",
    "Elliptica.Tune.C97_idle",
    "Elliptica.Tune.C97_force_balance",
    "Elliptica.Tune.C97_none",
    "Elliptica.Tune.C97_step",
    "Elliptica.Tune.C97_converges",
    "Elliptica.Tune.C97_euler",
    "Elliptica.Tune.C97_momentum",
    "Elliptica.Tune.C97_momentum_converges",
    "Elliptica.Tune.C97_fourth_violation",
    "Elliptica.Tune.C97_empty_violation",
    "Elliptica.Tune.C97_unsolved_violation"
   ],
   "note": "Over the reals; the root finder (C29) enters as an arbitrary outcome. Missing: a fourth name is silently dropped (C97_fourth_violation); an empty first name makes the other count twice (C97_empty_violation); a force-balance root finder that has failed still changes the parameter (C97_unsolved_violation). Momenta: for a mass turning about the centre of rotation, by adjust(x_CM,y_CM);."
  },
  {
   "property": "C98",
   "status": "partial",
   "theorems": [
    "Elliptica.Star.C98_interpolation",
    "Elliptica.Star.C98_taylor",
    "Elliptica.Star.C98_failed",
    "Elliptica.Star.C98_method",
    "Elliptica.Star.C98_keep",
    "Elliptica.Star.C98_spin",
    "Elliptica.Star.C98_start",
    "Elliptica.Star.C98_outside",
    "Elliptica.Star.C98_motion_partial",
    "Elliptica.Star.C98_motion_violation"
   ],
   "note": "Over the reals; interpolation and derivatives are exact; the table of the isotropic radius increases by more than the round-off from row to row (an assumption on the table, met by the star of StarCenterEx). Missing: the velocity potential of the start-off has the orbital velocity only for a centre of mass at the x of the star (C98_motion_violation); values between the rows of the table are those of the spline (C30)."
  },
  {
   "property": "C99",
   "status": "partial",
   "theorems": [
    "Elliptica.StarFill.C99_second",
    "Elliptica.StarFill.C99_first",
    "Elliptica.StarFill.C99_zeroth",
    "Elliptica.StarFill.C99_joined2",
    "Elliptica.StarFill.C99_joined1",
    "Elliptica.StarFill.C99_joined0",
    "Elliptica.StarFill.C99_decay",
    "Elliptica.StarFill.C99_limit",
    "Elliptica.StarFill.C99_grow_violation",
    "Elliptica.StarFill.C99_enthalpy",
    "Elliptica.StarFill.C99_enthalpy_violation",
    "Elliptica.StarFill.C99_options",
    "Elliptica.StarFill.C99_refused",
    "Elliptica.StarFill.C99_auxiliary_partial",
    "Elliptica.StarFill.C99_auxiliary_violation"
   ],
   "note": "Over the reals; the search of the surface by angles and the interpolation on it (C38, C41, C88) enter as exact readings, and nodes within the round-off of the planes x=0, y=0 (but not on them) are left out. Missing: with poly2 and inverse_r2 the enthalpy outside can exceed 1 (C99_enthalpy_violation), and with poly2 fields grow without bound (C99_grow_violation); a derivative field that only some patches had is removed from those too (C99_auxiliary_violation)."
  },
  {
   "property": "C100",
   "status": "partial",
   "theorems": [
    "Elliptica.StarSurface.C100_bracket",
    "Elliptica.StarSurface.C100_direction",
    "Elliptica.StarSurface.C100_radius",
    "Elliptica.StarSurface.C100_nostop",
    "Elliptica.StarSurface.C100_surface",
    "Elliptica.StarSurface.C100_coeffs",
    "Elliptica.StarSurface.C100_interrupt",
    "Elliptica.StarSurface.C100_scan_interrupt",
    "Elliptica.StarSurface.C100_perfect",
    "Elliptica.StarSurface.C100_options",
    "Elliptica.StarSurface.C100_gap_violation",
    "Elliptica.StarSurface.C100_stale_violation",
    "Elliptica.StarSurface.C100_nan_violation"
   ],
   "note": "Over the reals; the search of the patch and the interpolation of the enthalpy (C38, C40, C41) enter as the function along the ray. Missing: an enthalpy below 1 by no more than the round-off at the present surface is taken for a star that has shrunk too much (C100_gap_violation); a bisection that runs out of turns leaves the displacement of the direction before in use (C100_stale_violation); a residual that is not a number counts as success (C100_nan_violation); the guarantee is for a surface within 5 of the present one."
  },
  {
   "property": "C101",
   "status": "partial",
   "theorems": [
    "Elliptica.Physics.C101_dispatch",
    "Elliptica.Physics.C101_dispatch_stop",
    "Elliptica.Physics.C101_dispatch_once",
    "Elliptica.Physics.C101_init",
    "Elliptica.Physics.C101_init_one",
    "Elliptica.Physics.C101_init_system",
    "Elliptica.Physics.C101_region",
    "Elliptica.Physics.C101_region_again",
    "Elliptica.Physics.C101_mygrid",
    "Elliptica.Physics.C101_mygrid_all",
    "Elliptica.Physics.C101_region_kept",
    "Elliptica.Physics.C101_region_both",
    "Elliptica.Physics.C101_region_pair",
    "Elliptica.Physics.C101_region_system",
    "Elliptica.Physics.C101_cross_violation"
   ],
   "note": "regexec for the pattern (NS|BH) is modelled as the leftmost occurrence of either; the 99-character buffer is unbounded. Missing: the object that a region names is not compared with the object of the physics, so that a star asked for the surroundings of a black hole silently answers with its own (C101_cross_violation)."
  },
  {
   "property": "C102",
   "status": "partial",
   "theorems": [
    "Elliptica.ObsCenter.C102_area",
    "Elliptica.ObsCenter.C102_scale",
    "Elliptica.ObsCenter.C102_center_origin",
    "Elliptica.ObsCenter.C102_center_symmetric",
    "Elliptica.ObsCenter.C102_laplacian",
    "Elliptica.ObsCenter.C102_star_origin",
    "Elliptica.ObsCenter.C102_spin",
    "Elliptica.ObsCenter.C102_spin_origin",
    "Elliptica.ObsCenter.C102_area_violation"
   ],
   "note": "Over the reals. Missing: the area used for the centre of a hole is the parameter of the last tuning, not that of the surface integrated over; when they differ the position depends on the origin (C102_area_violation). The spin integrals of the other two methods are not modelled."
  },
  {
   "property": "C103",
   "status": "proved",
   "theorems": [
    "Elliptica.Derive.C103_list",
    "Elliptica.Derive.C103_unknown",
    "Elliptica.Derive.C103_christoffel",
    "Elliptica.Derive.C103_fluid",
    "Elliptica.Derive.C103_regex",
    "Elliptica.Derive.C103_blank",
    "Elliptica.Derive.C103_metric",
    "Elliptica.Derive.C103_trace",
    "Elliptica.Derive.C103_fields",
    "Elliptica.Derive.C103_twice",
    "Elliptica.Derive.C103_conformal"
   ],
   "note": "Over the reals. Patterns are those of the form ^...$ with plain characters and dots, the only ones the code uses; names and stems shorter than the buffers (C55_long_violation for longer names)."
  },
  {
   "property": "C104",
   "status": "proved",
   "theorems": [
    "Elliptica.MassShed.C104_direction",
    "Elliptica.MassShed.C104_slope",
    "Elliptica.MassShed.C104_side",
    "Elliptica.MassShed.C104_indicator",
    "Elliptica.MassShed.C104_spherical",
    "Elliptica.MassShed.C104_shedding",
    "Elliptica.MassShed.C104_units",
    "Elliptica.MassShed.C104_refused"
   ],
   "note": "Over the reals. The map of the patch and the interpolation on its surface (C21, C41) enter as exact readings of value and gradient; the point facing the companion is the middle of the patch on that side, which is on the line of the centres when the centre of the patch is. The buffer of 99 bytes is unbounded."
  },
  {
   "property": "C105",
   "status": "partial",
   "theorems": [
    "Elliptica.InitFields.C105_superposed_partial",
    "Elliptica.InitFields.C105_shift_violation",
    "Elliptica.InitFields.C105_rest",
    "Elliptica.InitFields.C105_kept",
    "Elliptica.InitFields.C105_refused",
    "Elliptica.InitFields.C105_flat_partial",
    "Elliptica.InitFields.C105_flat_violation",
    "Elliptica.InitFields.C105_alone"
   ],
   "note": "The superposition fails for the shift of two black holes: sys_main.c:230-235 and 274-279 superpose the shift with the same extra \u22121 as conformal factor and lapse, so each component is 1 too small and tends to \u22121 far away (C105_shift_violation, C105_flat_violation); everything else holds. The data of single objects enter as arbitrary functions."
  },
  {
   "property": "C106",
   "status": "partial",
   "theorems": [
    "Elliptica.ObsPlan.C106_case",
    "Elliptica.ObsPlan.C106_refused",
    "Elliptica.ObsPlan.C106_far",
    "Elliptica.ObsPlan.C106_object",
    "Elliptica.ObsPlan.C106_objects",
    "Elliptica.ObsPlan.C106_volume_partial",
    "Elliptica.ObsPlan.C106_stars_violation",
    "Elliptica.ObsPlan.C106_bhbh_violation",
    "Elliptica.ObsPlan.C106_one_split"
   ],
   "note": "Two plans of P fail: \"S+V,constraint\" for one or two stars collects the volumes of the stars and also the surfaces around them (obs_calculate.c:1494-1503, 1530-1539), so the fluxes of the stars are counted twice (C106_stars_violation); and the loop over volume patches (1709-1767) does not know the grid of two black holes, so its surface plus volume methods stop the run (C106_bhbh_violation). Ossokine's method is covered for one split only."
  },
  {
   "property": "C107",
   "status": "proved",
   "theorems": [
    "Elliptica.Tasks.C107_entries",
    "Elliptica.Tasks.C107_run",
    "Elliptica.Tasks.C107_get",
    "Elliptica.Tasks.C107_symmetric",
    "Elliptica.Tasks.C107_symmetric_refused"
   ],
   "note": "Functions are functions on states that may stop the program; stems are shorter than 994 characters (the buffer of 999 bytes is not checked; longer stems are undefined behaviour in the model)."
  },
  {
   "property": "C108",
   "status": "proved",
   "theorems": [
    "Elliptica.ObsPlan.C108_far",
    "Elliptica.ObsPlan.C108_volume",
    "Elliptica.ObsPlan.C108_star",
    "Elliptica.ObsPlan.C108_komar",
    "Elliptica.ObsPlan.C108_komar_object",
    "Elliptica.ObsPlan.C108_case",
    "Elliptica.ObsPlan.C108_refused",
    "Elliptica.ObsPlan.C108_refused_hole"
   ],
   "note": "The integrands and sums are those of C87 and others; here the plan of regions, sides and metrics. A single black hole has no \"S+V,conformal\" ADM mass, and a black hole of a system no ADM mass: both are refused."
  }
 ]
}