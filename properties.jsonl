{"id": "C01", "title": "Parameter names are case-canonical", "statement": "Every parameter access (set, update, default, get, free) addresses the parameter through the same canonical spelling of the name: the text before the first '_' in upper case and the rest in lower case (all lower case if there is no '_'). Canonicalisation is idempotent, so two spellings that differ only by letter case always address the same parameter.", "quantifier": "all names (arbitrary strings), all databases", "why_tests_cant": "names are arbitrary strings; a test samples a few spellings", "anchors": ["Src/Main/Core/parameters.c:par_rule1_uppercase_lowercase", "Src/Main/Core/parameters.c:get_parameter", "Src/Main/Core/parameters.c:update_parameter_string"]}
{"id": "C02", "title": "Parameter database behaves as a map", "statement": "After any history of set/update/default/free operations the database holds at most one entry per canonical name, and a string read returns the value last written to that name (defaults only fill missing or empty entries; freeing removes exactly that name and no other).", "quantifier": "all operation histories, all names and values", "why_tests_cant": "depends on the whole history and on the swap-with-last deletion", "anchors": ["Src/Main/Core/parameters.c:add_parameter", "Src/Main/Core/parameters.c:update_parameter_string", "Src/Main/Core/parameters.c:set_default_parameter", "Src/Main/Core/parameters.c:free_parameter"]}
{"id": "C03", "title": "Double reads are never stale", "statement": "Reading a parameter as a double always returns the number denoted by the value last written to that parameter, whatever mix of string, integer, double, default, iterative updates and earlier double reads (which cache) happened before.", "quantifier": "all operation histories", "why_tests_cant": "the cache flag makes the result depend on interleaving of reads and writes", "anchors": ["Src/Main/Core/parameters.c:get_parameter_value_D", "Src/Main/Core/parameters.c:set_default_parameter", "Src/Main/Core/parameters.c:update_iterative_parameter_ip"]}
{"id": "C04", "title": "Integer parameters round-trip", "statement": "An integer written with Pseti is read back unchanged by Pgeti, for every int.", "quantifier": "every 32-bit int, every database", "why_tests_cant": "2^32 values and arbitrary surrounding database", "anchors": ["Src/Main/Core/parameters.c:update_parameter_integer", "Src/Main/Core/parameters.c:get_parameter_value_I"]}
{"id": "C05", "title": "Iterative parameters follow their schedule", "statement": "A parameter given as v0->v1->...->vk has the value v_min(n,k) in iteration n, non-iterative parameters are not affected by advancing the iteration, and the number of iterations of the run is the largest number of values of any iterative parameter (1 if there is none).", "quantifier": "all value lists, all iteration numbers, all databases", "why_tests_cant": "unbounded lists and iteration numbers", "anchors": ["Src/Main/Core/parameters.c:get_n_value_str_ip", "Src/Main/Core/parameters.c:update_iterative_parameter_ip", "Src/Main/Core/parameters.c:total_iterations_ip"]}
{"id": "C06", "title": "Multiplicity notation expands correctly", "statement": "An iterative value with multiplicities such as a->b(x2)->c(x3) means exactly the same as the list with each value repeated that many times; a single value with multiplicity is accepted and never crashes.", "quantifier": "all value lists and multiplicities", "why_tests_cant": "unbounded rewriting loop over strings", "anchors": ["Src/Main/Core/parameters.c:parse_multiplicity_of_iterative_parameter", "Src/Main/Core/parameters.c:add_parameter"]}
{"id": "C07", "title": "The main loop performs each iteration exactly once and stops", "statement": "Driving the iteration counter from any stored start (fresh run or checkpoint) executes each remaining iteration number exactly once in increasing order, and the STOP flag is raised exactly when all iterations are done; the run always terminates.", "quantifier": "all start iterations, all totals, all loop lengths", "why_tests_cant": "needs induction over the main loop", "anchors": ["Src/Main/Core/parameters.c:update_iteration_params"]}
{"id": "C08", "title": "Parameter file is read as written", "statement": "For every parameter file, each uncommented line key=value (with blanks removed and broken lines joined) sets exactly that parameter to exactly that value, and nothing else is set; comments and blank lines have no effect.", "quantifier": "all file contents", "why_tests_cant": "all byte sequences incl. end-of-file position", "anchors": ["Src/Main/Modules/Text_and_File_Tools/reading_parameter_file.c:make_buffer", "Src/Main/Modules/Text_and_File_Tools/reading_parameter_file.c:populate_parameters"]}
{"id": "C09", "title": "Separated lists are tokenised faithfully", "statement": "Splitting a string at a delimiter character returns exactly the non-delimited pieces of the string, in order, once each.", "quantifier": "all strings, all delimiters", "why_tests_cant": "stateful tokenizer over arbitrary strings", "anchors": ["Src/Main/Modules/Text_and_File_Tools/text_tools.c:tok_s", "Src/Main/Modules/Text_and_File_Tools/text_tools.c:read_separated_items_in_string"]}
{"id": "C10", "title": "Grid point numbering is a bijection", "statement": "The linear index of a grid point (i,j,k) is a bijection between the points of an n0 x n1 x n2 patch and 0..n0*n1*n2-1, and the decode functions are its exact inverse.", "quantifier": "all patch sizes, all points", "why_tests_cant": "unbounded sizes", "anchors": ["Src/Main/Modules/Utilities/useful_functions.c:i_j_k_to_ijk", "Src/Main/Modules/Utilities/useful_functions.c:ijk_to_i_j_k"]}
{"id": "C11", "title": "Packed symmetric indexing is a bijection", "statement": "The packed index of a symmetric n x n matrix entry is symmetric in its arguments and maps the upper triangle bijectively onto 0..n(n+1)/2-1.", "quantifier": "all n, all index pairs", "why_tests_cant": "unbounded n", "anchors": ["Src/Main/Modules/Includes/utilities_lib.h:i_j_to_ij_symmetric"]}
{"id": "C12", "title": "Edge detection", "statement": "A point is reported to be on an edge of the patch iff it lies on at least two boundary faces of different directions, and on a face iff it lies on at least one.", "quantifier": "all patch sizes, all points", "why_tests_cant": "unbounded sizes", "anchors": ["Src/Main/Modules/Utilities/useful_functions.c:IsOnEdge", "Src/Main/Modules/Utilities/useful_functions.c:IsOnFace"]}
{"id": "C13", "title": "Tolerance comparisons are consistent", "statement": "The tolerance comparisons are mutually exclusive and exhaustive: for all x,y exactly one of 'less', 'equal', 'greater' holds, and 'less or equal' is the negation of 'greater'.", "quantifier": "all real pairs", "why_tests_cant": "boundary values lie on a measure-zero set tests do not hit", "anchors": ["Src/Main/Core/core_lib.h:LSS", "Src/Main/Core/core_lib.h:EQL", "Src/Main/Core/core_lib.h:LSSEQL"]}
{"id": "C14", "title": "Sparse conversion round-trips", "statement": "Converting a matrix to compressed-column format and back returns the matrix with entries at or below the drop threshold replaced by zero and every other entry unchanged; the compressed form is well-formed (monotone column pointers, strictly increasing row indices in range).", "quantifier": "all matrices of all sizes, all drop limits", "why_tests_cant": "unbounded sizes and sparsity patterns", "anchors": ["Src/Main/Modules/Maths/Linear_Algebra/matrix_conversions.c:convert_reg2ccs", "Src/Main/Modules/Maths/Linear_Algebra/matrix_conversions.c:convert_ccs2reg"]}
{"id": "C15", "title": "Casting a matrix keeps its entries", "statement": "Casting a matrix to a storage format (including the format it already has) yields a matrix with the same entries.", "quantifier": "all matrices, all formats", "why_tests_cant": "unbounded sizes", "anchors": ["Src/Main/Modules/Maths/Linear_Algebra/matrix_conversions.c:cast_matrix_reg", "Src/Main/Modules/Maths/Linear_Algebra/matrix_conversions.c:copy_reg2reg"]}
{"id": "C16", "title": "Matrix products and sums are storage-independent", "statement": "matrix*vector, matrix*matrix, matrix*transpose(matrix) and CCS +/- CCS compute the mathematical product/sum for every storage format the routine accepts.", "quantifier": "all sizes, all entries, all formats", "why_tests_cant": "unbounded sizes and sparsity patterns", "anchors": ["Src/Main/Modules/Maths/Linear_Algebra/matrix_arithmetic.c:matrix_by_vector", "Src/Main/Modules/Maths/Linear_Algebra/matrix_arithmetic.c:matrix_by_matrix", "Src/Main/Modules/Maths/Linear_Algebra/matrix_arithmetic.c:CCSOpCCS"]}
{"id": "C17", "title": "3x3 inverse", "statement": "The 3x3 inverse macros return the two-sided inverse of every invertible matrix.", "quantifier": "all invertible 3x3 matrices", "why_tests_cant": "special matrices (zero leading entry) are missed by sampling", "anchors": ["Src/Main/Modules/Includes/maths_linear_algebra_lib.h:Matrix_Inverse_3x3"]}
{"id": "C18", "title": "Preconditioning does not change the solution", "statement": "Applying the Gauss-Seidel preconditioner to (A,b) leaves the solution set of A x = b unchanged.", "quantifier": "all matrices with non-zero diagonal, all right-hand sides", "why_tests_cant": "needs an argument over all systems", "anchors": ["Src/Main/Modules/Maths/Linear_Algebra/preconditioners.c:precondition_GS"]}
{"id": "C19", "title": "Grid numbers are unique", "statement": "At any time the live grids have pairwise distinct grid numbers, whatever history of grid allocations and frees; freeing a grid removes only that grid and only its own parameters.", "quantifier": "all allocation/free histories", "why_tests_cant": "history dependent", "anchors": ["Src/Main/Modules/Manifold/grid.c:alloc_grid", "Src/Main/Modules/Manifold/grid.c:free_grid"]}
{"id": "C20", "title": "Point finder", "statement": "A point is located in a patch iff the coordinate map of that patch accepts it, every patch reported contains the point, no patch is reported twice, and excluded patches are searched only when asked for.", "quantifier": "all points, all patch lists, all search restrictions", "why_tests_cant": "combinations of include/exclude/guess lists", "anchors": ["Src/Main/Modules/Manifold/coordinate_utilities.c:point_finder", "Src/Main/Modules/Manifold/coordinate_utilities.c:find"]}
{"id": "C21", "title": "Cubed-spherical coordinate maps are inverse", "statement": "For every cubed-spherical patch type, mapping patch coordinates to Cartesian and back (and conversely inside the patch) is the identity.", "quantifier": "all points of all patch types, all geometric data", "why_tests_cant": "continuum of points and surfaces", "anchors": ["Src/Main/Modules/Manifold/coordinate_utilities.c:x_of_X_CS_coord", "Src/Main/Modules/Manifold/coordinate_utilities.c:X_of_x_CS_coord"]}
{"id": "C22", "title": "Angles from cubed-sphere coordinates", "statement": "The polar angles assigned to a point (X,Y) of a cubed-sphere side are the spherical angles of the Cartesian direction of that point, for all six sides.", "quantifier": "all (X,Y), all sides", "why_tests_cant": "continuum of points, quadrant cases", "anchors": ["Src/Main/Modules/Manifold/coordinate_utilities.c:theta_phi_of_XY_CS", "Src/Main/Modules/Maths/General/general.c:arctan"]}
{"id": "C23", "title": "Field registry behaves as a map", "statement": "After any history of adding and removing fields on a patch, field names are unique and a lookup returns the index of exactly the field of that name (or reports it missing).", "quantifier": "all histories", "why_tests_cant": "history dependent, swap-with-last deletion", "anchors": ["Src/Main/Modules/Fields/field.c:add_field", "Src/Main/Modules/Fields/field.c:remove_field", "Src/Main/Modules/Fields/field.c:LookUpField"]}
{"id": "C24", "title": "Cached spectral coefficients are never stale", "statement": "The coefficients returned for any set of directions are the transform, along exactly those directions, of the field values at the time of the call, whatever writes and coefficient requests happened before.", "quantifier": "all histories of writes and coefficient requests, all patch sizes", "why_tests_cant": "cache state depends on the history", "anchors": ["Src/Main/Modules/Fields/field.c:make_coeffs_1d", "Src/Main/Modules/Fields/field.c:make_coeffs_2d", "Src/Main/Modules/Fields/field.c:make_coeffs_3d", "Src/Main/Modules/Fields/field.c:free_coeffs"]}
{"id": "C25", "title": "Checkpoint round-trips", "statement": "Reading a checkpoint file restores every parameter (all representations) and every saved field exactly as they were when it was written.", "quantifier": "all parameter databases and field contents", "why_tests_cant": "unbounded state", "anchors": ["Src/Main/Modules/Checkpoint/checkpoint.c:write_checkpoint", "Src/Main/Modules/Checkpoint/checkpoint.c:open_checkpoint_file_then_read_grid_and_params"]}
{"id": "C26", "title": "Checkpoint writing is crash-atomic", "statement": "At every crash point during checkpoint writing, a previously existing final checkpoint file is either still complete and unchanged or already replaced by the complete new one; a file accepted by the soundness check was written to completion.", "quantifier": "all crash points, all contents", "why_tests_cant": "crash points cannot be enumerated by unit tests", "anchors": ["Src/Main/Modules/Checkpoint/checkpoint.c:write_checkpoint", "Src/Main/Modules/Checkpoint/checkpoint.c:is_checkpoint_sound", "Src/Main/Modules/Checkpoint/checkpoint.c:move_checkpoint_file"]}
{"id": "C27", "title": "Parameter overrides win over the checkpoint", "statement": "When restarting, a parameter the user marks as modified takes the new value (with the same meaning as in a parameter file, including iteration lists); all other parameters keep the checkpointed values.", "quantifier": "all databases, all override sets", "why_tests_cant": "all combinations of overridden/missing parameters", "anchors": ["Src/Main/Modules/Checkpoint/checkpoint.c:incorporate_modified_checkpoint_par"]}
{"id": "C28", "title": "Bisection", "statement": "For every continuous function with a sign change the bisection root finder returns a point within tolerance of a root or with a residual below round-off, always inside the initial interval; it terminates within its iteration limit.", "quantifier": "all functions, intervals, tolerances", "why_tests_cant": "all continuous functions", "anchors": ["Src/Main/Modules/Maths/Equation_Solvings/root_finders.c:root_finder_bisect_single"]}
{"id": "C29", "title": "Steepest descent never worsens", "statement": "Every accepted step of the steepest-descent root finder strictly decreases the sum of squared residuals, so the returned point is never worse than the initial guess.", "quantifier": "all functions, guesses", "why_tests_cant": "all functions and histories", "anchors": ["Src/Main/Modules/Maths/Equation_Solvings/root_finders.c:root_finder_steepest_descent"]}
{"id": "C30", "title": "Natural cubic spline", "statement": "The natural cubic spline passes through all data, is twice continuously differentiable, has zero second derivative at both ends and is evaluated with the piece that contains the query point, for increasing as well as decreasing tables.", "quantifier": "all tables with distinct nodes, all query points", "why_tests_cant": "all data sets", "anchors": ["Src/Main/Modules/Maths/Spectral_Methods/interpolations.c:interpolation_natural_cubic_spline_1d", "Src/Main/Modules/Maths/Spectral_Methods/interpolations.c:find_coeffs_natural_cubic_spline_1d"]}
{"id": "C31", "title": "Neville interpolation", "statement": "Neville interpolation returns the value at h of the unique polynomial of degree < N through the N data points (used points distinct), in particular data values at data nodes.", "quantifier": "all N, all distinct nodes, all data", "why_tests_cant": "all data sets and sizes", "anchors": ["Src/Main/Modules/Maths/Spectral_Methods/interpolations.c:interpolation_Neville_1d"]}
{"id": "C32", "title": "Closed-form trigonometric sums", "statement": "The closed forms used for the Jacobian of spectral expansions equal the finite cosine sums (and their derivatives) they stand for, at the special angles and at every angle the round-off test tells apart from them; every collocation point of a grid whose neighbouring points the test tells apart qualifies.", "quantifier": "all N and all angles", "why_tests_cant": "continuum of angles; special angles are singular in the closed form", "anchors": ["Src/Main/Modules/Maths/General/general.c:sum_1_N_cos_ia", "Src/Main/Modules/Maths/General/general.c:d_dq_sum_1_N_cos_ixb_cos_ixa"]}
{"id": "C33", "title": "Vector norms", "statement": "The norm helpers compute the mathematical norms: non-negative, zero only for equal vectors, symmetric in the two arguments.", "quantifier": "all vectors of all lengths", "why_tests_cant": "unbounded lengths", "anchors": ["Src/Main/Modules/Maths/General/general.c:root_square", "Src/Main/Modules/Maths/General/general.c:L2_norm", "Src/Main/Modules/Maths/General/general.c:L_inf"]}
{"id": "C34", "title": "Domain-decomposed Newton step equals the global Newton step", "statement": "The Schur-complement solution of the block system gives exactly the solution of the full linear system assembled from all patches.", "quantifier": "all numbers of patches, all block sizes, all entries", "why_tests_cant": "all block structures", "anchors": ["Src/Main/Modules/Maths/Equation_Solvings/solve_eqs_ddm_schur_complement.c"]}
{"id": "C35", "title": "Entries of compressed matrices", "statement": "Reading entry (r,c) of a compressed matrix returns the entry for every row and column, with the plain reader and with the sliced reader for any accepted number of slices, without touching memory outside the arrays.", "quantifier": "all well-formed compressed matrices, all positions, all slice counts", "why_tests_cant": "depends on where the last stored entry of the column lies", "anchors": ["Src/Main/Modules/Maths/Equation_Solvings/dfs_df.c:read_matrix_entry_ccs", "Src/Main/Modules/Maths/Equation_Solvings/dfs_df.c:coarse_grain_Ap_ccs_matrix"]}
{"id": "C36", "title": "Matrix inversion", "statement": "The inverse assembled column by column from linear solves is the inverse of the matrix (up to entries dropped by the compressed format).", "quantifier": "all square matrices of all sizes on which the solver succeeds", "why_tests_cant": "unbounded sizes", "anchors": ["Src/Main/Modules/Maths/Linear_Algebra/matrix_inversions.c:invert_matrix"]}
{"id": "C37", "title": "Collecting patches by region", "statement": "Collecting patches by region names returns, in grid order and each once, exactly the patches that cover one of the requested items; every region name the documentation lists is usable; \".*\" collects all patches.", "quantifier": "all grids, all item lists, all region strings", "why_tests_cant": "string matching over arbitrary names; wrong collections silently shrink the physical domain", "anchors": ["Src/Main/Modules/Manifold/coordinate_utilities.c:collect_patches", "Src/Main/Modules/Manifold/coordinate_utilities.c:IsItCovering"]}
{"id": "C38", "title": "Cubed-sphere coordinates from angles", "statement": "For every pair of spherical angles, the cubed-sphere coordinates computed on the side that contains the direction are the coordinates of that direction; no legal angle stops the program.", "quantifier": "all angles, all six sides", "why_tests_cant": "continuum of angles, special angles at quadrant boundaries", "anchors": ["Src/Main/Modules/Manifold/coordinate_utilities.c:find_XYZ_and_patch_of_theta_phi_CS", "Src/Main/Modules/Maths/General/general.c:arctan_argument_signum"]}
{"id": "C39", "title": "The six sides tile all directions", "statement": "Every point other than the centre belongs to one of the six sides, points strictly inside a side belong to no other, and a point accepted by a patch lies on the side of that patch.", "quantifier": "all points, all geometrically regular patches", "why_tests_cant": "continuum of points", "anchors": ["Src/Main/Modules/Manifold/cubed_spherical_coordinate.c:SignAndIndex_permutation_CubedSphere", "Src/Main/Modules/Manifold/coordinate_utilities.c:X_of_x_CS_coord"]}
{"id": "C40", "title": "Node at a point", "statement": "The node search returns the node closest to the point when a node is within the collocation tolerance and reports none otherwise.", "quantifier": "all node sets and all points", "why_tests_cant": "depends on distances to all nodes and on tolerances", "anchors": ["Src/Main/Modules/Manifold/coordinate_utilities.c:find_node"]}
{"id": "C41", "title": "Spectral interpolation is exact", "statement": "Interpolating a field along any combination of directions (X, Y, Z, XY, XZ, YZ, XYZ) returns the polynomial sampled by the field whenever its degree along each interpolated direction is below the number of points, returns the stored value at every collocation point whatever the data, and never changes the field; for the Chebyshev-nodes collocation the coefficients reproduce the data.", "quantifier": "all grids, boxes, field data, points of the box and states of the coefficient cache", "why_tests_cant": "continuum of points and unbounded sizes", "anchors": ["Src/Main/Modules/Maths/Spectral_Methods/interpolations.c:interpolation_Chebyshev_Tn_XYZ", "Src/Main/Modules/Maths/Spectral_Methods/interpolations.c:T_cheb_combined", "Src/Main/Modules/Maths/Spectral_Methods/fourier_transformation.c:rft_1d_ChebyshevExtrema_coeffs", "Src/Main/Modules/Maths/Spectral_Methods/fourier_transformation.c:rft_1d_ChebyshevNodes_coeffs", "Src/Main/Modules/Manifold/coordinate_systems.c:General2ChebyshevExtrema"]}
{"id": "C43", "title": "Chebyshev functions and derivatives", "statement": "The Chebyshev functions of first and second kind and the first and second derivatives of the former are the polynomials and their derivatives, including at and near the end points.", "quantifier": "all degrees, all points of [-1,1]", "why_tests_cant": "continuum of points; removable singularities at the end points", "anchors": ["Src/Main/Modules/Includes/maths_special_functions_lib.h:Cheb_Tn", "Src/Main/Modules/Includes/maths_special_functions_lib.h:Cheb_Un", "Src/Main/Modules/Maths/Special_Functions/misc_functions.c:dCheb_Tn_dx", "Src/Main/Modules/Maths/Special_Functions/misc_functions.c:d2Cheb_Tn_dx2"]}
{"id": "C44", "title": "Search direction of the steepest descent", "statement": "The search direction is the gradient of the sum of squared residuals: exactly when the user supplies the derivatives, and with each of the three finite-difference formulas wherever the sum of squares is quadratic along the coordinate line; the step of the differences never vanishes.", "quantifier": "all systems of equations, all points, all directions", "why_tests_cant": "a derivative is a statement about a continuum of points", "anchors": ["Src/Main/Modules/Maths/Equation_Solvings/root_finders.c:dg_dx_of_df_dx_SD", "Src/Main/Modules/Maths/Equation_Solvings/root_finders.c:dg_dx_FD3M_SD"]}
{"id": "C45", "title": "Hermite interpolation", "statement": "For every query point in the table's range, Hermite interpolation with n points returns the value of the unique polynomial of degree at most 2n-1 with the given values and derivatives at n consecutive table points starting at the segment of the query point, for increasing and decreasing tables.", "quantifier": "all tables, numbers of points and query points", "why_tests_cant": "a continuum of tables and query points", "anchors": ["Src/Main/Modules/Maths/Spectral_Methods/interpolations.c:interpolation_Hermite_1d", "Src/Main/Modules/Maths/Spectral_Methods/interpolations.c:find_coeffs_Hermite_1d"]}
{"id": "C46", "title": "Text comparison, search and replacement", "statement": "The case-insensitive comparison and search agree with the strings' letters up to case; a name is found in a list at its first exact occurrence; a string complies with a format exactly when the format's delimiters occur in it in order; replacing a pattern replaces every match from left to right and nothing else, and reports whether there was a match.", "quantifier": "all strings, lists, formats and patterns", "why_tests_cant": "unbounded strings; special cases at repeated delimiters and at the beginning of the string", "anchors": ["Src/Main/Modules/Text_and_File_Tools/text_tools.c:strcmp_i", "Src/Main/Modules/Text_and_File_Tools/text_tools.c:strstr_i", "Src/Main/Modules/Text_and_File_Tools/text_tools.c:find_index_string", "Src/Main/Modules/Text_and_File_Tools/text_tools.c:check_format_s", "Src/Main/Modules/Text_and_File_Tools/text_tools.c:regex_replace"]}
{"id": "C42", "title": "Fourier transformations", "statement": "The Fourier coefficients of a sampled trigonometric polynomial of degree below half the number of points are its exact amplitudes, and the resulting series (in one dimension, in two dimensions, and on the sphere) is the polynomial at every point; transforming arbitrary data there and back returns the data; the derivative arrays are the derivatives of the interpolating function at the sample points; unusable sizes are refused.", "quantifier": "all sizes, all data, all points", "why_tests_cant": "a continuum of points and unbounded sizes", "anchors": ["Src/Main/Modules/Maths/Spectral_Methods/fourier_transformation.c:r2cft_1d_EquiSpaced_coeffs", "Src/Main/Modules/Maths/Spectral_Methods/fourier_transformation.c:c2rft_1d_EquiSpaced_values", "Src/Main/Modules/Maths/Spectral_Methods/fourier_transformation.c:r2cft_2d_coeffs", "Src/Main/Modules/Maths/Spectral_Methods/fourier_transformation.c:r2cft_2d_interpolation", "Src/Main/Modules/Maths/Spectral_Methods/fourier_transformation.c:r2cft_2d_df_dphi0", "Src/Main/Modules/Maths/Spectral_Methods/fourier_transformation.c:r2cft_2d_df_dphi1", "Src/Main/Modules/Maths/Spectral_Methods/fourier_transformation.c:r2cft_2d_coeffs_S2", "Src/Main/Modules/Maths/Spectral_Methods/fourier_transformation.c:r2cft_2d_interpolation_S2"]}
{"id": "C47", "title": "Spherical harmonics", "statement": "The associated Legendre functions, the spherical harmonics and their derivatives in theta and phi are the textbook functions and their derivatives for every degree and order and every point of the sphere including the poles, and other arguments are refused; interpolation from an array of coefficients returns the real part of the full sum over positive and negative orders, the derivative arrays are its derivatives at the grid points, and the maps between (degree, order) and array positions are bijections onto the allocated arrays.", "quantifier": "all degrees, orders, angles, coefficient arrays and grid sizes", "why_tests_cant": "recursions in the degree and a continuum of angles", "anchors": ["Src/Main/Modules/Maths/Special_Functions/spherical_harmonics.c:associated_legendre", "Src/Main/Modules/Maths/Special_Functions/spherical_harmonics.c:d_associated_legendre_dtheta", "Src/Main/Modules/Maths/Special_Functions/spherical_harmonics.c:Ylm", "Src/Main/Modules/Maths/Special_Functions/spherical_harmonics.c:dYlm_dphi", "Src/Main/Modules/Maths/Special_Functions/spherical_harmonics.c:dYlm_dtheta", "Src/Main/Modules/Maths/Spectral_Methods/spherical_harmonics_transformation.c:interpolation_Ylm", "Src/Main/Modules/Maths/Spectral_Methods/spherical_harmonics_transformation.c:df_dphi_Ylm", "Src/Main/Modules/Maths/Spectral_Methods/spherical_harmonics_transformation.c:df_dtheta_Ylm", "Src/Main/Modules/Maths/Spectral_Methods/spherical_harmonics_transformation.c:lm2n", "Src/Main/Modules/Maths/Spectral_Methods/spherical_harmonics_transformation.c:lm2n_Ylm", "Src/Main/Modules/Maths/Spectral_Methods/spherical_harmonics_transformation.c:n2lm_Ylm"]}
{"id": "C48", "title": "Numerical integration", "statement": "Each quadrature is exact on its class: composite Simpson for cubics (odd number of points), Gauss-Chebyshev for polynomials below degree 2(n-1) times the weight, Gauss-Legendre below degree 2n, Lobatto below degree 2(n-1), at the tabulated points up to the rounding of the table; the tables hold all roots in increasing order; the spectral volume, sub-volume and surface integrals return the integral of every integrand that is a polynomial of the patch coordinates with fewer coefficients than points; unusable requests are refused.", "quantifier": "all numbers of points, all integrands of the class, all patches and metrics, all sub-boxes and surfaces", "why_tests_cant": "a continuum of integrands, unbounded sizes, and 5000 tabulated numbers", "anchors": ["Src/Main/Modules/Maths/Calculus/integration.c:plan_integration", "Src/Main/Modules/Maths/Calculus/integration.c:Composite_Simpson_1D", "Src/Main/Modules/Maths/Calculus/integration.c:GaussQuadrature_ChebyshevExtrema", "Src/Main/Modules/Maths/Calculus/integration.c:GaussQuadrature_Lobatto", "Src/Main/Modules/Maths/Calculus/integration.c:GaussQuadrature_Legendre", "Src/Main/Modules/Maths/Calculus/integration.c:f_xyz_whole_dV_Cheb_Ext_Spec", "Src/Main/Modules/Maths/Calculus/integration.c:f_xyz_interval_dV_Cheb_Ext_Spec", "Src/Main/Modules/Maths/Calculus/integration.c:f_xyz_dS_Cheb_Ext_Spec", "Src/Main/Modules/Maths/Calculus/legendre_root_and_weight_function.c:Legendre_root_function", "Src/Main/Modules/Maths/Calculus/lobatto_root_and_weight_function.c:Lobatto_root_function"]}
{"id": "C50", "title": "Node labels of the domain decomposition", "statement": "When the labelling of a patch succeeds, the labels are a permutation of its nodes: first the nodes off the faces or on an outer or inner boundary, then the other face nodes; the inverse maps are inverse. It succeeds exactly for an open patch whose subfaces are usable, list nodes of the patch only and between them list every face node.", "quantifier": "all patch sizes, all lists of subfaces with overlaps", "why_tests_cant": "overlapping subfaces at edges and corners, all sizes", "anchors": ["Src/Main/Modules/Maths/Equation_Solvings/solve_eqs_ddm_schur_complement.c:make_map_and_inv", "Src/Main/Modules/Maths/Equation_Solvings/solve_eqs_ddm_schur_complement.c:preparing_ingredients"]}
{"id": "C51", "title": "The Newton loop ends for a true reason", "statement": "The Newton loop of a field ends after at most the allowed number of steps; before each step some residual was above the tolerance; its verdict is true: converged means every patch is finite and within tolerance, and a residual that is not finite stops the solver.", "quantifier": "all Newton steps, residual histories, numbers of patches", "why_tests_cant": "all histories of residuals", "anchors": ["Src/Main/Modules/Maths/Equation_Solvings/solve_eqs.c:solve_eqs", "Src/Main/Modules/Maths/Equation_Solvings/solve_eqs.c:default_stop_criteria_solve_equations", "Src/Main/Modules/Maths/Equation_Solvings/solve_eqs_ddm_schur_complement.c:ddm_schur_complement"]}
{"id": "C52", "title": "Which equation, field, grid and weight", "statement": "The equation found for a field is the one registered under its name up to letter case, whatever the order of registration; the field solved for is the one the parameters name; the grid is the special grid registered for it or the default grid; the relaxation weight is the field's own, else the general one, else 1.", "quantifier": "all data bases, names, orders of registration and parameters", "why_tests_cant": "unbounded histories and names", "anchors": ["Src/Main/Modules/Maths/Equation_Solvings/solve_manager.c:add_eq", "Src/Main/Modules/Maths/Equation_Solvings/solve_manager.c:get_field_eq", "Src/Main/Modules/Maths/Equation_Solvings/solve_eqs.c:add_special_grid_solve_equations"]}
{"id": "C53", "title": "Outer relaxed iteration", "statement": "The outer iteration performs exactly the requested number of rounds; each round relaxes every solved field once, on every node of every patch, with its own weight against its value at the start of that round, and changes no other field except the backups.", "quantifier": "all numbers of rounds, patches and fields, all solvers", "why_tests_cant": "all histories of rounds, all sets of fields", "anchors": ["Src/Main/Modules/Physics/Equation/eq_solve.c:eq_solve_elliptic_equation"]}
{"id": "C49", "title": "Spherical-harmonic coefficients", "statement": "The coefficients computed from the samples of a function without degrees above Lmax are its coefficients, for every number of rows above Lmax and columns above 2 Lmax; sampling and transforming back returns the function; the arrays written are exactly those allocated; the recommended grid works for every Lmax.", "quantifier": "all Lmax, grid sizes and coefficient arrays", "why_tests_cant": "orthogonality for all degrees and orders, a continuum of functions", "anchors": ["Src/Main/Modules/Maths/Spectral_Methods/spherical_harmonics_transformation.c:get_Ylm_coeffs", "Src/Main/Modules/Maths/Spectral_Methods/spherical_harmonics_transformation.c:integrate_expImphi", "Src/Main/Modules/Maths/Spectral_Methods/spherical_harmonics_transformation.c:alloc_ClmYlm", "Src/Main/Modules/Includes/maths_spectral_methods_lib.h:Ntheta_Ylm"]}
{"id": "C54", "title": "Spectral derivatives", "statement": "The spectral derivative of a field in a list of directions returns, at every grid point, the partial derivative (by the chain rule, in Cartesian or patch coordinates) of the polynomial through the field's values, whether the one-step second-order formula or repeated first derivatives are used; it changes neither the field's values nor the validity of its cached coefficients.", "quantifier": "all grids, boxes, collocations, field values, cache states, coordinate maps and lists of directions", "why_tests_cant": "a continuum of values and unbounded sizes and lists", "anchors": ["Src/Main/Modules/Maths/Calculus/derivatives.c:take_spectral_derivative", "Src/Main/Modules/Maths/Calculus/derivatives.c:spectral_derivative_1stOrder", "Src/Main/Modules/Maths/Calculus/derivatives.c:spectral_derivative_2ndOrder", "Src/Main/Modules/Maths/Calculus/derivatives.c:IsSecondOrderFormula", "Src/Main/Modules/Manifold/coordinate_systems.c:dq2_dq1"]}
{"id": "C56", "title": "Finite differences on arbitrary grids", "statement": "The finite difference of order m and accuracy acc is the exact m-th derivative of every polynomial of degree below acc+m, for every increasing grid with enough points and every point; the points used surround the point, as symmetrically as the grid allows; unusable requests are refused.", "quantifier": "all grids, points, orders, accuracies and data", "why_tests_cant": "a continuum of grids and points, unbounded orders", "anchors": ["Src/Main/Modules/Maths/Calculus/derivatives.c:finite_difference_Fornberg"]}
{"id": "C57", "title": "Inverse Jacobian", "statement": "The derivatives of the Cartesian coordinates with respect to the normalised coordinates are the matrix inverse of the derivatives in the other direction wherever the latter is regular, as on every Cartesian patch.", "quantifier": "all patches, all coordinate maps, all points", "why_tests_cant": "a continuum of maps", "anchors": ["Src/Main/Modules/Manifold/coordinate_systems.c:dq_dN", "Src/Main/Modules/Manifold/coordinate_systems.c:dN_dq", "Src/Main/Modules/Manifold/coordinate_systems.c:dN_dX"]}
{"id": "C55", "title": "Derivative tasks and names", "statement": "A derivative task of direction letters separated by commas, with or without a method behind a bar, means these directions in this order and that method, overriding the parameter; the name of a derivative field denotes the field and the direction of its derivative, by the convention of leading d and trailing index; taking it sets that field to the derivative and changes the values of no other field; other names are refused.", "quantifier": "all tasks, names, parameters and sets of fields", "why_tests_cant": "unbounded strings and sets of fields", "anchors": ["Src/Main/Modules/Maths/Calculus/derivatives.c:Partial_Derivative", "Src/Main/Modules/Maths/Calculus/derivatives.c:derivative_direction", "Src/Main/Modules/Maths/Calculus/derivatives.c:derivative_method", "Src/Main/Modules/Maths/Calculus/derivatives.c:partial_derivative"]}
{"id": "C58", "title": "Polytropic equations of state", "statement": "With usable parameters (exponents above 1, positive constant, increasing positive thresholds) a polytropic or piecewise polytropic equation of state is accepted and describes the cold matter with that pressure law: at every enthalpy above 1 the functions return density, pressure, specific internal energy and energy density of the matter with that enthalpy (continuous across thresholds, first law, zero at zero density), no matter at enthalpy 1, and the derivative functions return the derivatives; unusable parameters and enthalpies are refused.", "quantifier": "all lists of exponents and thresholds, constants and enthalpies", "why_tests_cant": "a continuum of parameters and enthalpies, unbounded numbers of pieces", "anchors": ["Src/Main/Modules/Physics/EoS/eos_polytropics.c:EoS_p_h_pwp", "Src/Main/Modules/Physics/EoS/eos_polytropics.c:find_threshold_number_h", "Src/Main/Modules/Physics/EoS/eos_main.c:populate_EoS", "Src/Main/Modules/Physics/EoS/eos_main.c:fill_K", "Src/Main/Modules/Physics/EoS/eos_main.c:fill_a", "Src/Main/Modules/Physics/EoS/eos_main.c:fill_h_th", "Src/Main/Modules/Physics/EoS/eos_main.c:read_EoS_in_parameter_file"]}
{"id": "C59", "title": "Smoothed piecewise polytrope", "statement": "The smoothed piecewise polytrope samples the piecewise polytrope at the requested number of equally spaced enthalpies from 1 to 2 and returns the natural cubic spline through these samples: at a sample point the sampled value, at or below the floor zero, never a negative value, and no matter is lost above the last sample.", "quantifier": "all parameter sets, sample sizes, floors and enthalpies", "why_tests_cant": "a continuum of enthalpies and parameters, unbounded sample sizes", "anchors": ["Src/Main/Modules/Physics/EoS/eos_main.c:populate_EoS", "Src/Main/Modules/Physics/EoS/eos_polytropics.c:EoS_p_h_pwp_ncs", "Src/Main/Modules/Physics/EoS/eos_polytropics.c:EoS_e_h_pwp_ncs", "Src/Main/Modules/Physics/EoS/eos_polytropics.c:EoS_rho_h_pwp_ncs"]}
{"id": "C60", "title": "Tabular equation of state", "statement": "Reading a table keeps exactly the rows of its lines in order, converts them to units in which G = c = solar mass = 1, and refuses empty and too long tables and unknown pairs of format and unit; the functions return the row at the enthalpy of a row, the floor or ceiling row outside, and their derivative functions return the derivatives of what they return.", "quantifier": "all tables, files, numbers of interpolation points, enthalpies", "why_tests_cant": "a continuum of tables and enthalpies, unbounded files", "anchors": ["Src/Main/Modules/Physics/EoS/eos_tabular.c:eos_tab_read_table", "Src/Main/Modules/Physics/EoS/eos_tabular.c:eos_tab_set_hermite_log", "Src/Main/Modules/Physics/EoS/eos_tabular.c:p_of_h_hermite_log", "Src/Main/Modules/Physics/EoS/eos_tabular.c:de_dh_hermite_log", "Src/Main/Modules/Physics/EoS/eos_tabular.c:rho0_e_p_h"]}
{"id": "C61", "title": "Boosts, rotations and spherical components", "statement": "A boost preserves the Minkowski product of every two vectors, takes the unit vector at rest to the four velocity of the given velocity, and its inverse undoes it; a rotation preserves lengths, angles and orientation and is the product of the three axis rotations; transforming a vector from Cartesian to spherical components and back gives the vector.", "quantifier": "all velocities, angles, points and vectors", "why_tests_cant": "a continuum of velocities, angles and vectors", "anchors": ["Src/Main/Modules/Physics/Transformation/boost.c:boost_transformation", "Src/Main/Modules/Physics/Transformation/rotation.c:rotation_transformation", "Src/Main/Modules/Physics/Transformation/sphe_and_cart_coords.c:spheNcart_transformation"]}
{"id": "C62", "title": "Connection, curvature and conformal metric", "statement": "The Christoffel symbols stored at a node are those of the unique torsion free connection under which the metric is constant; the Ricci tensor and scalar stored are those of the stored connection; scaling a metric gives a metric of determinant one, its inverse, and the conformal factor whose fourth power times the scaled metric is the given metric.", "quantifier": "all metrics with all first derivatives, all connections with all derivatives", "why_tests_cant": "a continuum of metrics and derivatives", "anchors": ["Src/Main/Modules/Maths/Diff_Geom/dg_Christoffel_symbol_3d.c:Christoffel_symbol_3d", "Src/Main/Modules/Maths/Diff_Geom/dg_Ricci_3d.c:Ricci_3d", "Src/Main/Modules/Maths/Diff_Geom/dg_scale_to_BSSN_metric_3d.c:scale_to_BSSN_metric_3d"]}
{"id": "C63", "title": "The residuals are the equations", "statement": "At every grid node the residual computed for each unknown is the stated equation of the extended conformal thin sandwich system: Hamiltonian constraint for the conformal factor, the equation of the lapse times the conformal factor, momentum constraint for the shift, continuity equation of the fluid for the velocity potential; and the boundary rows are the documented boundary conditions.", "quantifier": "all field values at a node, all slices and stars given by differentiable fields, all index values", "why_tests_cant": "component expressions with hundreds of terms, identities over a continuum of field values", "anchors": ["Src/Main/Modules/Physics/Equation/eq_XCTS_crv_ex_T1_ddm_eq_psi.c", "Src/Main/Modules/Physics/Equation/eq_XCTS_crv_ex_T1_ddm_eq_alphaPsi.c", "Src/Main/Modules/Physics/Equation/eq_XCTS_crv_T1_ddm_eq_phi.c", "Src/Main/Modules/Physics/Equation/eq_XCTS_crv_ex_T1_ddm_eq_B0_U0.c", "Src/Main/Modules/Physics/Equation/eq_XCTS_crv_ex_T1_ddm_bc_psi.c", "Src/Main/Modules/Physics/Equation/eq_XCTS_crv_T1_ddm_bc_phi.c", "Src/Main/Modules/Physics/Equation/eq_XCTS_crv_T3_ddm_bc_phi.c"]}
{"id": "C64", "title": "The Jacobian is the derivative of the residual", "statement": "Every row entry of the Jacobian of an equation or boundary condition is the derivative of the residual at the row's node with respect to the value of the unknown at the column's node, so a Newton step is a true Newton step; the two blocks into which the entries are sorted use the same formula.", "quantifier": "all field values, all pairs of nodes, all differential operators of the column's node", "why_tests_cant": "identities over a continuum of field values for hundreds of terms", "anchors": ["Src/Main/Modules/Physics/Equation/eq_XCTS_crv_ex_T1_ddm_Jac_eq_psi.c", "Src/Main/Modules/Physics/Equation/eq_XCTS_crv_ex_T1_ddm_Jac_eq_alphaPsi.c", "Src/Main/Modules/Physics/Equation/eq_XCTS_crv_T1_ddm_Jac_eq_phi.c", "Src/Main/Modules/Physics/Equation/eq_XCTS_crv_ex_T1_ddm_Jac_eq_B0_U0.c", "Src/Main/Modules/Physics/Equation/eq_XCTS_flt_ex_T1_ddm_Jac_eq_B0_U0.c", "Src/Main/Modules/Physics/Equation/eq_XCTS_crv_T3_ddm_Jac_bc_phi.c"]}
{"id": "C65", "title": "Metric and extrinsic curvature of the slice", "statement": "The physical metric stored at a node is the fourth power of the conformal factor times the conformal metric; the conformal extrinsic curvature is the one of the shift (traceless, with its square and its derivatives), and the physical extrinsic curvature with upper and with lower indices is the same tensor by every route on offer, with the prescribed trace.", "quantifier": "all field values at a node, all differentiable slices and shifts", "why_tests_cant": "component expressions over a continuum of field values", "anchors": ["Src/Main/Modules/Physics/ADM/adm_AConfIJ_XCTS_MConfIJ0.c", "Src/Main/Modules/Physics/ADM/adm_AConfIJ_SCTT_MConfIJ0.c", "Src/Main/Modules/Physics/ADM/adm_adm_g.c", "Src/Main/Modules/Physics/ADM/adm_adm_KUU_by_AUU.c", "Src/Main/Modules/Physics/ADM/adm_adm_KDD_by_AUU.c", "Src/Main/Modules/Physics/ADM/adm_adm_KUU_by_KDD.c"]}
{"id": "C66", "title": "The constraints measured are the constraints solved", "statement": "The Hamiltonian and momentum constraints computed from the physical metric and extrinsic curvature are those of general relativity; the second way of computing them, from conformal quantities, gives the same numbers (up to the stated weight) on every differentiable slice; and the residuals of the elliptic equations are these constraints times a non-zero factor, so that a solution of the equations satisfies the constraints as measured and conversely.", "quantifier": "all differentiable slices, all matter sources, all nodes", "why_tests_cant": "an identity between second derivatives of metrics over a continuum of slices", "anchors": ["Src/Main/Modules/Physics/ADM/adm_ham_mom_from_scratch.c", "Src/Main/Modules/Physics/ADM/adm_ham_mom_from_identities.c", "Src/Main/Modules/Physics/Equation/eq_XCTS_crv_ex_T1_ddm_eq_psi.c", "Src/Main/Modules/Physics/Equation/eq_XCTS_crv_ex_T1_ddm_eq_B0_U0.c"]}
{"id": "C67", "title": "Matter sources and fluid motion", "statement": "The time component stored for the four velocity is the one that makes the fluid velocity (spatial momentum = gradient of the potential plus spin) a future directed unit vector; the stored sources are the conformal factor's sixth power times the energy density, momentum density and stress trace the normal observer measures of the perfect fluid, and the scaled ones are these times the stored pre-factor; the Euler constant is h u_t (plus the spin term), and the enthalpy recomputed from it satisfies the Euler equation with it; the baryonic mass integrand is the observer's baryon density of that updated fluid; the root function of the force balance vanishes exactly where the enthalpy is stationary; densities are never negative.", "quantifier": "all fields, metrics and lapse at a node, all shifts, spins, constants and equation-of-state values", "why_tests_cant": "a continuum of states of the fluid and geometry", "anchors": ["Src/Main/Modules/Physics/StressEnergy_Tensor/Tij_NS_ifluid_xcts_gConf_u0.c:Tij_NS_IF_XCTS_gConf_u0", "Src/Main/Modules/Physics/StressEnergy_Tensor/Tij_NS_ifluid_xcts_gConf_enthalpy.c:Tij_NS_IF_XCTS_gConf_enthalpy", "Src/Main/Modules/Physics/StressEnergy_Tensor/Tij_NS_ifluid_xcts_gConf_psi6E.c", "Src/Main/Modules/Physics/StressEnergy_Tensor/Tij_NS_ifluid_xcts_gConf_psi6J_Ui.c", "Src/Main/Modules/Physics/StressEnergy_Tensor/Tij_NS_ifluid_xcts_gConf_psi6S.c", "Src/Main/Modules/Physics/StressEnergy_Tensor/Tij_NS_ifluid_xcts_gConf_update.c", "Src/Main/Modules/Physics/Star/star_NS_Euler_eq_const_current.c", "Src/Main/Modules/Physics/Star/star_NS_baryonic_gConf_mass.c", "Src/Main/Modules/Physics/Star/star_NS_ifluid_gConf_dLnGamma.c", "Src/Main/Modules/Physics/Star/star_NS_ifluid_gConf_force_bal.c"]}
{"id": "C68", "title": "Jacobian of the spectral derivatives", "statement": "On a patch with Chebyshev extrema the number an equation reads as the derivative of a first or second partial derivative at one point with respect to the field value at another point is exact: changing the value by any amount changes the computed derivative by that amount times the number, and the computed derivative of every field is the matrix of these numbers times the field. The optimised functions, the plain ones, the matrices filled by the spectral method (coordinate factors not within round-off of zero unless zero) and those of the direct method agree, whatever the workspace held before and whichever first-order matrix was kept.", "quantifier": "all patches, coordinate maps, fields, pairs of points, directions, previous workspace contents", "why_tests_cant": "a continuum of fields and unbounded grids; trigonometric identities for every degree", "anchors": ["Src/Main/Modules/Maths/Equation_Solvings/dfs_df.c:d2f_dxdu_optimized_spectral_Jacobian_analytic", "Src/Main/Modules/Maths/Equation_Solvings/dfs_df.c:d3f_dxdydu_optimized_spectral_Jacobian_analytic", "Src/Main/Modules/Maths/Equation_Solvings/dfs_df.c:d2f_dxdu_spectral_Jacobian_analytic", "Src/Main/Modules/Maths/Equation_Solvings/dfs_df.c:d3f_dxdydu_spectral_Jacobian_analytic", "Src/Main/Modules/Maths/Equation_Solvings/dfs_df.c:fill_jacobian_spectral_method_1stOrder", "Src/Main/Modules/Maths/Equation_Solvings/dfs_df.c:fill_jacobian_spectral_method_2ndOrder", "Src/Main/Modules/Maths/Equation_Solvings/dfs_df.c:fill_jacobian_direct_method_1stOrder", "Src/Main/Modules/Includes/maths_equation_solvings_lib.h:Workspace_lmn_Jacobian"]}
{"id": "C69", "title": "Background shift of the orbit", "statement": "The background shift at a point is the rotation with the angular velocity about the centre of mass plus the radial motion with the infall velocity over the separation; the stored first and second derivatives are its derivatives, and those of the total shift are the derivatives of the total; with a flat conformal metric the background does not change the trace-free extrinsic curvature; every function that has its own copy of the background uses the same vector.", "quantifier": "all points, orbital parameters and dynamical shifts", "why_tests_cant": "a continuum of points and parameters", "anchors": ["Src/Main/Modules/Physics/ADM/adm_updates.c:adm_update_B1I_inspiral", "Src/Main/Modules/Physics/ADM/adm_updates.c:adm_update_beta_U0", "Src/Main/Modules/Physics/Star/star_NS_ifluid_gConf_force_bal.c:star_NS_idealfluid_gConf_root_force_bal"]}
{"id": "C70", "title": "Derivative of an interpolated field with respect to its values", "statement": "The number used as the derivative of the interpolation of a field (or of one of its Cartesian first derivatives) to a point, in three dimensions or in the plane of a patch face, with respect to the field value at a node is exact: the interpolated value is the sum of these numbers times the field values, and changing one value changes it by that number times the change. The function is chosen by the directive and by the first set flag of the subface; any other directive, basis or collocation is refused.", "quantifier": "all patches with Chebyshev extrema, field values, nodes, planes, points not within round-off of a decision", "why_tests_cant": "a continuum of points and values, unbounded sizes", "anchors": ["Src/Main/Modules/Maths/Equation_Solvings/dfs_df.c:get_dInterp_df", "Src/Main/Modules/Maths/Equation_Solvings/dfs_df.c:dInterp_df_XYZ_Tn_Ex", "Src/Main/Modules/Maths/Equation_Solvings/dfs_df.c:dInterp_x_df_XYZ_Tn_Ex", "Src/Main/Modules/Maths/Equation_Solvings/dfs_df.c:dInterp_x_df_YZ_Tn_Ex", "Src/Main/Modules/Maths/Equation_Solvings/dfs_df.c:dInterp_df_XY_Tn_Ex"]}
{"id": "C71", "title": "Coupling of the patches", "statement": "For patches with Chebyshev extrema whose shared subfaces fit together, the interface residual of a node is the sum over its points on shared subfaces of the jump of the field (or of its normal derivative) between the patch and its neighbour, at collocated points directly and otherwise by interpolation in the neighbour; the coupling blocks of the linear system are computed for every pair of patches, and changing the field value at any node of any patch changes every interface residual by the change times the entry for this node and this residual; so after a Newton step with weight w every interface residual is 1-w times what it was.", "quantifier": "all numbers of patches, sizes, lists of subfaces of every kind, fields, nodes, changes", "why_tests_cant": "unbounded grids and subface lists; a continuum of values", "anchors": ["Src/Main/Modules/Maths/Equation_Solvings/solve_eqs_ddm_schur_complement.c:making_F_and_C", "Src/Main/Modules/Maths/Equation_Solvings/solve_eqs_ddm_schur_complement.c:fill_C_F_interpolation", "Src/Main/Modules/Maths/Equation_Solvings/solve_eqs_ddm_schur_complement.c:fill_C_F_collocation", "Src/Main/Modules/Maths/Equation_Solvings/solve_eqs_ddm_schur_complement.c:make_partial_g", "Src/Main/Modules/Maths/Equation_Solvings/solve_eqs_ddm_schur_complement.c:pg_collocation", "Src/Main/Modules/Maths/Equation_Solvings/solve_eqs_ddm_schur_complement.c:pg_interpolation", "Src/Main/Modules/Maths/Equation_Solvings/solve_eqs_ddm_schur_complement.c:mirror_pairs", "Src/Main/Modules/Maths/Equation_Solvings/solve_eqs_ddm_schur_complement.c:make_g"]}
{"id": "C72", "title": "Interfaces of a split cubed spherical grid", "statement": "When the realization of the interfaces of a split cubed spherical grid does not stop the program, every node of every face of every patch is in a subface; every subface lists nodes of its face only, none twice, and is either on a boundary of the grid (one subface for the whole face, where no other patch is found around the centre of the face), or interpolated or copied from a face of another patch that accepts its nodes and whose normal is the most opposite; at copied points the adjacent face has a subface with the same pairs of nodes the other way round; subfaces are numbered by position; and the labelling of the nodes for the solver succeeds on every patch. No null pointer is dereferenced if the faces hold the nodes their patches accept.", "quantifier": "all numbers of patches, sizes, geometries (which patch accepts which point, inner products of normals, collocated nodes), marks of inner boundaries", "why_tests_cant": "unbounded grids and all ways patches can touch", "anchors": ["Src/Main/Modules/Manifold/interface.c:ri_split_cubed_spherical", "Src/Main/Modules/Manifold/interface.c:find_adjacent_scs", "Src/Main/Modules/Manifold/interface.c:set_subfaces_scs", "Src/Main/Modules/Manifold/interface.c:add_to_subface_scs", "Src/Main/Modules/Manifold/interface.c:fill_basics", "Src/Main/Modules/Manifold/interface.c:misc", "Src/Main/Modules/Manifold/interface.c:test_subfaces"]}
{"id": "C73", "title": "Matching conditions of the interfaces", "statement": "In every grid whose interfaces are realized, the touching subfaces of a face all match the field or all match its normal derivative; the touching subfaces of an adjacent face do the opposite; the number kept for the partner of a subface is that of a touching subface of the adjacent face; and no patch is left with conditions on derivatives only. Whether the assignment succeeds does not depend on the order in which the patches are numbered.", "quantifier": "all grids of split cubed spherical patches", "why_tests_cant": "all graphs of faces and orders of patches", "anchors": ["Src/Main/Modules/Manifold/interface.c:pair_subfaces_and_set_bc", "Src/Main/Modules/Manifold/interface.c:counter_n_adjacent_faces", "Src/Main/Modules/Manifold/interface.c:find_subface", "Src/Main/Modules/Manifold/interface.c:test_subfaces"]}
{"id": "C74", "title": "Coordinate Jacobians are derivatives of the coordinate maps", "statement": "On every cubed-spherical patch of every type and side, the number dq2_dq1 returns at a node for a patch coordinate (a, b, c) and a Cartesian direction (x, y, z) is the partial derivative, at that node, of the patch coordinate the library assigns to a Cartesian point.", "quantifier": "all six patch types, six sides, centres, surface functions (deformed stars, cubes, spheres), nodes and pairs of directions", "why_tests_cant": "the formulas depend on the shape of the surfaces at every node; a test grid with spheres hides wrong surface-derivative terms", "anchors": ["Src/Main/Modules/Manifold/cubed_spherical_coordinate.c:make_JacobianT_CubedSpherical_coord", "Src/Main/Modules/Manifold/cubed_spherical_coordinate.c:R12_derivatives_SCS", "Src/Main/Modules/Manifold/cubed_spherical_coordinate.c:JT_OJ_T_SCS", "Src/Main/Modules/Manifold/cubed_spherical_coordinate.c:JT_OT_T_SCS", "Src/Main/Modules/Manifold/cubed_spherical_coordinate.c:JT_NS_T_CS_up", "Src/Main/Modules/Manifold/cubed_spherical_coordinate.c:JT_SR_T_CS_up", "Src/Main/Modules/Manifold/cubed_spherical_coordinate.c:JT_OT_T1_CS_up", "Src/Main/Modules/Manifold/cubed_spherical_coordinate.c:JT_OT_T2_CS_up"]}
{"id": "C75", "title": "Cubed-spherical coordinates are regular and right-handed", "statement": "At every node of every cubed-spherical patch whose inner surface lies strictly inside its outer one, the matrix of dq2_dq1 values has a positive determinant: the coordinates are regular (the inverse the library forms from it exists) and all patches have the same orientation.", "quantifier": "all six patch types, six sides, centres, surface functions and nodes with 0 <= c <= 1", "why_tests_cant": "regularity and orientation have to hold at each node of each patch for every surface", "anchors": ["Src/Main/Modules/Manifold/cubed_spherical_coordinate.c:SignAndIndex_permutation_CubedSphere", "Src/Main/Modules/Manifold/cubed_spherical_coordinate.c:JT_OJ_T_SCS", "Src/Main/Modules/Manifold/cubed_spherical_coordinate.c:JT_OT_T_SCS", "Src/Main/Modules/Manifold/coordinate_systems.c:dq_dN"]}
{"id": "C76", "title": "The patches of a split cubed spherical grid tile the region", "statement": "Whenever a split cubed-spherical grid (single or binary, black holes excised or filled, with or without outermost region) is accepted, every point of the ball of the outermost radius (of the cubes about the objects if there is no outermost region) that is not inside an excised object lies in a patch, no patch holds a point outside, no inner point of a patch lies in another patch, and on every patch the coordinate maps are inverse to each other. Every resolution is split into the smallest number of patches that respects the limit, whatever the resolution.", "quantifier": "all grid kinds, separations, radii, surfaces of the objects, resolutions and limits, and all points of space", "why_tests_cant": "a statement about a continuum of points for unboundedly many patches and every shape of the surfaces", "anchors": ["Src/Main/Modules/Manifold/cubed_spherical_coordinate.c:set_params_of_split_cubed_spherical_grid", "Src/Main/Modules/Manifold/cubed_spherical_coordinate.c:fill_patches_Split_CubedSpherical_grid", "Src/Main/Modules/Manifold/cubed_spherical_coordinate.c:populate_CS_patch_SplitCS", "Src/Main/Modules/Manifold/cartesian_coordinate.c:populate_box_patch_SplitCS"]}
{"id": "C77", "title": "Arrays the initial data reader hands to an evolution code", "statement": "Opening a checkpoint finds its system in it; the system and the option decide the exporter, everything else is refused; parameters set by the evolution code are kept in order and do not affect the numbers read from the checkpoint; indx(name) is the one position of a known name. When the interpolation returns, entry indx(e) of the arrays holds, at every point of the user, the value there (shifted by the centre of mass, in the first patch that contains it) of the field paired with e, all values are finite, entries of other names are untouched, and the result does not depend on the order in which threads take the points; it does return when points, fields and names are known and the values finite.", "quantifier": "all checkpoints, parameter lists, grids, fields, lists of names, points and thread schedules", "why_tests_cant": "unbounded grids, points and names, all interleavings of the parallel loops", "anchors": ["Src/Projects/Initial_Data_Reader/idr_main.c:elliptica_id_reader_init", "Src/Projects/Initial_Data_Reader/idr_main.c:elliptica_id_reader_interpolate", "Src/Projects/Initial_Data_Reader/idr_main.c:find_field_index", "Src/Projects/Initial_Data_Reader/idr_main.c:set_param_from_evo", "Src/Projects/Initial_Data_Reader/idr_main.c:get_param_double_from_checkpoint", "Src/Projects/Initial_Data_Reader/idr_read_write.c:idr_find_XYZ_from_xyz", "Src/Projects/Initial_Data_Reader/idr_read_write.c:idr_interpolate_fields_and_save_in_array"]}
{"id": "C78", "title": "Point-wise and file interfaces of the initial data reader", "statement": "The thread-safe point-wise reader returns for every name and point the number the arrays hold; the file of coordinates is read back as it was written whatever its first line; the file of fields holds under each name the values of the field paired with it at those points, in a fixed format; the thread-safe reader is available for black hole-neutron star and binary neutron star data; freeing the reader leaves the caller's memory alone and is safe in every state; lists of names that do not pair up are refused.", "quantifier": "all grids, fields, names, points, files, thread schedules, states of the reader", "why_tests_cant": "unbounded data; lifetimes of memory", "anchors": ["Src/Projects/Initial_Data_Reader/idr_read_write.c:idr_interpolate_field_thread_safe", "Src/Projects/Initial_Data_Reader/idr_read_write.c:idr_load_Cartesian_coordinates_from_file", "Src/Projects/Initial_Data_Reader/idr_read_write.c:idr_interpolate_fields_and_write_to_file", "Src/Projects/Initial_Data_Reader/idr_read_write.c:idr_new_binary_file_to_write", "Src/Projects/Initial_Data_Reader/idr_read_write.c:idr_close_file", "Src/Projects/Initial_Data_Reader/idr_read_write.c:idr_free", "Src/Projects/Includes/elliptica_id_reader_lib.h:ELLIPTICA_ID_READER_T"]}
{"id": "C79", "title": "The TOV star in the tables is a relativistic star", "statement": "The tables of radius and mass against enthalpy are classical fourth order Runge-Kutta solutions of the equations of stellar structure, started at the centre with their expansion there; phi and the isotropic radius and conformal factor solve their equations and join the exterior vacuum solution at the surface; the integrands are those of the baryonic, ADM and Komar masses, whose exact integrals for any star obey the virial theorem; the value used for each integrand at the centre is its limit.", "quantifier": "all equations of state, central enthalpies, numbers of points and stars", "why_tests_cant": "quantifies over all solutions of a differential equation and over a limit", "anchors": ["Src/Projects/TOV_star/TOV_solution.c:solve_ODE_enthalpy_approach", "Src/Projects/TOV_star/TOV_solution.c:dr_dh", "Src/Projects/TOV_star/TOV_solution.c:dm_dh", "Src/Projects/TOV_star/TOV_solution.c:r_approx", "Src/Projects/TOV_star/TOV_solution.c:m_approx", "Src/Projects/TOV_star/TOV_solution.c:calculate_phi", "Src/Projects/TOV_star/TOV_solution.c:isotropic_coords_transformation", "Src/Projects/TOV_star/TOV_solution.c:c_rbar", "Src/Projects/TOV_star/TOV_solution.c:Komar_mass_integrand", "Src/Projects/TOV_star/TOV_solution.c:ADM_mass_integrand", "Src/Projects/TOV_star/TOV_solution.c:baryonic_mass_integrand"]}
{"id": "C80", "title": "The TOV star has the requested baryonic mass", "statement": "TOV_solution returns one star; with status 0 its baryonic mass is the requested one up to round-off and its Komar and ADM masses agree to the given tolerance; otherwise the mass it reports is that of the star returned. If a star of the requested mass exists it is found within the allowed number of steps. The tables of a single star belong to that star; the mass-radius table has one row for each requested mass from the first to the last, each belonging to a star of that mass; a star that could not be computed is reported, not printed.", "quantifier": "all equations of state, masses, numbers of points, mass functions, histories of the search", "why_tests_cant": "an unbounded search with a termination argument", "anchors": ["Src/Projects/TOV_star/TOV_solution.c:TOV_solution", "Src/Projects/TOV_star/TOV_main.c:single_tov", "Src/Projects/TOV_star/TOV_main.c:multiple_tov", "Src/Projects/TOV_star/TOV_solution.c:calculate_ADM_and_Komar_mass", "Src/Projects/TOV_star/TOV_solution.c:calculate_baryonic_mass"]}
{"id": "C81", "title": "Each node's equation is in its own row of the subdomain system", "statement": "Whatever formulas a project supplies for an equation, its boundary conditions and their Jacobians, the assembled right-hand side holds in the row of each subdomain node the equation's residual for a node inside the patch, the outer (inner) boundary residual for a node on an outer (inner) boundary, and the assembled matrices hold in the same row the corresponding Jacobian towards every subdomain node (B) and every interface node (E, stored transposed); nothing is left unset. Grids the solver cannot handle (a patch with both kinds of boundary, disconnected patches) are refused.", "quantifier": "all formulas, patch sizes, lists of subfaces, labelings", "why_tests_cant": "the loops depend on the labels of every grid", "anchors": ["Src/Main/Modules/Includes/maths_equation_solvings_lib.h:DDM_SCHUR_EQ_OPEN", "Src/Main/Modules/Maths/Equation_Solvings/solve_eqs_ddm_schur_complement.c:make_f", "Src/Main/Modules/Maths/Equation_Solvings/solve_eqs_ddm_schur_complement.c:f_in_equation_part", "Src/Main/Modules/Maths/Equation_Solvings/solve_eqs_ddm_schur_complement.c:f_in_boundary_part", "Src/Main/Modules/Maths/Equation_Solvings/solve_eqs_ddm_schur_complement.c:making_B_and_E", "Src/Main/Modules/Maths/Equation_Solvings/solve_eqs_ddm_schur_complement.c:checks_and_constraints"]}
{"id": "C82", "title": "Poisson0 solves its Poisson problem", "statement": "The residual assembled for the project Poisson0 is the computed Laplacian of alpha plus 3(1+r^2)^(-5/2) inside the patches and alpha-(1+r^2)^(-1/2) on the boundary; its matrices are the exact derivative of that residual; one Newton step of weight 1 from any field leaves a field that satisfies the discrete problem exactly in every patch and has no jump at the interfaces; on a Cartesian patch the computed Laplacian is that of the polynomial through the node values. The reference field alpha_real the program compares with solves the continuous problem, and is its only solution on every bounded region.", "quantifier": "all grids of patches, fields, nodes, direct solvers; all bounded open regions and fields", "why_tests_cant": "for all grids and fields; uniqueness quantifies over all solutions of a differential equation", "anchors": ["Src/Projects/Poissons/Poisson0/poisson0_ddm_schur_eq_alpha.c:eq_alpha", "Src/Projects/Poissons/Poisson0/poisson0_ddm_schur_bc.c:bc_alpha", "Src/Projects/Poissons/Poisson0/poisson0_ddm_schur_jacobian_eq.c:jacobian_eq_alpha", "Src/Projects/Poissons/Poisson0/poisson0_ddm_schur_jacobian_bc.c:jacobian_bc_alpha", "Src/Projects/Poissons/Poisson0/poisson0_analyze.c:poisson0_analyze_answer", "Src/Main/Modules/Maths/Equation_Solvings/solve_eqs_ddm_schur_complement.c:ddm_schur_complement"]}
{"id": "C83", "title": "The spectral filter damps each Chebyshev mode by the erfc-log profile and nothing else", "statement": "spectral_filter on a field of a patch multiplies the coefficient of T_i T_j T_k in the Chebyshev expansion of its values by sigma(i/(n0-1)) sigma(j/(n1-1)) sigma(k/(n2-1)), where sigma is Boyd's erfc-log filter: sigma(0)=1, sigma(1)=0, it never increases, sigma(th)+sigma(1-th)=1. Values beyond the patch are untouched, a constant field is unchanged, the coefficients kept with the field are right for the new values, and an unknown filter or a patch without Chebyshev basis or points is refused.", "quantifier": "all patches with Chebyshev extrema or nodes in each direction, all numbers of points >= 2, all field values and histories of its coefficient cache, all orders p", "why_tests_cant": "A test checks one field at one resolution; the profile and the exactness of mode damping (including the mixed extrema/nodes weights of the top mode) must hold for every resolution and every set of values.", "anchors": ["Src/Main/Modules/Maths/Spectral_Methods/spectral_filter.c: spectral_filter, filter_erfclog, erfclog", "Src/Main/Modules/Fields/field.c: make_coeffs_3d"]}
{"id": "C84", "title": "Starting a run: parameter-file path and choice of the project", "statement": "For an existing parameter file dir/stem.ext the program sets relative_root_path=dir, parameter_file_name=stem.ext and parameter_file_name_stem=stem ('.' as root without a directory); a missing file or a path without '.' is refused. Then exactly the project named by the parameter Project (letter case aside) is run, once; an unknown or missing name or two projects of the same name stop the program before any project runs.", "quantifier": "all paths, all lists of registered projects, all values of the parameter Project", "why_tests_cant": "Paths are arbitrary strings: the property fails for paths whose only '.' is in the directory part (undefined behaviour), which no ordinary test uses.", "anchors": ["Src/Main/Core/main.c: main", "Src/Main/Core/global_variables.c: init_global_variables, find_inputfile_name, find_relative_root_path", "Src/Main/Core/projects.c: add_project, get_project, execute_project"]}
{"id": "C85", "title": "Output folders are new, numbered by the least free number, and never shared", "statement": "make_directory(path,name) makes one new directory path/name_NN with the least free number and returns its path; existing files are not touched, and in any sequence of calls all returned folders are different and exist. open_folder returns the existing folder of that name or makes one.", "quantifier": "all file systems, all paths and names, all sequences of calls", "why_tests_cant": "Depends on what already exists on disk and on the order of calls; directories with spaces or missing parents, and open_folder's four-digit lookup of folders made with two digits, break it.", "anchors": ["Src/Main/Modules/Text_and_File_Tools/file_and_directory.c: make_directory, make_folder, open_folder", "Src/Main/Modules/Utilities/useful_functions.c: shell_command"]}
{"id": "C86", "title": "ADM and Komar masses: integrands, totals and agreement of methods", "statement": "For fields of a slice (psi, conformal metric, A^ij, K, lapse, shift, sources) with exact derivatives, the ADM mass at infinity integrates n^i g^jk(d_k g_ij - d_i g_jk) of the physical metric over 16 pi; the surface+volume ways integrate n^i d_i psi and its divergence over -2 pi (so the result does not depend on the inner surface), and the one with the energy density returns the same number when the equation for psi holds; the Komar mass integrates n^i(d_i alpha - K_ij beta^j)/(4 pi) and alpha(E+S)-2 J.beta. The normals are the unit normals of the surface. Patch integrals are added with the stated signs; an empty list or a volume item for a surface-only quantity is never integrated silently.", "quantifier": "all slices with a Riemannian metric, all lists of patches, all nodes", "why_tests_cant": "Tests compare a few numbers for a few spacetimes; wrong index contractions vanish for flat or diagonal metrics, and the normal is wrong exactly when the metric is not conformally flat.", "anchors": ["Src/Main/Modules/Physics/Observe/obs_ADM_mass_S2.c", "Src/Main/Modules/Physics/Observe/obs_ADM_mass_SV_isotropic.c", "Src/Main/Modules/Physics/Observe/obs_ADM_mass_SV_conformal.c", "Src/Main/Modules/Physics/Observe/obs_Komar_mass.c", "Src/Main/Modules/Physics/Observe/obs_calculate.c: n_physical_metric_around, n_conformal_metric_around, obs_integral_SV"]}
{"id": "C87", "title": "ADM linear and angular momentum and spin: integrands, totals and agreement of methods", "statement": "P_j integrates (K_ij - g_ij K) n^i / 8 pi over a surface, J_a the vector product of the position from the centre of mass with it, the spins the trace-free part contracted with rotations or approximate Killing vectors (equal for fields tangent to the surface). The volume parts of 'Rashti' and 'constraint' (P and J) are the divergence of the corresponding vector field, up to the momentum constraint, so that the sum does not depend on the surface; the methods return the same number where the constraint holds. 'Ossokine' must have the same property.", "quantifier": "all slices with exact derivatives, all lists of patches, all components", "why_tests_cant": "The identities involve the full physical connection of an arbitrary metric; 'Ossokine' violates the claim as soon as psi is not constant, although it agrees in flat-space tests.", "anchors": ["Src/Main/Modules/Physics/Observe/obs_ADM_P_S_default.c", "Src/Main/Modules/Physics/Observe/obs_ADM_P_Stokes_Rashti.c", "Src/Main/Modules/Physics/Observe/obs_ADM_P_Stokes_constraint.c", "Src/Main/Modules/Physics/Observe/obs_ADM_P_Stokes_Ossokine.c", "Src/Main/Modules/Physics/Observe/obs_ADM_J_S_default.c", "Src/Main/Modules/Physics/Observe/obs_ADM_J_Stokes_constraint.c", "Src/Main/Modules/Physics/Observe/obs_ADM_J_Stokes_Ossokine.c", "Src/Main/Modules/Physics/Observe/obs_spin_inegrands_Campanelli.c", "Src/Main/Modules/Physics/Observe/obs_spin_inegrands_AKV.c"]}
{"id": "C88", "title": "Filling a black hole: the field inside joins the field outside with two derivatives", "statement": "bh_fill_inside_black_hole by Chebyshev extrapolation gives, along every direction from the hole's centre, the values of one polynomial of degree at most 5 in the distance from the centre with the prescribed central value and zero central slope, whose value, slope and second derivative at the surface are those of the outside field; so the field is twice continuously differentiable along the direction. The outside patch and its coordinates found for a direction are those of the surface point in that direction. With spherical harmonics this holds in every direction for data that the harmonics resolve. The exponential formulas keep value (order 0), and value and slope (order 1). The fields read for the derivatives are those that the naming convention gives.", "quantifier": "all centres, surfaces given as functions of the direction, lists of outside patches, directions that lie clear of the coordinate planes, fields with two derivatives, resolutions, field names", "why_tests_cant": "Tests print a few profiles; the join must hold for every direction, surface and field, and the formulas that violate it (order 1, names starting with an underscore) are not exercised.", "anchors": ["Src/Main/Modules/Physics/BlackHole/bh_bhfiller.c: bhf_ChebTn_general_s2, bhf_ChebTn_Ylm_perfect_s2, collect_names, approx_expmr_C0, approx_r_expmr_C1", "Src/Main/Modules/Physics/BlackHole/bh_bhf_ChebTn_filler.c: bh_bhf_ChebTn_extrapolate", "Src/Main/Modules/Manifold/coordinate_utilities.c: find_XYZ_and_patch_of_theta_phi_CS"]}
{"id": "C89", "title": "The black-hole smoothing function is a monotone C4 step", "statement": "bh_bhf_smoother(r,rmax,rmin) is 0 for r<=rmin, 1 for r>=rmax, strictly increasing between, complementary at mirrored points and four times continuously differentiable everywhere.", "quantifier": "all radii rmin < rmax and all r", "why_tests_cant": "Differentiability at the joints and monotonicity range over all reals.", "anchors": ["Src/Main/Modules/Physics/BlackHole/bh_bhfiller.c: bh_bhf_smoother", "Src/Main/Modules/Physics/BlackHole/bh_bhf_polynomial_smoother.c: bh_bhf_poly_smoother"]}
{"id": "C90", "title": "Kerr-Schild free data are the 3+1 split of a boosted, rotated Kerr hole", "statement": "With the Kerr-Schild free data, the metric, lapse and shift written at a point are the 3+1 split, on the slice t = 0, of the Kerr metric of the requested mass and spin parameter, turned so that the dimensionless spin vector becomes the rotation axis and moving with the requested boost velocity; the radius used is the Boyer-Lindquist radius of the point in the rest frame. Spins above 1 are refused. The extrinsic curvature written is that of this slice, and trK is its trace.", "quantifier": "all masses >= 0, spins, boosts below the speed of light and points off the ring disc; all connection, lapse and shift values for the curvature formula", "why_tests_cant": "The formulas are 3000 lines of generated code in 7 parameters; a sample of points cannot show that they are the Lorentz transform of the Kerr metric, and a boosted hole's time derivative (missing in the curvature) vanishes in every test at rest.", "anchors": ["Src/Main/Modules/Physics/Free_Data/fd_KerrSchild_params.c: fd_KerrSchild_set_params", "Src/Main/Modules/Physics/Free_Data/fd_KerrSchild_R_X_Y_Z.c", "Src/Main/Modules/Physics/Free_Data/fd_KerrSchild_H_K0_K1_K2.c", "Src/Main/Modules/Physics/Free_Data/fd_KerrSchild_c_k0_k1_k2_kt.c", "Src/Main/Modules/Physics/Free_Data/fd_KerrSchild_g_dg_ddg_dddg.c", "Src/Main/Modules/Physics/Free_Data/fd_KerrSchild_alpha.c", "Src/Main/Modules/Physics/Free_Data/fd_KerrSchild_beta.c", "Src/Main/Modules/Physics/Free_Data/fd_KerrSchild_psi_alpha_beta.c", "Src/Main/Modules/Physics/Free_Data/fd_KerrSchild_Kij_trK.c"]}
{"id": "C91", "title": "The analytic derivatives of the Kerr-Schild metric are its derivatives", "statement": "The first, second and third derivatives of the Kerr-Schild metric (and of the functions it is built from) that the free data write are the partial derivatives of the metric that is written, in every combination of directions.", "quantifier": "all parameters (boost, spin, angles) and all points off the ring disc; every component and every triple of directions", "why_tests_cant": "162 third-derivative expressions hold for all points only by algebra; the wrong ones differ by a term that vanishes on the coordinate planes and without spin, where hand checks are made.", "anchors": ["Src/Main/Modules/Physics/Free_Data/fd_KerrSchild_R_X_Y_Z.c", "Src/Main/Modules/Physics/Free_Data/fd_KerrSchild_H_K0_K1_K2.c: fd_ks_dddH_D0D1D2", "Src/Main/Modules/Physics/Free_Data/fd_KerrSchild_c_k0_k1_k2_kt.c", "Src/Main/Modules/Physics/Free_Data/fd_KerrSchild_g_dg_ddg_dddg.c"]}
{"id": "C92", "title": "The Kerr-Schild surface finder returns the event horizon", "statement": "fd_find_KerrSchild_BH_surface (used to shape the grid for the surface type KerrSchild_s2) returns, for every direction, the radius of the event horizon of the Kerr-Schild hole: the surface on which it lies is null.", "quantifier": "all masses, spin parameters and directions", "why_tests_cant": "A wrong sign under the root gives a smooth, plausible surface; only the null condition tells, and it must be shown for every direction and spin.", "anchors": ["Src/Main/Modules/Physics/Free_Data/fd_KerrSchild_BH_surface.c: fd_find_KerrSchild_BH_surface, BH_surface_root_finder_eq", "Src/Main/Modules/Physics/BlackHole/bh_bh.c: bh_find_bh_surface_KerrSchild_s2"]}
{"id": "C93", "title": "Black-hole parameters: start-off, tuning of mass and spin, surface radii", "statement": "Starting off a black hole sets mass, spin parameter and radius to those of the Kerr (Schwarzschild) hole with the irreducible mass and dimensionless spin asked for, in the coordinates asked for, and refuses spins above 1. Tuning the radius leaves it alone within tolerance or without weight, scales it against the relative mass error otherwise, and converges for a mass proportional to the radius from every start within (0,2) times the target and every weight up to 1. The dimensionless spin derived from the observed spin and irreducible mass is at most 1 and is exact for Kerr; Omega is changed exactly for the components off by more than the tolerance. The reported min and max radii of a surface are its extreme radii.", "quantifier": "all irreducible masses, spins, weights, tolerances, observed values, starting radii; every number of tuning iterations; all surfaces", "why_tests_cant": "Convergence is a statement about unbounded iteration; the mass and spin relations must hold for every spin, and the inconsistent start-off gives plausible values.", "anchors": ["Src/Main/Modules/Physics/BlackHole/bh_main.c: start_off_black_hole, tune_black_hole", "Src/Main/Modules/Physics/BlackHole/bh_bh.c: bh_start_off_KerrSchild_perfect_s2, bh_start_off_CloseKerrSchild_perfect_s2, bh_start_off_KerrSchild_general_s2, bh_start_off_IsoSchild_perfect_s2, bh_start_off_PGSchild_perfect_s2, bh_tune_BH_radius_irreducible_mass_perfect_s2, bh_tune_BH_chi_simple, bh_find_bh_surface_KerrSchild_s2"]}
{"id": "C94", "title": "Black-hole inner boundary: normal, shift condition and expansion", "statement": "The field used as normal on the surface of a hole has unit length in the conformal metric, points outwards and is orthogonal to the surface, and its derivatives are its derivatives. The shift imposed on the inner boundary is lapse times physical normal plus a rotation about the centre, so that its normal part is the lapse. The number reported as expansion of the apparent horizon is the largest |psi^3 Theta/4| over the nodes of the surface, Theta being the expansion of the outgoing light rays in the physical slice; it is 0 exactly when the surface is marginally trapped at all nodes.", "quantifier": "all metrics, conformal factors, lapses, spins, extrinsic curvatures and points", "why_tests_cant": "The identities tie 70-term expressions to the geometric definition for all metrics; errors vanish for flat metrics, the usual test.", "anchors": ["Src/Main/Modules/Physics/BlackHole/bh_bh.c: bh_update_sConf_dsConf, bh_update_inner_BC", "Src/Main/Modules/Physics/BlackHole/bh_expansion_of_AH.c: bh_calculate_expansion_on_AH"]}
{"id": "C95", "title": "Schwarzschild free data are exact", "statement": "The isotropic data written for a single hole (psi, alpha psi, flat metric, zero shift and extrinsic curvature) solve the vacuum constraint and lapse equations everywhere off the centre and are the Schwarzschild hole of the given mass with its horizon at r=M/2. The Painleve-Gullstrand data (flat metric, lapse 1, shift) have the shift sqrt(2M/r) times the radial unit vector, the extrinsic curvature of that shift, satisfy the vacuum constraints and are the Schwarzschild hole with the horizon at r=2M.", "quantifier": "all masses and all points off the centre", "why_tests_cant": "These data serve as the exact solutions the tests compare with; that they solve the equations must be shown at every point.", "anchors": ["Src/Main/Modules/Physics/Free_Data/fd_populate.c: fd_populate_psi_alphaPsi_beta_IsoSchild, fd_beta_and_dbeta_PGSchild, fd_populate_psi_alphaPsi_beta_PGSchild, fd_extrinsic_curvature_PGSchild", "Src/Main/Modules/Physics/Free_Data/fd_PGSchild_Kij_trK.c"]}
{"id": "C96", "title": "Populating the free data: coherent fields, roll-off and superposition", "statement": "For every choice of free-data options, and whatever the fields held before, populating either stops or leaves the metric and the trace of K the options stand for, with inverse, derivatives, Christoffel symbols, Ricci tensor and derivative of the trace all made from them. The roll-off used to superpose flat and Kerr-Schild metrics is defined on the whole grid, is 1 on the surface of the hole, falls continuously to 0 at rmax and stays there; the superposed metric is symmetric and positive definite everywhere.", "quantifier": "all option combinations, systems, previous field contents, radii, roll-off parameters and metrics", "why_tests_cant": "Stale derived fields are right for the first population of a fresh grid and wrong for later ones; the roll-off must be safe at every radius.", "anchors": ["Src/Main/Modules/Physics/Free_Data/fd_main.c: populate_free_data", "Src/Main/Modules/Physics/Free_Data/fd_populate.c: fd_populate_gConf_igConf_dgConf_ConfKerrSchild, fd_modify_gConf_igConf_dgConf_to_w1flat_w2KS, fd_modify_trK_to_wtrK_compute_dtrK, f_ratio_type1, f_exp_type1, f_exp_type2", "Src/Main/Modules/Physics/Free_Data/fd_populate.h: SET_TRANSITION_FUNC_BH_TYPE0"]}
{"id": "C97", "title": "Tuning of the system: force balance, Euler constant and linear momenta", "statement": "A tuning option adjust(a,b,c) carries out exactly the adjustments it names, in their order, each starting from what the previous one left; none changes nothing and any other text stops the run. A force-balance adjustment moves the one named parameter, and no other, towards the root of the force-balance equation, never past it, and repeated adjustment converges to the root. The Euler constant is changed only if the root finder was successful and then comes closer to the root. Tuning the linear momenta by the position of the centre of mass shrinks each component of the momentum that is above its tolerance by the update weight, leaves the others alone, and brings both below the tolerance.", "quantifier": "all lists of names, weights, tolerances, systems, previous values and outcomes of the root finders; every number of tuning iterations", "why_tests_cant": "Texts with four names or an empty one are silently read otherwise than written; a wrong sign in the momentum tuning shows only over many iterations; convergence is a statement about unbounded iteration.", "anchors": ["Src/Main/Modules/Physics/Star/star_NS.c: star_NS_idealfluid_gConf_force_balance, force_balance_eq_root_finders, parse_adjust_parameter, get_func_force_balance_adjustment, star_NS_ifluid_gConf_find_EulerC_fix_baryon_mass", "Src/Main/Modules/Physics/System/sys_tune.c: sys_tune_ADM_momenta, Px_ADM_is0_by_y_CM, Py_ADM_is0_by_x_CM"]}
{"id": "C98", "title": "Star: fixed centre, spin velocity, start-off from a TOV star", "statement": "Keeping the centre of the star fixed leaves the enthalpy alone when the maximum is at the centre or could not be found, and otherwise reduces the gradient of the enthalpy at the centre by the update weight (to zero by repetition), with the value at the centre kept by the Taylor method. The spin part of the velocity is that of a rigid body turning about the centre. Starting off with a TOV star writes the fields of that star inside, the Schwarzschild fields of its mass outside, joined on the surface, and the orbital velocity of the centre.", "quantifier": "all enthalpies, centres, weights, outcomes of the search and number of repetitions; all spins and points; all equations of state, masses and table sizes", "why_tests_cant": "The effect of the correction is on a derivative at one point, for every enthalpy; joining of the two halves needs the relation between table and exterior for every star.", "anchors": ["Src/Main/Modules/Physics/Star/star_NS.c: star_NS_keep_center_fixed, adjust_NS_center_interpolation, adjust_NS_center_Taylor_expansion, star_NS_find_where_denthalpy_is_0, W_spin_vector_idealfluid, star_populate_psi_alphaPsi_matter_fields_TOV"]}
{"id": "C99", "title": "Continuation of the matter fields outside the star", "statement": "For each value of the option extrapolate_matter_fields, in any letter case, the velocity potential and the enthalpy at every point around the star get the values of the formula chosen for them (any other value stops the run). Along every ray from the centre the field inside and the values outside form one function: twice continuously differentiable with poly2, exp2, inverse_r2, inverse_r2_expmr and inverse_r2_expmAr (or, with exp2 only, the run stops at a vanishing derivative), continuously differentiable with inverse_r_expmr and inverse_r_expmAr, continuous with expmr. The formulas with an exponential factor vanish far away, and the enthalpy outside stays below 1 so that no matter is seen there. Derivative fields that were added for the purpose are removed and no others.", "quantifier": "all fields, surfaces, rays, radii, option texts and previous contents of the patches", "why_tests_cant": "Smoothness across the surface and behaviour far away are statements about all radii; the formulas have many terms that cancel only at the surface, and a wrong one still gives a plausible decaying field.", "anchors": ["Src/Main/Modules/Physics/Star/star_NS_surface.c: star_NS_extrapolate, extrap_init, fmain_f_df_ddf_CS, extrapolate_expmr_C0_CS, approx_poly2, approx_inverse_r2, approx_inverse_r2_expmr, approx_inverse_r2_expmAr, approx_inverse_r_expmAr, approx_inverse_r_expmr, approx_exp2", "Src/Main/Modules/Physics/Star/star_NS.c: star_NS_idealfluid_extrapolate_matter_fields"]}
{"id": "C100", "title": "Finding the surface of a star", "statement": "In every direction of the grid of angles the search brackets the surface and finds it: for a star whose enthalpy falls through 1 once along each ray, with the surface displaced by at most 5 and enough turns of the bisection, each radius is within the tolerance of the distance of the surface from the centre, the residuals are the values of the enthalpy less 1, the radii reported for the next grid are the least and the greatest of those found, and the coefficients of a surface of degree at most Lmax come out within 2 sqrt(pi) times the tolerance. A search that fails keeps the previous radii, hands on no coefficients, counts the failure and stops the run when there were more than allowed. A star at the start has the coefficients of the sphere of its radius. The options are recognised in any letter case, others refused.", "quantifier": "all enthalpies, centres, surfaces, tolerances, numbers of turns, degrees and previous states of the parameters", "why_tests_cant": "Whether the walk and the bisection end at the surface depends on the enthalpy along every ray; the accuracy of the coefficients is a statement about all surfaces and errors.", "anchors": ["Src/Main/Modules/Physics/Star/star_NS_surface.c: star_NS_find_star_surface, find_NS_surface_Ylm_bisect_CS, find_NS_surface_perfect_s2, star_start_off_TOV, NS_surface_enthalpy_root_finder_eq"]}
{"id": "C101", "title": "Manager of the physics: commands, objects and regions", "statement": "A command given to the physics manager carries out exactly the one action that the list of commands documents, every command has its own, and an action on one star or one black hole is refused (the run stops) for any other object, as is a number that is no command. A physics is made exactly when the project is known and the parameters give the object a position it may have, and it then has the class, name, system and position that these say. Asked for regions of NS or BH, the physics of one object answers with the patches of its own regions: every item gets the object's name with its index, once, and no patch of the companion is touched; regions with an index, of no object, or the whole grid are left as written.", "quantifier": "all commands and objects; all parameter values in any letter case; all regions (lists of items of any length) and all grids", "why_tests_cant": "A swapped case in nested switches acts silently on the wrong object; the rewriting of region texts must be right for lists of every length and for every index.", "anchors": ["Src/Main/Modules/Physics/phys_main.c: physics_main, init_physics, phys_autoindex_stype, mygrid", "Src/Main/Modules/Physics/Star/star_main.c: star_main", "Src/Main/Modules/Physics/BlackHole/bh_main.c: bh_main", "Src/Main/Modules/Physics/StressEnergy_Tensor/Tij_main.c: Tij_main", "Src/Main/Modules/Includes/physics_lib.h: cmd_T, AssureType"]}
{"id": "C102", "title": "Area and irreducible mass of a black hole; centre and spin of an object", "statement": "The area reported for a black hole is the sum over the patches around it of the integrals of the element of area of the physical metric over its surface, and 16 pi M^2 = A for the irreducible mass M; rescaling all lengths rescales both accordingly. The centre reported for a hole whose surface is symmetric about a point is that point; measured from another origin it changes by just the displacement of the origin, and so does that of a star whose ADM mass is the integral of the Laplacian of its conformal factor. The spin is J - R x P with that centre and does not depend on the origin; it is refused for anything but stars and holes.", "quantifier": "all metrics, conformal factors, surfaces, patches and resolutions (integrands resolved by the grid where an integral is claimed), all origins, momenta and angular momenta", "why_tests_cant": "Independence of the origin and scaling are statements about all origins and metrics; a sign or a missing term in the generated Laplacian changes only the last digits of a tuned system.", "anchors": ["Src/Main/Modules/Physics/Observe/obs_BH_irreducible_mass_CS.c: obs_BH_irreducible_mass_CS", "Src/Main/Modules/Physics/Observe/obs_Rcenter_NS.c: obs_Rc_NS", "Src/Main/Modules/Physics/Observe/obs_calculate.c: Rc_BH, define_spin_JRP"]}
{"id": "C103", "title": "Derivatives by name: lists, stems and patterns", "statement": "A list of derivative fields, taken one after the other in an order in which no field changes after a derivative of it has been taken, leaves every field of the list holding the Cartesian derivative, in the direction its name says, of the field its name says, and changes the values of no other field; a name that the patch does not have stops the run. In particular the derivatives of Christoffel symbols cover all 54 index combinations of the stem given, those of the fluid all three directions of enthalpy, u0 and rho0; a pattern takes exactly the fields it matches, and the patterns used for the metric and the trace of the extrinsic curvature take all derivatives of theirs and no others. The fields added for the conformal Christoffel symbols are the 18 symbols and their 54 derivatives, once each, and are what the derivatives need.", "quantifier": "all patches and resolutions, all pools of fields in any order, all values, all stems of the length the buffers hold", "why_tests_cant": "A single wrong or missing index among the 54 generated names leaves one component of the curvature stale; whether a list is complete and in order must hold for every pool of fields.", "anchors": ["Src/Main/Modules/Maths/Calculus/derivatives.c: partial_derivative_regex, partial_derivative", "Src/Main/Modules/Maths/Diff_Geom/dg_dChristoffel_symbol_3d.c: dChristoffel_symbol_3d", "Src/Main/Modules/Physics/StressEnergy_Tensor/Tij_NS_ifluid_xcts_gConf_derives.c: Tij_NS_IF_XCTS_gConf_derives", "Src/Main/Modules/Physics/Free_Data/fd_ChrisConf_dChrisConf_add_fields.c: fd_add_fields_ChrisConf_dChrisConf", "Src/Main/Modules/Physics/Free_Data/fd_populate.c: fd_1st_derivative_Christoffel_symbol", "Src/Main/Modules/Includes/macros_lib.h: dField_di, dField_di_STEM"]}
{"id": "C104", "title": "Mass-shedding indicator of a star", "statement": "The mass-shedding indicator reported for a star is the slope of ln h along the outward ray at the point of its surface that faces the companion (the left side for a star in the centre), divided by the slope at its north pole. It is 1 for every star whose enthalpy depends only on the distance from its centre, 0 exactly where the enthalpy no longer falls off outwards at the facing point, and does not depend on the unit of the enthalpy. The direction, found by way of polar angles, is the outward one up to the round-off. A grid without a star, and patches that do not have the points, stop the run.", "quantifier": "all stars (enthalpies, centres, surfaces), all places of the star, all names of patches", "why_tests_cant": "The indicator decides when a sequence of stars ends; that it is the ratio of two slopes, and 1 for round stars, is a statement about all enthalpies and centres.", "anchors": ["Src/Main/Modules/Physics/Star/star_NS_surface.c: star_NS_mass_shedding_indicator"]}
{"id": "C105", "title": "First filling of the fields", "statement": "Starting from scratch, each known combination of system and initial data fills conformal factor, lapse and shift with the superposition of the exact solutions of its objects: flat space plus each object's difference from flat space; the data of a single object are taken over as they are, static stars have no shift, where one of two objects leaves no mark the other's data stand, and data that are flat far away stay flat far away. Temporary fields are gone afterwards, no other field is changed, the matter and spin vector of each star are set once, and unknown combinations stop the run.", "quantifier": "all grids, all data of the single objects, all pairs of system and option (in any letter case)", "why_tests_cant": "The first fields are the ground of the whole solve; that they superpose correctly at all points and far away, for every pair of objects, is not visible from a run that converges anyway.", "anchors": ["Src/Main/Modules/Physics/System/sys_main.c: initialize_fields", "Src/Main/Modules/Utilities/useful_functions.c: superimpose_simple", "Src/Main/Modules/Fields/field.c: add_aux_fields, remove_aux_fields"]}
{"id": "C106", "title": "The plan of a momentum measurement collects what the name of the method promises", "statement": "For each system and method, the regions, surfaces and sides the ADM momenta are collected on add up, for every conserved flux, to the quantity named: a surface at the outer boundary to the flux there, the surface of one object to the flux of this object, the surfaces of all objects to their sum, and a surface plus volume method to the flux at the outer boundary, by Gauss' theorem. Letter case of quantity and method does not matter; unknown grids, quantities and methods stop the run.", "quantifier": "all kinds of grids, all quantities and methods (any text, any letter case), all fluxes that obey Gauss' theorem, one or many splits", "why_tests_cant": "A region missed or counted twice, or a surface on the wrong side, only shows as a wrong number that depends on the data; no test has the exact momentum of a general solution.", "anchors": ["Src/Main/Modules/Physics/Observe/obs_calculate.c: calc_ADM_P, calc_ADM_J", "Src/Main/Modules/Physics/Observe/obs_calculate.h: Collect_outermost_S_V_SplitCS"]}
{"id": "C107", "title": "Tasks run what was registered; symmetric tensors get each component once", "statement": "After any registrations a task runs exactly the functions registered for it and for the coordinate system of the patch, each once and in the order of registration, and stops the run if there is none; a look-up by name returns the first function registered under it. Names may be in any letter case, and no memory beyond the list is read. A symmetric tensor field gets on each patch exactly its six components i \u2264 j of the rank asked for, behind the other fields; other ranks, and components that exist, are refused.", "quantifier": "all sequences of registrations, all functions, all names and coordinate systems, all grids and stems", "why_tests_cant": "The lists grow by reallocation with a null pointer as end mark: that no length, order or combination of coordinate systems loses or repeats an entry cannot be seen from the few lists used today.", "anchors": ["Src/Main/Modules/Utilities/function_managing.c: add_func_PtoV, run_func_PtoV, add_func_Patch2Pdouble, get_func_Patch2Pdouble", "Src/Main/Modules/Utilities/add_3x3_symmetric_field.c: add_3x3_symmetric_field"]}
{"id": "C108", "title": "The plan of a mass measurement collects what the name of the method promises", "statement": "For each system and method the regions, surfaces and sides the ADM and Komar masses are collected on add up, for every conserved flux, to the quantity named: the ADM mass by surface and by volumes to the flux at the outer boundary, that of a star to the sources in this star; the Komar mass, without sources outside the objects, by every method to the flux at the outer boundary, and that of an object to the flux through its surface, whether the grid is split or not. Elements of volume and surface and the normals are made with the same metric, the conformal one for the methods with volumes. Letter case does not matter; unknown grids and methods stop the run.", "quantifier": "all kinds of grids, all quantities and methods (any text, any letter case), all fluxes that obey Gauss' theorem, one or many splits", "why_tests_cant": "A region missed or counted twice, a surface on the wrong side or a normal of the other metric only shows as a wrong mass that depends on the data; no test has the exact mass of a general solution.", "anchors": ["Src/Main/Modules/Physics/Observe/obs_calculate.c: calc_ADM_mass, calc_Kommar_mass", "Src/Main/Modules/Physics/Observe/obs_calculate.h: Set_outermost_integral_S_SplitCS"]}
