# Elliptica in Lean 4: design of the formal model

The code under study is `/repo` (rashti-alireza/Elliptica, C).  It is read as
text only; nothing here is compiled from it or linked to it.

## Trusted base

* Lean 4.33.0's kernel (and Mathlib's definitions of `ℝ`, `cos`, `Finset.sum`, ... where a
  theorem mentions them).
* Axioms: at most `propext`, `Classical.choice`, `Quot.sound` (Lean's standard three).  No axiom
  is added, nothing is left unproved, no compiled-code evaluation is used in proofs.
* Our reading of the C: every definition cites the file and lines it models.
* C strings are `List Char` without NUL; letter case uses the "C" locale (ASCII).
* `Uint`/`int` counters are `Nat`/`Int` (no wrap-around) unless a definition says otherwise.
* `double` arithmetic is modelled by exact arithmetic in a field (a generic ordered field or `ℝ`).
  Rounding, NaN, infinities and overflow are NOT modelled.
* Calls of libc / external libraries (`strtod`, `printf("%.20e")`, `fread`, `fwrite`, UMFPACK,
  `regex`) are parameters, or a small functional definition whose comment says so.
* Undefined behaviour and program abort are explicit outcomes (`Res.ub`, `Res.abort`).

## Layout

* `lean/Verif/Model/*.lean`  executable models of the C functions (with citations).
* `lean/Verif/Spec/*.lean`   small, code-independent specifications.
* `lean/Verif/Lemmas/*.lean` helper lemmas.
* `lean/Verif/Props/*.lean`  the property theorems, each with an example showing that its
  hypotheses can be met; where the code violates the property, a witness theorem
  (`*_violation`) and a `_partial` theorem giving what does hold.

## Per-property plan

| id | model | how proved |
|----|-------|------------|
| C01 | name rule on `List Char`, all DB entry points | algebra of ASCII case maps, induction |
| C02 | DB = `Option (List Par)`, op language (set, seti, setd, seta, default, free, getd) | invariant (no duplicate names) + refinement to an abstract map by induction on histories |
| C03 | same, with double cache | coherence invariant; witness for `Pset_default` on an empty entry |
| C04 | `sprintf("%d")` / `atoi` as functions on digit lists | induction on digits |
| C05 | `get_n_value_str_ip`, `total_iterations_ip` on strings with `->` | string-search lemmas, induction on the value list |
| C06 | `parse_multiplicity...` rewriting loop | induction on the number of multiplicities; witness for `5(x1)` |
| C07 | `update_iteration_params` counter logic + driver loop | induction on the loop |
| C08 | `make_buffer` / `populate_parameters` state machine | induction on the file; witness for missing final newline |
| C09 | `tok_s`, `read_separated_items_in_string` | induction on strings; witness for a leading delimiter |
| C10, C11, C12 | index arithmetic on `Nat` | div/mod algebra |
| C13 | comparison macros over an ordered field | linear arithmetic; witness at the exact boundary |
| C14, C15, C16, C18 | matrices in reg / rmo / ccs storage | induction on rows/columns, `Finset.sum` |
| C17 | 3x3 macros over a field | `field_simp`/`ring`; witness for zero leading entry |
| C19 | grid array with swap-with-last free | witness; invariant for stack-like histories |
| C20 | needle structure and search lists | induction on lists |
| C21, C22 | coordinate maps over `ℝ` | algebra, trigonometry |
| C23, C24 | field array, coefficient cache | invariants over histories |
| C25, C26, C27 | `Model/Checkpoint.lean`: byte stream of the checkpoint writer (a failed assert is a `stop` in the stream), the two files of the output directory and the actions on them, reading back, override of parameters. Assumed: `mv` is atomic, a crash leaves a prefix of the bytes written, a double is eight bytes that decode to it. Not modelled: which fields are selected (a predicate), file-system errors, the clock | each reader inverts its writer (`Enc`), induction on records; the crash point is the number of actions made; induction on histories |
| C28, C29 | root finders over a linear ordered field / `ℝ` | loop invariants |
| C30, C31 | spline and Neville recurrences over a field | induction, uniqueness of interpolation |
| C32, C33 | closed-form sums, norms over `ℝ` | induction on N, trigonometric identities |
| C34, C50 | `Model/Schur.lean`: node labels, per-patch block solves, assembly of the interface system in stacked CCS storage, back substitution and update. The sparse direct solver is a parameter (`Sound`: what it returns solves the stored matrix). Not modelled: the entries of the Jacobian blocks | the steps as sums over blocks; the Schur identity by linear algebra over a field; the labels by invariants over the loops |
| C35, C36 | CCS entry readers (plain and sliced), column-wise inversion with an abstract exact solver | induction along the column; block position arithmetic |
| C37 | patch collectors on name/region strings | induction on lists; witness for documented names |
| C38, C39, C40 | angles to coordinates over `ℝ`; six sides; node search | trigonometry, linear arithmetic; witnesses |
| C41, C43 | transforms, interpolation, Chebyshev functions over `ℝ` | discrete orthogonality; polynomial identity on nodes; Mathlib Chebyshev polynomials |
| C44 | the four gradient functions of the steepest descent over `ℝ` | derivative rules, algebra |
| C45 | divided differences with doubled nodes over an ordered field | Newton form, its two recursions, uniqueness of Hermite interpolation |
| C46 | strcmp_i, strstr_i, find_index_string, check_format_s, regex_replace (regexec as a parameter) | induction on strings; greedy search = sublist |
| C42 | the 1-d, 2-d and spherical Fourier transformations over ℝ and ℂ | sums of roots of unity, Dirichlet kernel, factorisation of the 2-d sum, calculus |
| C47 | associated_legendre with its two loops, its derivative, Ylm and derivatives with explicit refusals, the expansions and index maps over ℝ/ℂ | Rodrigues' formula is the specification; Bonnet's recursion, the diagonal values and Legendre's equation are derived from it in ℝ[X]; loops by induction; HasDerivWithinAt on [0,π] |
| C48 | the quadratures, the 99+34 rows of root tables as exact decimals, the spectral volume/sub-volume/surface integrals with their Jacobians and induced metrics, the planner, over ℝ | orthogonality from Rodrigues' formula and Gauss exactness in ℝ[X]; the tables by sign changes computed by the kernel with integers (no sampling: every entry is checked) and counting of roots; antiderivatives of T_n; separation of the sums |
| C51, C52, C53 | `Model/SolveEqs.lean`: Newton loop and stop criterion (residuals: finite or not), equation data base and look-up, special grids, relaxation weight, outer loop of backups, solves and relaxations. The Newton step and the solver are parameters | induction on fuel, on registration histories, on rounds and on the nested loops over patches and fields |
| C49 | `Model/YlmCoeffs.lean`: phi sums, Gauss-Legendre in theta, the loops writing the arrays, over ℝ/ℂ, table of roots exact | sums of roots of unity, orthogonality of associated Legendre functions, Gauss exactness, injectivity of the numbering; `Props/YlmStable.lean`: values with errors |
| C54, C57 | `Model/Deriv.lean`: coefficients, the four line formulas, flags and branches of the first- and second-order routines, the choice between them, the loop with its two temporaries (freed memory is an abort), Jacobians N/X/x, over ℝ; the cubed-sphere Jacobian is a parameter | derivative of Chebyshev sums from C43; polynomials in three variables (Mathlib) as specification; adjugate identities |
| C56 | `Model/Fornberg.lean`: search, window, table of weights with uninitialised memory, over an ordered field | the table entries are derivatives of Lagrange polynomials (double induction) |
| C55 | `Model/DerivName.lean`: tokens of the task, choice of method, parsing of names in the 100-byte buffer, look-up and write of fields | string induction from C09, C46; C54 for the values |
| C58 | `Model/EoS` (eos_polytropics.c, populate_EoS and read_EoS_in_parameter_file of eos_main.c, over ℝ with C's pow as a partial function), `Spec/EoS` (matter given by a pressure law and the first law, no formula of the program) | the arrays K, a, h_th are the only ones compatible with continuity and the first law (mean value theorem); enthalpy monotone over the pieces, so the threshold search finds the piece of the density |
| C59 | `Model/EoSTab` (sampling in populate_EoS, EoS_*_h_pwp_ncs), on top of the models of C58 and of the spline (C30) | induction over the samples, C30's characterisation of the natural spline |
| C60 | `Model/EoSTab` (eos_tabular.c: reading with fgets' line limit, units, eos_tab_set_hermite_log and the functions), on top of the models of Hermite interpolation (C45), finite differences (C56) and the spline (C30); sscanf is a parameter, `pow`/`log10` exact | C45's polynomial on either side of a row gives the true derivative of what the program returns, C30 and C56 what the program says |
| C61 | `Model/Transform` (boost.c, rotation.c, sphe_and_cart_coords.c), over ℝ | polynomial identities; determinant of the Jacobian and C17 for the inverse |
| C62 | `Model/Gen/DiffGeom` (dg_Christoffel_symbol_3d.c, dg_Ricci_3d.c, translated line by line by `tools/gen_tensor.py`: every `double name = expression;` becomes one definition with its lines; in generated code x/0 = 0, so theorems about generated divisions assume the divisor non-zero) and `Model/Bssn` by hand | the translated components against index formulas with sums, by case analysis on the indices and `ring`; uniqueness by lowering indices |
| C63, C64 | `Model/Gen/{EqPsi,EqAlphaPsi,EqPhi,EqB0}` (residuals, boundary conditions and Jacobians, translated by `tools/gen_tensor.py`), `Spec/{Xcts,Fields,Adm}` (covariant derivatives, constraints and fluxes as index sums; partial derivatives of fields along coordinate lines) | index sums expanded and `ring`; `HasDerivAt` for the non-linear equations; for the continuity equation and the shift the fields are functions of position and the product rule is proved. Not modelled: the term `1e-5 φ(center)` at a central box, the loops over nodes (they are those of C34) |
| C65 | `Model/Gen/{Adm,AConfIJ}` (translated), `Spec/Adm` (conformal Killing form, contractions) | index sums expanded and `ring`; the derivative of A^ij with the product rule of C64 |
| C66 | `Model/Gen/AdmHamMom` (both routines, translated), slices as functions of position | `Lemmas/Conformal`: connection and Ricci scalar of ψ⁴g at a point from covariant derivatives of the difference tensor; `Lemmas/ConformalField`: the same for fields (derivative of the inverse metric, symmetry of the gradient of ln √γ); residuals by the trace-free decomposition of K |
| C67 | `Model/Gen/Fluid` (u0, enthalpy, sources, Euler constant, baryonic mass, force balance: translated), `Model/Fluid` (the decisions around them: non-finite enthalpy, vacuum, clean-up, relaxation), `Spec/Fluid` (four-metric, perfect fluid, projections with the normal observer as sums over four indices) | the motion is given by the lowered spatial velocity; raising with the inverse metric; algebra of the quadratic for the enthalpy; product rule along a line for the force balance |
| C68 | `Model/Jac`: the closed forms of the kernel, the plain and the optimised entries with the workspace and its flags, the filling of the matrices (spectral and direct) | the closed forms of the sums of cosines at multiples of π/N (including the removable points, with the tolerance tests decided for integers) give the derivative of the cardinal polynomial of the extrema; the spectral derivative (C54) acts on each line by these weights; the second derivative is a product of two matrices, sorted by which indices agree; loops by induction on columns |
| C69 | `Model/Orbit`: B1 and its derivatives, the sums for beta; the copy in `Model/Gen/Fluid` | cross product of Mathlib, derivatives of linear functions, components |
| C70 | `Model/DInterp`: `get_dInterp_df` and the 16 functions it returns (three directions and the field itself, three planes and three dimensions) | interpolation (C41) = sum over the nodes with products of cardinal polynomials; the sums of general.c are the cardinal polynomials (C32); the derivative's matrix (C68) applied from the left to a product of weights collapses to the three line sums of the code; distinct extrema differ by at least (max-min)/N² |
| C71 | `Model/Sewing`: F and C of a pair of patches (`making_F_and_C` …), partial residuals of the interface conditions, mirror pairs, `make_g` | each pair contributes a linear function of the field values of one patch; its coefficients (C68, C70) are what is added to the blocks; the labels (C50) enumerate all nodes once; with C34 the Newton step multiplies the interface residuals by 1-λ |
| C72 | `Model/Interface`: `ri_split_cubed_spherical` and what it calls, with the geometry as a table (`Geo`) | invariant of the points and subfaces of a patch through the search (faces 5…0), the grouping of points by their flags (subfaces of a face have different keys), and the mirrored insertion of copied points; the final tests exclude the points that are both copied and on a boundary |
| C73 | the same; `pair_subfaces_and_set_bc`, `test_subfaces` | the flag is a function of the face; the test of the partner makes adjacent faces opposite; seven cubes as a refused grid, evaluated by the kernel |
| C74 | Model/CoordJac: the JT_* functions of the six types (the six copies per type differ only in sign and permutation, checked textually) and the chain rule for the surface functions, over ℝ | chain rule: HasDerivAt of rawX (C21's inverse map) along each Cartesian direction |
| C75 | same model | determinant in closed form: rows a, b annihilate the ray, so only the derivative across the side remains |
| C76 | `Model/SplitGrid`: the split of the resolution, the checks, the labels in the order the loops make them and the patch of each label (surfaces, flat distances, limits); `Spec/Tiling`: points of a patch, the region, what a grid file must satisfy | every patch is described by two heights over a side (`Shaped`); layers by monotone heights, angular cells by cuts, sides by C39; hemispheres of a binary by scaling y by one half; labels without repetition; three violations by explicit grids |
| C77, C78 | `Model/Reader`: the dictionary, opening, parameters, dispatch; location of the points, the parallel loops (any order of the turns, each writing its own slot), the arrays, the point-wise reader; the two files as bytes; ownership of the coordinate arrays. `Spec/Reader`: the value of a field at a point, the formats of the files | a parallel loop returns iff every turn does and holds its results (`loop_ok`), invariants over the loop on names, C25 for the checkpoint, C20 for the patch of a point; readers invert the format; violations by explicit readers |
| C79 | Model/Tov: right hand sides, RK4 steps, centre expansion, phi, masses, isotropic radius over ℝ; Spec/Tov: classical RK4, equations of stellar structure in differential form, first law, regular layers | the right hand sides are equivalent to the structure equations (iff); steps = classical RK4; derivative computations for phi, Komar and isotropic metric; l'Hôpital at the centre gives the true expansion, against which the program's is compared (violations for every star); fundamental theorem of calculus for the virial theorem and the constant; exact example: star of constant density |
| C80 | Model/Tov: search (generic ordered field, mass function may be not finite), TOV_solution, the two drivers | invariants of the increase and bisection phases, halving of the bracket, termination for Lipschitz mass functions; case analysis of the whole solution; violations by invariants; example: a star of three points computed exactly |
| C81 | Model/Assemble: the DDM_SCHUR_* loops, make_f, making_B_and_E, checks_and_constraints for arbitrary formulas | loop invariants over the labels of C50; check: case analysis; violation by C34 |
| C82 | Model/Poisson: residual, boundary conditions, Jacobians, reference field of Poisson0 (Props/PoissonPde for the continuous problem) | residual = rows of C81 with the derivatives of C54/C68; step: C34 and C71 applied to the assembled blocks, examples: one patch and two patches with 27 nodes; continuous problem: derivative computation, weak maximum principle |
| C83 | Model/Filter (spectral_filter.c) over the patch and coefficient cache of Model/Deriv, Model/Coeff; erfc as an integral (Spec/Erfc) | the transformations of a direction and the evaluation at its points are inverse matrices (`orth`), so the cached coefficients are the expansion; the scaling loop is a product with one non-trivial factor per entry; the last mode, whose weight differs for nodes, is erased by σ(1)=0 |
| C84 | Model/Startup (main.c, global_variables.c, projects.c): path splitting, project table, run | induction over strings and registrations; a path whose only '.' is in the directory part is a violation (`C84_paths_violation`: undefined behaviour) |
| C85 | Model/Startup (file_and_directory.c, shell_command): file system as list of paths, mkdir through the shell | pigeonhole for the free number, induction over histories; violations: spaces or missing parent (`C85_make_violation`), open_folder never finds what it made (`C85_open_violation`) |
| C86 | Model/Gen/Obs (translated integrands), Model/Observe (normals, obs_integral_SV, mass totals); Spec/Obs | tensor identities on a slice with exact derivatives (Lemmas/ConformalField), linearity of the integration functional for totals and agreement; violation: normal of a metric that is not conformally flat |
| C87 | Model/Gen/Obs, Model/Observe (admP, admJ) | as C86; product rule with rotation fields, momentum constraint via metric compatibility of the physical connection; violation: Ossokine's volume term |
| C88 | `Model/Bhf.lean` follows bh_bhfiller.c (general and spherical Chebyshev fillers, names, exponential formulas), the ChebTn coefficients and the patch search by angles; the two-dimensional interpolation is a function of (X,Y) | coefficients to `Joins` by evaluating the six Chebyshev polynomials; the search by injectivity of the direction of a side (C22, C38); the joined function by gluing derivatives; harmonics by C49 |
| C89 | `Model/Bhf.lean` smoother | derivative proportional to max(0,1-x^2)^4, which is C3 by induction |
| C90 | `Model/KsPar.lean`, `Model/Ks.lean`, `Model/Gen/KsR.lean`, `KsH`, `KsK`, `KsG`, `FreeK` (the formulas are translated from the C text by `tools/gen_ks.py`, `tools/gen_tensor.py`) | spec `Spec/Ks.lean`: Kerr metric, boost, rotation, 3+1 split. The code's linear map is shown to be the boost and rotation; k is the image of the null covector; Lorentz invariance gives k null, hence the split. `Props/Ks.lean`, `KsSplit`, `KsParams`, `KsCurv` |
| C91 | the same | every listed derivative is proved by the derivative rules from the ones below it (`Lemmas/Gen/Ks*.lean`, generated; ring identities); the mixed thirds are shown to miss `Hlost`. `Props/KsDeriv.lean` |
| C92 | `surfaceR`, `surfaceEq` in `Model/Ks.lean` | g^RR is computed from the inverse Kerr metric and the gradient of R. `Props/KsHorizon.lean` |
| C93 | `Model/BlackHole.lean`: the five start-offs with their dispatch, radius and spin tuning, min/max radius | spec: the area of a Kerr horizon (`Spec/BlackHole.lean`). Algebra of the mass-spin relation; convergence of the tuning by a contraction argument over unbounded iteration. `Props/BlackHole.lean` |
| C94 | `Model/BlackHole.lean` (normal, its derivatives, inner shift), `Model/Gen/BhTheta.lean` (generated from the C text) | spec: expansion of light rays, connection of psi^4 h (shown to be the Levi-Civita one). Derivative rules; tensor identities by ring. `Props/BlackHoleNormal.lean` |
| C95 | `Model/FreeData.lean` (isotropic and Painleve-Gullstrand fields), `Model/Gen/FreeK.lean` (generated) | spec: harmonic functions, areal radius (`Spec/FreeData.lean`). Derivative rules for radial functions; constraints by algebra. `Props/FreeData.lean` |
| C96 | `Model/FreeData.lean`: the plan as a state of provenances, the roll-off and the superposition | tables of the documented meaning of the options and coherence of the fields; case analysis over all options and previous states; monotony of exp and powers. `Props/FreeDataPlan.lean` |
| C97 | `Model/Tune.lean`: reading of adjust(...), tables of options, force balance, Euler constant, momentum tuning | spec: the text written for a list of names, allowed options, momentum of an orbiting mass; contraction of the iteration. `Props/Tune.lean` |
| C98 | `Model/StarCenter.lean`: the two corrections of the enthalpy, the spin velocity, the fields of the start-off | spec: gradient, rigid rotation; translation and linear correction of derivatives, rows of the TOV table through C79, exterior through C95. `Props/StarCenter.lean`, `Props/StarCenterEx.lean` |
| C99 | star_NS_surface.c 14-677, 1282-1387 and star_NS.c 308-394: the eight radial formulas, the value of a node from surface data given as a function of the angles, the option table with the method names, the adding and removing of derivative fields | all exponential formulas are instances of (a+b/r+c/r^2)exp(-B(r-r0)/r0), whose two derivatives are computed; gluing along the ray as in C88; limits; 1+x<=exp x for the enthalpy; counterexamples for poly2, inverse_r2 and unequal patches |
| C100 | `Model/StarSurface.lean`: the walks to a bracket, the bisection of Model/Root.lean, the loop over the directions, radii, residual, coefficients, failure, sphere, options; the enthalpy along the ray is a function ℝ → number, not a number or interruption | star-shapedness and the gap condition give the bracket, C28 the root; invariant over the directions; stability of the quadrature (weights sum to 2, rows orthonormal) for the coefficients |
| C101 | `Model/Physics.lean`: the switches of the manager and of the eight modules (actions are names), `init_physics`, `phys_autoindex_stype`, `mygrid` on Model/Finder.lean | the numbers of the commands by cases; induction over the items of a region, with C09 and C37 for the collection of the patches |
| C102 | `Model/ObsCenter.lean`: the loops over the patches with the quadratures of Model/Integration.lean, the generated Laplacian, centre of hole and star, spin | quadrature as a sum over nodes (C48), linearity in the origin, pairing of mirror nodes, scaling of the determinant |
| C103 | `Model/Derive.lean`: lists of derivatives by name, stems, patterns, the generated lists of names, on `partialField` of C55 | induction on the list with the invariant that sources keep their values; index sets by kernel computation; patterns as filters of the pool |
| C104 | `Model/MassShed.lean`: the two points, the direction by polar angles, the ratio of slopes | C22 for the angles; chain rule for the slope along the ray |
| C105 | `Model/InitFields.lean`: the named fields of a grid, auxiliary fields, populating, superposing, the table of branches | each branch evaluated on named fields (numbered names, injective); limits for the far region; the shift of two black holes is a violation |
| C106 | `calc_ADM_P`, `calc_ADM_J` as tables: which regions, surfaces and sides each method collects (Verif/Model/ObsPlan.lean) | against a flux obeying Gauss' theorem on the regions of the grid (Spec/ObsPlan.lean): totals of the plans for all fluxes; partial, with the double counted stars and the refused black holes as violations |
| C107 | `add_func_*`, `run_func_PtoV`, `get_func_Patch2Pdouble` on blocks of cells with a null end mark, and `add_3x3_symmetric_field` (Verif/Model/Tasks.lean) | induction over the registrations: the block is the list of entries; running = the matching functions in turn; the six names against the pairs i ≤ j |
| C108 | `calc_ADM_mass`, `calc_Kommar_mass` as tables of regions, sides, metrics and formulas (Verif/Model/MassPlan.lean) | the totals of the plans for every flux obeying Gauss' theorem (Komar: no sources outside the objects), by the lemmas of C106 |

Further properties are appended to `properties.jsonl` and to this table as the model grows.

## Coverage

Made from the citations in `lean/Verif/Model` (each definition cites the file and the lines it models).  For every C file of `/repo/Src`:
the model modules that cite it, how many functions it has, and the functions that are **not modelled** (no cited line range touches them and no
model comment names them).  A function that is touched by a cited range may still be modelled in part: the comment at the definition says what
is left out.  Header files (types, macros) are cited where a definition needs them.  Not modelled anywhere: the perl/make build scripts, OpenMP
scheduling (loops are sequential), memory management except where a property speaks about it, printing of banners, and third-party libraries.

| file (below Src) | modelled in | functions | not modelled |
|---|---|---|---|
| Main/Core/global_variables.c | Startup | 3 | – |
| Main/Core/main.c | Startup | 3 | `pr_logo`, `pr_info` |
| Main/Core/parameters.c | Checkpoint, MainLoop, Params | 31 | `get_parameter_double_format`, `make_parameters`, `free_given_parameter`, `par_rule2_lowercase`, `par_name_rule` |
| Main/Core/projects.c | Startup | 5 | `free_project_db`, `alloc_project` |
| Main/Modules/Checkpoint/checkpoint.c | Checkpoint | 17 | `move_checkpoint_file` |
| Main/Modules/Fields/field.c | Coeff, Deriv, Field, Filter, InitFields | 28 | `enable_fields`, `free_attr`, `free_v`, `free_field` |
| Main/Modules/Manifold/cartesian_coordinate.c | Deriv, SplitGrid | 12 | `make_nodes_Cartesian_coord`, `make_JacobianT_Cartesian_coord`, `fill_patches_Cartesian_grid`, `populate_left_NS_central_box`, `populate_right_BH_central_box`, `populate_central_NS_central_box`, `populate_right_box_sns`, `populate_filling_box_CubedSpherical`, `populate_right_NS_central_box`, `alloc_patches_Cartesian_grid` |
| Main/Modules/Manifold/coordinate_systems.c | Bhf, Cheb, CoordJac, DInterp, Deriv, Filter, Integration, Jac | 21 | `make_nodes`, `test_dq_dN`, `make_keyword_parameter`, `grid_characteristics_example`, `characteristics_Cartesian_grid_eg`, `characteristics_BBN_CS_grid_eg`, `characteristics_SCS_eg`, `NS_BH_surface_CS_grid_eg`, `characteristics_BNS_CS_grid_eg`, `characteristics_BNS_Spherical_grid_eg`, `NS_radii_BNS_Spherical_grid_eg`, `NS_surface_BNS_CS_grid_eg` |
| Main/Modules/Manifold/coordinate_utilities.c | Angles, Bhf, Coord, Finder, Physics | 33 | `needle_ans`, `x_of_X_precision`, `x_of_X_Cartesian_coord`, `z_coord`, `X_coord`, `Y_coord`, `Z_coord`, `free_needle`, `init_grid_char`, `free_grid_char`, `set_grid_kind`, `collect_patches_regex` |
| Main/Modules/Manifold/cubed_spherical_coordinate.c | Bhf, Coord, CoordJac, SplitGrid | 59 | `fill_patches_SBH_CubedSpherical_grid`, `fill_patches_SNS_CubedSpherical_grid`, `fill_patches_SNS_CubedSpherical_Box_grid`, `fill_patches_BNS_CubedSpherical_grid`, `fill_patches_BBN_CubedSpherical_grid`, `make_nodes_CubedSpherical_coord`, `populate_left_NS`, `populate_right_BH`, `populate_central_NS`, `populate_right_NS`, `populate_right_NS_around`, `populate_right_BH_around`, `populate_left_NS_around`, `populate_central_BH_around`, `populate_central_NS_around`, `populate_outermost`, `alloc_patches_BNS_CubedSpherical_grid`, `alloc_patches_BBN_CubedSpherical_grid`, `set_object_name_split_CS`, `alloc_patches_Split_CubedSpherical_grid`, `alloc_patches_SNS_CubedSpherical_Box_grid`, `alloc_patches_SNS_CubedSpherical_grid`, `alloc_patches_SBH_CubedSpherical_grid`, `test_CubedSpherical_Coordinates` |
| Main/Modules/Manifold/grid.c | Grid | 13 | `make_patches`, `coord_sys_str`, `bases_str`, `collocation_str`, `fill_patches`, `make_temp_patch`, `free_temp_patch`, `free_grid_db`, `alloc_patches`, `free_patch` |
| Main/Modules/Manifold/interface.c | Interface | 64 | `realize_interfaces`, `ri_general_method`, `set_df_dn_and_pair`, `set_one_Dirichlet_BC`, `set_df_dn`, `add_ring`, `compose_the_chain`, `add_to_subface`, `add_point`, `inspect_flags`, `fill_geometry`, `realize_neighbor`, `realize_adj`, `analyze_adjPnt`, `IsMatchedOtherInnerSubface`, `IsInterpolation`, `IsOutBndry`, `IsInnBndry`, `IsOrthOutBndry`, `IsOrthInnBndry`, `ReachBnd`, `get_p2`, `IsNormalFit`, `IsOverlap`, `find_adjPnt`, `init_Points`, `NumPoint`, `FindInnerB_Cartesian_coord`, `FindExterF_Cartesian_coord`, `FindInnerB_CS_coord`, `FindExterF_CS_coord`, `fill_N`, `make_normal_outward`, `normal_vec_CS_coord`, `normal_vec_Cartesian_coord`, `alloc_PointSet`, `free_PointSet`, `add_adjPnt`, `fill_adjPnt`, `tangent`, `IsOnSubface`, `alloc_nodes`, `alloc_interface`, `alloc_point`, `free_points`, `free_patch_interface`, `flush_houseK`, `carryover_interfaces` |
| Main/Modules/Maths/Calculus/derivatives.c | Deriv, DerivName, Derive, Fornberg | 25 | `Covariant_Derivative` |
| Main/Modules/Maths/Calculus/det_h_xyzN0N1.c | Integration | 1 | – |
| Main/Modules/Maths/Calculus/det_h_xyzN0N2.c | Integration | 1 | – |
| Main/Modules/Maths/Calculus/det_h_xyzN1N2.c | Integration | 1 | – |
| Main/Modules/Maths/Calculus/integration.c | Integration | 14 | `free_integration` |
| Main/Modules/Maths/Calculus/legendre_root_and_weight_function.c | Integration, RootTables | 3 | – |
| Main/Modules/Maths/Calculus/lobatto_root_and_weight_function.c | Integration, RootTables | 3 | – |
| Main/Modules/Maths/Diff_Geom/dg_Christoffel_symbol_3d.c | Gen/DiffGeom | 1 | – |
| Main/Modules/Maths/Diff_Geom/dg_Ricci_3d.c | Gen/DiffGeom | 1 | – |
| Main/Modules/Maths/Diff_Geom/dg_dChristoffel_symbol_3d.c | Derive | 1 | – |
| Main/Modules/Maths/Diff_Geom/dg_scale_to_BSSN_metric_3d.c | Bssn | 1 | – |
| Main/Modules/Maths/Equation_Solvings/dfs_df.c | DInterp, Jac, Matrix | 49 | `prepare_Js_jacobian_eq`, `interpret_type`, `make_Js_jacobian_eq`, `test_make_Js_jacobian_eq`, `str2JType_E`, `make_jacobian_direct_method`, `fill_jacobian_direct_method_2ndOrder`, `make_jacobian_spectral_method`, `obsolete_fill_jacobian_spectral_method_1stOrder`, `read_1st_and_2nd_deriv`, `dc_df`, `JType_E2str`, `get_j_reader`, `get_j_matrix`, `J_sizeMb_ccs`, `write_J_in_disk_ccs`, `free_patch_SolMan_jacobian`, `d2_dXi2_2xsum_0_N_Tnj_Tni_opt`, `d2_dXi2_2xsum_0_N_Tnj_Tni` |
| Main/Modules/Maths/Equation_Solvings/root_finders.c | Root | 12 | `init_root_finder`, `execute_root_finder`, `plan_root_finder`, `free_root_finder`, `dg_dx_of_df_dx_SD`, `dg_dx_FD3M_SD` |
| Main/Modules/Maths/Equation_Solvings/solve_eqs.c | SolveEqs | 9 | `init_solve_equations`, `free_solve_equations`, `move_dfdu_jacobian_patch`, `sync_patch_pools` |
| Main/Modules/Maths/Equation_Solvings/solve_eqs_ddm_schur_complement.c | Assemble, Schur, Sewing, SolveEqs | 67 | `free_x`, `free_y`, `free_E_Trans_prime`, `solve_Sy_g_prime`, `compute_S_CCS`, `preparing_ingredients`, `miscellany_in_sewing`, `get_solving_field_name`, `set_solving_man_cf`, `set_solving_man_settings`, `f_in_equation_part`, `calculate_residual_single_patch`, `set_solving_man_settings_Frms_i_single_patch`, `set_solving_man_settings_Frms_i`, `set_solving_man_settings_solver_step`, `calculate_residual`, `free_solving_man_settings`, `test_Jacobian_of_equations`, `Jwritten_vs_Jequation`, `compare_Js`, `free_schur_f_g`, `making_J_Old_Fashion`, `make_col_F`, `making_J_Schur_Method`, `calculate_equation_residual`, `pr_intro_ddm_schur_complement`, `alloc_sewing`, `free_patch_SolMan_method_Schur` |
| Main/Modules/Maths/Equation_Solvings/solve_manager.c | SolveEqs | 6 | `init_eq`, `get_solver_method`, `free_db_eqs` |
| Main/Modules/Maths/General/general.c | Angles, DInterp, General, Jac | 13 | – |
| Main/Modules/Maths/Linear_Algebra/matrix_arithmetic.c | Matrix | 4 | – |
| Main/Modules/Maths/Linear_Algebra/matrix_conversions.c | Matrix | 13 | `cast_matrix_ccs_long` |
| Main/Modules/Maths/Linear_Algebra/matrix_inversions.c | Matrix | 2 | `test_invert_matrix` |
| Main/Modules/Maths/Linear_Algebra/preconditioners.c | Matrix | 2 | `precondition` |
| Main/Modules/Maths/Matrix_Solvers/umfpack_method.c | Schur | 9 | `direct_solver_umfpack_di`, `direct_solver_umfpack_dl`, `umfpack_error_di`, `umfpack_error_dl`, `direct_solver_series_umfpack_di`, `direct_solver_series_umfpack_dl`, `init_umfpack`, `free_umfpack` |
| Main/Modules/Maths/Special_Functions/misc_functions.c | Cheb, Integration, Jac | 3 | – |
| Main/Modules/Maths/Special_Functions/spherical_harmonics.c | Ylm | 5 | – |
| Main/Modules/Maths/Spectral_Methods/fourier_transformation.c | Cheb, Fourier | 13 | `r2cft_2d_last_coeffs_max_mag_S2`, `r2cft_2d_df_dtheta_S2`, `r2cft_2d_df_dphi_S2` |
| Main/Modules/Maths/Spectral_Methods/interpolations.c | Cheb, DInterp, EoSTab, Interp, Reader, Sewing | 24 | `init_interpolation`, `execute_1st_deriv_interpolation` |
| Main/Modules/Maths/Spectral_Methods/spectral_filter.c | Filter | 3 | – |
| Main/Modules/Maths/Spectral_Methods/spherical_harmonics_transformation.c | Ylm, YlmCoeffs | 8 | – |
| Main/Modules/Physics/ADM/adm_AConfIJ_SCTT_MConfIJ0.c | Gen/AConfIJ | 1 | – |
| Main/Modules/Physics/ADM/adm_AConfIJ_XCTS_MConfIJ0.c | Gen/AConfIJ | 1 | – |
| Main/Modules/Physics/ADM/adm_adm_KDD_by_AUU.c | Gen/Adm | 1 | – |
| Main/Modules/Physics/ADM/adm_adm_KUU_by_AUU.c | Gen/Adm | 1 | – |
| Main/Modules/Physics/ADM/adm_adm_KUU_by_KDD.c | Gen/Adm | 1 | – |
| Main/Modules/Physics/ADM/adm_adm_g.c | Gen/Adm | 1 | – |
| Main/Modules/Physics/ADM/adm_ham_mom_from_identities.c | Gen/AdmHamMom | 1 | – |
| Main/Modules/Physics/ADM/adm_ham_mom_from_scratch.c | Gen/AdmHamMom | 1 | – |
| Main/Modules/Physics/ADM/adm_main.c | Physics | 11 | `set_adm_params`, `add_adm_fields`, `compute_ham_and_mom_constrains`, `compute_AConfIJ`, `compute_adm_Kij`, `compute_adm_KIJ`, `compute_adm_gij`, `compute_B1I`, `compute_beta`, `preform_adm_doctest` |
| Main/Modules/Physics/ADM/adm_updates.c | Orbit | 12 | `adm_compute_constraints`, `adm_update_AConfIJ`, `adm_update_adm_KIJ`, `adm_update_adm_Kij`, `adm_update_beta`, `adm_update_beta_U0`, `adm_update_beta_U1`, `adm_update_beta_U2` |
| Main/Modules/Physics/BlackHole/bh_bh.c | BlackHole | 12 | `bh_find_bh_surface_perfect_s2`, `bh_update_inner_BC` |
| Main/Modules/Physics/BlackHole/bh_bhf_ChebTn_filler.c | Bhf | 1 | – |
| Main/Modules/Physics/BlackHole/bh_bhf_polynomial_smoother.c | Bhf | 1 | – |
| Main/Modules/Physics/BlackHole/bh_bhfiller.c | Bhf | 15 | `bh_fill_inside_black_hole`, `bhf_free`, `bhf_f_df_ddf_perfect_s2_CS`, `polynomial5`, `polynomial7`, `bh_add_patch_inside_black_hole` |
| Main/Modules/Physics/BlackHole/bh_expansion_of_AH.c | BlackHole, Gen/BhTheta | 1 | – |
| Main/Modules/Physics/BlackHole/bh_main.c | BlackHole, Physics | 9 | `set_black_hole_params`, `add_black_hole_fields`, `tune_black_hole_radius`, `tune_black_hole_spin`, `update_conformal_normal_vector_on_AH`, `update_inner_BC_values` |
| Main/Modules/Physics/EoS/eos_main.c | EoS, EoSTab | 8 | `init_EoS`, `free_EoS` |
| Main/Modules/Physics/EoS/eos_polytropics.c | EoS, EoSTab | 16 | `EoS_p_h_pwp_ncs`, `EoS_rho0_h_pwp_ncs`, `EoS_e_h_pwp_ncs` |
| Main/Modules/Physics/EoS/eos_tabular.c | EoSTab | 12 | `rho0_of_h_hermite_log`, `eos_tab_set_hermite` |
| Main/Modules/Physics/Equation/eq_XCTS_crv_T1_ddm_Jac_bc_phi.c | Gen/EqPhi | 1 | – |
| Main/Modules/Physics/Equation/eq_XCTS_crv_T1_ddm_Jac_eq_phi.c | Gen/EqPhi | 1 | – |
| Main/Modules/Physics/Equation/eq_XCTS_crv_T1_ddm_bc_phi.c | Gen/EqPhi | 1 | – |
| Main/Modules/Physics/Equation/eq_XCTS_crv_T1_ddm_eq_phi.c | Gen/EqPhi | 1 | – |
| Main/Modules/Physics/Equation/eq_XCTS_crv_T2_ddm_eq_phi.c | Gen/EqPhi | 1 | – |
| Main/Modules/Physics/Equation/eq_XCTS_crv_T3_ddm_Jac_bc_phi.c | Gen/EqPhi | 1 | – |
| Main/Modules/Physics/Equation/eq_XCTS_crv_T3_ddm_bc_phi.c | Gen/EqPhi | 1 | – |
| Main/Modules/Physics/Equation/eq_XCTS_crv_ex_T1_ddm_Jac_bc_B0_U0.c | Gen/EqB0 | 1 | – |
| Main/Modules/Physics/Equation/eq_XCTS_crv_ex_T1_ddm_Jac_bc_B0_U1.c | Gen/EqB0 | 1 | – |
| Main/Modules/Physics/Equation/eq_XCTS_crv_ex_T1_ddm_Jac_bc_B0_U2.c | Gen/EqB0 | 1 | – |
| Main/Modules/Physics/Equation/eq_XCTS_crv_ex_T1_ddm_Jac_bc_alphaPsi.c | Gen/EqAlphaPsi | 1 | – |
| Main/Modules/Physics/Equation/eq_XCTS_crv_ex_T1_ddm_Jac_bc_psi.c | Gen/EqPsi | 1 | – |
| Main/Modules/Physics/Equation/eq_XCTS_crv_ex_T1_ddm_Jac_eq_B0_U0.c | Gen/EqB0 | 1 | – |
| Main/Modules/Physics/Equation/eq_XCTS_crv_ex_T1_ddm_Jac_eq_B0_U1.c | Gen/EqB0 | 1 | – |
| Main/Modules/Physics/Equation/eq_XCTS_crv_ex_T1_ddm_Jac_eq_B0_U2.c | Gen/EqB0 | 1 | – |
| Main/Modules/Physics/Equation/eq_XCTS_crv_ex_T1_ddm_Jac_eq_alphaPsi.c | Gen/EqAlphaPsi | 1 | – |
| Main/Modules/Physics/Equation/eq_XCTS_crv_ex_T1_ddm_Jac_eq_psi.c | Gen/EqPsi | 1 | – |
| Main/Modules/Physics/Equation/eq_XCTS_crv_ex_T1_ddm_bc_B0_U0.c | Gen/EqB0 | 1 | – |
| Main/Modules/Physics/Equation/eq_XCTS_crv_ex_T1_ddm_bc_B0_U1.c | Gen/EqB0 | 1 | – |
| Main/Modules/Physics/Equation/eq_XCTS_crv_ex_T1_ddm_bc_B0_U2.c | Gen/EqB0 | 1 | – |
| Main/Modules/Physics/Equation/eq_XCTS_crv_ex_T1_ddm_bc_alphaPsi.c | Gen/EqAlphaPsi | 1 | – |
| Main/Modules/Physics/Equation/eq_XCTS_crv_ex_T1_ddm_bc_psi.c | Gen/EqPsi | 1 | – |
| Main/Modules/Physics/Equation/eq_XCTS_crv_ex_T1_ddm_eq_B0_U0.c | Gen/EqB0 | 1 | – |
| Main/Modules/Physics/Equation/eq_XCTS_crv_ex_T1_ddm_eq_B0_U1.c | Gen/EqB0 | 1 | – |
| Main/Modules/Physics/Equation/eq_XCTS_crv_ex_T1_ddm_eq_B0_U2.c | Gen/EqB0 | 1 | – |
| Main/Modules/Physics/Equation/eq_XCTS_crv_ex_T1_ddm_eq_alphaPsi.c | Gen/EqAlphaPsi | 1 | – |
| Main/Modules/Physics/Equation/eq_XCTS_crv_ex_T1_ddm_eq_psi.c | Gen/EqPsi | 1 | – |
| Main/Modules/Physics/Equation/eq_XCTS_crv_ex_T2_ddm_Jac_bc_alphaPsi.c | Gen/EqAlphaPsi | 1 | – |
| Main/Modules/Physics/Equation/eq_XCTS_crv_ex_T2_ddm_bc_alphaPsi.c | Gen/EqAlphaPsi | 1 | – |
| Main/Modules/Physics/Equation/eq_XCTS_flt_ex_T1_ddm_Jac_eq_B0_U0.c | Gen/EqB0 | 1 | – |
| Main/Modules/Physics/Equation/eq_XCTS_flt_ex_T1_ddm_Jac_eq_B0_U1.c | Gen/EqB0 | 1 | – |
| Main/Modules/Physics/Equation/eq_XCTS_flt_ex_T1_ddm_Jac_eq_B0_U2.c | Gen/EqB0 | 1 | – |
| Main/Modules/Physics/Equation/eq_main.c | Physics | 4 | `set_equation_params`, `add_equation_fields`, `solve_equation` |
| Main/Modules/Physics/Equation/eq_solve.c | SolveEqs | 5 | `set_equation_grid` |
| Main/Modules/Physics/Free_Data/fd_ChrisConf_dChrisConf_add_fields.c | Derive | 1 | – |
| Main/Modules/Physics/Free_Data/fd_KerrSchild_BH_surface.c | Ks | 2 | – |
| Main/Modules/Physics/Free_Data/fd_KerrSchild_H_K0_K1_K2.c | Gen/KsH | 0 | – |
| Main/Modules/Physics/Free_Data/fd_KerrSchild_Kij_trK.c | Gen/FreeK, Ks | 1 | – |
| Main/Modules/Physics/Free_Data/fd_KerrSchild_R_X_Y_Z.c | Gen/KsR, KsPar | 0 | – |
| Main/Modules/Physics/Free_Data/fd_KerrSchild_alpha.c | Ks | 1 | – |
| Main/Modules/Physics/Free_Data/fd_KerrSchild_beta.c | Ks | 1 | – |
| Main/Modules/Physics/Free_Data/fd_KerrSchild_c_k0_k1_k2_kt.c | Gen/KsK | 0 | – |
| Main/Modules/Physics/Free_Data/fd_KerrSchild_g_dg_ddg_dddg.c | Gen/KsG | 4 | – |
| Main/Modules/Physics/Free_Data/fd_KerrSchild_params.c | Ks, KsPar | 1 | – |
| Main/Modules/Physics/Free_Data/fd_KerrSchild_psi_alpha_beta.c | Ks | 1 | – |
| Main/Modules/Physics/Free_Data/fd_PGSchild_Kij_trK.c | Gen/FreeK | 1 | – |
| Main/Modules/Physics/Free_Data/fd_main.c | FreeData, Physics | 4 | `add_free_data_fields` |
| Main/Modules/Physics/Free_Data/fd_populate.c | Derive, FreeData, InitFields | 29 | `fd_populate_beta_ConfKerrSchild`, `fd_populate_beta_KerrSchild`, `fd_populate_alpha_ConfKerrSchild`, `fd_populate_alpha_KerrSchild`, `fd_populate_alpha_wKerrSchild` |
| Main/Modules/Physics/Observe/obs_ADM_J_S_default.c | Gen/Obs, Observe | 1 | – |
| Main/Modules/Physics/Observe/obs_ADM_J_Stokes_Ossokine.c | Gen/Obs, Observe | 1 | – |
| Main/Modules/Physics/Observe/obs_ADM_J_Stokes_constraint.c | Gen/Obs, Observe | 1 | – |
| Main/Modules/Physics/Observe/obs_ADM_P_S_default.c | Gen/Obs, Observe | 1 | – |
| Main/Modules/Physics/Observe/obs_ADM_P_Stokes_Ossokine.c | Gen/Obs, Observe | 1 | – |
| Main/Modules/Physics/Observe/obs_ADM_P_Stokes_Rashti.c | Gen/Obs, Observe | 1 | – |
| Main/Modules/Physics/Observe/obs_ADM_P_Stokes_constraint.c | Gen/Obs, Observe | 1 | – |
| Main/Modules/Physics/Observe/obs_ADM_mass_S2.c | Gen/Obs, Observe | 1 | – |
| Main/Modules/Physics/Observe/obs_ADM_mass_SV_conformal.c | Gen/Obs, Observe | 1 | – |
| Main/Modules/Physics/Observe/obs_ADM_mass_SV_isotropic.c | Gen/Obs, Observe | 1 | – |
| Main/Modules/Physics/Observe/obs_BH_irreducible_mass_CS.c | ObsCenter | 1 | – |
| Main/Modules/Physics/Observe/obs_Komar_mass.c | Gen/Obs, Observe | 1 | – |
| Main/Modules/Physics/Observe/obs_Rcenter_NS.c | ObsCenter | 1 | – |
| Main/Modules/Physics/Observe/obs_calculate.c | MassPlan, ObsCenter, ObsPlan, Observe | 16 | `define_spin_campanelli`, `define_spin_akv`, `calc_irreducible_BH_mass`, `calc_CM`, `calc_spin`, `calc_baryonic_mass` |
| Main/Modules/Physics/Observe/obs_main.c | Physics | 5 | `free_obs`, `set_observe_params`, `add_observe_fields` |
| Main/Modules/Physics/Observe/obs_spin_inegrands_AKV.c | Gen/Obs | 1 | – |
| Main/Modules/Physics/Observe/obs_spin_inegrands_Campanelli.c | Gen/Obs | 1 | – |
| Main/Modules/Physics/Star/star_NS.c | InitFields, StarCenter, StarFill, Tune | 27 | `Euler_eq_const_gConf_rootfinder_eq`, `force_balance_ddx_x_CM`, `force_balance_ddy_x_CM`, `force_balance_ddz_x_CM` |
| Main/Modules/Physics/Star/star_NS_Euler_eq_const_current.c | Gen/Fluid | 1 | – |
| Main/Modules/Physics/Star/star_NS_baryonic_gConf_mass.c | Fluid, Gen/Fluid | 1 | – |
| Main/Modules/Physics/Star/star_NS_ifluid_gConf_dLnGamma.c | Fluid, Gen/Fluid | 1 | – |
| Main/Modules/Physics/Star/star_NS_ifluid_gConf_force_bal.c | Fluid, Gen/Fluid | 1 | – |
| Main/Modules/Physics/Star/star_NS_surface.c | MassShed, StarFill, StarSurface | 20 | `extrap_free`, `NS_surface_denthalpy_dr_root_finder` |
| Main/Modules/Physics/Star/star_main.c | Physics | 9 | `tune_star_Euler_constant`, `extrapolate_star_matter`, `find_star_surface`, `tune_star_force_balance_equation`, `tune_star_center`, `add_star_fields`, `set_star_params`, `start_off_star` |
| Main/Modules/Physics/StressEnergy_Tensor/Tij_NS_ifluid_xcts_gConf_derives.c | Derive | 1 | – |
| Main/Modules/Physics/StressEnergy_Tensor/Tij_NS_ifluid_xcts_gConf_enthalpy.c | Fluid, Gen/Fluid | 1 | – |
| Main/Modules/Physics/StressEnergy_Tensor/Tij_NS_ifluid_xcts_gConf_psi6E.c | Gen/Fluid | 1 | – |
| Main/Modules/Physics/StressEnergy_Tensor/Tij_NS_ifluid_xcts_gConf_psi6J_Ui.c | Gen/Fluid | 1 | – |
| Main/Modules/Physics/StressEnergy_Tensor/Tij_NS_ifluid_xcts_gConf_psi6S.c | Gen/Fluid | 1 | – |
| Main/Modules/Physics/StressEnergy_Tensor/Tij_NS_ifluid_xcts_gConf_u0.c | Gen/Fluid | 1 | – |
| Main/Modules/Physics/StressEnergy_Tensor/Tij_NS_ifluid_xcts_gConf_update.c | Fluid | 4 | – |
| Main/Modules/Physics/StressEnergy_Tensor/Tij_main.c | Physics | 4 | `set_stress_energy_params`, `add_stress_energy_tensor_fields`, `update_stress_energy_tensor` |
| Main/Modules/Physics/System/sys_main.c | InitFields, Physics | 5 | `tune_system_ADM_momenta`, `set_system_params`, `add_system_fields` |
| Main/Modules/Physics/System/sys_tune.c | Tune | 5 | – |
| Main/Modules/Physics/Transformation/boost.c | Transform | 1 | – |
| Main/Modules/Physics/Transformation/rotation.c | Transform | 1 | – |
| Main/Modules/Physics/Transformation/sphe_and_cart_coords.c | Transform | 1 | – |
| Main/Modules/Physics/phys_main.c | Physics | 5 | `free_physics` |
| Main/Modules/Text_and_File_Tools/file_and_directory.c | Startup | 4 | `fopen_and_check` |
| Main/Modules/Text_and_File_Tools/reading_parameter_file.c | Text | 3 | – |
| Main/Modules/Text_and_File_Tools/text_tools.c | Derive, Params, Reader, Text, Tune | 11 | – |
| Main/Modules/Utilities/add_3x3_symmetric_field.c | Tasks | 1 | – |
| Main/Modules/Utilities/function_managing.c | Tasks | 9 | `init_func_PtoV`, `init_func_Patch2Pdouble`, `free_func_PtoV` |
| Main/Modules/Utilities/useful_functions.c | Index, InitFields, Interface, Startup, Tol | 37 | `test_start`, `countf`, `get_collocation`, `get_basis`, `node_onFace`, `total_nodes_grid`, `total_nodes_patch`, `find_coord`, `random_double`, `copy_subface`, `dup_UINT`, `max_Jacobian_dX_dx`, `spectral_expansion_truncation_error`, `print_spectral_expansion_truncation_error`, `spectral_derivative_max_error`, `GetPatch`, `dbprint`, `alloc_2D_double`, `free_2d`, `free_2d_mem`, `how_much_memory`, `header_and_clock`, `footer_and_clock`, `f_of_X`, `interpolate_fields_from_old_grid_to_new_grid` |
| Projects/Initial_Data_Reader/idr_main.c | Reader | 7 | `elliptica_id_reader_free` |
| Projects/Initial_Data_Reader/idr_read_write.c | Reader | 11 | `idr_set_ifield_coeffs` |
| Projects/Poissons/Poisson0/poisson0_analyze.c | Poisson | 1 | – |
| Projects/Poissons/Poisson0/poisson0_ddm_schur_bc.c | Assemble, Poisson | 1 | – |
| Projects/Poissons/Poisson0/poisson0_ddm_schur_eq_alpha.c | Poisson | 1 | – |
| Projects/Poissons/Poisson0/poisson0_ddm_schur_jacobian_bc.c | Poisson | 1 | – |
| Projects/Poissons/Poisson0/poisson0_ddm_schur_jacobian_eq.c | Poisson | 1 | – |
| Projects/Poissons/Poisson0/poisson0_initial_data.c | Poisson | 1 | – |
| Projects/TOV_star/TOV_main.c | Tov | 3 | – |
| Projects/TOV_star/TOV_solution.c | Tov | 17 | `TOV_free` |

Files without any model:

* Main/Modules/Error_Handlings/checkup.c (104 lines)
* Main/Modules/Error_Handlings/interpret_tests.c (21 lines)
* Main/Modules/Manifold/spherical_coordinate.c (619 lines)
* Main/Modules/Maths/Calculus/calculus_tests.c (1182 lines)
* Main/Modules/Maths/Complex/complex_numbers.c (16 lines)
* Main/Modules/Maths/Equation_Solvings/solvings_tests.c (1487 lines)
* Main/Modules/Maths/Field_Analysis/convergence_tests.c (54 lines)
* Main/Modules/Maths/General/general_tests.c (122 lines)
* Main/Modules/Maths/Linear_Algebra/linear_algebra_tests.c (528 lines)
* Main/Modules/Maths/Linear_Algebra/matrix_memory_managers.c (141 lines)
* Main/Modules/Maths/Matrix_Solvers/solver_tests.c (217 lines)
* Main/Modules/Maths/Special_Functions/analytic_functions.c (1300 lines)
* Main/Modules/Maths/Spectral_Methods/spectral_tests.c (1877 lines)
* Main/Modules/Physics/ADM/adm_add_3plus1_fields.c (185 lines)
* Main/Modules/Physics/ADM/adm_tests.c (154 lines)
* Main/Modules/Physics/BlackHole/bh_add_fields.c (38 lines)
* Main/Modules/Physics/BlackHole/bh_properties.c (45 lines)
* Main/Modules/Physics/EoS/eos_test.c (131 lines)
* Main/Modules/Physics/Free_Data/fd_MConfIJ_add_fields.c (30 lines)
* Main/Modules/Physics/Free_Data/fd_RicciConf_add_fields.c (30 lines)
* Main/Modules/Physics/Free_Data/fd_gConf_dgConf_add_fields.c (53 lines)
* Main/Modules/Physics/Free_Data/fd_trK_dtrK_add_fields.c (27 lines)
* Main/Modules/Physics/Star/star_NS_ifluid_gConf_add_fields.c (36 lines)
* Main/Modules/Physics/Star/star_properties.c (51 lines)
* Main/Modules/Physics/StressEnergy_Tensor/Tij_NS_ifluid_xcts_gConf_add_fields.c (52 lines)
* Main/Modules/Physics/System/sys_properties.c (50 lines)
* Main/Modules/Physics/Transformation/transformation.c (67 lines)
* Main/Modules/Prints/pr.c (115 lines)
* Main/Modules/Prints/pr_for_fields.c (1171 lines)
* Main/Modules/Prints/pr_for_tests.c (692 lines)
* Main/Modules/Prints/pr_hdf5_silo/pr_for_fields_hdf5.c (668 lines)
* Projects/Poissons/Poisson0/poisson0_grid.c (22 lines)
* Projects/Poissons/Poisson0/poisson0_main.c (43 lines)
* Projects/Poissons/Poisson0/poisson0_solvings.c (56 lines)
* Projects/Tests/Modules_Test/mt_eqs.c (187 lines)
* Projects/Tests/Modules_Test/mt_grid.c (22 lines)
* Projects/Tests/Modules_Test/mt_main.c (163 lines)
