{"id": "C01", "title": "Parameters: first registration wins, last assignment is read back", "statement": "After any history of register_param and set_parval_from_str calls, parval_from_str(n) returns the value of the last successful set of n, or, if n was never set, the default given in the first successful registration of n; a name never registered is reported with ValueError by both read and write, and a failing call changes nothing observable.", "quantifier": "every finite history of registrations, assignments (successful or failing) and every queried name", "why_tests_cant": "The value read depends on the whole history of calls made by arbitrarily many modules; tests exercise a handful of call sequences.", "anchors": ["nrpy/params.py:NRPyParameter", "nrpy/params.py:register_param", "nrpy/params.py:parval_from_str", "nrpy/params.py:set_parval_from_str"]}
{"id": "C02", "title": "Parameters: module-qualified names mean the same on read and on write", "statement": "For a registered parameter n, reading 'module::n' gives the same answer as reading 'n' for any module prefix; a user expects the same of writing.", "quantifier": "every parameter name, every module prefix, every registry state", "why_tests_cant": "Requires all prefixes and all registry states; the asymmetry between the two functions shows up only for qualified writes.", "anchors": ["nrpy/params.py:parval_from_str", "nrpy/params.py:set_parval_from_str"]}
{"id": "C03", "title": "CodeParameters: the registry never holds an inconsistent entry", "statement": "After any sequence of register_CodeParameter, register_CodeParameters and adjust_CodeParam_default calls, whether or not some of them raised, every registered CodeParameter satisfies: an array parameter belongs to commondata and is absent from set_CodeParameters.h; a #define parameter is absent from the parfile and from set_CodeParameters.h; the assumption is Real or RealPositive; a parfile parameter has a default that is not 'unset'.", "quantifier": "every finite history of registration and adjustment calls with arbitrary arguments", "why_tests_cant": "An invariant over unbounded call histories, including histories in which calls fail half way.", "anchors": ["nrpy/params.py:CodeParameter.__init__", "nrpy/params.py:register_CodeParameters", "nrpy/params.py:register_CodeParameter", "nrpy/params.py:adjust_CodeParam_default"]}
{"id": "C04", "title": "CodeParameters: batch registration gives every name its own default", "statement": "A successful register_CodeParameters(names, defaults) call leaves, for every position i, a CodeParameter named names[i] (the last position with that name) whose default is defaults[i] (or the scalar default broadcast to all names), leaves all other names untouched, and returns one symbol per name in order.", "quantifier": "every list of names, every scalar or list default, every prior registry", "why_tests_cant": "List lengths, repeated names and prior registry contents are unbounded.", "anchors": ["nrpy/params.py:register_CodeParameters"]}
{"id": "C05", "title": "C functions: one body per generated symbol", "statement": "After any history of register_CFunction calls the function registry maps each generated C symbol name to the arguments of the first successful call with that symbol; a later call with the same symbol raises ValueError and nothing changes; a call with an empty name, description or body raises and nothing changes.", "quantifier": "every finite history of registration calls", "why_tests_cant": "Silent replacement of a function body would only be seen for particular histories.", "anchors": ["nrpy/c_function.py:CFunction", "nrpy/c_function.py:register_CFunction", "nrpy/c_function.py:function_name_and_subdir_with_CoordSystem"]}
{"id": "C06", "title": "C functions: emitted #include paths reach the project root", "statement": "For a function stored in any subdirectory, the relative path put in front of each include resolves, starting from that subdirectory, to the project root, for every spelling of the subdirectory built from names, '.', and repeated or trailing slashes.", "quantifier": "every subdirectory string made of ordinary components, '.' and any number of separators", "why_tests_cant": "All depths and spellings; tests use two or three literal paths.", "anchors": ["nrpy/c_function.py:CFunction.subdirectory_depth", "nrpy/c_function.py:CFunction.generate_full_function"]}
{"id": "C07", "title": "Coordinate-system wrappers dispatch to the right function", "statement": "For every family of functions registered with a coordinate system, calling the generated wrapper on a grid whose stored hash is that of coordinate system X calls exactly the X version, as long as the registered coordinate systems have distinct hashes; any other hash stops with an error.", "quantifier": "every set of registered functions and coordinate systems, every grid hash", "why_tests_cant": "The set of coordinate systems and functions is open ended.", "anchors": ["nrpy/infrastructures/BHaH/rfm_wrapper_functions.py:register_CFunctions_CoordSystem_wrapper_funcs", "nrpy/infrastructures/BHaH/rfm_wrapper_functions.py:get_CoordSystem_hash"]}
{"id": "C08", "title": "Gridfunction indices: dense, collision-free storage slots", "statement": "In the generated #defines each group (EVOL, AUXEVOL, AUX) numbers its gridfunctions 0..N-1 without gaps or repeats, NUM_<group>_GFS equals N, every registered gridfunction of the group occurs exactly once, and macro names are distinct as long as gridfunction names are distinct ignoring case.", "quantifier": "every set of registered gridfunctions", "why_tests_cant": "Two gridfunctions sharing a slot corrupts data silently and depends on the set of names registered.", "anchors": ["nrpy/grid.py:BHaHGridFunction.gridfunction_defines", "nrpy/grid.py:GridFunction.gridfunction_lists"]}
{"id": "C09", "title": "Parity types agree with the behaviour of tensor components under reflections", "statement": "For rank 0, 1 and 2 gridfunctions the parity type assigned to a component determines its true sign change under every combination of coordinate reflections, symmetric components get equal types and components with different reflection behaviour get different types.", "quantifier": "every valid gridfunction name/rank/dimension and every reflection of the axes", "why_tests_cant": "A wrong entry gives wrong boundary data only for particular components and grids.", "anchors": ["nrpy/grid.py:GridFunction.set_parity_types", "nrpy/infrastructures/BHaH/CurviBoundaryConditions"]}
{"id": "C10", "title": "Gridfunction registration: first registration wins; tensors register all components", "statement": "Registering an already registered gridfunction never changes the stored entry; register_gridfunctions_for_single_rank1/rank2/rankN registers exactly the set of independent component names that the returned tensor contains, for the dimension requested.", "quantifier": "every registration history, base name, symmetry, rank and dimension", "why_tests_cant": "Dimensions and ranks other than the tested 3 behave differently.", "anchors": ["nrpy/grid.py:register_gridfunctions", "nrpy/grid.py:register_gridfunctions_for_single_rank1", "nrpy/grid.py:register_gridfunctions_for_single_rank2", "nrpy/grid.py:register_gridfunctions_for_single_rankN"]}
{"id": "C11", "title": "Symmetrization yields tensors with the requested symmetry", "statement": "For every dimension, tensor and supported symmetry string, the result of symmetrize_rank2/3/4 satisfies the declared (anti)symmetry on every index tuple, entries with already ordered indices are left alone (diagonal entries of antisymmetric pairs become zero), and applying it again changes nothing.", "quantifier": "every dimension, every tensor, every symmetry string of ranks 2, 3 and 4", "why_tests_cant": "The in-place update order matters and dimension is unbounded.", "anchors": ["nrpy/indexedexp.py:symmetrize_rank2", "nrpy/indexedexp.py:symmetrize_rank3", "nrpy/indexedexp.py:symmetrize_rank4"]}
{"id": "C12", "title": "Declared tensor components are distinct unless symmetry identifies them", "statement": "Two index tuples of a declared tensor hold the same symbol only if they are the same tuple (or identified by the requested symmetry).", "quantifier": "every rank, every dimension, every pair of index tuples", "why_tests_cant": "Symbol names are digit concatenations; ambiguity only appears for dimensions above ten.", "anchors": ["nrpy/indexedexp.py:create_tensor_symbolic", "nrpy/indexedexp.py:declare_indexedexp"]}
{"id": "C13", "title": "Derivatives along symmetry axes vanish and nothing else does", "statement": "zero_out_derivatives_across_symmetry_axes sets exactly those entries of a derivative tensor whose derivative index lies along a declared symmetry axis to zero and leaves all others as they were.", "quantifier": "every derivative tensor of rank up to 4 and every set of symmetry axes", "why_tests_cant": "Every combination of axes and index positions.", "anchors": ["nrpy/indexedexp.py:zero_out_derivatives_across_symmetry_axes"]}
{"id": "C14", "title": "Matrix inverters return the inverse and the determinant", "statement": "For 2x2, 3x3 and 4x4 matrices over any field, the generic inverter returns a two-sided inverse together with the determinant whenever the determinant is nonzero and raises otherwise; the symmetric inverters do so for symmetric input (and read only the upper triangle).", "quantifier": "every matrix with entries in any field", "why_tests_cant": "An algebraic identity in up to sixteen free variables.", "anchors": ["nrpy/indexedexp.py:symm_matrix_inverter2x2", "nrpy/indexedexp.py:symm_matrix_inverter3x3", "nrpy/indexedexp.py:symm_matrix_inverter4x4", "nrpy/indexedexp.py:generic_matrix_inverter2x2", "nrpy/indexedexp.py:generic_matrix_inverter3x3", "nrpy/indexedexp.py:generic_matrix_inverter4x4"]}
{"id": "C15", "title": "Levi-Civita symbol and tensors", "statement": "The three-index symbol is the sign of the permutation (0 on repeated indices), is totally antisymmetric, and the raised and lowered tensors contract to the generalised Kronecker delta for every nonzero sqrt(det gamma).", "quantifier": "all index triples, every nonzero density", "why_tests_cant": "Identity over all densities and index combinations.", "anchors": ["nrpy/indexedexp.py:LeviCivitaSymbol_dim3_rank3", "nrpy/indexedexp.py:LeviCivitaTensorUUU_dim3_rank3", "nrpy/indexedexp.py:LeviCivitaTensorDDD_dim3_rank3"]}
{"id": "C16", "title": "Finite-difference derivatives are exact on polynomials up to the order", "statement": "For every even finite-difference order p, the stencil produced for a centred first or second derivative, applied to samples of any polynomial of degree at most p, returns the exact derivative at the point; omitted zero coefficients do not matter.", "quantifier": "every even order, every polynomial of degree at most the order, every grid spacing", "why_tests_cant": "Accuracy order is a statement about all orders and all polynomials; trusted tables only list a few coefficients.", "anchors": ["nrpy/finite_difference.py:setup_FD_matrix__return_inverse_lowlevel", "nrpy/finite_difference.py:compute_fdcoeffs_fdstencl"]}
{"id": "C17", "title": "Upwinded, downwinded and one-sided derivatives are exact to the order", "statement": "The stencils for upwinded (dupD), downwinded (ddnD), fully upwinded (dfullupD) and fully downwinded (dfulldnD) first derivatives are exact on every polynomial of degree at most the order and are displaced in the direction the name says; the up and down stencils are mirror images with opposite signs.", "quantifier": "every even order, every polynomial up to that degree", "why_tests_cant": "All orders and polynomials.", "anchors": ["nrpy/finite_difference.py:compute_fdcoeffs_fdstencl"]}
{"id": "C18", "title": "Mixed second derivatives are exact on products of polynomials", "statement": "The stencil for a mixed second derivative along two different axes is exact on every polynomial of degree at most p in each variable, and each stencil point occurs once.", "quantifier": "every even order and all two-variable polynomials of degree at most the order in each variable", "why_tests_cant": "All orders and polynomials.", "anchors": ["nrpy/finite_difference.py:compute_fdcoeffs_fdstencl"]}
{"id": "C19", "title": "Kreiss-Oliger dissipation operator", "statement": "The dKOD stencil of order p annihilates all polynomials of degree below p+2, has every one of its p+3 coefficients nonzero, is symmetric, and has a negative-definite highest-order effect (sign (-1)^(p/2)) so that it damps rather than amplifies the shortest wavelength.", "quantifier": "every even order, every polynomial of degree at most p+1", "why_tests_cant": "All orders and polynomials.", "anchors": ["nrpy/finite_difference.py:compute_fdcoeffs_fdstencl"]}
{"id": "C20", "title": "Temporary names for gridpoint reads do not collide", "statement": "The C variable names that hold values read from neighbouring points are distinct for distinct offsets of a gridfunction.", "quantifier": "every gridfunction name and every pair of offset vectors", "why_tests_cant": "All offsets, any stencil width.", "anchors": ["nrpy/finite_difference.py:fd_temp_variable_name"]}
{"id": "C21", "title": "Every stencil point is read exactly once before use", "statement": "The block of generated memory reads declares, for each gridfunction, each gridpoint required by any requested derivative or by the gridfunction itself exactly once, and no other point.", "quantifier": "every list of gridfunctions and stencils with offsets below fifty in magnitude", "why_tests_cant": "Depends on the union of arbitrary stencils; the ordering key is only injective within a bound.", "anchors": ["nrpy/finite_difference.py:read_gfs_from_memory"]}
{"id": "C22", "title": "Derivative symbols are split into gridfunction and operator unambiguously", "statement": "For every variable name of the documented form, extracting the base gridfunction and the derivative operator recovers the base gridfunction name (with its tensor component digits) and the operator with its direction digits.", "quantifier": "every base name, index digits and derivative operator", "why_tests_cant": "String parsing over all names.", "anchors": ["nrpy/finite_difference.py:extract_base_gfs_and_deriv_ops_lists__from_list_of_deriv_vars"]}
{"id": "C23", "title": "Upwinding selects the derivative on the inflow side", "statement": "The generated upwinded derivative equals the up-derivative where the control vector component is positive and the down-derivative otherwise, in every direction.", "quantifier": "every control vector, direction and pair of derivative values", "why_tests_cant": "All real inputs.", "anchors": ["nrpy/c_codegen.py:gridfunction_management_and_FD_codegen"]}
{"id": "C24", "title": "CSE post-processing preserves values and definition order", "statement": "Executing the assignments returned by cse_postprocess in order computes the same outputs as the original replacement/reduced pair, for every assignment of values to the inputs, every temporary is defined before it is used, and no temporary is defined twice.", "quantifier": "every list of replacements with acyclic dependencies and every list of outputs; every valuation", "why_tests_cant": "Input expressions and valuations are unbounded.", "anchors": ["nrpy/helpers/cse_preprocess_postprocess.py:cse_postprocess"]}
{"id": "C25", "title": "CSE pre-processing preserves values", "statement": "The expression returned by cse_preprocess has, once the introduced constant symbols are given the values in the returned table, the same value as the input expression, and every introduced symbol is in the table.", "quantifier": "every expression and every valuation", "why_tests_cant": "All expressions.", "anchors": ["nrpy/helpers/cse_preprocess_postprocess.py:cse_preprocess"]}
{"id": "C26", "title": "SIMD conversion preserves values", "statement": "The expression tree of SIMD intrinsics produced by expr_convert_to_simd_intrins evaluates to the same real number as the input expression for every valuation where the input is defined.", "quantifier": "every expression and every valuation", "why_tests_cant": "The rewriting passes interact; all expressions and valuations.", "anchors": ["nrpy/helpers/simd.py:expr_convert_to_simd_intrins"]}
{"id": "C27", "title": "SIMD conversion declares every constant it uses", "statement": "Every constant symbol appearing in the converted expression is declared in the constants table returned to the caller.", "quantifier": "every expression", "why_tests_cant": "Only particular sub-expressions introduce undeclared constants.", "anchors": ["nrpy/helpers/simd.py:expr_convert_to_simd_intrins", "nrpy/c_codegen.py:c_codegen"]}
{"id": "C28", "title": "Expression trees rebuild the expression; traversals visit every node once", "statement": "Building a tree from an expression and reconstructing it gives the expression back, preorder yields parents before children and postorder children before parents, both visiting each node exactly once.", "quantifier": "every expression", "why_tests_cant": "Recursive structure of unbounded size.", "anchors": ["nrpy/helpers/expr_tree.py:ExprTree"]}
{"id": "C29", "title": "Order-preserving de-duplication", "statement": "superfast_uniq and uniquify return the distinct elements of the list in order of first occurrence, each once.", "quantifier": "every list", "why_tests_cant": "All lists.", "anchors": ["nrpy/helpers/generic.py:superfast_uniq", "nrpy/helpers/functional.py:uniquify"]}
{"id": "C30", "title": "Cartesian product of index ranges is complete and lexicographic", "statement": "functional.product enumerates each tuple of the cartesian product exactly once, in lexicographic order.", "quantifier": "every list of finite iterables", "why_tests_cant": "All lengths.", "anchors": ["nrpy/helpers/functional.py:product"]}
{"id": "C31", "title": "Generated loop nests visit every point exactly once", "statement": "The loop nest emitted by loop() executes its body once for every combination of indices in the requested ranges (with the requested increments), in row-major order without tiling, and over the same set of points with tiling.", "quantifier": "every number of nested loops, every bound, increment and tile size", "why_tests_cant": "All bounds, tile sizes and nestings.", "anchors": ["nrpy/helpers/loop.py:loop", "nrpy/helpers/loop.py:loop1D"]}
{"id": "C32", "title": "Conditional file updates converge and do not touch unchanged files", "statement": "After leaving the updater the file holds the new content (up to surrounding white space), a second identical update writes nothing, the no-change mode never writes; users also expect an exception inside the block to leave the file as it was.", "quantifier": "every old and new content, every file state, with or without an exception in the block", "why_tests_cant": "All contents and failure points.", "anchors": ["nrpy/helpers/conditional_file_updater.py:ConditionalFileUpdater"]}
{"id": "C33", "title": "Caches return what recomputation would return", "statement": "For clang_format and the on-disk function cache, a cache hit returns the value computing afresh would give, for all histories of calls and crash points.", "quantifier": "every history of cached calls, every crash point during a cache write", "why_tests_cant": "Key collisions and torn writes need adversarial inputs and crash points.", "anchors": ["nrpy/helpers/generic.py:clang_format", "nrpy/helpers/cached_functions.py"]}
{"id": "C34", "title": "Parallel code generation gives the sequential result for every schedule", "statement": "When registered tasks write consistent data, the environment after do_parallel_codegen equals the one from running the tasks one after another, for every order in which workers finish and every distribution of tasks to workers; a symbol registered twice is reported as in the sequential case.", "quantifier": "every task list, assignment of tasks to workers and completion order", "why_tests_cant": "Schedules are nondeterministic and unbounded.", "anchors": ["nrpy/helpers/parallel_codegen.py:do_parallel_codegen", "nrpy/helpers/parallel_codegen.py:unpack_NRPy_environment_dict", "nrpy/helpers/parallel_codegen.py:deep_update"]}
{"id": "C35", "title": "Inline code blocks are captured faithfully", "statement": "nrpyinline runs exactly the lines between each START/END pair in file order, rejects nested, unmatched and unterminated markers before running any broken block, and recovers from commented source lines the Python lines that were commented.", "quantifier": "every input file", "why_tests_cant": "All line sequences.", "anchors": ["bin/nrpyinline.py:run_script_from_file", "bin/nrpyinline.py:strip_comment_markers"]}
{"id": "C36", "title": "Method of Lines step equals the Runge-Kutta scheme of the Butcher table", "statement": "For every explicit Butcher table accepted by the generator, every right-hand side and every state, one generated time step leaves in y_n the value y_n + dt*sum(b_i k_i) with k_i the stage derivatives at times t + c_i dt, whichever of the storage-saving algorithms is selected.", "quantifier": "every right-hand side function, state, time step and admissible table", "why_tests_cant": "All ODE systems; low-storage algorithms reuse buffers.", "anchors": ["nrpy/infrastructures/BHaH/MoLtimestepping/MoL.py:register_CFunction_MoL_step_forward_in_time", "nrpy/infrastructures/BHaH/MoLtimestepping/MoL.py:single_RK_substep_input_symbolic", "nrpy/infrastructures/BHaH/MoLtimestepping/MoL.py:is_diagonal_Butcher"]}
{"id": "C37", "title": "Method of Lines buffers: used implies allocated, allocated implies freed once", "statement": "For every Butcher table every gridfunction buffer referenced by the time step or the diagnostics pointers is allocated, every allocated buffer is freed exactly once.", "quantifier": "every Butcher table", "why_tests_cant": "All tables, and use of freed or missing memory is undefined behaviour.", "anchors": ["nrpy/infrastructures/BHaH/MoLtimestepping/MoL.py:generate_gridfunction_names", "nrpy/infrastructures/BHaH/MoLtimestepping/MoL.py:register_CFunction_MoL_malloc", "nrpy/infrastructures/BHaH/MoLtimestepping/MoL.py:register_CFunction_MoL_free_memory"]}
{"id": "C38", "title": "Butcher tables have the advertised order", "statement": "Every Runge-Kutta table in the dictionary satisfies the order conditions for all rooted trees up to its advertised order (for the table with rounded coefficients, up to the rounding).", "quantifier": "every table in the dictionary and every rooted tree of size up to the order", "why_tests_cant": "Order is about all ODEs; unit tests integrate a few and only for some tables.", "anchors": ["nrpy/infrastructures/BHaH/MoLtimestepping/RK_Butcher_Table_Dictionary.py:generate_Butcher_tables"]}
{"id": "C39", "title": "Adams-Bashforth coefficients have the requested order", "statement": "For every requested order n the generated last row of coefficients integrates every polynomial of degree below n exactly, and the generated table has n rows where row i is the (i+1)-step method.", "quantifier": "every order n, every polynomial of degree below n", "why_tests_cant": "All orders and polynomials.", "anchors": ["nrpy/infrastructures/BHaH/MoLtimestepping/RK_Butcher_Table_Dictionary.py:generate_Butcher_tables"]}
{"id": "C40", "title": "Default parameter file round trip", "statement": "Parsing the generated default parameter file gives each parameter the default value it was registered with.", "quantifier": "every set of registered parameters and default values", "why_tests_cant": "All names and character values, including quotes, '#' and '='.", "anchors": ["nrpy/infrastructures/BHaH/cmdline_input_and_parfiles.py:generate_default_parfile", "nrpy/infrastructures/BHaH/cmdline_input_and_parfiles.py:register_CFunction_cmdline_input_and_parfile_parser"]}
{"id": "C41", "title": "Parameter-file parser never writes outside its buffers", "statement": "For every input line the parser writes only inside its fixed-size buffers or exits with an error.", "quantifier": "every line of input", "why_tests_cant": "All byte strings; overflow only for adversarial lines.", "anchors": ["nrpy/infrastructures/BHaH/cmdline_input_and_parfiles.py:register_CFunction_cmdline_input_and_parfile_parser"]}
{"id": "C42", "title": "Command-line steerable parameters override the parameter file", "statement": "When steerable parameters are given on the command line, their final values are the command-line ones whatever the parameter file says.", "quantifier": "every parameter file and command line", "why_tests_cant": "All files, including empty files and files whose lines are all unrecognised.", "anchors": ["nrpy/infrastructures/BHaH/cmdline_input_and_parfiles.py:register_CFunction_cmdline_input_and_parfile_parser"]}
{"id": "C43", "title": "Checkpoint round trip and crash safety", "statement": "Reading a checkpoint that was completely written restores every stored parameter and every evolved gridfunction at every stored point; a crash at any point while writing a new checkpoint must leave some complete checkpoint on disk.", "quantifier": "every grid content, every crash point during the write", "why_tests_cant": "Crash points cannot be enumerated by unit tests.", "anchors": ["nrpy/infrastructures/BHaH/checkpointing.py:register_CFunction_write_checkpoint", "nrpy/infrastructures/BHaH/checkpointing.py:register_CFunction_read_checkpoint"]}
{"id": "C44", "title": "Distributed grid: every point has exactly one owner", "statement": "The global-to-chare map and the local-to-global map of the distributed infrastructure are mutually inverse and every global grid point (ghost zones included) is owned by exactly one chare.", "quantifier": "every grid size, ghost-zone width and number of chares dividing the grid", "why_tests_cant": "All sizes and decompositions.", "anchors": ["nrpy/infrastructures/superB/chare_communication_maps.py"]}
{"id": "C45", "title": "Output and checkpoint scheduling fires once per period", "statement": "With uniform time steps dt no larger than the output period, the output test |round(t/T)*T - t| < dt/2 fires for exactly one time step per multiple of the period.", "quantifier": "every dt > 0, period T >= dt, every multiple of the period", "why_tests_cant": "All real ratios, including exact half-step ties.", "anchors": ["nrpy/infrastructures/BHaH/checkpointing.py:register_CFunction_write_checkpoint", "nrpy/infrastructures/BHaH/diagnostics"]}
{"id": "C46", "title": "4-metric and ADM variables: inverse and round trip", "statement": "ADM_to_g4UU is the matrix inverse of ADM_to_g4DD for every invertible symmetric spatial metric and nonzero lapse, and g4DD_to_ADM recovers the spatial metric, lapse (positive) and shift from the 4-metric built from them.", "quantifier": "every symmetric invertible spatial metric, shift and nonzero lapse", "why_tests_cant": "Algebraic identity in ten free variables.", "anchors": ["nrpy/equations/general_relativity/g4munu_conversions.py:ADM_to_g4DD", "nrpy/equations/general_relativity/g4munu_conversions.py:ADM_to_g4UU", "nrpy/equations/general_relativity/g4munu_conversions.py:g4DD_to_ADM"]}
{"id": "C47", "title": "Lorentz boosts preserve the Minkowski metric", "statement": "For every boost velocity 0 < |v| < 1 the boost matrix preserves the Minkowski form, the inverse matrix is its inverse, inverse_boost undoes boost, contractions of boosted vectors and covectors are unchanged.", "quantifier": "every boost velocity and every vector", "why_tests_cant": "Identity over all velocities.", "anchors": ["nrpy/equations/general_relativity/LorentzBoost.py:LorentzBoost"]}
{"id": "C48", "title": "Quaternion rotation is a rotation", "statement": "rotate(v, axis, angle) preserves inner products and orientation, fixes the axis, composes additively in the angle, rotating a matrix is R M R^T and keeps symmetry, for every nonzero axis.", "quantifier": "every axis, angle, vector and matrix", "why_tests_cant": "Identity over all real inputs.", "anchors": ["nrpy/equations/quaternion_rotations/tensor_rotation.py:rotate"]}
{"id": "C49", "title": "Branch-free min, max and bound indicators", "statement": "min_noif and max_noif equal the minimum and maximum of their arguments; the four bound indicators return 1 where the comparison holds and 0 where it fails outside a window of width TINYDOUBLE around the bound.", "quantifier": "every pair of real numbers", "why_tests_cant": "All reals.", "anchors": ["nrpy/equations/grhd/Min_Max_and_Piecewise_Expressions.py"]}
{"id": "C50", "title": "HLL flux and characteristic speeds", "statement": "find_cmax_cmin returns non-negative speeds that bound all wave speeds computed on both sides; HLL_solver is consistent (equal left and right states give the physical flux), reduces to the upwind flux when one speed vanishes and swaps sign correctly under mirror reflection.", "quantifier": "every pair of states and speeds with nonzero sum", "why_tests_cant": "All real inputs.", "anchors": ["nrpy/equations/grhd/HLL_fluxes.py:HLL_solver", "nrpy/equations/grhd/characteristic_speeds.py:find_cp_cm", "nrpy/equations/grhd/characteristic_speeds.py:find_cmax_cmin"]}
{"id": "C51", "title": "Basis transforms are mutually inverse", "statement": "Transforming a vector, covector or rank-2 tensor from the reference-metric basis to Cartesian and back gives the original, and contractions are unchanged, whenever the two Jacobians are inverse to each other.", "quantifier": "every Jacobian pair and tensor", "why_tests_cant": "Algebraic identity over all entries.", "anchors": ["nrpy/helpers/jacobians.py"]}
{"id": "C52", "title": "griddata/commondata registry rejects duplicates and keeps order", "statement": "After any history of register_griddata_commondata calls each module's list holds the accepted declarations in registration order, without duplicates and without semicolons; a rejected call changes nothing.", "quantifier": "every history of calls", "why_tests_cant": "Unbounded call histories.", "anchors": ["nrpy/infrastructures/BHaH/griddata_commondata.py:register_griddata_commondata"]}
{"id": "C53", "title": "Generated finite-difference code declares and computes every derivative symbol", "statement": "For expressions containing gridfunctions and derivative symbols (_dD, _dDD, _dKOD, _dupD) the C code generated before the expressions compiles (no variable is used before it is declared or declared twice), does not change variables already in scope, loads every gridfunction used, and gives each derivative symbol the value of the finite-difference stencil of its operator applied to the right gridfunction, times the inverse grid spacings of its directions.", "quantifier": "every set of registered gridfunctions, every set of free symbols, every even order, both memory layouts, all grid data", "why_tests_cant": "it quantifies over all registries, expressions, orders and grid data; tests compile a few kernels", "anchors": ["nrpy/c_codegen.py:gridfunction_management_and_FD_codegen", "nrpy/finite_difference.py:proto_FD_operators_to_sympy_expressions", "nrpy/finite_difference.py:extract_list_of_deriv_var_strings_from_sympyexpr_list"]}
{"id": "C54", "title": "All instruction sets compute the same lane-wise functions", "statement": "For every instruction set selected at compile time, each arithmetic intrinsic of the generated header computes in every lane the function its name says: FusedMulAdd = ab+c, FusedMulSub = ab-c, NegFusedMulAdd = c-ab, NegFusedMulSub = -ab-c, Abs = |a|, HorizAdd = the sum of the lanes, and the upwind selector = 1 where the argument is positive and 0 elsewhere. So the same generated code gives the same results (up to rounding) on AVX512, AVX, SSE2, plain C and CUDA builds.", "quantifier": "every instruction-set branch of the header, every lane, every argument vector", "why_tests_cant": "A test machine compiles exactly one branch of the header; the others are never executed, and the identity must hold for all arguments.", "anchors": ["nrpy/helpers/simd_intrinsics.h", "nrpy/helpers/cuda_intrinsics.h"]}
{"id": "C55", "title": "SIMD conversion yields only calls that the intrinsics header defines", "statement": "An expression converted to SIMD intrinsics contains only calls of macros that the intrinsics header defines, with the right number of arguments, and no leftover +, *, ** or bare number; running it on vector registers, every lane holds the value of the original scalar expression in that lane.", "quantifier": "every expression, every instruction set, every assignment of vectors to symbols, every lane", "why_tests_cant": "Whether a leftover operation or an undefined macro appears depends on the shape of the expression; tests convert a few expressions and compare strings, and do not compile the result for each instruction set.", "anchors": ["nrpy/helpers/simd.py: expr_convert_to_simd_intrins", "nrpy/helpers/simd_intrinsics.h"]}
{"id": "C56", "title": "Grid loops cover the grid", "statement": "The loop generated for a region of the grid (all points, interior, interior plus one upper) executes its body for every point of the region exactly once, in memory order; over all points this is every stored offset exactly once. Coordinate reads stand inside the loop of their index and collapsed loops are perfectly nested. With SIMD the interior points get the values computed for them and all accesses stay inside the array.", "quantifier": "every grid size, number of ghost zones, region, vector width and combination of options", "why_tests_cant": "All sizes, widths and option combinations.", "anchors": ["nrpy/infrastructures/BHaH/simple_loop.py:simple_loop", "nrpy/infrastructures/ETLegacy/simple_loop.py:simple_loop", "nrpy/infrastructures/BHaH/BHaH_defines_h.py:output_BHaH_defines_h"]}
{"id": "C57", "title": "Ghost-zone exchange fills ghost zones with the owner's values", "statement": "After the exchanges along x, y and z, every point of every chare's local grid (edges and corners of the ghost zones included) holds the value of the chare that owns it, for every synchronized grid function; other grid functions and owned points are not changed.", "quantifier": "every decomposition accepted by the set-up, every list of synchronized grid functions, all data", "why_tests_cant": "All decompositions, ghost-zone widths and data.", "anchors": ["nrpy/infrastructures/superB/timestepping_chare.py:output_timestepping_cpp", "nrpy/infrastructures/superB/superB/superB.h"]}
{"id": "C58", "title": "Distributed time stepping does not depend on the schedule", "statement": "Whatever the order in which chares run and messages arrive (each channel delivering in order), the program of computations and ghost-zone exchanges cannot deadlock, ends, and leaves on each chare the data of the synchronous execution.", "quantifier": "every number of chares, program, data and interleaving", "why_tests_cant": "All interleavings of all chares.", "anchors": ["nrpy/infrastructures/superB/timestepping_chare.py:output_timestepping_ci", "nrpy/infrastructures/superB/timestepping_chare.py:generate_process_ghost_code"]}
{"id": "C59", "title": "Coordinate maps are inverse to each other", "statement": "For every coordinate system that offers Cart_to_xx: mapping a point of the coordinate ranges to Cartesian coordinates and back gives the point, and mapping any Cartesian point except the origin to xx and back gives the same Cartesian point.", "quantifier": "all real coordinates in range, all Cartesian points, all valid parameter values, all systems", "why_tests_cant": "Real-valued identities for all points and parameters.", "anchors": ["nrpy/reference_metric.py:ReferenceMetric", "nrpy/reference_metric.py:xx_to_Cart", "nrpy/reference_metric.py:Cart_to_xx"]}
{"id": "C60", "title": "Scale factors and unit vectors belong to the coordinate map", "statement": "At every regular point the derivative of xx_to_Cart in direction j is scalefactor_orthog[j] times UnitVectors[j], the unit vectors are orthonormal and right-handed, ghatDD is the flat metric in these coordinates, and the precompute form of the scale factors has the same value.", "quantifier": "all systems, all regular points, all parameters", "why_tests_cant": "Real-valued identities for all points and parameters.", "anchors": ["nrpy/reference_metric.py:scalefactor_orthog", "nrpy/reference_metric.py:UnitVectors", "nrpy/reference_metric.py:ghatDD", "nrpy/reference_metric.py:scalefactor_orthog_funcform"]}
{"id": "C61", "title": "xxSph is the spherical form of the same point", "statement": "For every system, the spherical coordinates xxSph of a point describe the Cartesian point xx_to_Cart.", "quantifier": "all systems, all points of the closed coordinate ranges except the origin", "why_tests_cant": "Real-valued identities for all points and parameters.", "anchors": ["nrpy/reference_metric.py:xxSph"]}
{"id": "C62", "title": "Unknown coordinate systems are rejected", "statement": "Every documented name gives the coordinate system; any other name raises ValueError.", "quantifier": "all strings", "why_tests_cant": "All strings.", "anchors": ["nrpy/reference_metric.py:ReferenceMetric.__init__", "nrpy/reference_metric.py:Sinhv2"]}
{"id": "C63", "title": "Hatted quantities describe flat space", "statement": "Where no scale factor vanishes: ghatUU is the inverse of ghatDD and detgammahat its positive determinant, ReU is inverse to ReD, ghatDD rescaled by ReDD is the unit matrix, GammahatUDD is symmetric and preserves ghatDD, and it is the connection of flat space (contracted with the derivatives of a Cartesian coordinate it gives that coordinate's second derivatives).", "quantifier": "all systems, all points where no scale factor vanishes, all parameters", "why_tests_cant": "Identities between functions at all points.", "anchors": ["nrpy/reference_metric.py:ghatUU", "nrpy/reference_metric.py:GammahatUDD", "nrpy/reference_metric.py:ReU"]}
{"id": "C64", "title": "bcstruct lists every ghost point exactly once", "statement": "After bcstruct_set_up, every ghost-zone point of the grid is listed exactly once: as an inner boundary point, with its partner and parities, if its partner is another grid point, and as an outer boundary point of one face otherwise. No interior point is listed, and the arrays are not written outside of what was allocated.", "quantifier": "all grid sizes, numbers of ghost zones, partner maps and parities", "why_tests_cant": "All grid sizes and numbers of ghost zones; corners and edges belong to several faces.", "anchors": ["nrpy/infrastructures/BHaH/CurviBoundaryConditions/CurviBoundaryConditions.py:register_CFunction_bcstruct_set_up"]}
{"id": "C65", "title": "Outer extrapolation fills all outer points from filled points, independent of the threads", "statement": "apply_bcs_outerextrap_and_inner has no data race; in every order of the parallel iterations it leaves the interior alone, sets every outer point to the quadratic extrapolation of three points that are already set, sets every inner point from its partner, and the result depends only on the interior. Quadratic polynomials are reproduced exactly.", "quantifier": "all grids with at least three interior points in directions with outer faces, all gridfunctions, all orders of the iterations of each parallel loop", "why_tests_cant": "All thread schedules and grid sizes.", "anchors": ["nrpy/infrastructures/BHaH/CurviBoundaryConditions/CurviBoundaryConditions.py:register_CFunction_apply_bcs_outerextrap_and_inner"]}
{"id": "C66", "title": "Inner boundary conditions copy the partner with its parity", "statement": "apply_bcs_inner_only has no data race; in every order of the parallel iterations each inner point gets the value of its partner times the parity of the gridfunction's type, all other points keep their values, and a second application changes nothing.", "quantifier": "all grids whose partners are interior or outer points, all gridfunctions, all orders of the iterations", "why_tests_cant": "All thread schedules and grid sizes.", "anchors": ["nrpy/infrastructures/BHaH/CurviBoundaryConditions/CurviBoundaryConditions.py:register_CFunction_apply_bcs_inner_only"]}
{"id": "C67", "title": "Every ghost point has the right partner in every coordinate system", "statement": "For every supported coordinate system the eigencoordinate map sends each grid point to a grid point at the same place in space that is in the interior or on the outer boundary, without ending the process; the outer boundary points are exactly the ghost points at the ends where the grid ends in space; bcstruct_set_up succeeds and after outer extrapolation and inner conditions every ghost point is determined by the interior.", "quantifier": "all coordinate system names and parameter values, all grids (even number of azimuths, increasing ranges, holes wider than the ghost zones), all grid points, all tolerances > 0", "why_tests_cant": "Infinitely many parameter values and grid sizes.", "anchors": ["nrpy/infrastructures/BHaH/CurviBoundaryConditions/CurviBoundaryConditions.py:Cfunction__EigenCoord_set_x0x1x2_inbounds__i0i1i2_inbounds_single_pt", "nrpy/infrastructures/BHaH/CurviBoundaryConditions/CurviBoundaryConditions.py:register_CFunction_bcstruct_set_up", "nrpy/reference_metric.py:EigenCoord"]}
{"id": "C68", "title": "Parities turn the components at the partner into the components at the ghost point", "statement": "For every supported coordinate system the parity of each of the ten types at a ghost point is +1 or -1, the test of its size never ends the process, and multiplying a component (in the unit basis) of a scalar, vector or symmetric tensor at the partner by the parity gives the component of the same object at the ghost point; so after the inner boundary conditions the gridfunctions of a smooth field hold the field's components at inner ghost points.", "quantifier": "all coordinate systems, parameters, grids, ghost points, tensor fields", "why_tests_cant": "All systems, parameter values and grid points.", "anchors": ["nrpy/infrastructures/BHaH/CurviBoundaryConditions/CurviBoundaryConditions.py:Cfunction__set_parity_for_inner_boundary_single_pt", "nrpy/infrastructures/BHaH/CurviBoundaryConditions/CurviBoundaryConditions.py:parity_conditions_symbolic_dot_products"]}
{"id": "C69", "title": "Radiation boundary conditions impose the advection equation with the true radial derivative", "statement": "apply_bcs_outerradiation_and_inner leaves the interior alone, makes d_t f = -c (d_r f + (f - f_inf)/r) + k/r^3 hold at each outer point with the k of the next point inwards (so outgoing spherical waves pass exactly), uses for d_r f the chain rule with finite differences that stay inside of the grid and are exact for polynomials up to the order, sets inner points by parity, has no data race and gives a result that does not depend on the order of the iterations.", "quantifier": "all grids, boundary points, gridfunctions, wave speeds, finite-difference orders, coordinate systems and orders of the iterations", "why_tests_cant": "All grid sizes, schedules and fields.", "anchors": ["nrpy/infrastructures/BHaH/CurviBoundaryConditions/CurviBoundaryConditions.py:setup_Cfunction_radiation_bcs", "nrpy/infrastructures/BHaH/CurviBoundaryConditions/CurviBoundaryConditions.py:setup_Cfunction_compute_partial_r_f", "nrpy/infrastructures/BHaH/CurviBoundaryConditions/CurviBoundaryConditions.py:setup_Cfunction_FD1_arbitrary_upwind", "nrpy/infrastructures/BHaH/CurviBoundaryConditions/CurviBoundaryConditions.py:register_CFunction_apply_bcs_outerradiation_and_inner"]}
{"id": "C70", "title": "Converting ADM variables to BSSN variables and back loses nothing", "statement": "ADM_to_BSSN followed by BSSN_to_ADM returns the metric, extrinsic curvature, shift and B it was given, with det gammabar = det gammahat and tr Abar = 0; BSSN variables satisfying these two conditions are recovered from the ADM variables computed from them; exactly three conformal-factor choices are accepted and every other raises.", "quantifier": "all coordinate systems at points without coordinate singularity, all metrics with positive determinant, all symmetric K_ij, all shifts, the three conformal factors", "why_tests_cant": "Real-valued inputs; tests compare symbolic expressions with stored numbers at one point.", "anchors": ["nrpy/equations/general_relativity/ADM_to_BSSN.py:ADM_to_BSSN", "nrpy/equations/general_relativity/BSSN_to_ADM.py:BSSN_to_ADM", "nrpy/equations/general_relativity/BSSN_quantities.py:BSSNQuantities"]}
{"id": "C71", "title": "Every BSSN quantity named as a derivative or connection is that derivative or connection", "statement": "The unrescaled fields are gammabar = gammahat + h_ij s_i s_j etc.; every first and second derivative expression (of gammabar, Abar, beta, phi, e^{4 phi}, gamma, K) equals the partial derivative of the corresponding field; gammabarUU and gammaUU are the inverse metrics, GammabarUDD and GammaUDD the Christoffel symbols, D-bar D-bar phi the covariant Hessian, D-hat gammabar the covariant derivative of the reference metric.", "quantifier": "all supported coordinate systems and parameters, all smooth fields with invertible gammabar, all points without coordinate singularity, the three conformal factors", "why_tests_cant": "All fields and all points; a test evaluates one expression at random numbers and compares with the stored result of the same code.", "anchors": ["nrpy/equations/general_relativity/BSSN_quantities.py:BSSNQuantities", "nrpy/equations/general_relativity/BSSN_to_ADM.py:BSSN_to_ADM"]}
{"id": "C72", "title": "RbarDD is the Ricci tensor of the conformal metric", "statement": "When Lambdabar^i equals gammabar^{jk} (Gammabar^i_jk - Gammahat^i_jk), the expression RbarDD equals the Ricci tensor of gammabar_ij (curvature of its Levi-Civita connection).", "quantifier": "all supported coordinate systems and parameters, all smooth conformal metrics, all points without coordinate singularity", "why_tests_cant": "An identity between differential operators on all fields.", "anchors": ["nrpy/equations/general_relativity/BSSN_quantities.py:BSSNQuantities", "nrpy/reference_metric.py:ReferenceMetric"]}
{"id": "C73", "title": "The constraint expressions are the Einstein constraints of the physical metric", "statement": "H equals R + K^2 - K_ij K^ij - 16 pi rho and MU equals D_j (K^ij - gamma^ij K) - 8 pi S^i of the physical metric gamma_ij, K_ij and the matter projections of T^{mu nu}; mU are its rescaled components; Msquared is the square of MU.", "quantifier": "all supported coordinate systems, all smooth fields with the algebraic constraints, all stress-energy tensors, the three conformal factors, with and without matter", "why_tests_cant": "An identity between differential operators on all fields.", "anchors": ["nrpy/equations/general_relativity/BSSN_constraints.py:BSSNconstraints", "nrpy/equations/general_relativity/T4munu.py:BSSN_constraints_T4UU_source_terms", "nrpy/equations/general_relativity/T4munu.py:T4UU_and_ADM_to_SDD_SD_S_rho"]}
{"id": "C74", "title": "Evolving the BSSN variables with the BSSN right-hand sides evolves the ADM variables by the Einstein equations", "statement": "If the evolved variables change at the rates h_rhsDD, a_rhsDD, cf_rhs, trK_rhs then gamma_ij changes at -2 alpha K_ij + L_beta gamma_ij and K_ij at the ADM rate with matter, minus alpha gamma_ij H / 3 where H is the Hamiltonian constraint; on data satisfying the Hamiltonian constraint K_ij obeys the ADM equation exactly.", "quantifier": "all supported coordinate systems, all smooth fields with the algebraic constraints, all lapses and shifts, all stress-energy tensors, the three conformal factors", "why_tests_cant": "An identity between differential operators on all fields; numerical tests see truncation error.", "anchors": ["nrpy/equations/general_relativity/BSSN_RHSs.py:BSSNRHSs", "nrpy/equations/general_relativity/T4munu.py:BSSN_RHSs_T4UU_source_terms"]}
{"id": "C75", "title": "The right-hand side of Lambdabar^i keeps Lambdabar^i equal to the connection difference it stands for", "statement": "If at a time t the field Lambdabar^i equals gammabar^{jk}(Gammabar^i_{jk}-Gammahat^i_{jk}) on an open set and Abar is tracefree there, then the time derivative of gammabar^{jk}(Gammabar^i_{jk}-Gammahat^i_{jk}) implied by the right-hand side of the conformal metric equals the right-hand side the library gives for Lambdabar^i minus 2 alpha e^{4 phi} times the momentum constraint. So the two stay equal at first order on data that satisfy the momentum constraint.", "quantifier": "all supported coordinate systems, all smooth data with invertible conformal metric, all three conformal factor choices, with and without stress-energy, all lapses and shifts, all points without coordinate singularity", "why_tests_cant": "a numerical comparison checks single trusted values of a long expression; the identity relates the expression to a different one (the derivative of a nonlinear function of the metric) and holds for all metrics, shifts and coordinate systems only by tensor calculus and flatness of the reference metric", "anchors": ["nrpy/equations/general_relativity/BSSN_RHSs.py:BSSNRHSs", "nrpy/equations/general_relativity/BSSN_constraints.py:BSSNConstraints", "nrpy/equations/general_relativity/T4munu.py"]}
{"id": "C76", "title": "The BSSN right-hand sides preserve the algebraic constraints", "statement": "Under the right-hand sides of hDD and aDD the ratio det(gammabar)/det(gammahat) is advected along the shift, whatever the data, and the trace of Abar obeys d/dt tr = beta^k d_k tr + alpha tr (K - 2/3 tr). Hence if det(gammabar) = det(gammahat) on an open set its time derivative vanishes, and if Abar is tracefree there the time derivative of its trace vanishes.", "quantifier": "all supported coordinate systems, all smooth data with invertible conformal metric, all lapses and shifts, with and without stress-energy, all points without coordinate singularity", "why_tests_cant": "the cancellation between advection, divergence and algebraic terms must hold identically in the metric, the shift and their derivatives; trusted-value tests evaluate each right-hand side at one random point", "anchors": ["nrpy/equations/general_relativity/BSSN_RHSs.py:BSSNRHSs", "nrpy/equations/general_relativity/T4munu.py"]}
{"id": "C77", "title": "Each gauge option evolves lapse and shift by its stated equation, independently of earlier calls", "statement": "BSSN_gauge_RHSs accepts exactly the listed lapse and shift options (harmonic slicing only with phi or W) and raises ValueError otherwise. For each accepted option the unrescaled lapse, shift and B^i evolve by the equation of the option (1+log, its variant, frozen; Gamma-driver of first or second order with partial derivatives or with the covariant derivative of gammabar or gammahat; non-advecting), harmonic slicing keeps alpha - e^{6 phi}, and the result does not depend on which calls were made before in the same process.", "quantifier": "all option strings, all histories of calls, all coordinate systems, all smooth fields, all values of eta, with and without stress-energy", "why_tests_cant": "tests call the function once per option on fresh objects with trusted values; a dependence on earlier calls through the cached quantities shows only for particular histories", "anchors": ["nrpy/equations/general_relativity/BSSN_gauge_RHSs.py:BSSN_gauge_RHSs", "nrpy/equations/general_relativity/BSSN_quantities.py:BSSNQuantities_dict"]}
{"id": "C78", "title": "The code emitted by c_codegen gives every output the value of its expression", "statement": "For any list of expressions and matching output names, c_codegen (without SIMD) succeeds and emits statements in which no name is declared twice or used before its declaration; running them in any state leaves in every output the value its expression has in that state (with the rational constants of a given table, and with outputs marked as scalar temporaries replaced by their expressions), whatever common subexpressions SymPy finds, with or without pre-processing; nothing else changes except temporaries and constants. A mismatch of the numbers of expressions and names raises ValueError.", "quantifier": "all expressions, output names, options, states, and all behaviours of SymPy's cse, collect and rebuilding within stated laws", "why_tests_cant": "tests compare the emitted text for a few expressions; whether pre-processing, cse, back-substitution and pruning together preserve values depends on the shape of the expressions and on the choices of cse", "anchors": ["nrpy/c_codegen.py:c_codegen", "nrpy/c_codegen.py:apply_substitution_dict", "nrpy/helpers/cse_preprocess_postprocess.py:cse_preprocess", "nrpy/helpers/cse_preprocess_postprocess.py:cse_postprocess"]}
{"id": "C79", "title": "Generated finite-difference kernels compute the expressions they were given", "statement": "For every registry of gridfunctions, every list of expressions and every accuracy order, c_codegen(exprs, names, enable_fd_codegen=True) returns a kernel that reads each gridfunction value it needs from memory, and that assigns to each output the value of its expression, where a gridfunction symbol stands for its value at the point, a symbol gf_dDi, gf_dDDij or gf_dKODi for the finite difference of that gridfunction, gf_dupDi for the derivative upwinded by the control vector, and any other symbol for the variable in scope. Every variable of the kernel is declared once and before use, and variables of the surrounding code keep their values. The result does not depend on kernels generated before.", "quantifier": "All sets of registered gridfunctions with clean names, expressions over them, their derivatives and other variables in scope, accuracy orders, memory layouts, control vectors, gridfunction data, with and without pre-processing (golden kernels), without SIMD and without separate derivative functions; all results of SymPy's cse and collect within stated laws; all earlier calls.", "why_tests_cant": "The kernel is assembled from five independently generated parts that share names; a clash or a wrongly matched constant appears only for particular combinations of gridfunctions, operators and expressions. Tests compare the text of a few kernels.", "anchors": ["nrpy/c_codegen.py:c_codegen", "nrpy/c_codegen.py:gridfunction_management_and_FD_codegen", "nrpy/finite_difference.py:proto_FD_operators_to_sympy_expressions", "nrpy/finite_difference.py:FDFunctions_dict"]}
{"id": "C80", "title": "Kernels that call derivative functions compute the same as inline kernels", "statement": "With enable_fd_functions=True, c_codegen returns a kernel that calls one C function for each derivative operator, and fin.construct_FD_functions_prefunc() gives those functions. Every function is emitted once, with distinct parameters, a body in which every name is a parameter or declared before use, and a declared result; every call names an emitted function and passes as many arguments as it has parameters; the arguments are in the order of the parameters, so that each output of the kernel gets the value of its expression, exactly as without the option.", "quantifier": "all registries with clean gridfunction names, expressions, accuracy orders, memory layouts, type names, control vectors and data, with and without pre-processing; all results of SymPy's cse and collect within stated laws", "why_tests_cant": "Parameters are sorted as declarations and arguments as symbols before the gridfunction's name is put in; whether the two orders agree for every operator and order, and whether the replacement touches other parts of the call, depends on the names.", "anchors": ["nrpy/finite_difference.py:FDFunction.c_function_call", "nrpy/finite_difference.py:FDFunction.CFunction_fd_function", "nrpy/finite_difference.py:construct_FD_functions_prefunc", "nrpy/c_codegen.py:gridfunction_management_and_FD_codegen"]}
{"id": "C81", "title": "Scalar wave equation: right-hand sides and exact solutions", "statement": "In every supported coordinate system the right-hand sides of WaveEquationCurvilinear_RHSs are (v, c^2 times the flat Laplacian of u), and those of WaveEquation_RHSs are the same in Cartesian coordinates. WaveEquation_solution_Cartesian('PlaneWave') and ('SphericalGaussian') are exact solutions of that equation, for every wavespeed, direction and width; the expressions for the origin are the limits of the Gaussian there, and far away the Gaussian tends to the values that are registered for the outer boundary.", "quantifier": "all coordinate systems and parameters, all smooth u and v, all points where the coordinates are regular; all wavespeeds, wave vectors other than zero, widths other than zero, times and positions", "why_tests_cant": "Trusted-value tests evaluate the expressions at one pseudo-random point and compare with a number that the same code produced.", "anchors": ["nrpy/equations/wave_equation/WaveEquationCurvilinear_RHSs.py:WaveEquationCurvilinear_RHSs", "nrpy/equations/wave_equation/WaveEquation_RHSs.py:WaveEquation_RHSs", "nrpy/equations/wave_equation/WaveEquation_Solutions_InitialData.py:WaveEquation_solution_Cartesian"]}
{"id": "C82", "title": "The elliptic solver relaxes to data that satisfy the Einstein constraints", "statement": "For punctures with bare masses, momenta and spins, the residual of HyperbolicRelaxationCurvilinearRHSs with the source terms of compute_psi_background_and_ADD_times_AUU vanishes at a point exactly if psi = psi_background + u satisfies the Hamiltonian constraint there, where the metric is psi^4 times the flat one and the extrinsic curvature psi^-2 times the Bowen-York tensor; this tensor is symmetric, tracefree and satisfies the momentum constraint; the stationary states of the relaxation are the states with vanishing residual and v = eta u; the background and the vector behind the tensor are the textbook expressions for punctures at (0, 0, +-zPunc).", "quantifier": "all supported coordinate systems, puncture parameters, smooth u and v, damping parameters, nonzero wave speeds, and regular points other than the punctures", "why_tests_cant": "The source terms are compared with numbers that the same code produced; a wrong tensor gives a solver that converges to data which are not a solution of Einstein's equations.", "anchors": ["nrpy/equations/nrpyelliptic/ConformallyFlat_RHSs.py:HyperbolicRelaxationCurvilinearRHSs", "nrpy/equations/nrpyelliptic/ConformallyFlat_SourceTerms.py:compute_psi_background_and_ADD_times_AUU", "nrpy/equations/nrpyelliptic/ConformallyFlat_SourceTerms.py:ADD_conf_cartesian"]}
{"id": "C83", "title": "Brill-Lindquist data satisfy the constraints", "statement": "InitialData_Cartesian('BrillLindquist') gives a metric and extrinsic curvature that satisfy the vacuum Hamiltonian and momentum constraints everywhere but at the two holes, are flat far away with total mass BH1_mass + BH2_mass, and a lapse psi^-2, for each choice of EvolvedConformalFactor_cf.", "quantifier": "all positions and nonnegative masses, all points other than the holes, the three conformal factors", "why_tests_cant": "Tests compare values at one point with stored numbers; that the constraints hold everywhere is a statement about second derivatives at all points.", "anchors": ["nrpy/equations/general_relativity/InitialData_Cartesian.py:InitialData_Cartesian"]}
{"id": "C84", "title": "Black-hole data in spherical coordinates solve Einstein's equations", "statement": "InitialData_Spherical accepts exactly 'UIUCBlackHole', 'StaticTrumpet' and 'OffsetKerrSchild'. The metric and extrinsic curvature satisfy the vacuum Hamiltonian and momentum constraints. With their own lapse and shift the trumpet and Kerr-Schild data do not change in time; the UIUC data do not with the lapse and shift of the Kerr metric outside the horizon. Mass (and, for UIUC, angular momentum) are those of the parameters. When the gauge is the standard one (always for UIUC, on request for the others) the shift is zero and the lapse is psi^-2, for each choice of EvolvedConformalFactor_cf.", "quantifier": "all masses, spins (below the extremal one for UIUC) and offsets, all points off the axis with r > 0 (r + r0 > 0 for Kerr-Schild), the three conformal factors, all type names", "why_tests_cant": "Tests compare values at one point with stored numbers; that the constraints and the stationarity hold everywhere are statements about second derivatives at all points for all parameters.", "anchors": ["nrpy/equations/general_relativity/InitialData_Spherical.py:InitialData_Spherical", "nrpy/equations/general_relativity/InitialData_Spherical.py:UIUCBlackHole", "nrpy/equations/general_relativity/InitialData_Spherical.py:StaticTrumpet", "nrpy/equations/general_relativity/InitialData_Spherical.py:OffsetKerrSchild"]}
{"id": "C85", "title": "psi4 is the Weyl scalar of the spacetime", "statement": "psi4_re + i psi4_im, evaluated on the evolved variables, is R_abcd n^a mbar^b n^c mbar^d for every choice of the vectors n and m, where R_abcd is the curvature tensor of the spacetime: the Gauss and Codazzi equations express it by the Riemann tensor of the physical metric and by derivatives of the extrinsic curvature, and the vacuum equations give the remaining components. If the constraints hold that tensor has vanishing Ricci tensor, so psi4 is the Weyl scalar Psi_4. The derivatives that the C function psi4_metric_deriv_quantities stores in its arrays are those the C function psi4 reads back.", "quantifier": "every supported coordinate system, conformal-factor choice, smooth fields with invertible conformal metric, point without coordinate singularity, and tetrad; every content of the arrays before", "why_tests_cant": "Tests compare the expression at one random point with a stored value; that the formula is the contraction of the curvature is an identity in second derivatives of arbitrary fields.", "anchors": ["nrpy/equations/general_relativity/psi4.py:Psi4", "nrpy/infrastructures/BHaH/general_relativity/psi4_C_codegen_library.py:register_CFunction_psi4_metric_deriv_quantities"]}
{"id": "C86", "title": "The psi4 tetrad is a null tetrad adapted to the sphere", "statement": "The three spatial vectors are a right-handed orthonormal frame of the physical metric: the first along the rotation about the z axis, the second in the plane of this and the radial direction and pointing outward. The vectors l, n, m built from them satisfy l.l = n.n = m.m = 0, l.n = -1, m.mbar = 1, l.m = n.m = 0 in the spacetime metric; the components are those in the basis of the unit normal, to which the expression of psi4 refers. Only the tetrad 'quasiKinnersley' is accepted. With use_metric_to_construct_unit_normal the vectors are the same but the components refer to the coordinate basis, which is not what psi4 expects.", "quantifier": "every supported coordinate system, conformal-factor choice, smooth fields with positive definite metric, every point off the z axis without coordinate singularity, every lapse and shift", "why_tests_cant": "Orthonormality after Gram-Schmidt is an identity for all metrics and Jacobians; tests check one numeric value.", "anchors": ["nrpy/equations/general_relativity/psi4_tetrads.py:Psi4Tetrads", "nrpy/infrastructures/BHaH/general_relativity/psi4_C_codegen_library.py:register_CFunction_psi4_tetrad"]}
{"id": "C87", "title": "The GRHD equations are the conservation laws", "statement": "With T^{mu nu} = rho h u^mu u^nu + P g^{mu nu} in the spacetime metric that the BSSN variables stand for, the time derivative of each conserved variable plus the divergence of its flux plus the connection term minus the source term is alpha sqrt(gamma/gammahat) times a covariant divergence: of rho u^mu for rho_star, of Y_e rho u^mu for Ye_star, g_{i nu} div T^nu for S_tilde_i, alpha div T^0 minus that of rho u for tau_tilde. The equations together hold at a point exactly when baryon number, electron number, energy and momentum are conserved there. The rescaled quantities are the components along the unit vectors of the coordinates.", "quantifier": "every supported coordinate system, conformal-factor choice, every evolution of smooth BSSN variables with nonzero lapse and det gammabar = det gammahat (for the energy also d_t gamma = -2 alpha K + L_beta gamma), every fluid differentiable in time and smooth in space, every time and every point without coordinate singularity", "why_tests_cant": "The equality is an identity in functions of space and time and in their derivatives; the trusted-value tests compare single numbers with earlier output of the same code.", "anchors": ["nrpy/equations/grhd/GRHD_equations.py:GRHD_Equations"]}
{"id": "C88", "title": "Theta is the expansion of the surface", "statement": "For a surface r = h(theta, phi) and evolved variables with cf = W, Theta is the expansion D_i s^i - gamma^{ij} K_ij + s^i s^j K_ij of the outgoing null rays, where s is the outward unit normal of the surface in the physical metric: of length one and orthogonal to the tangent vectors of the surface. It depends on the surface only, not on the function that describes it. On the black-hole initial data of the same code, converted to evolved variables, it vanishes on the horizon and has the right sign elsewhere: at r = M for the static trumpet, and at r = r_+/4 for the black hole of Liu, Etienne and Shapiro, for every spin. Other coordinate systems than Spherical are rejected.", "quantifier": "every smooth surface, every smooth fields with positive-definite metric and traceless aDD, every point of the surface off the axis; every mass, spin and radius for the black holes", "why_tests_cant": "The tests compare the expression at one random point with a stored value of the same code; that it is the divergence of the unit normal is an identity in arbitrary functions and their derivatives.", "anchors": ["nrpy/equations/general_relativity/bhahaha/ExpansionFunctionTheta.py:ExpansionFunctionThetaClass"]}
{"id": "C89", "title": "The expressions of Y are the spin-weighted spherical harmonics", "statement": "For integers with |s| <= l and |m| <= l, the expression Y(s, l, m, th, ph) is the spin-weighted spherical harmonic of spin weight s, degree l and order m, with its usual phase and normalization: the operator eth maps it to sqrt((l-s)(l+s+1)) times the one of spin weight s+1, the conjugate operator to -sqrt((l+s)(l-s+1)) times the one of spin weight s-1; the angular-momentum operators mix the orders with the usual factors; for fixed s the expressions are orthonormal on the sphere; its complex conjugate is (-1)^(s+m) times the one with s and m negated; for s = m = 0 it is positive at the pole. For s = 0 it is an eigenfunction of the Laplacian of the sphere. For l < |s| it is zero. The form requested for Mathematica has the same value.", "quantifier": "every spin weight, degree and order, every point of the sphere off the axis", "why_tests_cant": "The tests compare a few values of s, l and m at one random point with stored values of the same code; orthonormality and the ladder relations range over all degrees and are statements about integrals and derivatives.", "anchors": ["nrpy/equations/special_functions/spin_weighted_spherical_harmonics.py:Y"]}
{"id": "C90", "title": "The C function for spin weight -2 returns the requested harmonic or ends the program", "statement": "spin_weight_minus2_sph_harmonics, generated for degrees up to swm2sh_maximum_l_mode_generated, returns the real and the imaginary part of the harmonic of spin weight -2, degree l and order m for every l from 0 to that maximum and every m from -l to l, and ends the program with an error message for every other pair, as that message says.", "quantifier": "every maximum degree, every pair of integers l and m, every pair of angles", "why_tests_cant": "There is no test that runs the function; the pairs it must reject are unbounded.", "anchors": ["nrpy/infrastructures/BHaH/special_functions/spin_weight_minus2_spherical_harmonics.py:register_CFunction_spin_weight_minus2_sph_harmonics"]}
{"id": "C91", "title": "The decomposition of psi4 into modes computes the coefficients of its expansion in harmonics", "statement": "For every extraction radius inside the grid, psi4_spinweightm2_decomposition_on_sphlike_grids writes, for each degree from 2 up to the requested maximum and each order, the radius times the inner product over the sphere, by the midpoint rule on the grid's angles, of the harmonic of spin weight -2 with psi4 interpolated in the radial coordinate to that radius. The interpolation is exact for polynomials of the degree of the stencil. As the angular resolution grows the inner product converges to the integral over the sphere, for every continuous psi4, so for a psi4 that is a sum of harmonics it converges to the coefficient; a harmonic of another order contributes nothing at any resolution unless the number of azimuthal points divides the difference of the orders. A degree above the maximum that was generated ends the program.", "quantifier": "every grid size, number of ghost zones, extraction radius, degree and order, and every field psi4", "why_tests_cant": "There are no tests of the decomposition; that it computes the coefficients of the expansion is a statement about a limit over all resolutions and all fields.", "anchors": ["nrpy/infrastructures/BHaH/general_relativity/BSSN_C_codegen_library.py:register_CFunction_psi4_spinweightm2_decomposition_on_sphlike_grids"]}
{"id": "C92", "title": "The initial data of TOVola are a static star that solves Einstein's equations", "statement": "Every solution of the differential equations that TOVola integrates, normalized as TOVola does, gives initial data (lapse, spatial metric, stress-energy tensor, with zero shift and extrinsic curvature) that satisfy the Hamiltonian and momentum constraints, for which the ADM evolution equations give zero time derivatives, and whose stress-energy tensor is conserved, at every point off the axis. Outside the star the data are the vacuum solution of Schwarzschild, again with all these properties; at the surface the interior and the exterior formulas give the same isotropic radius, lapse and metric. The density and energy are those of the polytropic equation of state, obey the first law, and specific enthalpy times lapse is the same at all radii. The values set at the center are the limits of the right-hand side.", "quantifier": "every polytropic constant and exponent above one, every solution between any two radii outside its own horizon, every point off the axis", "why_tests_cant": "The tests compare numbers at a few points with stored results; that the formulas solve Einstein's equations is a statement about every solution and point.", "anchors": ["nrpy/equations/tov/TOV_equations.py:TOV_Equations", "nrpy/infrastructures/BHaH/general_relativity/TOVola/TOVola_solve.py:register_CFunction_TOVola_solve", "nrpy/infrastructures/BHaH/general_relativity/TOVola/TOVola_interp.py:register_CFunction_TOVola_interp"]}
{"id": "C93", "title": "TOVola stores the solution without leaving its arrays and interpolates it exactly between neighbouring radii", "statement": "Whatever the integrator returns and however many steps are allowed, TOVola_solve never accesses memory outside of the arrays it allocated, saves strictly increasing radii with non-negative pressures and the densities of the equation of state, and stops at the first radius with zero pressure or when the steps are used up. The arrays it leaves are those of the saved radii, normalized, preceded by eleven mirror images at negative radii, so radii increase through the whole array and, if the integrator follows a solution, the values are those of one even function of the isotropic radius. For every point inside the star the interpolation returns, and gives the value of the polynomial through the stencil's values, with the point inside the stencil if it has five or more points; outside it gives the exterior solution. A stencil above the maximum size ends the program.", "quantifier": "every integrator, number of steps, equation of state, every set of saved rows, stencil size and point", "why_tests_cant": "There are no tests of the storage; the number of steps is decided by the integrator at run time, and reallocation and stencil positions depend on it.", "anchors": ["nrpy/infrastructures/BHaH/general_relativity/TOVola/TOVola_solve.py:register_CFunction_TOVola_solve", "nrpy/infrastructures/BHaH/general_relativity/TOVola/TOVola_interp.py:register_CFunction_TOVola_interp"]}
{"id": "C94", "title": "The spectral transforms of TwoPunctures are exact: they interpolate any data on the grid and evaluate the interpolant at every point", "statement": "For every number of points, the Chebyshev transform of the values of a polynomial that the points resolve gives coefficients from which the evaluation returns the polynomial at every point, and after the derivative of the coefficients its derivative; the same holds for the variant on the extremal points and for the Fourier transform with its first and second derivatives. For arbitrary data the forward and the inverse transforms undo each other. Whatever data the three-dimensional grid holds, exactly one function that is polynomial in A and B and trigonometric in phi with the resolved degrees has these values, and both evaluations (from the data, and from the stored spectral coefficients) return its value at every point.", "quantifier": "every number of collocation points (even in phi), every polynomial or trigonometric polynomial, every array of data, every point", "why_tests_cant": "The sums and signs depend on the number of points and on the index; a test covers a few sizes and data.", "anchors": ["nrpy/infrastructures/BHaH/general_relativity/TwoPunctures/TP_utilities.py:chebft_Zeros", "nrpy/infrastructures/BHaH/general_relativity/TwoPunctures/TP_utilities.py:chebft_Extremes", "nrpy/infrastructures/BHaH/general_relativity/TwoPunctures/TP_utilities.py:chder", "nrpy/infrastructures/BHaH/general_relativity/TwoPunctures/TP_utilities.py:chebev", "nrpy/infrastructures/BHaH/general_relativity/TwoPunctures/TP_utilities.py:fourft", "nrpy/infrastructures/BHaH/general_relativity/TwoPunctures/TP_utilities.py:fourev", "nrpy/infrastructures/BHaH/general_relativity/TwoPunctures/FuncAndJacobian.py:PunctEvalAtArbitPosition", "nrpy/infrastructures/BHaH/general_relativity/TwoPunctures/FuncAndJacobian.py:SpecCoef"]}
{"id": "C95", "title": "TwoPunctures computes exact derivatives on its grid and addresses the grid without collisions", "statement": "Given the values of functions that the grid resolves (and any values are those of such functions), Derivatives_AB3 stores all first and second derivatives of these functions at all nodes and for all variables, and changes nothing else. Different nodes and variables have different elements, all inside the arrays; for the neighbours across a boundary that the finite differences use, the element is that of a node with the same coordinates.", "quantifier": "every number of variables and points (even in phi), every data, every node and neighbour", "why_tests_cant": "Errors in the order of the sweeps or in the index show only for particular sizes or data; a test runs one grid.", "anchors": ["nrpy/infrastructures/BHaH/general_relativity/TwoPunctures/FuncAndJacobian.py:Derivatives_AB3", "nrpy/infrastructures/BHaH/general_relativity/TwoPunctures/FuncAndJacobian.py:Index"]}
{"id": "C96", "title": "The coordinates of TwoPunctures and its interpolation represent one smooth function of the Cartesian position", "statement": "The coordinate transformations turn the derivatives of any smooth function with respect to (A, B, phi) into its exact first and second Cartesian derivatives at the position of the point. The coordinates that the interpolation computes for a Cartesian position lie in the ranges of the grid and have that position, for every position; for interior coordinates the computation inverts the map. Whatever the grid holds, there is a function of the Cartesian position, smooth off the axis through the punctures, with the values (A - 1) v at the nodes, and both spectral interpolations return its value at every position; the Taylor interpolation returns the second-order Taylor polynomial about a nearest node.", "quantifier": "every distance of the punctures, every interior (A, B, phi), every smooth function, every Cartesian position, every grid size (even in phi) and data", "why_tests_cant": "The chain rule through three transformations and the branches of the inverse (sign of x, quadrant, rounding to the nearest node, reflection at the end of the grid) have to be right at every point; a test samples a few.", "anchors": ["nrpy/infrastructures/BHaH/general_relativity/TwoPunctures/CoordTransf.py:AB_To_XR", "nrpy/infrastructures/BHaH/general_relativity/TwoPunctures/CoordTransf.py:C_To_c", "nrpy/infrastructures/BHaH/general_relativity/TwoPunctures/CoordTransf.py:rx3_To_xyz", "nrpy/infrastructures/BHaH/general_relativity/TwoPunctures/FuncAndJacobian.py:PunctIntPolAtArbitPosition", "nrpy/infrastructures/BHaH/general_relativity/TwoPunctures/FuncAndJacobian.py:PunctIntPolAtArbitPositionFast", "nrpy/infrastructures/BHaH/general_relativity/TwoPunctures/FuncAndJacobian.py:PunctTaylorExpandAtArbitPosition"]}
{"id": "C97", "title": "The residual of TwoPunctures is the Hamiltonian constraint of puncture data and its linearisation is the exact derivative", "statement": "For every content of the grid, the array that F_of_v computes is at every node a positive number times the Hamiltonian constraint equation of the data with the conformal factor of two punctures plus u and the Bowen-York extrinsic curvature, evaluated with the exact Cartesian derivatives of the function u = (A - 1) v that the grid represents; so it vanishes exactly where the data psi^4 delta_ij, psi^-2 A_ij satisfy the Hamiltonian constraint, and the momentum constraint holds everywhere. J_times_dv is the directional derivative of F_of_v. Without regularisation the components of A_ij that the code returns are those of the same tensor.", "quantifier": "every distance, masses, momenta and spins, every grid size (even in phi), every data v and dv, every node", "why_tests_cant": "A wrong coefficient in one derivative or in the tensor can be invisible for symmetric test data or only slow the convergence of the iteration; a test runs one configuration.", "anchors": ["nrpy/infrastructures/BHaH/general_relativity/TwoPunctures/Equations.py:BY_KKofxyz", "nrpy/infrastructures/BHaH/general_relativity/TwoPunctures/Equations.py:BY_Aijofxyz", "nrpy/infrastructures/BHaH/general_relativity/TwoPunctures/Equations.py:NonLinEquations", "nrpy/infrastructures/BHaH/general_relativity/TwoPunctures/Equations.py:LinEquations", "nrpy/infrastructures/BHaH/general_relativity/TwoPunctures/FuncAndJacobian.py:F_of_v", "nrpy/infrastructures/BHaH/general_relativity/TwoPunctures/FuncAndJacobian.py:J_times_dv"]}
{"id": "C98", "title": "At every point TwoPunctures returns the data of its solution in the frame of the evolution code", "statement": "TP_Interp returns at a position the metric psi^4 delta_ij and the extrinsic curvature psi^-2 A_ij of two punctures at the rotated (with swap_xz: reflected) positions around center_offset, with the rotated momenta and spins, where psi contains the masses and the interpolated correction; shift and its derivative vanish. The returned fields satisfy the momentum constraint off the axis, and the Hamiltonian constraint at exactly those grid nodes where the residual of the solver vanishes. Inside TP_Extend_Radius the singular term is replaced by one that joins twice differentiably. The lapse is the one that was asked for. The initialisation gives masses with sum 1 and the given ratio, zero total momentum, spins chi M^2, the given separation and the centre of mass at the origin.", "quantifier": "every distance, masses, momenta, spins, offset, both values of swap_xz, both methods of interpolation, all lapse options, every grid content, every position off the punctures", "why_tests_cant": "The rotation of positions, vectors, pseudovectors and tensor components must match for all momenta and spins; symmetric test data hide an exchanged component, and equal masses hide a wrong offset.", "anchors": ["nrpy/infrastructures/BHaH/general_relativity/TwoPunctures/TP_interp.py:TP_Interp", "nrpy/infrastructures/BHaH/general_relativity/TwoPunctures/ID_persist_struct.py:initialize_ID_persist_struct"]}
{"id": "C99", "title": "The solver of TwoPunctures returns what it reports: residuals below the tolerance, bare masses for the target masses, and the energy and angular momentum of the solution", "statement": "TP_solve changes only the solution, its spectral coefficients and the bare masses, and leaves them consistent, so that interpolation and equations refer to the same data. TP_Newton goes through steps v - d; whenever the linear solver reports success, d solves the linearised equation at v up to a thousandth of the largest residual, independently of the preconditioner; at the end the residual at every node is at most Newton_tol or all iterations have been used. The maximum norm does not depend on the distribution over threads. With give_bare_mass the bare masses are the given ones; otherwise the final bare masses reproduce both target masses exactly for the correction of the last pass. The reported masses of the punctures are the limits of m (psi - m/2r) at the punctures, the reported energy is the limit of 2 r (psi - 1), and the reported angular momentum is the sum of r x P + S.", "quantifier": "every distance, masses, momenta, spins, tolerances, numbers of iterations and grid sizes (even in phi), every behaviour of the tridiagonal solver, every distribution of the loops over threads", "why_tests_cant": "The iteration count and all intermediate arrays depend on the data; a wrong recurrence for the residual in the linear solver only slows down convergence or reports success without it; reported masses and momenta are not used afterwards.", "anchors": ["nrpy/infrastructures/BHaH/general_relativity/TwoPunctures/Newton.py:bicgstab", "nrpy/infrastructures/BHaH/general_relativity/TwoPunctures/Newton.py:TP_Newton", "nrpy/infrastructures/BHaH/general_relativity/TwoPunctures/Newton.py:norm_inf", "nrpy/infrastructures/BHaH/general_relativity/TwoPunctures/TP_solve.py:TP_solve"]}
{"id": "C100", "title": "The preconditioner of TwoPunctures stores the finite-difference Jacobian within its memory, solves each line exactly and is free of races", "statement": "The sparse matrix that the linear solver builds has at most 19 elements in every row, as many as are allocated, with distinct columns that are nodes of the grid, and its product with a vector is the finite-difference Jacobian applied to that vector. The differences are exact for polynomials of second degree in the angles, so that the finite-difference Jacobian then agrees with the linearised Hamiltonian constraint. The relaxation of a line of the grid sets up exactly the equations of its nodes: if the tridiagonal solver succeeds, the equations of the finite-difference Jacobian hold at all nodes of the line afterwards and nothing else has changed. Lines that are relaxed in parallel do not influence each other, so that a sweep does not depend on the schedule.", "quantifier": "every distance, masses, momenta, spins, every grid with at least three planes (any number for the schedules), every node, vector, right-hand side and solution, every behaviour of the tridiagonal solver, every order of the iterations of the parallel loops", "why_tests_cant": "A wrong element of the matrix only slows down or prevents convergence; an overrun of a row or a race depends on grid size and number of threads and is silent.", "anchors": ["nrpy/infrastructures/BHaH/general_relativity/TwoPunctures/FuncAndJacobian.py:JFD_times_dv", "nrpy/infrastructures/BHaH/general_relativity/TwoPunctures/FuncAndJacobian.py:SetMatrix_JFD", "nrpy/infrastructures/BHaH/general_relativity/TwoPunctures/Newton.py:LineRelax_al", "nrpy/infrastructures/BHaH/general_relativity/TwoPunctures/Newton.py:LineRelax_be", "nrpy/infrastructures/BHaH/general_relativity/TwoPunctures/Newton.py:relax", "nrpy/infrastructures/BHaH/general_relativity/TwoPunctures/TwoPunctures.h:StencilSize"]}
{"id": "C101", "title": "Numerical grids are cell-centred and of the requested size, and the time step is the Courant factor times the smallest spacing", "statement": "For every coordinate system, each direction of a grid consists of the midpoints of Nxx equal cells dividing the coordinate range, with NGHOSTS further points on each side; the ends of the range are where grid_physical_size (and grid_hole_radius) say, in space; the number of points is the default or requested one times convergence_factor, rounded down, except in directions with two points, so that a factor k gives k times as many points and spacing divided by k, and for odd k contains the coarse points. No grid point, ghost points included, is on a coordinate singularity. The time step is CFL_FACTOR times the smallest spacing over all grids, points and directions, positive, and independent of the schedule of the threads. Time and iteration numbers are reset in the first call only. The grid of a chare is the corresponding piece of the whole grid.", "quantifier": "all coordinate systems, physical sizes, numbers of points, ghost zones, convergence factors, Courant factors, numbers of grids, thread schedules and chares", "why_tests_cant": "Tests use a few grids; the claim ranges over all sizes, systems and schedules, and singular points at unlucky sizes would give a zero time step or division by zero.", "anchors": ["nrpy/infrastructures/BHaH/numerical_grids_and_timestep.py: numerical_grid_params_Nxx_dxx_xx, cfl_limited_timestep, numerical_grids_and_timestep", "nrpy/reference_metric.py: grid_physical_size_dict, grid_hole_radius_dict, xxmin, xxmax", "nrpy/infrastructures/superB/numerical_grids.py: numerical_grid_params_Nxx_dxx_xx_chare"]}
{"id": "C102", "title": "The initial data reader stores the given slice of spacetime, in the grid's basis, at every grid point", "statement": "If the initial data function returns at every place the components, in its own coordinate system, of the lapse, metric, extrinsic curvature, shift and its time derivative of a slice, then after the reader has run every gridfunction has at every grid point, ghost points included, the value of the corresponding BSSN field of that slice in the orthonormal basis of the grid's coordinates; decoding these values with the formulas of the BSSN equations gives the components of the slice in the grid's coordinates. lambdaU is zero at the ghost points and in the interior the BSSN expression of the finite differences of the stored metric, taken across the coordinate singularities. The functions registered for exact initial data serve spherical coordinates at every place off the axis and Cartesian coordinates at every place, and no other system. The result does not depend on the schedule of the threads, and other arrays are unchanged.", "quantifier": "every slice with a symmetric metric of positive determinant, every coordinate system of the grid and of the data that has a correct inverse map, every origin, grid, number of ghost zones, conformal factor, stencil, numbering of the gridfunctions, initial memory and schedule", "why_tests_cant": "A wrong sign or Jacobian shows only for slices without symmetries; wrong values in ghost zones depend on the coordinate system and grid.", "anchors": ["nrpy/infrastructures/BHaH/general_relativity/ADM_Initial_Data_Reader__BSSN_Converter.py: register_CFunction_exact_ADM_ID_function, Cfunction_ADM_SphorCart_to_Cart, Cfunction_ADM_Cart_to_BSSN_Cart, Cfunction_BSSN_Cart_to_rescaled_BSSN_rfm, Cfunction_initial_data_lambdaU_grid_interior, register_CFunction_initial_data_reader__convert_ADM_Sph_or_Cart_to_BSSN", "nrpy/infrastructures/BHaH/xx_tofrom_Cart.py: register_CFunction_xx_to_Cart"]}
{"id": "C103", "title": "The grid point nearest to a place in space is found", "statement": "Cart_to_xx_and_nearest_i0i1i2 inverts xx_to_Cart: of the place of a grid point it finds its coordinates and indices, and of the place of a ghost point inside the domain the coordinates and indices of the grid point at the same place. Of any coordinate within the outer faces of the grid it finds an index in the grid, within half a step, and no grid point is nearer. With every choice of relative_to the generated function is well-formed.", "quantifier": "every coordinate system with a correct inverse map, every grid, origin, grid point and coordinate", "why_tests_cant": "Rounding at cell faces and below the first point depends on the place; the second value of relative_to is used by no test.", "anchors": ["nrpy/infrastructures/BHaH/xx_tofrom_Cart.py: register_CFunction__Cart_to_xx_and_nearest_i0i1i2, register_CFunction_xx_to_Cart"]}
{"id": "C104", "title": "The diagnostics write the grid points nearest to the axis, the plane or the centre, each once, in order", "statement": "The 1D output along the y or z axis writes one line for each of the interior grid points that are nearest to the axis at their place along it, on both halves of the axis, each point once, ordered along the axis; the 2D output does the same for the xy and yz planes; the 0D output writes an interior grid point nearest to the grid's centre. Each line has the Cartesian coordinates of the point and the values of the quantities at that point. The fprintf call has one conversion per argument, %d exactly for int.", "quantifier": "every coordinate system and parameters, every grid size and number of ghost zones, every axis and plane, every origin, values of the quantities, previous contents of the arrays, list of quantities", "why_tests_cant": "Tests compare the generated text for a few systems with stored text; that the chosen indices are the nearest points depends on the maps of each coordinate system and on the number of points modulo four.", "anchors": ["nrpy/infrastructures/BHaH/simple_loop.py:simple_loop_1D", "nrpy/infrastructures/BHaH/simple_loop.py:max_numpts__i012_pts__numpts_2D", "nrpy/infrastructures/BHaH/simple_loop.py:simple_loop_2D", "nrpy/infrastructures/BHaH/diagnostics/output_0d_1d_2d_nearest_gridpoint_slices.py"]}
{"id": "C105", "title": "Kernels that read the precomputed reference metric compute the same hatted quantities", "statement": "A reference-metric expression built from numbers, sums, products and powers of the functions of one coordinate and their derivatives of any order has, in a kernel that reads the precomputed arrays of rfm_struct, at every grid point the value that it has in terms of the coordinate system's functions; with SIMD each lane has the value of its own point. This does not depend on the previous contents of the memory nor on the order of the variables. The symbols of the final expressions are arrays of rfm_struct or parameters of the coordinate system. Every array is allocated once and freed once, filled completely, and written and read within its allocation. rfm_struct declares exactly the arrays of the registered coordinate systems, each once.", "quantifier": "every list of expressions, every order of derivatives, every functions of the coordinate system, parameters, grid sizes, coordinates, grid point, lane, previous memory, and order of the variables", "why_tests_cant": "Tests compare generated text for a few systems; that the names given to derivatives are read back as the same derivatives, and that the arrays have the right values at every point, is a statement about all expressions and points.", "anchors": ["nrpy/reference_metric.py:make_replacements", "nrpy/reference_metric.py:ReferenceMetric.__init__", "nrpy/infrastructures/BHaH/rfm_precompute.py:ReferenceMetricPrecompute", "nrpy/infrastructures/BHaH/rfm_precompute.py:register_CFunctions_rfm_precompute"]}
{"id": "C106", "title": "Generated thorns declare, pair, tag and bound the registered gridfunctions", "statement": "A generated evolution thorn declares every registered gridfunction of the groups EVOL, AUXEVOL and AUX, and the right-hand side of every evolved one, each exactly once. In the pair of groups given to the time integrator every evolved gridfunction is at the same place as its own right-hand side. The parities that an ETLegacy thorn registers, and the parity tags of a CarpetX thorn, are the signs of the tensor component under the reflections of the three axes. Exactly the right-hand sides are set to zero at the start of a step; radiation conditions are applied once to each evolved gridfunction with its own value at infinity and speed; boundary conditions are registered once for each evolved and auxiliary gridfunction.", "quantifier": "every registry of gridfunctions with distinct names, every rank up to two, dimension, index and order of finite differences", "why_tests_cant": "Tests run the generators for a few fixed thorns; the parities of every component and the pairing for every registry are statements about all registries.", "anchors": ["nrpy/infrastructures/ETLegacy/interface_ccl.py:construct_interface_ccl", "nrpy/infrastructures/CarpetX/interface_ccl.py:construct_interface_ccl", "nrpy/infrastructures/ETLegacy/Symmetry_registration.py:register_CFunction_Symmetry_registration_oldCartGrid3D", "nrpy/infrastructures/ETLegacy/MoL_registration.py:register_CFunction_MoL_registration", "nrpy/infrastructures/ETLegacy/boundary_conditions.py", "nrpy/infrastructures/ETLegacy/zero_rhss.py:register_CFunction_zero_rhss", "nrpy/infrastructures/CarpetX/boundary_conditions.py", "nrpy/infrastructures/CarpetX/zero_rhss.py"]}
{"id": "C107", "title": "schedule.ccl, param.ccl and make.code.defn of a thorn contain what is registered", "statement": "For a thorn with registered schedule entries, schedule.ccl contains every entry registered for the thorn and every extra entry exactly once, with FUNC_NAME replaced by the name of the function; entries of the known bins come first, bin by bin (bins compared without case), each bin under one numbered header, sorted by function name; then the rest. Without registered entries a KeyError is raised. param.ccl declares exactly the parameters used by functions of the thorn, each once, sorted, with registered type and default; unregistered parameters raise KeyError. make reads from make.code.defn exactly the source files that are written, one for each function in the thorn's directory, with its text.", "quantifier": "every dictionary of functions, thorn, list of extra entries, parameter registry", "why_tests_cant": "Tests generate a few thorns; that no entry is lost or repeated for every registry, and that the makefile is read back as the written files, are statements about all registries.", "anchors": ["nrpy/infrastructures/ETLegacy/schedule_ccl.py:construct_schedule_ccl", "nrpy/infrastructures/CarpetX/schedule_ccl.py:construct_schedule_ccl", "nrpy/infrastructures/ETLegacy/param_ccl.py:construct_param_ccl", "nrpy/infrastructures/CarpetX/param_ccl.py:construct_param_ccl", "nrpy/infrastructures/ETLegacy/make_code_defn.py:output_CFunctions_and_construct_make_code_defn"]}
{"id": "C108", "title": "Functions of a thorn read the values of their parameters", "statement": "In the C code for reading parameters each listed parameter is a variable that has the value of this parameter in the listed thorn, with and without SIMD, and invdxx0, invdxx1, invdxx2 are the inverse grid spacings; the code declares no variable twice.", "quantifier": "every list of (thorn, parameter), registry, values of parameters, grid spacings, with and without SIMD, both toolkits", "why_tests_cant": "The tests compare text for two real parameters; the values that the code computes for all lists and types are not tested.", "anchors": ["nrpy/infrastructures/ETLegacy/CodeParameters.py:read_CodeParameters", "nrpy/infrastructures/CarpetX/CodeParameters.py:read_CodeParameters"]}
{"id": "C109", "title": "The relaxation of NRPyElliptic ends, stops for the stated reasons, survives a crash, and its wave speed obeys the Courant condition", "statement": "A relaxation run ends after at most nn_max steps whatever the time step and final time; it makes the smallest number of steps after which iterations, tolerance or final time give reason to stop; the file of residuals has one line per iteration with the residual of that iteration's data; a run that is killed and started again ends with the same data; the wave speed times the time step is at most MINIMUM_GLOBAL_WAVESPEED times the spacing and nowhere below MINIMUM_GLOBAL_WAVESPEED; the residual that is compared with the tolerance is the L2 norm, over the volume within the radius, of the residual of the final data.", "quantifier": "every data type, time-stepping map, residual, tolerance, nn_max, dt, t_final, output period, moment of a crash; every coordinate system, resolution, residual field, distribution of the loop over threads", "why_tests_cant": "The generated code is never run in the tests; the number of steps, crash points and grids are unbounded.", "anchors": ["nrpy/infrastructures/BHaH/nrpyelliptic/conformally_flat_C_codegen_library.py", "nrpy/infrastructures/BHaH/main_c.py:register_CFunction_main_c", "nrpy/examples/nrpyelliptic_conformally_flat.py"]}
{"id": "C110", "title": "The progress indicator shows the remaining time", "statement": "The progress indicator prints in the iterations that are multiples of output_progress_every, nothing if that is not positive; the hours, minutes and seconds it shows add up to the remaining time extrapolated from the elapsed one, with minutes and seconds below 60.", "quantifier": "every iteration, simulated time, final time, wall-clock time and period", "why_tests_cant": "The tests compare the text of the generated C function; the values are not computed.", "anchors": ["nrpy/infrastructures/BHaH/diagnostics/progress_indicator.py:register_CFunction_progress_indicator"]}
{"id": "C111", "title": "Inner boundary conditions on a distributed grid give the values of the whole grid", "statement": "When the grid is divided among chares, every inner boundary point receives, in each round, the value of its partner point (wherever that is stored) times the parity of the gridfunction, and no other point changes; no array is left and every message has a place, in whatever order requests and data arrive; consecutive rounds do not mix, and moving a chare to another processor or restarting from a checkpoint changes nothing.", "quantifier": "every distribution of the points over chares, every list of inner boundary points, gridfunctions, parities and lists of gridfunctions to synchronise, every order of arrival of requests and data, every interleaving of chares over consecutive rounds", "why_tests_cant": "Parallel runs with migration are not part of the tests; orders of arrival and interleavings are unbounded and not reproducible.", "anchors": ["nrpy/infrastructures/superB/CurviBoundaryConditions.py", "nrpy/infrastructures/superB/timestepping_chare.py:generate_process_nonlocalinnerbc_code", "nrpy/infrastructures/superB/superB/superB_pup.py"]}
{"id": "C112", "title": "The chares together write each diagnostics file completely and in order", "statement": "In a distributed run each file of values along an axis or in a plane holds one line for each point of the axis or plane, in the order of the serial code, whatever the division of the grid and the order in which the chares write; each line is written once, by the chare that owns the point, with coordinates and quantities of that point; the file has the length announced when it was opened.", "quantifier": "every list of points, division of the grid, number of quantities, values, order of the writes, and content of uninitialised memory", "why_tests_cant": "No parallel run is part of the tests; orders of writes and values are unbounded.", "anchors": ["nrpy/infrastructures/superB/output_0d_1d_2d_nearest_gridpoint_slices.py", "nrpy/infrastructures/superB/timestepping_chare.py:generate_diagnostics_code"]}
{"id": "C113", "title": "Reductions on graphics cards find the sum, minimum and maximum", "statement": "The generated functions return the sum, the minimum or the maximum of an array on the card: each number of the array is combined exactly once, whatever the order of the blocks and warps and the content of shared memory; minimum and maximum are numbers of the array that no number of the array is below or above.", "quantifier": "every array length, content (bit patterns of double), number of warps in a block, order of blocks and warps, and content of shared memory", "why_tests_cant": "The tests compare the generated text only; no card runs. Schedules and arrays are unbounded.", "anchors": ["nrpy/helpers/gpu/cuda_utilities.py:CUDA_reductions", "nrpy/helpers/gpu/cuda_utilities.py:minimum_reduction", "nrpy/helpers/gpu/cuda_utilities.py:register_CFunction_find_global_minimum", "nrpy/helpers/gpu/cuda_utilities.py:register_CFunction_find_global_sum"]}
{"id": "C114", "title": "Kernels are launched on the whole grid with the declared arguments, and gridfunctions are copied to the index asked for", "statement": "The call generated for a kernel passes the variables of its declared parameters in order, with the launch settings given; default settings give every point exactly one thread; settings can be used for several kernels. A copy between host and card makes the gridfunction asked for equal to the source gridfunction and changes no other.", "quantifier": "every name, parameter list, launch settings, grid size, number of threads, content of memory and pair of indices", "why_tests_cant": "The doctests print a few kernels; the doctest of the copy to the card prints the copy to the host. Indices, contents and settings are unbounded.", "anchors": ["nrpy/helpers/gpu/gpu_kernel.py:GPU_Kernel", "nrpy/helpers/gpu/cuda_utilities.py:register_CFunction_cpyDevicetoHost__gf", "nrpy/helpers/gpu/cuda_utilities.py:register_CFunction_cpyHosttoDevice__gf"]}
{"id": "C115", "title": "Parameters have their registered defaults at the start, and functions read the values of the structs", "statement": "When a program starts, each common parameter and each parameter of each grid has the default value with which it was registered, and nothing else is changed; parameters are members of the struct they belong to; a default of the wrong type is refused; in each function that includes a parameter header the variable of a parameter has the value of the struct.", "quantifier": "every set of registered parameters, defaults, order of the generated statements, number of grids, content of memory", "why_tests_cant": "The doctests print the code for a few parameters; sets of parameters, defaults, memory contents and numbers of grids are unbounded.", "anchors": ["nrpy/infrastructures/BHaH/CodeParameters.py:register_CFunctions_params_commondata_struct_set_to_default", "nrpy/infrastructures/BHaH/CodeParameters.py:write_CodeParameters_h_files", "nrpy/infrastructures/BHaH/BHaH_defines_h.py:output_BHaH_defines_h", "nrpy/infrastructures/BHaH/main_c.py:register_CFunction_main_c", "nrpy/infrastructures/BHaH/numerical_grids_and_timestep.py:register_CFunction_numerical_grids_and_timestep"]}
{"id": "C116", "title": "What the Makefile builds is the registered functions", "statement": "After a project is written and compiled, the executable or library consists of the object code of each registered function, each once, compiled from its present C code with the flags and the compiler asked for, whatever files earlier runs left behind; compilation succeeds exactly if each function compiles and the linker succeeds; a call that returns leaves the executable in place and the caller in their directory; if the first attempt fails a second one is made with the flags for debugging; wrong arguments are refused; writing again writes the same.", "quantifier": "all dictionaries of functions, subdirectories, prefixes, extensions, options, compilers and linkers (also failing ones), and all files left by earlier runs", "why_tests_cant": "Tests compile one new project on one machine; names, left files, failing compilers and their combinations are unbounded.", "anchors": ["nrpy/infrastructures/BHaH/Makefile_helpers.py: output_CFunctions_function_prototypes_and_construct_Makefile, compile_Makefile"]}
{"id": "C117", "title": "A run frees all memory it allocates, once", "statement": "A run of the generated program, from the allocation of the grids to the end of main, never frees a pointer that was not set or was freed before, never uses a grid that does not exist, and at the end has freed every block it allocated; the same holds for the library from bhah_initialize to bhah_finalize. Runs that start from a checkpoint or write checkpoints are no exception.", "quantifier": "all numbers of grids, ghost zones, precomputed arrays and gridfunctions, with and without boundary conditions and precomputation, all orders of initial data and allocation, all histories of time steps and checkpoints", "why_tests_cant": "A test runs one configuration and leaks and frees of dangling pointers are not visible in its output; histories of checkpoints are unbounded.", "anchors": ["nrpy/infrastructures/BHaH/main_c.py: register_CFunction_main_c", "nrpy/infrastructures/BHaH/griddata_commondata.py: register_CFunction_griddata_free", "nrpy/infrastructures/BHaH/bhah_lib.py: register_CFunction_bhah_initialize, register_CFunction_bhah_finalize", "nrpy/infrastructures/BHaH/checkpointing.py: register_CFunction_read_checkpoint, register_CFunction_write_checkpoint"]}
{"id": "C118", "title": "BHaH_defines.h has every registered definition once, in the order of dependence", "statement": "After any registrations, the written header has, for each module, exactly the texts registered under its name in the order of registration, each module once: first the core modules in the fixed order, so that the struct of a grid comes after the structs it contains, then the others in alphabetical order, then what the caller adds. The order in which different modules register does not matter. The header can be written again.", "quantifier": "all histories of registrations of any modules with any texts, all arguments", "why_tests_cant": "Tests compare one header with a trusted one for one order of imports; orders of registration and module names are unbounded.", "anchors": ["nrpy/infrastructures/BHaH/BHaH_defines_h.py: register_BHaH_defines, output_BHaH_defines_h, register_griddata_struct_and_return_griddata_struct_str", "nrpy/infrastructures/BHaH/griddata_commondata.py: register_griddata_commondata"]}
{"id": "C119", "title": "A run makes the right number of steps and diagnoses each state", "statement": "A run ends; its last state is the first one whose time is not before the final time; diagnostics are called for every state up to the final one, each once and in order; a run started again from a checkpoint, or an evolution split into several calls of the library, ends in the same state with the same diagnostics; all functions that main calls are registered if main is.", "quantifier": "all steps, final times, initial data and right-hand sides, all points of restart, all sequences of final times", "why_tests_cant": "Tests run a few steps; final times that are or are not multiples of the step, and points of restart, are unbounded.", "anchors": ["nrpy/infrastructures/BHaH/main_c.py: register_CFunction_main_c", "nrpy/infrastructures/BHaH/bhah_lib.py: register_CFunction_bhah_evolve", "nrpy/infrastructures/BHaH/MoLtimestepping/MoL.py: register_CFunction_MoL_step_forward_in_time"]}
