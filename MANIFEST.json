{
 "claims": [
  {
   "property": "C01",
   "status": "proved",
   "theorems": [
    "Verif.Params.C01_read_back",
    "Verif.Params.C01_failed_call_changes_nothing"
   ],
   "note": "Every history of register/set/read calls."
  },
  {
   "property": "C02",
   "status": "partial",
   "theorems": [
    "Verif.Params.C02_qualified_read",
    "Verif.Params.C02_qualified_write_fails",
    "Verif.Params.C02_qualified_names_partial"
   ],
   "note": "Reading through any qualified name is proved; writing through a qualified name always raises in the code (C02_qualified_write_fails), so the full statement is false."
  },
  {
   "property": "C03",
   "status": "partial",
   "theorems": [
    "Verif.Params.C03_structural",
    "Verif.Params.C03_consistent_partial",
    "Verif.Params.C03_adjust_breaks_parfile_clause"
   ],
   "note": "Invariant proved for all histories except that adjusting a default to \"unset\" violates the parfile clause (witness theorem)."
  },
  {
   "property": "C04",
   "status": "proved",
   "theorems": [
    "Verif.Params.C04_batch",
    "Verif.Params.C04_accepts",
    "Verif.Params.C04_batch_not_atomic"
   ],
   "note": "Batch registration equals the sequence of single registrations; a failing batch is not atomic (witness)."
  },
  {
   "property": "C05",
   "status": "proved",
   "theorems": [
    "Verif.CFunction.C05_first_registration_wins",
    "Verif.CFunction.C05_failure",
    "Verif.CFunction.C05_definition_matches_prototype",
    "Verif.CFunction.C05_empty_name_accepted_with_coord_system"
   ],
   "note": "First acceptable call wins for every history; failures change nothing. Side finding: an empty name with a coordinate system is accepted."
  },
  {
   "property": "C06",
   "status": "proved",
   "theorems": [
    "Verif.CFunction.C06_include_path_reaches_root",
    "Verif.CFunction.C06_include_line",
    "Verif.CFunction.C06_climbing_subdirectory_fails"
   ],
   "note": "All relative subdirectories that stay inside the project; witness shows the restriction is needed."
  },
  {
   "property": "C07",
   "status": "proved",
   "theorems": [
    "Verif.CFunction.C07_wrapper_dispatch",
    "Verif.CFunction.C07_succeeds"
   ],
   "note": "Under distinct hashes and distinct macro names, on well-named registries."
  },
  {
   "property": "C08",
   "status": "proved",
   "theorems": [
    "Verif.Grid.C08_indices",
    "Verif.Grid.C08_order_independent",
    "Verif.Grid.C08_arrays",
    "Verif.Grid.C08_case_collision"
   ],
   "note": "Indices are 0..N-1 in a list without repetitions of exactly the group's gridfunctions, macro names pairwise distinct, independent of registration order, arrays aligned. Requires names distinct ignoring case; C08_case_collision shows the condition is needed (two definitions of one macro)."
  },
  {
   "property": "C09",
   "status": "partial",
   "theorems": [
    "Verif.Grid.C09_parity_partial",
    "Verif.Grid.C09_symmetric",
    "Verif.Grid.C09_same_type_same_sign",
    "Verif.Grid.C09_list",
    "Verif.Grid.C09_rank1_dimension4"
   ],
   "note": "Proved for rank 0 and 2 in dimension 3 and 4 and rank 1 in dimension 3. False in the code for rank 1 in dimension 4 (C09_rank1_dimension4)."
  },
  {
   "property": "C10",
   "status": "partial",
   "theorems": [
    "Verif.Grid.C10_first_wins",
    "Verif.Grid.C10_reachable",
    "Verif.Grid.C10_register",
    "Verif.Grid.C10_rank1_partial",
    "Verif.Grid.C10_rank1_dimension",
    "Verif.Grid.C10_rank2",
    "Verif.Grid.C10_rankN",
    "Verif.Grid.C10_component_names",
    "Verif.Grid.C10_antisymmetric_registers_zero"
   ],
   "note": "Rank 1 registers its components only in dimension 3 (the loop is over range(3)): C10_rank1_dimension. Antisymmetric declarations register a gridfunction named 0: C10_antisymmetric_registers_zero."
  },
  {
   "property": "C11",
   "status": "proved",
   "theorems": [
    "Verif.IndexedExp.C11_symmetrize",
    "Verif.IndexedExp.C11_requests_complete",
    "Verif.IndexedExp.C11_overlapping_pairs_fail"
   ],
   "note": "Proved for every supported symmetry request (ranks 2-4), every dimension and every tensor over a commutative ring. Overlapping pair requests (such as sym02_sym12) are shown not to be honoured."
  },
  {
   "property": "C12",
   "status": "proved",
   "theorems": [
    "Verif.IndexedExp.C12_distinct_components",
    "Verif.IndexedExp.C12_all_entries",
    "Verif.IndexedExp.C12_distinct_up_to_symmetry",
    "Verif.IndexedExp.C12_collision_above_ten"
   ],
   "note": "Any rank, dimension at most ten; the bound is shown necessary by a twelve-dimensional collision. character_zero_index is not modelled."
  },
  {
   "property": "C13",
   "status": "proved",
   "theorems": [
    "Verif.IndexedExp.C13_non_derivative",
    "Verif.IndexedExp.C13_first_derivative",
    "Verif.IndexedExp.C13_second_derivative",
    "Verif.IndexedExp.C13_tensor_first",
    "Verif.IndexedExp.C13_tensor_second",
    "Verif.IndexedExp.C13_rank_check",
    "Verif.IndexedExp.C13_name_with_d_is_zeroed"
   ],
   "note": "Holds when the base name does not contain _d; a name such as v_dampU is shown to lose components although it is not a derivative."
  },
  {
   "property": "C14",
   "status": "proved",
   "theorems": [
    "Verif.IndexedExp.C14_generic2",
    "Verif.IndexedExp.C14_generic3",
    "Verif.IndexedExp.C14_generic4",
    "Verif.IndexedExp.C14_symm2",
    "Verif.IndexedExp.C14_symm3",
    "Verif.IndexedExp.C14_symm4",
    "Verif.IndexedExp.C14_symm_reads_upper_triangle"
   ],
   "note": "Formulas transcribed mechanically from the source."
  },
  {
   "property": "C15",
   "status": "proved",
   "theorems": [
    "Verif.IndexedExp.C15_symbol_of_permutation",
    "Verif.IndexedExp.C15_symbol_repeated",
    "Verif.IndexedExp.C15_contraction",
    "Verif.IndexedExp.C15_determinant",
    "Verif.IndexedExp.C15_antisymmetric"
   ],
   "note": ""
  },
  {
   "property": "C16",
   "status": "proved",
   "theorems": [
    "Verif.FD.C16_first_derivative",
    "Verif.FD.C16_second_derivative",
    "Verif.FD.C16_lu_inverse"
   ],
   "note": "Stencils of dD<d> and dDD<d><d> returned by the coefficient routine are exact on polynomials of degree <= fd_order, every even order, over any field of characteristic 0; the matrix has nonzero leading minors so any LU factorisation gives the modelled inverse."
  },
  {
   "property": "C17",
   "status": "proved",
   "theorems": [
    "Verif.FD.C17_one_sided",
    "Verif.FD.C17_mirror"
   ],
   "note": "Upwind, downwind and fully one-sided first-derivative stencils: exactness, reach, and mirror symmetry, every even order."
  },
  {
   "property": "C18",
   "status": "proved",
   "theorems": [
    "Verif.FD.C18_mixed_derivative"
   ],
   "note": "Mixed second derivatives: exact on every polynomial of degree <= fd_order in each variable."
  },
  {
   "property": "C19",
   "status": "proved",
   "theorems": [
    "Verif.FD.C19_kreiss_oliger"
   ],
   "note": "KO stencil: support, symmetry, annihilates degree < fd_order+2, Fourier symbol -sin^(fd_order+2)(theta/2), every even order."
  },
  {
   "property": "C20",
   "status": "proved",
   "theorems": [
    "Verif.FD.C20_distinct_offsets",
    "Verif.FD.C20_distinct_gridfunctions",
    "Verif.FD.C20_collision"
   ],
   "note": "Two gridfunctions collide only if one name already contains an offset marker; C20_collision exhibits such a pair."
  },
  {
   "property": "C21",
   "status": "proved",
   "theorems": [
    "Verif.FD.C21_reads",
    "Verif.FD.C21_both_kinds",
    "Verif.FD.C21_index_text"
   ],
   "note": "Memory order holds for offsets within the code's own limit of 49 points."
  },
  {
   "property": "C22",
   "status": "proved",
   "theorems": [
    "Verif.FD.C22_split",
    "Verif.FD.C22_rejects_stem",
    "Verif.FD.C22_split_all"
   ],
   "note": "C22_rejects_stem: a D or U in the stem of the name makes parsing fail."
  },
  {
   "property": "C23",
   "status": "proved",
   "theorems": [
    "Verif.FD.C23_upwind",
    "Verif.FD.C23_unset_control",
    "Verif.FD.C23_control_not_read"
   ],
   "note": "Proved for the whole generated program. C23_unset_control and C23_control_not_read show what happens when the control vector is missing or is not used by the expressions."
  },
  {
   "property": "C24",
   "status": "proved",
   "theorems": [
    "Verif.CSE.C24_postprocess",
    "Verif.CSE.C24_solution_exists",
    "Verif.CSE.C24_execution"
   ],
   "note": "For every list of replacements and reduced expressions with distinct new symbols and no cyclic definitions, the replacements returned can be executed in order, every symbol is assigned before it is used, and the outputs have the values the input system determines. SymPy's re-evaluation after xreplace is an arbitrary function assumed to keep values and add no symbols."
  },
  {
   "property": "C25",
   "status": "partial",
   "theorems": [
    "Verif.CSE.C25_value",
    "Verif.CSE.C25_declared_partial",
    "Verif.CSE.C25_table",
    "Verif.CSE.C25_undeclared",
    "Verif.CSE.C25_fraction",
    "Verif.CSE.C25_symbolic"
   ],
   "note": "Full claim proved when minus one is not declared as a symbol (sp.collect a parameter assumed value-preserving). With minus one declared, the symbol _Integer_1 may be used without being in the table (C25_undeclared), fractional powers of minus one are changed (C25_fraction) and symbolic ones raise (C25_symbolic); C25_declared_partial excludes these."
  },
  {
   "property": "C26",
   "status": "partial",
   "theorems": [
    "Verif.SIMD.C26_value_partial",
    "Verif.SIMD.C26_terminates",
    "Verif.SIMD.C26_repeated_summand"
   ],
   "note": "Value preservation over the reals for every table and expression, with SymPy's evaluation of sums and products an arbitrary function within stated laws; the conversion terminates on every expression. Excluded: sums with summands equal as functions (C26_repeated_summand shows the converted code then loses a summand), identically zero exponents, floating-point rounding."
  },
  {
   "property": "C27",
   "status": "partial",
   "theorems": [
    "Verif.SIMD.C27_declared_partial",
    "Verif.SIMD.C27_half_power",
    "Verif.SIMD.C27_other_one",
    "Verif.SIMD.C27_clean"
   ],
   "note": "Every symbol of the converted expression comes from the input or is declared by the table, except in three cases proved to violate the property: exponents -1/2, -3/2, -5/2 with no one in the table; a table with the value one under another name; clean-up of minus ones that a temporary still uses."
  },
  {
   "property": "C28",
   "status": "proved",
   "theorems": [
    "Verif.Sympy.Tree.C28_round_trip",
    "Verif.Sympy.Tree.C28_edit",
    "Verif.Sympy.Tree.C28_preorder",
    "Verif.Sympy.Tree.C28_postorder"
   ],
   "note": "ExprTree build/reconstruct is the identity on every expression, editing the expression at a node and reconstructing replaces exactly that subexpression, and both traversals visit every subexpression occurrence exactly once in the documented order."
  },
  {
   "property": "C29",
   "status": "proved",
   "theorems": [
    "Verif.Helpers.C29_superfast_uniq",
    "Verif.Helpers.C29_uniquify",
    "Verif.Helpers.C29_unique"
   ],
   "note": "Both helpers meet the same specification, which determines the result."
  },
  {
   "property": "C30",
   "status": "partial",
   "theorems": [
    "Verif.Helpers.C30_product_partial",
    "Verif.Helpers.C30_repeat_partial",
    "Verif.Helpers.C30_single_fails",
    "Verif.Helpers.C30_strings_fail"
   ],
   "note": "Proved for two or more iterables (or repeat >= 2) whose elements Python does not iterate over. False in general: one iterable of numbers raises TypeError, multi-character strings are split into characters (both proved)."
  },
  {
   "property": "C31",
   "status": "partial",
   "theorems": [
    "Verif.Loop.C31_untiled",
    "Verif.Loop.C31_tiled_partial",
    "Verif.Loop.C31_tiled_increment",
    "Verif.Loop.C31_text",
    "Verif.Loop.C31_lengths"
   ],
   "note": "Loop nests as emitted, run by a small operational semantics of C for loops. Untiled nests visit exactly the lexicographic grid; tiled nests visit the same set, each point once, when the increment divides the tile size. C31_tiled_increment shows the claim is false of the code otherwise (increment 2, tile 3)."
  },
  {
   "property": "C32",
   "status": "partial",
   "theorems": [
    "Verif.Helpers.C32_content_partial",
    "Verif.Helpers.C32_again",
    "Verif.Helpers.C32_nochange",
    "Verif.Helpers.C32_succeeds",
    "Verif.Helpers.C32_line_ends",
    "Verif.Helpers.C32_exception",
    "Verif.Helpers.C32_not_created",
    "Verif.Helpers.C32_carriage_return"
   ],
   "note": "Proved for every content without carriage return and every file state: content after the block, no second write, untouched files, no-change mode. Violated, with theorems: an exception in the block still writes the partial content (C32_exception); white-space-only content does not create the file (C32_not_created); content with an inner carriage return is rewritten every time (C32_carriage_return)."
  },
  {
   "property": "C33",
   "status": "partial",
   "theorems": [
    "Verif.Helpers.C33_fresh",
    "Verif.Helpers.C33_crash_partial",
    "Verif.Helpers.C33_keys",
    "Verif.Helpers.C33_stuck",
    "Verif.Helpers.C33_collision"
   ],
   "note": "Fresh results for every history without crashes when file names determine calls; with crashes never a wrong value. Violated, with theorems: a crash during the write makes the call fail for ever (C33_stuck); key is code and options without separator (C33_collision)."
  },
  {
   "property": "C34",
   "status": "partial",
   "theorems": [
    "Verif.Helpers.C34_schedule_partial",
    "Verif.Helpers.C34_keys",
    "Verif.Helpers.C34_duplicate",
    "Verif.Helpers.C34_append",
    "Verif.Helpers.C34_stale"
   ],
   "note": "Every schedule and assignment of consistent tasks gives the sequential registries. Violated, with theorems: duplicates go unnoticed on different workers, appended text is lost, changes of existing entries are undone by later finishers."
  },
  {
   "property": "C35",
   "status": "partial",
   "theorems": [
    "Verif.Helpers.mark_iff",
    "Verif.Helpers.C35_run",
    "Verif.Helpers.C35_shapes",
    "Verif.Helpers.C35_plain",
    "Verif.Helpers.C35_commented_partial",
    "Verif.Helpers.C35_indentation",
    "Verif.Helpers.C35_blank_comment",
    "Verif.Helpers.C35_close_joins"
   ],
   "note": "Every file splits into complete blocks and a tail, complete blocks are executed in order, broken ones never; marker lines characterised; scripts in open comments recovered exactly. Commented lines: only for code without own indentation. Violated, with theorems: indentation after a comment mark is lost, a commented blank line and a line closed by */ lose their line end."
  },
  {
   "property": "C36",
   "status": "proved",
   "theorems": [
    "Verif.MoL.C36_step_is_RK",
    "Verif.MoL.C36_dictionary",
    "Verif.MoL.C36_adaptive_refused",
    "Verif.MoL.C36_inadmissible"
   ],
   "note": "Every explicit table meeting Admissible: the generated step succeeds and performs one RK step on each grid; all fifteen non-adaptive dictionary tables meet it; adaptive ones are refused; witnesses show the storage-saving algorithms are wrong outside Admissible."
  },
  {
   "property": "C37",
   "status": "partial",
   "theorems": [
    "Verif.MoL.C37_buffers",
    "Verif.MoL.C37_diagnostics_partial",
    "Verif.MoL.C37_euler_diagnostic"
   ],
   "note": "Time-step buffers, malloc and free proved for every table. The second diagnostics pointer is dangling for Euler (witness), hence partial."
  },
  {
   "property": "C38",
   "status": "proved",
   "theorems": [
    "Verif.MoL.C38_order",
    "Verif.MoL.C38_embedded_order",
    "Verif.MoL.C38_DP8_order",
    "Verif.MoL.C38_ADP8_embedded"
   ],
   "note": "Order conditions for all rooted trees; DP8 is given with truncated decimals and meets its conditions up to 1/(5e16)."
  },
  {
   "property": "C39",
   "status": "partial",
   "theorems": [
    "Verif.MoL.AB.C39_adams_bashforth_partial",
    "Verif.MoL.AB.C39_order_one_extra_row"
   ],
   "note": "Order at least 2: every row exact to its degree. Order 1: the code returns an extra row of zeros (witness theorem)."
  },
  {
   "property": "C40",
   "status": "partial",
   "theorems": [
    "Verif.BHaH.Parfile.C40_roundtrip_partial",
    "Verif.BHaH.Parfile.C40_violations"
   ],
   "note": "Round trip of the whole generated file through the generated parser for all parameter sets with the five supported types, names of alphanumerics, texts without # = \" newline NUL, and lengths within the buffers; the code violates the property for the other cases, shown by C40_violations. strtod(repr x)=x is a hypothesis per default value; text is ASCII."
  },
  {
   "property": "C41",
   "status": "partial",
   "theorems": [
    "Verif.BHaH.Parfile.C41_safe_partial",
    "Verif.BHaH.Parfile.C41_size_overflow",
    "Verif.BHaH.Parfile.C41_quoted_overflow"
   ],
   "note": "For every file, command line and table no write past a buffer, if bracket pairs enclose at most 15 characters and steerable char parameters have at most 128 bytes; both conditions are needed (overflow theorems)."
  },
  {
   "property": "C42",
   "status": "partial",
   "theorems": [
    "Verif.BHaH.Parfile.C42_override_partial",
    "Verif.BHaH.Parfile.C42_usage",
    "Verif.BHaH.Parfile.C42_ignored",
    "Verif.BHaH.Parfile.C42_empty",
    "Verif.BHaH.Parfile.C42_file_name"
   ],
   "note": "Overrides win if at least one line of the file does not set an unknown parameter; otherwise (for example an empty file) the arguments are ignored, and with one steerable parameter a value that names a readable file is taken as parameter file. Array and boolean steerable parameters are not covered (the generated code ignores arrays and does not compile for booleans)."
  },
  {
   "property": "C43",
   "status": "partial",
   "theorems": [
    "Verif.BHaH.C43_roundtrip",
    "Verif.BHaH.C43_write_keeps",
    "Verif.BHaH.C43_crash_partial",
    "Verif.BHaH.C43_crash"
   ],
   "note": "Round trip proved in full, for every grid content. Crash safety is false of the code (C43_crash: every crash point between opening and the last byte loses the checkpoint); C43_crash_partial covers the two other points."
  },
  {
   "property": "C44",
   "status": "proved",
   "theorems": [
    "Verif.SuperB.C44_owner",
    "Verif.SuperB.C44_global",
    "Verif.SuperB.C44_local",
    "Verif.SuperB.C44_maps",
    "Verif.SuperB.C44_reverse",
    "Verif.SuperB.C44_neighbour",
    "Verif.SuperB.C44_coord"
   ],
   "note": "All decompositions that pass the program's checks; ghost zones included."
  },
  {
   "property": "C45",
   "status": "partial",
   "theorems": [
    "Verif.BHaH.C45_test",
    "Verif.BHaH.C45_at_most_once",
    "Verif.BHaH.C45_once_partial",
    "Verif.BHaH.C45_missed"
   ],
   "note": "In exact arithmetic. A multiple of the period exactly halfway between two steps is written at neither (C45_missed)."
  },
  {
   "property": "C46",
   "status": "partial",
   "theorems": [
    "Verif.Equations.C46_lineElement",
    "Verif.Equations.C46_inverse",
    "Verif.Equations.C46_inverse_given",
    "Verif.Equations.C46_roundtrip_partial",
    "Verif.Equations.C46_minkowski"
   ],
   "note": "The covariant metric is the ADM line element and the contravariant metric its inverse, for every symmetric invertible spatial metric, shift and nonzero lapse. The round trip through g4DD_to_ADM is false: it reads betaD[i] from g4DD[0][i] instead of g4DD[0][i+1]; C46_roundtrip_partial gives exactly the metrics for which the shift comes back, C46_minkowski a wrong result. BSSN variants not modelled."
  },
  {
   "property": "C47",
   "status": "proved",
   "theorems": [
    "Verif.Equations.C47_boost",
    "Verif.Equations.C47_rest",
    "Verif.Equations.C47_roundtrip",
    "Verif.Equations.C47_contractions",
    "Verif.Equations.C47_metric",
    "Verif.Equations.C47_zero"
   ],
   "note": "All velocities with 0<|v|<1; zero velocity gives 0/0 (C47_zero)."
  },
  {
   "property": "C48",
   "status": "proved",
   "theorems": [
    "Verif.Equations.C48_vector",
    "Verif.Equations.C48_matrix",
    "Verif.Equations.C48_inner",
    "Verif.Equations.C48_axis",
    "Verif.Equations.C48_compose",
    "Verif.Equations.C48_orientation",
    "Verif.Equations.C48_symmetric",
    "Verif.Equations.C48_errors"
   ],
   "note": "Against Rodrigues' formula. SymPy's quaternion product and from_axis_angle are modelled from their documentation."
  },
  {
   "property": "C49",
   "status": "partial",
   "theorems": [
    "Verif.Equations.C49_min",
    "Verif.Equations.C49_max",
    "Verif.Equations.C49_indicators",
    "Verif.Equations.C49_leq_geq_exact",
    "Verif.Equations.C49_less_greater_partial",
    "Verif.Equations.C49_printed_order"
   ],
   "note": "Minimum and maximum in exact arithmetic. Indicators are exact 0/1 under any rounding that absorbs TINYDOUBLE, and at equality; in exact arithmetic coord_less_bound and coord_greater_bound are never 1, and all four have a point with 0/0. Order of evaluation as written in the source."
  },
  {
   "property": "C50",
   "status": "proved",
   "theorems": [
    "Verif.Equations.C50_speeds",
    "Verif.Equations.C50_bounds",
    "Verif.Equations.C50_hll",
    "Verif.Equations.C50_consistent",
    "Verif.Equations.C50_upwind",
    "Verif.Equations.C50_mirror"
   ],
   "note": "Exact real arithmetic; the conserved quantities and fluxes are arbitrary numbers."
  },
  {
   "property": "C51",
   "status": "proved",
   "theorems": [
    "Verif.Equations.C51_roundtrip",
    "Verif.Equations.C51_direction",
    "Verif.Equations.C51_contractions",
    "Verif.Equations.C51_outer"
   ],
   "note": "Entries of the Jacobian at one point are arbitrary real numbers with nonzero determinant."
  },
  {
   "property": "C52",
   "status": "proved",
   "theorems": [
    "Verif.GridData.C52_declarations",
    "Verif.GridData.C52_failure"
   ],
   "note": "All histories."
  },
  {
   "property": "C53",
   "status": "proved",
   "theorems": [
    "Verif.FD.C53_derivatives",
    "Verif.FD.C53_ddn_undeclared"
   ],
   "note": "Covers _dD, _dDD, _dKOD and _dupD symbols; C53_ddn_undeclared shows that a user-written _ddnD symbol is accepted but never declared."
  },
  {
   "property": "C54",
   "status": "partial",
   "theorems": [
    "Verif.SIMD.C54_fused_partial",
    "Verif.SIMD.C54_negFusedMulSub",
    "Verif.SIMD.C54_horizAdd",
    "Verif.SIMD.C54_abs",
    "Verif.SIMD.C54_upwind"
   ],
   "note": "The fused operations hold on all branches except NegFusedMulSub of SSE2 with FMA, where the header is wrong (C54_negFusedMulSub proves it computes ab-c). Machine intrinsics are trusted to be lane-wise; rounding is not modelled."
  },
  {
   "property": "C55",
   "status": "partial",
   "theorems": [
    "Verif.SIMD.C55_runs_partial",
    "Verif.SIMD.C55_undefined"
   ],
   "note": "Proved for sums, products, supported exponents, Abs, exp, sin, cos on all instruction sets but SSE2+FMA; C55_undefined proves the violation for log, sign, cube roots and general powers."
  },
  {
   "property": "C56",
   "status": "partial",
   "theorems": [
    "Verif.Loop.C56_points",
    "Verif.Loop.C56_offsets",
    "Verif.Loop.C56_region",
    "Verif.Loop.C56_scope",
    "Verif.Loop.C56_reads",
    "Verif.Loop.C56_errors",
    "Verif.Loop.C56_simd_exact",
    "Verif.Loop.C56_simd_final",
    "Verif.Loop.C56_simd_memory_partial",
    "Verif.Loop.C56_simd_spill",
    "Verif.Loop.C56_idx4",
    "Verif.Loop.C56_ET"
   ],
   "note": "Exact coverage without SIMD; with SIMD, exact iff the width divides the row, final interior values right and array accesses in bounds for every width. C56_simd_spill: one-dimensional arrays (precomputed reference metric) are accessed out of bounds when the width does not divide the number of interior points."
  },
  {
   "property": "C57",
   "status": "proved",
   "theorems": [
    "Verif.SuperB.C57_exchange",
    "Verif.SuperB.C57_frame"
   ],
   "note": "Ghost-zone exchange with packing into message buffers; synchronized grid functions are distinct numbers."
  },
  {
   "property": "C58",
   "status": "partial",
   "theorems": [
    "Verif.SuperB.C58_result_partial",
    "Verif.SuperB.C58_progress",
    "Verif.SuperB.C58_terminates",
    "Verif.SuperB.C58_schedule",
    "Verif.SuperB.C58_exchange",
    "Verif.SuperB.C58_unordered"
   ],
   "note": "Proved for channels that keep the order of messages. C58_unordered shows a wrong result when the runtime delivers two messages of a channel out of order (the generated when clauses carry no reference number). Messages of nonlocal inner boundary conditions, diagnostics and checkpoints are not modelled."
  },
  {
   "property": "C59",
   "status": "partial",
   "theorems": [
    "Verif.RefMetric.C59_round_trip_partial",
    "Verif.RefMetric.C59_available",
    "Verif.RefMetric.C59_sinhSymTP",
    "Verif.RefMetric.C59_sinhSymTP_violation"
   ],
   "note": "Proved for the eleven systems other than SinhSymTP that have Cart_to_xx. False for SinhSymTP: Cart_to_xx[0] returns AA(xx0) instead of xx0 (proved on the whole domain, with a witness). The v2n systems offer no Cart_to_xx."
  },
  {
   "property": "C60",
   "status": "proved",
   "theorems": [
    "Verif.RefMetric.C60_basis",
    "Verif.RefMetric.C60_flat",
    "Verif.RefMetric.C60_applies"
   ],
   "note": "All fourteen systems; regular means that scalefactor_orthog[1] does not vanish, which C60_applies shows for all points inside the coordinate ranges."
  },
  {
   "property": "C61",
   "status": "partial",
   "theorems": [
    "Verif.RefMetric.C61_spherical_partial",
    "Verif.RefMetric.C61_wedge_violation"
   ],
   "note": "Proved for all systems but the two wedges, whose xxSph has the angles of a rotated frame: C61_wedge_violation shows the claim false at every point of their domain."
  },
  {
   "property": "C62",
   "status": "partial",
   "theorems": [
    "Verif.RefMetric.C62_documented",
    "Verif.RefMetric.C62_rejected_partial",
    "Verif.RefMetric.C62_violation"
   ],
   "note": "Names containing Cartesian or Wedge, ending in SinhSpherical, or starting with SinhCylindricalv2 are excluded from the rejection theorem; C62_violation gives an accepted undocumented name of each kind except Wedge."
  },
  {
   "property": "C63",
   "status": "proved",
   "theorems": [
    "Verif.RefMetric.C63_inverse",
    "Verif.RefMetric.C63_connection",
    "Verif.RefMetric.C63_flat",
    "Verif.RefMetric.C63_derivatives",
    "Verif.RefMetric.C63_determinant"
   ],
   "note": "Inverse and connection for any scale factors; flatness for all fourteen systems. The replacement of named functions by precomputed symbols (enable_rfm_precompute) is not modelled beyond the equality of the scale factors (C60)."
  },
  {
   "property": "C64",
   "status": "proved",
   "theorems": [
    "Verif.CurviBC.C64_exactly_once",
    "Verif.CurviBC.C64_inner",
    "Verif.CurviBC.C64_sizes",
    "Verif.CurviBC.C64_succeeds"
   ],
   "note": "partner map and parities are parameters here; C67 gives them for every coordinate system"
  },
  {
   "property": "C65",
   "status": "proved",
   "theorems": [
    "Verif.CurviBC.C65_result",
    "Verif.CurviBC.C65_no_races",
    "Verif.CurviBC.C65_determined",
    "Verif.CurviBC.C65_exact",
    "Verif.CurviBC.C65_bounds",
    "Verif.CurviBC.C65_small_violation"
   ],
   "note": "C65_small_violation: with two interior points between outer faces there is a data race, and the code does not check the number of points."
  },
  {
   "property": "C66",
   "status": "proved",
   "theorems": [
    "Verif.CurviBC.C66_inner",
    "Verif.CurviBC.C66_no_races",
    "Verif.CurviBC.C66_again",
    "Verif.CurviBC.C66_bounds"
   ],
   "note": ""
  },
  {
   "property": "C67",
   "status": "proved",
   "theorems": [
    "Verif.CurviBC.C67_partner",
    "Verif.CurviBC.C67_outer",
    "Verif.CurviBC.C67_set_up",
    "Verif.CurviBC.C67_all_filled",
    "Verif.CurviBC.C67_rounding",
    "Verif.CurviBC.C67_checked"
   ],
   "note": "Every name that choose accepts, with its eigencoordinate system. Grids are GoodGrid: increasing ranges, even number of azimuths, holes wider than the ghost zones (the code ends the process otherwise). C67_rounding: the index from a coordinate is right for any error below half a cell. C67_checked holds for every grid. Exact real numbers."
  },
  {
   "property": "C68",
   "status": "proved",
   "theorems": [
    "Verif.CurviBC.C68_signs",
    "Verif.CurviBC.C68_component",
    "Verif.CurviBC.C68_field"
   ],
   "note": "Same systems and grids as C67; unit vectors are the actual ones of C60."
  },
  {
   "property": "C69",
   "status": "partial",
   "theorems": [
    "Verif.CurviBC.C69_advection",
    "Verif.CurviBC.C69_outgoing_wave",
    "Verif.CurviBC.C69_radial_direction",
    "Verif.CurviBC.C69_function_of_radius",
    "Verif.CurviBC.C69_stencil_partial",
    "Verif.CurviBC.C69_exact_partial",
    "Verif.CurviBC.C69_result",
    "Verif.CurviBC.C69_no_races",
    "Verif.CurviBC.C69_determined",
    "Verif.CurviBC.C69_bounds",
    "Verif.CurviBC.C69_systems",
    "Verif.CurviBC.C69_narrow_violation",
    "Verif.CurviBC.C69_odd_violation"
   ],
   "note": "Even finite-difference orders and grids wide enough for the shifted stencil. C69_odd_violation: for odd orders the coefficients are for a point between grid points; C69_narrow_violation: on narrow grids the stencil leaves the grid. The generated expressions for r and dx^i/dr are taken to be the expressions of the reference metric."
  },
  {
   "property": "C70",
   "status": "proved",
   "theorems": [
    "Verif.BSSN.C70_round_trip",
    "Verif.BSSN.C70_round_trip_bssn",
    "Verif.BSSN.C70_choices"
   ],
   "note": "Real arithmetic. The symbols of the gridfunctions are real numbers; the reference-metric expressions are those of C63."
  },
  {
   "property": "C71",
   "status": "proved",
   "theorems": [
    "Verif.BSSN.C71_fields",
    "Verif.BSSN.C71_derivatives",
    "Verif.BSSN.C71_connections"
   ],
   "note": "Continuum statement: each derivative symbol of a gridfunction stands for the partial derivative (the finite-difference error is the subject of C16). Points without coordinate singularity."
  },
  {
   "property": "C72",
   "status": "proved",
   "theorems": [
    "Verif.BSSN.C72_ricci"
   ],
   "note": "Includes a proof that every supported reference metric is flat. Points without coordinate singularity."
  },
  {
   "property": "C73",
   "status": "partial",
   "theorems": [
    "Verif.BSSN.C73_hamiltonian",
    "Verif.BSSN.C73_momentum",
    "Verif.BSSN.C73_msquared_partial",
    "Verif.BSSN.C73_msquared_violation"
   ],
   "note": "H and MU proved. Msquared is not the square of MU: it contracts with gammabar_ij instead of gamma_ij (C73_msquared_violation); C73_msquared_partial says what it is."
  },
  {
   "property": "C74",
   "status": "proved",
   "theorems": [
    "Verif.BSSN.C74_gamma",
    "Verif.BSSN.C74_K",
    "Verif.BSSN.C74_K_constrained"
   ],
   "note": "Continuum statement at each point where the time derivatives are the code's right-hand sides; upwind derivatives are derivatives. The lambda, lapse and shift equations are separate claims."
  },
  {
   "property": "C75",
   "status": "proved",
   "theorems": [
    "Verif.BSSN.C75_lambda",
    "Verif.BSSN.C75_lambda_constrained"
   ],
   "note": "Fields are smooth with commuting time and space derivatives of hDD at the point; derivative symbols are the derivatives they stand for."
  },
  {
   "property": "C76",
   "status": "proved",
   "theorems": [
    "Verif.BSSN.C76_transport",
    "Verif.BSSN.C76_preserved"
   ],
   "note": "First-order statement at one time; same setting as C74."
  },
  {
   "property": "C77",
   "status": "partial",
   "theorems": [
    "Verif.BSSN.C77_supported",
    "Verif.BSSN.C77_lapse",
    "Verif.BSSN.C77_shift_partial",
    "Verif.BSSN.C77_history_violation"
   ],
   "note": "Independence of earlier calls fails: option Frozen for the shift overwrites the cached B^i with zero (BSSN_gauge_RHSs.py:144,158), so a later call for the same coordinate system loses B^i (C77_history_violation). The shift equations are proved for histories without such a call."
  },
  {
   "property": "C78",
   "status": "partial",
   "theorems": [
    "Verif.CodeGen.C78_value_partial",
    "Verif.CodeGen.C78_scalars_exist",
    "Verif.CodeGen.C78_value_plain",
    "Verif.CodeGen.C78_length",
    "Verif.CodeGen.C78_no_cse",
    "Verif.CodeGen.C78_alias_violation",
    "Verif.CodeGen.C78_dict_violation",
    "Verif.CodeGen.C78_dict_violation_example",
    "Verif.CodeGen.C78_table_violation",
    "Verif.CodeGen.C78_index_violation",
    "Verif.CodeGen.C78_order_violation"
   ],
   "note": "Proved for every input without aliasing of outputs and inputs and every SymPy within LibOk. Missing because false: outputs that are also read (alias), renaming together with CSE (TypeError when a temporary is left), a given table with CSE off (not declared), one symbol per scalar temporary instead of one per output (IndexError), renamed names that are keys themselves (order of a set). Not modelled: SIMD output and the text printed for a right-hand side."
  },
  {
   "property": "C79",
   "status": "partial",
   "theorems": [
    "Verif.CodeGen.C79_kernel_partial",
    "Verif.CodeGen.C79_registry_violation"
   ],
   "note": "Proved for enable_fd_codegen (which clears the registry of derivative operators) without SIMD and without separate derivative functions: the kernel is generated, every variable is declared once and before use, and the outputs have the values of the expressions for all data. Names must not start with FDPart or Upwind. False without enable_fd_codegen after an earlier kernel: C79_registry_violation shows that a call that only reads gridfunctions raises IndexError then."
  },
  {
   "property": "C80",
   "status": "partial",
   "theorems": [
    "Verif.CodeGen.C80_kernel_partial",
    "Verif.CodeGen.C80_registry_violation",
    "Verif.CodeGen.C80_name_violation"
   ],
   "note": "Proved for enable_fd_codegen with enable_fd_functions and without SIMD, for gridfunction names that do not contain FDPROTO (C80_name_violation shows why). The type name is arbitrary. C80_registry_violation: with a registry left over from an earlier call two functions are exchanged."
  },
  {
   "property": "C81",
   "status": "proved",
   "theorems": [
    "Verif.Wave.C81_cartesian",
    "Verif.Wave.C81_curvilinear",
    "Verif.Wave.C81_evolution",
    "Verif.Wave.C81_plane",
    "Verif.Wave.C81_gaussian",
    "Verif.Wave.C81_gaussian_origin",
    "Verif.Wave.C81_gaussian_infinity"
   ],
   "note": "Regular points only (no scale factor is zero). The symbols uu_dD and uu_dDD stand for exact partial derivatives. Precomputed reference-metric symbols are not part of this claim."
  },
  {
   "property": "C82",
   "status": "partial",
   "theorems": [
    "Verif.Initial.C82_residual",
    "Verif.Initial.C82_stationary",
    "Verif.Initial.C82_formula",
    "Verif.Initial.C82_vector",
    "Verif.Initial.C82_constraints_partial",
    "Verif.Initial.C82_trace",
    "Verif.Initial.C82_momentum_violation"
   ],
   "note": "The equivalence with the constraints is proved for punctures without linear momentum (any spins). With momentum it is false because of the inverted kronecker_delta (C82_momentum_violation); C82_vector and C82_formula show that the Bowen-York vector itself is right for all momenta and spins. psi is assumed positive."
  },
  {
   "property": "C83",
   "status": "proved",
   "theorems": [
    "Verif.Initial.C83_constraints",
    "Verif.Initial.C83_asymptotic",
    "Verif.Initial.C83_mass",
    "Verif.Initial.C83_lapse"
   ],
   "note": ""
  },
  {
   "property": "C84",
   "status": "proved",
   "theorems": [
    "Verif.Initial.C84_choices",
    "Verif.Initial.C84_trumpet",
    "Verif.Initial.C84_trumpet_static",
    "Verif.Initial.C84_kerr_schild",
    "Verif.Initial.C84_kerr_schild_stationary",
    "Verif.Initial.C84_uiuc",
    "Verif.Initial.C84_uiuc_kerr",
    "Verif.Initial.C84_gauge_uiuc",
    "Verif.Initial.C84_gauge_trumpet",
    "Verif.Initial.C84_gauge_kerr_schild",
    "Verif.Initial.C84_mass_trumpet",
    "Verif.Initial.C84_mass_kerr_schild",
    "Verif.Initial.C84_mass_uiuc",
    "Verif.Initial.C84_spin_uiuc"
   ],
   "note": ""
  },
  {
   "property": "C85",
   "status": "proved",
   "theorems": [
    "Verif.BSSN.C85_psi4",
    "Verif.BSSN.C85_riemann",
    "Verif.BSSN.C85_exists",
    "Verif.BSSN.C85_ricci_flat",
    "Verif.BSSN.C85_linkage"
   ],
   "note": "The Gauss and Codazzi equations are part of the specification (VacuumCurvature), not derived from a four-dimensional metric."
  },
  {
   "property": "C86",
   "status": "proved",
   "theorems": [
    "Verif.BSSN.C86_frame",
    "Verif.BSSN.C86_null",
    "Verif.BSSN.C86_null_metric",
    "Verif.BSSN.C86_same",
    "Verif.BSSN.C86_choices",
    "Verif.BSSN.C86_metric_violation"
   ],
   "note": "With use_metric_to_construct_unit_normal the components are in the coordinate basis, which psi4 does not expect (C86_metric_violation)."
  },
  {
   "property": "C87",
   "status": "proved",
   "theorems": [
    "Verif.Hydro.C87_baryon",
    "Verif.Hydro.C87_electron",
    "Verif.Hydro.C87_momentum",
    "Verif.Hydro.C87_energy",
    "Verif.Hydro.C87_conservation",
    "Verif.Hydro.C87_values",
    "Verif.Hydro.C87_rescaled"
   ],
   "note": "The energy equation assumes that K_ij is the extrinsic curvature. The connection terms are taken on the left-hand side, as nothing in the repository assembles the equations."
  },
  {
   "property": "C88",
   "status": "proved",
   "theorems": [
    "Verif.Horizon.C88_expansion",
    "Verif.Horizon.C88_normal",
    "Verif.Horizon.C88_mean_curvature",
    "Verif.Horizon.C88_surface_only",
    "Verif.Horizon.C88_choices",
    "Verif.Horizon.C88_trumpet",
    "Verif.Horizon.C88_uiuc"
   ],
   "note": "The trace of K_ij is taken from trK, so aDD has to be traceless. The variables converted by ADM_to_BSSN are the ones of C70."
  },
  {
   "property": "C89",
   "status": "proved",
   "theorems": [
    "Verif.SWSH.C89_raise",
    "Verif.SWSH.C89_lower",
    "Verif.SWSH.C89_eigen",
    "Verif.SWSH.C89_order",
    "Verif.SWSH.C89_rotate_up",
    "Verif.SWSH.C89_rotate_down",
    "Verif.SWSH.C89_pole",
    "Verif.SWSH.C89_conj",
    "Verif.SWSH.C89_orthonormal",
    "Verif.SWSH.C89_laplacian",
    "Verif.SWSH.C89_below",
    "Verif.SWSH.C89_mathematica"
   ],
   "note": "On the axis itself the expression divides by tan(0); the limit there is C89_pole."
  },
  {
   "property": "C90",
   "status": "partial",
   "theorems": [
    "Verif.SWSH.C90_c_function_partial",
    "Verif.SWSH.C90_c_function_violation"
   ],
   "note": "The function falls through to higher degrees when the order exceeds the degree: proved for all such pairs as a violation."
  },
  {
   "property": "C91",
   "status": "proved",
   "theorems": [
    "Verif.SWSH.C91_interpolation",
    "Verif.SWSH.C91_output",
    "Verif.SWSH.C91_converges",
    "Verif.SWSH.C91_coefficient",
    "Verif.SWSH.C91_azimuth",
    "Verif.SWSH.C91_too_large"
   ],
   "note": "Real arithmetic; the files are modelled by the numbers in their rows."
  },
  {
   "property": "C92",
   "status": "proved",
   "theorems": [
    "Verif.TOV.C92_star",
    "Verif.TOV.C92_exterior",
    "Verif.TOV.C92_surface",
    "Verif.TOV.C92_eos",
    "Verif.TOV.C92_first_law",
    "Verif.TOV.C92_initial",
    "Verif.TOV.C92_bernoulli",
    "Verif.TOV.C92_exists",
    "Verif.TOV.C92_center"
   ],
   "note": "About exact solutions of the differential equations; the error of the stepper and of interpolation between the saved radii is not part of the claim."
  },
  {
   "property": "C93",
   "status": "partial",
   "theorems": [
    "Verif.TOV.C93_loop",
    "Verif.TOV.C93_loop_returns",
    "Verif.TOV.C93_follows",
    "Verif.TOV.C93_memory",
    "Verif.TOV.C93_arrays",
    "Verif.TOV.C93_few_rows",
    "Verif.TOV.C93_increasing",
    "Verif.TOV.C93_samples_partial",
    "Verif.TOV.C93_bisection",
    "Verif.TOV.C93_bisection_outside",
    "Verif.TOV.C93_interpolation",
    "Verif.TOV.C93_outside",
    "Verif.TOV.C93_stencil_size",
    "Verif.TOV.C93_mass_violation",
    "Verif.TOV.C93_surface_violation",
    "Verif.TOV.C93_small_stencil_violation",
    "Verif.TOV.C93_two_points_violation"
   ],
   "note": "The mass is mirrored with the wrong sign, fewer than eleven saved radii give values that were never set, and running out of steps is not an error; everything else is proved for every integrator."
  },
  {
   "property": "C94",
   "status": "proved",
   "theorems": [
    "Verif.TP.C94_chebyshev_transform",
    "Verif.TP.C94_chebyshev_roundtrip",
    "Verif.TP.C94_chebyshev_extremes",
    "Verif.TP.C94_fourier_transform",
    "Verif.TP.C94_fourier_roundtrip",
    "Verif.TP.C94_grid_evaluation"
   ],
   "note": "Exact arithmetic; SpecCoef and the evaluation from coefficients for one variable, as TwoPunctures uses them (SpecCoef ignores the number of variables in its index)."
  },
  {
   "property": "C95",
   "status": "proved",
   "theorems": [
    "Verif.TP.C95_derivatives",
    "Verif.TP.C95_interpolant_exists",
    "Verif.TP.C95_index_injective",
    "Verif.TP.C95_index_neighbours"
   ],
   "note": "Exact arithmetic; the sizes of the work arrays are not modelled."
  },
  {
   "property": "C96",
   "status": "proved",
   "theorems": [
    "Verif.TP.C96_derivatives",
    "Verif.TP.C96_inverse",
    "Verif.TP.C96_inverse_left",
    "Verif.TP.C96_product_rule",
    "Verif.TP.C96_evaluation",
    "Verif.TP.C96_taylor"
   ],
   "note": "Exact arithmetic. On the axis itself the value returned is the one for the computed angle; smoothness is claimed off the axis."
  },
  {
   "property": "C97",
   "status": "proved",
   "theorems": [
    "Verif.TP.C97_bowen_york",
    "Verif.TP.C97_components",
    "Verif.TP.C97_residual",
    "Verif.TP.C97_constraints",
    "Verif.TP.C97_function_exists",
    "Verif.TP.C97_jacobian",
    "Verif.TP.C97_regularised_violation"
   ],
   "note": "Exact arithmetic, one variable, zero matter sources. The last sentence needs TP_epsilon = 0 and a distance of at least TP_Tiny; with the default TP_epsilon the components differ (C97_regularised_violation)."
  },
  {
   "property": "C98",
   "status": "partial",
   "theorems": [
    "Verif.TP.C98_data_partial",
    "Verif.TP.C98_methods",
    "Verif.TP.C98_frames",
    "Verif.TP.C98_constraints",
    "Verif.TP.C98_extension",
    "Verif.TP.C98_lapse_power",
    "Verif.TP.C98_lapse_range",
    "Verif.TP.C98_lapse_antisymmetric",
    "Verif.TP.C98_lapse_violation",
    "Verif.TP.C98_old_lapse_violation",
    "Verif.TP.C98_lapse_unknown",
    "Verif.TP.C98_initialize",
    "Verif.TP.C98_centre_violation"
   ],
   "note": "Proved for TP_epsilon = 0 (the default is 1e-6, see C97) and outside at least one extension radius. The centre of mass is not at the origin for unequal masses, the antisymmetric lapse is wrong inside the extension of the second puncture and multiply_old_lapse multiplies with a placeholder: violations."
  },
  {
   "property": "C99",
   "status": "partial",
   "theorems": [
    "Verif.TP.C99_bicgstab",
    "Verif.TP.C99_bicgstab_codes",
    "Verif.TP.C99_norm_inf",
    "Verif.TP.C99_newton_partial",
    "Verif.TP.C99_newton_step",
    "Verif.TP.C99_solve",
    "Verif.TP.C99_bare_masses",
    "Verif.TP.C99_puncture_masses",
    "Verif.TP.C99_energy",
    "Verif.TP.C99_angular_momentum",
    "Verif.TP.C99_angular_momentum_frame",
    "Verif.TP.C99_angular_momentum_frame_violation"
   ],
   "note": "Exact arithmetic, Newton_tol < 1 (for larger tolerances the loop does not run), one variable. Convergence of the iterations is not claimed. The energy is the limit along the y axis, where the code evaluates it. The angular momentum mixes the frames of solver and evolution code if the total momentum and the offset do not vanish: violation."
  },
  {
   "property": "C100",
   "status": "proved",
   "theorems": [
    "Verif.TP.C100_matrix",
    "Verif.TP.C100_differences",
    "Verif.TP.C100_line_al_system",
    "Verif.TP.C100_line_be_system",
    "Verif.TP.C100_line_al",
    "Verif.TP.C100_line_be",
    "Verif.TP.C100_race_free_be",
    "Verif.TP.C100_race_free_al",
    "Verif.TP.C100_relax_schedule"
   ],
   "note": "Exact arithmetic. That gsl_linalg_solve_tridiag solves the system of the line is a hypothesis on the call (it fails for vanishing pivots). Convergence of the relaxation is not claimed."
  },
  {
   "property": "C101",
   "status": "proved",
   "theorems": [
    "Verif.Grids.C101_cells",
    "Verif.Grids.C101_counts",
    "Verif.Grids.C101_refinement",
    "Verif.Grids.C101_extent",
    "Verif.Grids.C101_regular",
    "Verif.Grids.C101_timestep",
    "Verif.Grids.C101_grids",
    "Verif.Grids.C101_clock",
    "Verif.Grids.C101_chare",
    "Verif.Grids.C101_chare_xxmax_violation"
   ],
   "note": "Exact arithmetic. C101_timestep assumes that some spacing is below the bounds 1e38 and 1e30 of the code, and grids that do not reach through a hole or past an excluded axis. The multipatch branch calls functions that are not in the repository and is not modelled. The violation theorem records that xxmax of a chare is wrong."
  },
  {
   "property": "C102",
   "status": "proved",
   "theorems": [
    "Verif.Reader.C102_grid",
    "Verif.Reader.C102_no_races",
    "Verif.Reader.C102_values",
    "Verif.Reader.C102_represents",
    "Verif.Reader.C102_lambda",
    "Verif.Reader.C102_exact_spherical",
    "Verif.Reader.C102_exact_cartesian",
    "Verif.Reader.C102_exact_refused",
    "Verif.Reader.regular_settled",
    "Verif.Reader.C102_sinhSymTP"
   ],
   "note": "Exact arithmetic. C102_grid assumes that the points of the interior and of the outer boundary are regular, which regular_settled proves for all systems but the wedges. Systems without Cart_to_xx cannot be used with the reader, and SinhSymTP has a wrong one (C102_sinhSymTP). The gridfunctions of the stress-energy tensor, in another array, are covered pointwise only (C102_values)."
  },
  {
   "property": "C103",
   "status": "partial",
   "theorems": [
    "Verif.Reader.C103_round_trip",
    "Verif.Reader.C103_ghost",
    "Verif.Reader.C103_within",
    "Verif.Reader.C103_nearest",
    "Verif.Reader.C103_at_point",
    "Verif.Reader.C103_braces_partial",
    "Verif.Reader.C103_braces_violation"
   ],
   "note": "Exact arithmetic. The function generated with relative_to=global_grid_center has a closing brace too many (C103_braces_violation). Wedges are left out of the round trip, and SinhSymTP, whose Cart_to_xx is wrong."
  },
  {
   "property": "C104",
   "status": "partial",
   "theorems": [
    "Verif.Diag.C104_axis_partial",
    "Verif.Diag.C104_plane_partial",
    "Verif.Diag.C104_center",
    "Verif.Diag.C104_refused",
    "Verif.Diag.C104_no_points",
    "Verif.Diag.C104_print0D",
    "Verif.Diag.C104_print1D",
    "Verif.Diag.C104_print2D",
    "Verif.Diag.C104_bounds_violation",
    "Verif.Diag.C104_wedge_violation",
    "Verif.Diag.C104_ghost_violation",
    "Verif.Diag.C104_twice_violation"
   ],
   "note": "Proved for every system of the five families, on grids with an even number of azimuths, Cartesian ranges symmetric. False for the y axis and the xy plane of wedges and the z axis of the ring (arrays of length zero are written; wrong points), for one azimuth (ghost point) and one polar angle (lines twice); each shown by a violation theorem."
  },
  {
   "property": "C105",
   "status": "proved",
   "theorems": [
    "Verif.Precompute.C105_symbols",
    "Verif.Precompute.C105_values",
    "Verif.Precompute.C105_memory",
    "Verif.Precompute.C105_struct",
    "Verif.Precompute.C105_dir",
    "Verif.Precompute.C105_kind",
    "Verif.Precompute.C105_two"
   ],
   "note": "sp.diff is assumed to differentiate the functions of the coordinate system and to introduce no symbols (Ok); exOk shows that scaled spherical coordinates meet this."
  },
  {
   "property": "C106",
   "status": "partial",
   "theorems": [
    "Verif.Thorn.C106_legacy_parity_partial",
    "Verif.Thorn.C106_symmetries_partial",
    "Verif.Thorn.C106_mol_pairs",
    "Verif.Thorn.C106_legacy_declared",
    "Verif.Thorn.C106_legacy_nodup_partial",
    "Verif.Thorn.C106_carpetX_partial",
    "Verif.Thorn.C106_zeroed",
    "Verif.Thorn.C106_newRad",
    "Verif.Thorn.C106_boundary",
    "Verif.Thorn.C106_fourvector_violation",
    "Verif.Thorn.C106_short_violation",
    "Verif.Thorn.C106_rhs_violation",
    "Verif.Thorn.C106_auxevol_violation",
    "Verif.Thorn.C106_carpetX_fourvector_violation",
    "Verif.Thorn.C106_timelevels",
    "Verif.Thorn.C106_carpetX_timelevels",
    "Verif.Thorn.C106_carpetX_again_violation"
   ],
   "note": "Four-vectors and (ETLegacy) rank-2 tensors with a one-letter name get wrong parities (violations); names of the form *_rhs can be declared twice; without evolved gridfunctions an ETLegacy thorn does not declare AUXEVOL. Base names with digits are excluded. CarpetX thorns other than the evolution thorn declare the auxiliary gridfunctions again."
  },
  {
   "property": "C107",
   "status": "proved",
   "theorems": [
    "Verif.Thorn.C107_schedule",
    "Verif.Thorn.C107_schedule_once",
    "Verif.Thorn.C107_func_name",
    "Verif.Thorn.C107_params",
    "Verif.Thorn.C107_make",
    "Verif.Thorn.C107_subdirectory_violation"
   ],
   "note": "As stated, source files are those of the directory of the thorn: a function registered with a thorn but another subdirectory is scheduled and not compiled (violation theorem)."
  },
  {
   "property": "C108",
   "status": "partial",
   "theorems": [
    "Verif.Thorn.C108_values_partial",
    "Verif.Thorn.C108_carpetX_partial",
    "Verif.Thorn.C108_int_violation",
    "Verif.Thorn.C108_carpetX_violation"
   ],
   "note": "Proved for real parameters whose names do not collide with auxiliary variables; parameters of other types get an address (violation)."
  },
  {
   "property": "C109",
   "status": "partial",
   "theorems": [
    "Verif.Elliptic.C109_run",
    "Verif.Elliptic.C109_restart_one_step",
    "Verif.Elliptic.C109_resume",
    "Verif.Elliptic.C109_final_residual_violation",
    "Verif.Elliptic.C109_start",
    "Verif.Elliptic.C109_wavespeed",
    "Verif.Elliptic.C109_outer_point",
    "Verif.Elliptic.C109_minimum",
    "Verif.Elliptic.C109_norm_partial",
    "Verif.Elliptic.C109_norm_bounds_partial",
    "Verif.Elliptic.C109_norm_uniform",
    "Verif.Elliptic.C109_norm_violation"
   ],
   "note": "Proved except for the norm: its weights are the squares of the cell volumes (violation), and the residual that is compared is that of the data before the last step (violation)."
  },
  {
   "property": "C110",
   "status": "partial",
   "theorems": [
    "Verif.Diag.Progress.C110_when_partial",
    "Verif.Diag.Progress.C110_zero_violation",
    "Verif.Diag.Progress.C110_eta_partial",
    "Verif.Diag.Progress.C110_shown_partial",
    "Verif.Diag.Progress.C110_first_violation"
   ],
   "note": "Proved for positive or negative periods and iterations after the first; period zero and the first iteration are undefined in C (violations)."
  },
  {
   "property": "C111",
   "status": "partial",
   "theorems": [
    "Verif.SuperB.Inner.C111_completes",
    "Verif.SuperB.Inner.C111_values",
    "Verif.SuperB.Inner.C111_own",
    "Verif.SuperB.Inner.C111_rounds_violation",
    "Verif.SuperB.Inner.C111_rounds_partial",
    "Verif.SuperB.Inner.C111_migration_violation",
    "Verif.SuperB.Inner.C111_migration_partial"
   ],
   "note": "One round is proved for every distribution, list of points, data and order of arrival. Consecutive rounds: proved for at most one source chare per chare and channels that keep order; with two sources a reachable counterexample. Migration: counterexample, and the case in which the sources have the lowest numbers. Missing: several sources per chare over consecutive rounds and other migrations, where the property is false."
  },
  {
   "property": "C112",
   "status": "partial",
   "theorems": [
    "Verif.SuperB.Records.C112_once",
    "Verif.SuperB.Records.C112_file_partial",
    "Verif.SuperB.Records.C112_arrays",
    "Verif.SuperB.Records.C112_point",
    "Verif.SuperB.Records.C112_exponent_violation",
    "Verif.SuperB.Records.C112_nan_violation"
   ],
   "note": "Each record once, at the position of its point, for every division (C112_once, unconditional). Contents and length proved for numbers whose exponent has two digits; missing: exponents of three digits, NaN and infinity, where the property is false (violations)."
  },
  {
   "property": "C113",
   "status": "partial",
   "theorems": [
    "Verif.GPU.C113_once_partial",
    "Verif.GPU.C113_sum_partial",
    "Verif.GPU.C113_ends",
    "Verif.GPU.C113_min_partial",
    "Verif.GPU.C113_max_partial",
    "Verif.GPU.C113_negative_violation",
    "Verif.GPU.C113_large_violation",
    "Verif.GPU.C113_max_violation",
    "Verif.GPU.C113_long_violation",
    "Verif.GPU.C113_long_sum_violation"
   ],
   "note": "False for negative numbers (minimum, maximum of negative numbers only), large numbers (minimum) and more than 2^31 numbers. Otherwise proved for all arrays, block sizes of 1 to 32 warps and schedules. NaN are passed over."
  },
  {
   "property": "C114",
   "status": "partial",
   "theorems": [
    "Verif.GPU.Kernel.C114_call_partial",
    "Verif.GPU.Kernel.C114_call_violation",
    "Verif.GPU.Kernel.C114_required",
    "Verif.GPU.Kernel.C114_again",
    "Verif.GPU.Kernel.C114_stream",
    "Verif.GPU.Kernel.C114_threads",
    "Verif.GPU.Kernel.C114_cover",
    "Verif.GPU.Kernel.C114_to_host",
    "Verif.GPU.Kernel.C114_to_device_partial",
    "Verif.GPU.Kernel.C114_to_device_violation",
    "Verif.GPU.Kernel.C114_copy_stream",
    "Verif.GPU.Kernel.C114_types"
   ],
   "note": "False for kernels without parameters and for copies to the card between different indices. Otherwise proved."
  },
  {
   "property": "C115",
   "status": "partial",
   "theorems": [
    "Verif.BHaH.Defaults.C115_common_partial",
    "Verif.BHaH.Defaults.C115_params_partial",
    "Verif.BHaH.Defaults.C115_error",
    "Verif.BHaH.Defaults.C115_members",
    "Verif.BHaH.Defaults.C115_header",
    "Verif.BHaH.Defaults.C115_simd",
    "Verif.BHaH.Defaults.C115_start_partial",
    "Verif.BHaH.Defaults.C115_start_violation",
    "Verif.BHaH.Defaults.C115_case_violation",
    "Verif.BHaH.Defaults.C115_percent_violation",
    "Verif.BHaH.Defaults.C115_long_violation",
    "Verif.BHaH.Defaults.C115_simd_violation"
   ],
   "note": "False for texts with upper-case letters, percent signs or too many characters, for more coordinate systems than the default of NUMGRIDS, and for names in the vector header. Otherwise proved for all sets of parameters and orders of statements."
  },
  {
   "property": "C116",
   "status": "partial",
   "theorems": [
    "Verif.BHaH.Make.C116_target",
    "Verif.BHaH.Make.C116_objects",
    "Verif.BHaH.Make.C116_build_partial",
    "Verif.BHaH.Make.C116_build_violation",
    "Verif.BHaH.Make.C116_headers_violation",
    "Verif.BHaH.Make.C116_refused",
    "Verif.BHaH.Make.C116_flags",
    "Verif.BHaH.Make.C116_compiler_partial",
    "Verif.BHaH.Make.C116_compiler_violation",
    "Verif.BHaH.Make.C116_prefix",
    "Verif.BHaH.Make.C116_prefix_violation",
    "Verif.BHaH.Make.C116_compile",
    "Verif.BHaH.Make.C116_retry_violation",
    "Verif.BHaH.Make.C116_empty_violation"
   ],
   "note": "For paths without the extension inside, the executable is the link of all functions compiled from their present text, for all compilers, linkers and left files. Findings: names of object files, compiler ignored, no second attempt, empty name, headers, prefix. Missing: static libraries."
  },
  {
   "property": "C117",
   "status": "partial",
   "theorems": [
    "Verif.BHaH.Heap.C117_main_partial",
    "Verif.BHaH.Heap.C117_restart_violation",
    "Verif.BHaH.Heap.C117_library_violation",
    "Verif.BHaH.Heap.C117_library_bounds_violation"
   ],
   "note": "Holds for main when the run does not start from a checkpoint, with any checkpoints written. False after a restart (one lost array for each grid) and for the library (coordinates and boundary conditions are never freed; too few structs if the number of grids is raised)."
  },
  {
   "property": "C118",
   "status": "partial",
   "theorems": [
    "Verif.BHaH.Header.C118_text",
    "Verif.BHaH.Header.C118_sections",
    "Verif.BHaH.Header.C118_interleaving",
    "Verif.BHaH.Header.C118_grid_last",
    "Verif.BHaH.Header.C118_file",
    "Verif.BHaH.Header.C118_members",
    "Verif.BHaH.Header.C118_twice_violation"
   ],
   "note": "Content and order hold for every history. The header cannot be written a second time in a session (violation)."
  },
  {
   "property": "C119",
   "status": "partial",
   "theorems": [
    "Verif.BHaH.MainLoop.C119_run",
    "Verif.BHaH.MainLoop.C119_end",
    "Verif.BHaH.MainLoop.C119_diagnostics",
    "Verif.BHaH.MainLoop.C119_restart",
    "Verif.BHaH.MainLoop.C119_evolve_twice",
    "Verif.BHaH.MainLoop.C119_final_violation",
    "Verif.BHaH.MainLoop.C119_required_partial",
    "Verif.BHaH.MainLoop.C119_required_violation"
   ],
   "note": "Number of steps, diagnostics before the final time, restart and repeated evolution hold (real numbers). The final state is never diagnosed; griddata_free is called by main but not checked (violations)."
  }
 ]
}