# Formal model of nrpy (Lean 4)

## Layout

Each area of the code has a directory `lean/Verif/<Area>/` with

* `Model.lean` (or several files named after the part of the code): the functions of the code, one definition per function or code block, each with a
  comment citing the file and lines in /repo it models and any simplification made;
* `Lemmas.lean` (where needed): auxiliary facts used in the proofs;
* `Props.lean` (or `...Props.lean`, `Claims.lean`): the specification vocabulary, the property theorems, a non-vacuity `example` beside
  each theorem, and, where the code does not have the property, a theorem with a concrete witness.

`Verif/Py/` holds the small Python vocabulary shared by the models (insertion-ordered dictionaries,
string splitting and trimming).

Conventions: exceptions are values (`Except`), registries are insertion-ordered dictionaries
(association lists updated in place), Python/C strings are `List Char` when they are inspected and
`String` when they are only compared, symbolic expressions are either an abstract syntax tree with an
evaluation function (where code inspects the expression) or elements of an arbitrary field /
commutative ring (where the code only does arithmetic with them, so that the theorem holds for every
value of every symbol).

## Trusted base

* Lean 4.33.0's kernel, and Mathlib's definitions used in statements (`Polynomial`, `Matrix`,
  `Real`, `Finset.sum`, ...).
* Axioms: only `propext`, `Classical.choice`, `Quot.sound`. No own axioms, no `sorry`, no
  `native_decide`, no `bv_decide`. Section "Axioms" at the end lists how this is checked.
* The hand translation from Python (and from the C text the Python emits) to the Lean model. Every
  definition cites the lines it stands for.
* SymPy itself is not modelled: where the code calls SymPy for arithmetic we assume SymPy computes the
  mathematical operation (sum, product, matrix inverse, derivative, integral of a polynomial).
* C is modelled at the level of mathematical integers / real numbers, except where a property is about
  buffers (there: array indices and bounds). Floating-point rounding is not modelled.

## Plan per property

| id | model | proof |
|----|-------|-------|
| C01 | `params.py` registry as dictionary; operations register / set / read as a state machine over histories | induction over histories against an abstract "first default, last successful set" specification |
| C02 | same; `::` splitting on `List Char` | read theorem for all prefixes; counterexample for qualified write |
| C03 | `CodeParameter` constructor checks and registry ops, including partially failing batches | invariant by induction over histories; counterexample for `adjust_CodeParam_default(.., "unset")` and partial theorem |
| C04 | `register_CodeParameters` loop | induction over the name list |
| C05 | `register_CFunction` | induction over histories against "first successful call wins" |
| C06 | `subdirectory_depth` and `..` prefix on path component lists | path-resolution spec; induction over components |
| C07 | wrapper generation and C `switch` semantics | list lemmas; hash function abstract |
| C08 | `gridfunction_lists`, `gridfunction_defines` | permutation/sort lemmas |
| C09 | `set_parity_types` tables, reflection sign spec | complete case analysis over the finite index set |
| C10 | registration functions on component-name lists | induction; counterexample for dimension 4 rank 1 |
| C11 | in-place loops as folds over index tuples | loop invariants, all dimensions |
| C12 | decimal-digit names | injectivity for dimension at most ten; counterexample above |
| C13 | nested loops as maps | case analysis per rank |
| C14 | cofactor formulas over a field | ring identities |
| C15 | formulas over ℤ and a field | complete case analysis + field identities |
| C16-C19 | Vandermonde matrix with rational nodes, its inverse, coefficient extraction with dropped zeros | linear algebra over ℚ and polynomial evaluation, all orders |
| C20 | name construction on `List Char` | injectivity |
| C21 | unique-index computation, sort and dedup | set equality and no duplicates; counterexample at the bound |
| C22 | string parsing on `List Char` | all base names / digits |
| C23 | expression `U*(dup-ddn)+ddn` with the C macro for `U` | case analysis over ℝ |
| C24 | AST + substitution, all five stages of `cse_postprocess` | semantic preservation by stage, order invariants |
| C25 | AST, constant extraction | structural induction |
| C26 | AST with SIMD constructors, every rewriting pass as a top-down rewriting | one lemma per rule, one generic lemma for the traversal |
| C27 | symbol table returned by the conversion | counterexample; partial theorem for expressions without negative half-integer powers |
| C28 | tree datatype with `build`, `preorder`, `postorder`, `reconstruct` | structural induction |
| C29 | both functions | induction |
| C30 | `product` via reduce | induction |
| C31 | loop text as an abstract loop-nest and its C execution | induction on the nest; counterexample for increments not dividing the tile |
| C32 | file system state with optional content | case analysis; counterexamples for exceptions |
| C33 | cache as a map from keys, disk state with crash points | counterexamples; partial theorem for fixed options and complete writes |
| C34 | worker environments, completion orders as permutations | order independence for consistent environments; counterexamples for conflicting ones |
| C35 | line state machine | induction over lines; counterexamples for comment stripping |
| C36 | program of buffer assignments for each of the algorithms, in any module over a field | symbolic execution by induction over stages |
| C37 | names lists | finite case analysis on the algorithm kind, all tables; counterexample Euler |
| C38 | tables over ℚ (and ℚ(√21)); rooted trees as inductive type | completeness of tree enumeration, kernel evaluation over the entire finite table |
| C39 | coefficients as integrals of Lagrange basis polynomials | Lagrange interpolation, all orders |
| C40 | generator and C parser over `List Char` | string lemmas; counterexamples for `#`, `=`, quotes |
| C41 | buffer writes with explicit indices | length bounds; counterexample for the size field |
| C42 | line loop with override step | induction over lines; counterexample for the empty file |
| C43 | byte-stream writer / reader, write log with crash points | round trip by induction; counterexample for crash |
| C44 | index maps over ℤ/ℕ | arithmetic |
| C45 | real arithmetic with `round` | existence/uniqueness; counterexample for ties |
| C46 | formulas over a field / ℝ | matrix identities; counterexample for the shift in `g4DD_to_ADM` |
| C47, C48, C49, C50 | formulas over ℝ | algebra |
| C51 | contraction loops over a field | matrix algebra |
| C52 | registry | induction over histories |
| C53 | the generated declarations as a straight-line program with scoping (`FD/Pipeline`) | execution of the program in stages, all orders and registries |
| C54, C55 | the macros of `simd_intrinsics.h` per instruction set as functions on lanes | case analysis over instruction sets; counterexample for one macro |
| C56 | `simple_loop.py` as a loop nest | reduction to C31 |
| C57, C58 | packing/unpacking index maps; chares as a transition system with channels | arithmetic; invariant over all schedules, counterexample without ordered channels |
| C59-C63 | `reference_metric.py`: every coordinate map as a function on ℝ³, derivatives by rules | inverse identities; derivatives with `HasDerivAt`; curvature of the hatted metric |
| C64-C68 | boundary routine over integer grids; symmetry of each coordinate map for partner and parity | counting, loop invariants; case analysis per coordinate system |
| C69 | radiation routine over a field with one-sided stencils | polynomial exactness; counterexamples for odd order and narrow grids |
| C70-C77 | the BSSN modules on 2-jets of the fields (values, first and second derivatives as independent numbers with a product rule) | tensor identities, with the same names as in the code |
| C78 | `c_codegen` without SIMD: constants, temporaries and outputs as assignments; SymPy functions as a record with stated laws | composition of C24 and C25 with scoping |
| C79 | `c_codegen` with gridfunctions: five parts | simulation of the program of C53 by the optimised parts |
| C80 | `c_codegen` with `enable_fd_functions`: functions, calls | same simulation; parameter and argument order by a lemma on sorting with a common prefix |
| C81 | wave-equation right-hand sides and exact solutions | chain rule with the flat connection (C63); Laplacian of radial functions |
| C82 | elliptic right-hand sides and source terms | conformal transformation (C73 lemmas) on the flat metric; polynomial calculus in x and 1/r |
| C83 | Brill–Lindquist data | same lemmas with K = 0 |
| C84 | Black holes in spherical coordinates | metric and curvature as rational functions of a few generators closed under differentiation; identities checked by a verified polynomial normaliser, with cofactors for the relations among the generators |
| C85 | psi4 | code = contraction of a tensor with the symmetries of a curvature and the Gauss, Codazzi and vacuum equations; such a tensor exists; Ricci flat under the constraints |
| C86 | tetrad | Gram–Schmidt with the cross product of the physical metric; null relations in the normal and the coordinate basis |
| C87 | GRHD equations | 4D Christoffel symbols from the line element; Jacobi's formula for the weight; 3+1 split of the force terms and, with the kinematic equation, of Γ^0 |
| C88 | Expansion function | Divergence of the unit normal through the Hessian; Jacobi's formula for the volume element; diagonal metrics for the horizons |
| C89 | Spin-weighted spherical harmonics | The sum is a coefficient of `(c X - t)^(l-s) (t X + c)^(l+s)`; derivatives in the angle and in `X` give the ladders; integration by parts gives orthonormality |
| C90 | C function for the harmonics | The nested switch as a list of labels with fall-through |
| C91 | Decomposition of psi4 into modes | Lagrange weights against polynomials; uniform continuity for the midpoint rule; orthonormality from C89 |
| C92 | Initial data of TOVola | areal radius as a function of isotropic radius by the inverse function theorem; curvature of conformally flat radial metrics; Picard-Lindelöf for existence |
| C93 | Storage and interpolation of TOVola | invariant of the loop with an arbitrary integrator; lists with checked access; Lagrange interpolation |
| C94 | Spectral transforms of TwoPunctures | discrete orthogonality; Chebyshev polynomials of Mathlib; Lagrange interpolation; Clenshaw's recurrence as loop invariant |
| C95 | Derivatives on the grid of TwoPunctures | tensor-product functions closed under derivatives; exact description of all arrays after the sweeps |
| C96 | Coordinates and interpolation of TwoPunctures | chain rule in three stages, explicit inverse, smoothness of the represented function off the axis |
| C97 | Equations of TwoPunctures | residual at the nodes equals the Hamiltonian constraint; the Jacobian is its derivative |
| C98 | Interpolation of TwoPunctures | the returned tensors are the rotated puncture data; constraints of the returned fields; frames, lapse, initialisation |
| C99 | Solver of TwoPunctures | invariant `r = F - J dv` of the linear iteration for any preconditioner; iterates of Newton's method; quadratic equation of the bare masses; limits at punctures and infinity |
| C100 | Preconditioner of TwoPunctures | rows of the matrix as a filtered list of columns; linearity and stencil of the differences; a vector solves the system of a line iff the equations hold; commuting lines |
| C101 | Grids and time step | arrays as lists; dispatch on the name shared with the reference metric; minimum over any partition of the loop; scale factors at half-integer multiples of the spacing |
| C102 | Initial data reader | the chain of basis transformations as functions of the values at a point; specification by Cartesian fields on space; inner boundary conditions from C68; loops as lists of assignments in any order |
| C103 | Nearest grid point | `(int)` as truncation; texts of the C function with a count of braces |
| C104 | Diagnostics output | Model the lists of indices, arrays, loops and `fprintf`; prove that the points are nearest to the axis, plane or centre for every shape of coordinates. |
| C105 | Precomputed reference metric | Model the replacement of functions by names, the reading back of the names, the arrays and their reads; prove the values in the kernels by substitution lemmas. |
| C106 | Gridfunctions of thorns | Model the generators of interface.ccl, symmetries, boundary conditions and zeroing as lists of calls; compare with the registry by permutations, and the parities with the tensor signs of C09. |
| C107 | Files of thorns | Model the loop over bins with its flags and compare with a specification without flags; read make.code.defn back by the rule for continued lines. |
| C108 | Parameters in thorns | Model the emitted statements with a semantics of C declarations; prove the values by running them. |
| C109 | Relaxation loop | Model `main` with the calls of NRPyElliptic as a loop with fuel over data, files and checkpoint; prove the number of steps by induction on the iterations that are left; model wave speed and norm on the grids of C101. |
| C110 | Progress indicator | Model the C arithmetic with undefined operations as `none`. |
| C111 | Inner boundary conditions of chares | Model set-up, requests, data and application per chare with array accesses that may fail; invariants of the filling loop; values for any permutation of the messages. Rounds: transition system with FIFO channels, invariant for one source, reachable counterexample for two. |
| C112 | Diagnostics files of chares | Model the offsets and the records (`snprintf` into a buffer of fixed size); writes of all chares are a permutation of one record per point; file equal to the text byte by byte. |
| C113 | Reductions on graphics cards | Model threads, shuffles, shared memory and atomics; result uses each number once (inductive predicate); order of `double` as bits. |
| C114 | Kernels and copies of graphics cards | Text of launch and call; coverage by arithmetic; copies as functions on memory. |
| C115 | Defaults of parameters | Statements of the generated functions as data, run on structs in any order; headers as lists of variables with values; start of `main`. |
| C116 | Makefile | Directory with file times, `make` as a function of the rules of the Makefile, compiler and linker as arbitrary partial functions. |
| C117 | Memory of a run | Programs as lists of calls of `malloc` and `free`; a partial function executes them; invariant: which pointers hold which blocks, and which blocks no pointer holds. |
| C118 | Header | Registrations as a history; the header as a list of named texts that a specification determines uniquely. |
| C119 | Main loop | The loop with fuel; the states after n steps as specification; induction on the number of remaining steps. |

Status of each property (what was proved, which statements turned out false for the code, with
witnesses) is recorded in the section "Results" below, and in MANIFEST.json.

## Results

119 properties: 64 proved in full, 55 in part. A property is "partial" mostly because the code does not have it; then a theorem with a concrete witness shows the violation and the proved theorem states under which condition the property holds.

| id | property | status | remarks |
|----|----------|--------|---------|
| C01 | Parameters: first registration wins, last assignment is read back | proved | Every history of register/set/read calls. |
| C02 | Parameters: module-qualified names mean the same on read and on write | partial | Reading through any qualified name is proved; writing through a qualified name always raises in the code (C02_qualified_write_fails), so the full statement is false. |
| C03 | CodeParameters: the registry never holds an inconsistent entry | partial | Invariant proved for all histories except that adjusting a default to "unset" violates the parfile clause (witness theorem). |
| C04 | CodeParameters: batch registration gives every name its own default | proved | Batch registration equals the sequence of single registrations; a failing batch is not atomic (witness). |
| C05 | C functions: one body per generated symbol | proved | First acceptable call wins for every history; failures change nothing. Side finding: an empty name with a coordinate system is accepted. |
| C06 | C functions: emitted #include paths reach the project root | proved | All relative subdirectories that stay inside the project; witness shows the restriction is needed. |
| C07 | Coordinate-system wrappers dispatch to the right function | proved | Under distinct hashes and distinct macro names, on well-named registries. |
| C08 | Gridfunction indices: dense, collision-free storage slots | proved | Indices are 0..N-1 in a list without repetitions of exactly the group's gridfunctions, macro names pairwise distinct, independent of registration order, arrays aligned. Requires names distinct ignoring case; C08_case_collision shows the condition is needed (two definitions of one macro). |
| C09 | Parity types agree with the behaviour of tensor components under reflections | partial | Proved for rank 0 and 2 in dimension 3 and 4 and rank 1 in dimension 3. False in the code for rank 1 in dimension 4 (C09_rank1_dimension4). |
| C10 | Gridfunction registration: first registration wins; tensors register all components | partial | Rank 1 registers its components only in dimension 3 (the loop is over range(3)): C10_rank1_dimension. Antisymmetric declarations register a gridfunction named 0: C10_antisymmetric_registers_zero. |
| C11 | Symmetrization yields tensors with the requested symmetry | proved | Proved for every supported symmetry request (ranks 2-4), every dimension and every tensor over a commutative ring. Overlapping pair requests (such as sym02_sym12) are shown not to be honoured. |
| C12 | Declared tensor components are distinct unless symmetry identifies them | proved | Any rank, dimension at most ten; the bound is shown necessary by a twelve-dimensional collision. character_zero_index is not modelled. |
| C13 | Derivatives along symmetry axes vanish and nothing else does | proved | Holds when the base name does not contain _d; a name such as v_dampU is shown to lose components although it is not a derivative. |
| C14 | Matrix inverters return the inverse and the determinant | proved | Formulas transcribed mechanically from the source. |
| C15 | Levi-Civita symbol and tensors | proved |  |
| C16 | Finite-difference derivatives are exact on polynomials up to the order | proved | Stencils of dD<d> and dDD<d><d> returned by the coefficient routine are exact on polynomials of degree <= fd_order, every even order, over any field of characteristic 0; the matrix has nonzero leading minors so any LU factorisation gives the modelled inverse. |
| C17 | Upwinded, downwinded and one-sided derivatives are exact to the order | proved | Upwind, downwind and fully one-sided first-derivative stencils: exactness, reach, and mirror symmetry, every even order. |
| C18 | Mixed second derivatives are exact on products of polynomials | proved | Mixed second derivatives: exact on every polynomial of degree <= fd_order in each variable. |
| C19 | Kreiss-Oliger dissipation operator | proved | KO stencil: support, symmetry, annihilates degree < fd_order+2, Fourier symbol -sin^(fd_order+2)(theta/2), every even order. |
| C20 | Temporary names for gridpoint reads do not collide | proved | Two gridfunctions collide only if one name already contains an offset marker; C20_collision exhibits such a pair. |
| C21 | Every stencil point is read exactly once before use | proved | Memory order holds for offsets within the code's own limit of 49 points. |
| C22 | Derivative symbols are split into gridfunction and operator unambiguously | proved | C22_rejects_stem: a D or U in the stem of the name makes parsing fail. |
| C23 | Upwinding selects the derivative on the inflow side | proved | Proved for the whole generated program. C23_unset_control and C23_control_not_read show what happens when the control vector is missing or is not used by the expressions. |
| C24 | CSE post-processing preserves values and definition order | proved | For every list of replacements and reduced expressions with distinct new symbols and no cyclic definitions, the replacements returned can be executed in order, every symbol is assigned before it is used, and the outputs have the values the input system determines. SymPy's re-evaluation after xreplace is an arbitrary function assumed to keep values and add no symbols. |
| C25 | CSE pre-processing preserves values | partial | Full claim proved when minus one is not declared as a symbol (sp.collect a parameter assumed value-preserving). With minus one declared, the symbol _Integer_1 may be used without being in the table (C25_undeclared), fractional powers of minus one are changed (C25_fraction) and symbolic ones raise (C25_symbolic); C25_declared_partial excludes these. |
| C26 | SIMD conversion preserves values | partial | Value preservation over the reals for every table and expression, with SymPy's evaluation of sums and products an arbitrary function within stated laws; the conversion terminates on every expression. Excluded: sums with summands equal as functions (C26_repeated_summand shows the converted code then loses a summand), identically zero exponents, floating-point rounding. |
| C27 | SIMD conversion declares every constant it uses | partial | Every symbol of the converted expression comes from the input or is declared by the table, except in three cases proved to violate the property: exponents -1/2, -3/2, -5/2 with no one in the table; a table with the value one under another name; clean-up of minus ones that a temporary still uses. |
| C28 | Expression trees rebuild the expression; traversals visit every node once | proved | ExprTree build/reconstruct is the identity on every expression, editing the expression at a node and reconstructing replaces exactly that subexpression, and both traversals visit every subexpression occurrence exactly once in the documented order. |
| C29 | Order-preserving de-duplication | proved | Both helpers meet the same specification, which determines the result. |
| C30 | Cartesian product of index ranges is complete and lexicographic | partial | Proved for two or more iterables (or repeat >= 2) whose elements Python does not iterate over. False in general: one iterable of numbers raises TypeError, multi-character strings are split into characters (both proved). |
| C31 | Generated loop nests visit every point exactly once | partial | Loop nests as emitted, run by a small operational semantics of C for loops. Untiled nests visit exactly the lexicographic grid; tiled nests visit the same set, each point once, when the increment divides the tile size. C31_tiled_increment shows the claim is false of the code otherwise (increment 2, tile 3). |
| C32 | Conditional file updates converge and do not touch unchanged files | partial | Proved for every content without carriage return and every file state: content after the block, no second write, untouched files, no-change mode. Violated, with theorems: an exception in the block still writes the partial content (C32_exception); white-space-only content does not create the file (C32_not_created); content with an inner carriage return is rewritten every time (C32_carriage_return). |
| C33 | Caches return what recomputation would return | partial | Fresh results for every history without crashes when file names determine calls; with crashes never a wrong value. Violated, with theorems: a crash during the write makes the call fail for ever (C33_stuck); key is code and options without separator (C33_collision). |
| C34 | Parallel code generation gives the sequential result for every schedule | partial | Every schedule and assignment of consistent tasks gives the sequential registries. Violated, with theorems: duplicates go unnoticed on different workers, appended text is lost, changes of existing entries are undone by later finishers. |
| C35 | Inline code blocks are captured faithfully | partial | Every file splits into complete blocks and a tail, complete blocks are executed in order, broken ones never; marker lines characterised; scripts in open comments recovered exactly. Commented lines: only for code without own indentation. Violated, with theorems: indentation after a comment mark is lost, a commented blank line and a line closed by */ lose their line end. |
| C36 | Method of Lines step equals the Runge-Kutta scheme of the Butcher table | proved | Every explicit table meeting Admissible: the generated step succeeds and performs one RK step on each grid; all fifteen non-adaptive dictionary tables meet it; adaptive ones are refused; witnesses show the storage-saving algorithms are wrong outside Admissible. |
| C37 | Method of Lines buffers: used implies allocated, allocated implies freed once | partial | Time-step buffers, malloc and free proved for every table. The second diagnostics pointer is dangling for Euler (witness), hence partial. |
| C38 | Butcher tables have the advertised order | proved | Order conditions for all rooted trees; DP8 is given with truncated decimals and meets its conditions up to 1/(5e16). |
| C39 | Adams-Bashforth coefficients have the requested order | partial | Order at least 2: every row exact to its degree. Order 1: the code returns an extra row of zeros (witness theorem). |
| C40 | Default parameter file round trip | partial | Round trip of the whole generated file through the generated parser for all parameter sets with the five supported types, names of alphanumerics, texts without # = " newline NUL, and lengths within the buffers; the code violates the property for the other cases, shown by C40_violations. strtod(repr x)=x is a hypothesis per default value; text is ASCII. |
| C41 | Parameter-file parser never writes outside its buffers | partial | For every file, command line and table no write past a buffer, if bracket pairs enclose at most 15 characters and steerable char parameters have at most 128 bytes; both conditions are needed (overflow theorems). |
| C42 | Command-line steerable parameters override the parameter file | partial | Overrides win if at least one line of the file does not set an unknown parameter; otherwise (for example an empty file) the arguments are ignored, and with one steerable parameter a value that names a readable file is taken as parameter file. Array and boolean steerable parameters are not covered (the generated code ignores arrays and does not compile for booleans). |
| C43 | Checkpoint round trip and crash safety | partial | Round trip proved in full, for every grid content. Crash safety is false of the code (C43_crash: every crash point between opening and the last byte loses the checkpoint); C43_crash_partial covers the two other points. |
| C44 | Distributed grid: every point has exactly one owner | proved | All decompositions that pass the program's checks; ghost zones included. |
| C45 | Output and checkpoint scheduling fires once per period | partial | In exact arithmetic. A multiple of the period exactly halfway between two steps is written at neither (C45_missed). |
| C46 | 4-metric and ADM variables: inverse and round trip | partial | The covariant metric is the ADM line element and the contravariant metric its inverse, for every symmetric invertible spatial metric, shift and nonzero lapse. The round trip through g4DD_to_ADM is false: it reads betaD[i] from g4DD[0][i] instead of g4DD[0][i+1]; C46_roundtrip_partial gives exactly the metrics for which the shift comes back, C46_minkowski a wrong result. BSSN variants not modelled. |
| C47 | Lorentz boosts preserve the Minkowski metric | proved | All velocities with 0<|v|<1; zero velocity gives 0/0 (C47_zero). |
| C48 | Quaternion rotation is a rotation | proved | Against Rodrigues' formula. SymPy's quaternion product and from_axis_angle are modelled from their documentation. |
| C49 | Branch-free min, max and bound indicators | partial | Minimum and maximum in exact arithmetic. Indicators are exact 0/1 under any rounding that absorbs TINYDOUBLE, and at equality; in exact arithmetic coord_less_bound and coord_greater_bound are never 1, and all four have a point with 0/0. Order of evaluation as written in the source. |
| C50 | HLL flux and characteristic speeds | proved | Exact real arithmetic; the conserved quantities and fluxes are arbitrary numbers. |
| C51 | Basis transforms are mutually inverse | proved | Entries of the Jacobian at one point are arbitrary real numbers with nonzero determinant. |
| C52 | griddata/commondata registry rejects duplicates and keeps order | proved | All histories. |
| C53 | Generated finite-difference code declares and computes every derivative symbol | proved | Covers _dD, _dDD, _dKOD and _dupD symbols; C53_ddn_undeclared shows that a user-written _ddnD symbol is accepted but never declared. |
| C54 | All instruction sets compute the same lane-wise functions | partial | The fused operations hold on all branches except NegFusedMulSub of SSE2 with FMA, where the header is wrong (C54_negFusedMulSub proves it computes ab-c). Machine intrinsics are trusted to be lane-wise; rounding is not modelled. |
| C55 | SIMD conversion yields only calls that the intrinsics header defines | partial | Proved for sums, products, supported exponents, Abs, exp, sin, cos on all instruction sets but SSE2+FMA; C55_undefined proves the violation for log, sign, cube roots and general powers. |
| C56 | Grid loops cover the grid | partial | Exact coverage without SIMD; with SIMD, exact iff the width divides the row, final interior values right and array accesses in bounds for every width. C56_simd_spill: one-dimensional arrays (precomputed reference metric) are accessed out of bounds when the width does not divide the number of interior points. |
| C57 | Ghost-zone exchange fills ghost zones with the owner's values | proved | Ghost-zone exchange with packing into message buffers; synchronized grid functions are distinct numbers. |
| C58 | Distributed time stepping does not depend on the schedule | partial | Proved for channels that keep the order of messages. C58_unordered shows a wrong result when the runtime delivers two messages of a channel out of order (the generated when clauses carry no reference number). Messages of nonlocal inner boundary conditions, diagnostics and checkpoints are not modelled. |
| C59 | Coordinate maps are inverse to each other | partial | Proved for the eleven systems other than SinhSymTP that have Cart_to_xx. False for SinhSymTP: Cart_to_xx[0] returns AA(xx0) instead of xx0 (proved on the whole domain, with a witness). The v2n systems offer no Cart_to_xx. |
| C60 | Scale factors and unit vectors belong to the coordinate map | proved | All fourteen systems; regular means that scalefactor_orthog[1] does not vanish, which C60_applies shows for all points inside the coordinate ranges. |
| C61 | xxSph is the spherical form of the same point | partial | Proved for all systems but the two wedges, whose xxSph has the angles of a rotated frame: C61_wedge_violation shows the claim false at every point of their domain. |
| C62 | Unknown coordinate systems are rejected | partial | Names containing Cartesian or Wedge, ending in SinhSpherical, or starting with SinhCylindricalv2 are excluded from the rejection theorem; C62_violation gives an accepted undocumented name of each kind except Wedge. |
| C63 | Hatted quantities describe flat space | proved | Inverse and connection for any scale factors; flatness for all fourteen systems. The replacement of named functions by precomputed symbols (enable_rfm_precompute) is not modelled beyond the equality of the scale factors (C60). |
| C64 | bcstruct lists every ghost point exactly once | proved | partner map and parities are parameters here; C67 gives them for every coordinate system |
| C65 | Outer extrapolation fills all outer points from filled points, independent of the threads | proved | C65_small_violation: with two interior points between outer faces there is a data race, and the code does not check the number of points. |
| C66 | Inner boundary conditions copy the partner with its parity | proved |  |
| C67 | Every ghost point has the right partner in every coordinate system | proved | Every name that choose accepts, with its eigencoordinate system. Grids are GoodGrid: increasing ranges, even number of azimuths, holes wider than the ghost zones (the code ends the process otherwise). C67_rounding: the index from a coordinate is right for any error below half a cell. C67_checked holds for every grid. Exact real numbers. |
| C68 | Parities turn the components at the partner into the components at the ghost point | proved | Same systems and grids as C67; unit vectors are the actual ones of C60. |
| C69 | Radiation boundary conditions impose the advection equation with the true radial derivative | partial | Even finite-difference orders and grids wide enough for the shifted stencil. C69_odd_violation: for odd orders the coefficients are for a point between grid points; C69_narrow_violation: on narrow grids the stencil leaves the grid. The generated expressions for r and dx^i/dr are taken to be the expressions of the reference metric. |
| C70 | Converting ADM variables to BSSN variables and back loses nothing | proved | Real arithmetic. The symbols of the gridfunctions are real numbers; the reference-metric expressions are those of C63. |
| C71 | Every BSSN quantity named as a derivative or connection is that derivative or connection | proved | Continuum statement: each derivative symbol of a gridfunction stands for the partial derivative (the finite-difference error is the subject of C16). Points without coordinate singularity. |
| C72 | RbarDD is the Ricci tensor of the conformal metric | proved | Includes a proof that every supported reference metric is flat. Points without coordinate singularity. |
| C73 | The constraint expressions are the Einstein constraints of the physical metric | partial | H and MU proved. Msquared is not the square of MU: it contracts with gammabar_ij instead of gamma_ij (C73_msquared_violation); C73_msquared_partial says what it is. |
| C74 | Evolving the BSSN variables with the BSSN right-hand sides evolves the ADM variables by the Einstein equations | proved | Continuum statement at each point where the time derivatives are the code's right-hand sides; upwind derivatives are derivatives. The lambda, lapse and shift equations are separate claims. |
| C75 | The right-hand side of Lambdabar^i keeps Lambdabar^i equal to the connection difference it stands for | proved | Fields are smooth with commuting time and space derivatives of hDD at the point; derivative symbols are the derivatives they stand for. |
| C76 | The BSSN right-hand sides preserve the algebraic constraints | proved | First-order statement at one time; same setting as C74. |
| C77 | Each gauge option evolves lapse and shift by its stated equation, independently of earlier calls | partial | Independence of earlier calls fails: option Frozen for the shift overwrites the cached B^i with zero (BSSN_gauge_RHSs.py:144,158), so a later call for the same coordinate system loses B^i (C77_history_violation). The shift equations are proved for histories without such a call. |
| C78 | The code emitted by c_codegen gives every output the value of its expression | partial | Proved for every input without aliasing of outputs and inputs and every SymPy within LibOk. Missing because false: outputs that are also read (alias), renaming together with CSE (TypeError when a temporary is left), a given table with CSE off (not declared), one symbol per scalar temporary instead of one per output (IndexError), renamed names that are keys themselves (order of a set). Not modelled: SIMD output and the text printed for a right-hand side. |
| C79 | Generated finite-difference kernels compute the expressions they were given | partial | Proved for enable_fd_codegen (which clears the registry of derivative operators) without SIMD and without separate derivative functions: the kernel is generated, every variable is declared once and before use, and the outputs have the values of the expressions for all data. Names must not start with FDPart or Upwind. False without enable_fd_codegen after an earlier kernel: C79_registry_violation shows that a call that only reads gridfunctions raises IndexError then. |
| C80 | Kernels that call derivative functions compute the same as inline kernels | partial | Proved for enable_fd_codegen with enable_fd_functions and without SIMD, for gridfunction names that do not contain FDPROTO (C80_name_violation shows why). The type name is arbitrary. C80_registry_violation: with a registry left over from an earlier call two functions are exchanged. |
| C81 | Scalar wave equation: right-hand sides and exact solutions | proved | Regular points only (no scale factor is zero). The symbols uu_dD and uu_dDD stand for exact partial derivatives. Precomputed reference-metric symbols are not part of this claim. |
| C82 | The elliptic solver relaxes to data that satisfy the Einstein constraints | partial | The equivalence with the constraints is proved for punctures without linear momentum (any spins). With momentum it is false because of the inverted kronecker_delta (C82_momentum_violation); C82_vector and C82_formula show that the Bowen-York vector itself is right for all momenta and spins. psi is assumed positive. |
| C83 | Brill-Lindquist data satisfy the constraints | proved |  |
| C84 | Black-hole data in spherical coordinates solve Einstein's equations | proved |  |
| C85 | psi4 is the Weyl scalar of the spacetime | proved | The Gauss and Codazzi equations are part of the specification (VacuumCurvature), not derived from a four-dimensional metric. |
| C86 | The psi4 tetrad is a null tetrad adapted to the sphere | proved | With use_metric_to_construct_unit_normal the components are in the coordinate basis, which psi4 does not expect (C86_metric_violation). |
| C87 | The GRHD equations are the conservation laws | proved | The energy equation assumes that K_ij is the extrinsic curvature. The connection terms are taken on the left-hand side, as nothing in the repository assembles the equations. |
| C88 | Theta is the expansion of the surface | proved | The trace of K_ij is taken from trK, so aDD has to be traceless. The variables converted by ADM_to_BSSN are the ones of C70. |
| C89 | The expressions of Y are the spin-weighted spherical harmonics | proved | On the axis itself the expression divides by tan(0); the limit there is C89_pole. |
| C90 | The C function for spin weight -2 returns the requested harmonic or ends the program | partial | The function falls through to higher degrees when the order exceeds the degree: proved for all such pairs as a violation. |
| C91 | The decomposition of psi4 into modes computes the coefficients of its expansion in harmonics | proved | Real arithmetic; the files are modelled by the numbers in their rows. |
| C92 | The initial data of TOVola are a static star that solves Einstein's equations | proved | About exact solutions of the differential equations; the error of the stepper and of interpolation between the saved radii is not part of the claim. |
| C93 | TOVola stores the solution without leaving its arrays and interpolates it exactly between neighbouring radii | partial | The mass is mirrored with the wrong sign, fewer than eleven saved radii give values that were never set, and running out of steps is not an error; everything else is proved for every integrator. |
| C94 | The spectral transforms of TwoPunctures are exact: they interpolate any data on the grid and evaluate the interpolant at every point | proved | Exact arithmetic; SpecCoef and the evaluation from coefficients for one variable, as TwoPunctures uses them (SpecCoef ignores the number of variables in its index). |
| C95 | TwoPunctures computes exact derivatives on its grid and addresses the grid without collisions | proved | Exact arithmetic; the sizes of the work arrays are not modelled. |
| C96 | The coordinates of TwoPunctures and its interpolation represent one smooth function of the Cartesian position | proved | Exact arithmetic. On the axis itself the value returned is the one for the computed angle; smoothness is claimed off the axis. |
| C97 | The residual of TwoPunctures is the Hamiltonian constraint of puncture data and its linearisation is the exact derivative | proved | Exact arithmetic, one variable, zero matter sources. The last sentence needs TP_epsilon = 0 and a distance of at least TP_Tiny; with the default TP_epsilon the components differ (C97_regularised_violation). |
| C98 | At every point TwoPunctures returns the data of its solution in the frame of the evolution code | partial | Proved for TP_epsilon = 0 (the default is 1e-6, see C97) and outside at least one extension radius. The centre of mass is not at the origin for unequal masses, the antisymmetric lapse is wrong inside the extension of the second puncture and multiply_old_lapse multiplies with a placeholder: violations. |
| C99 | The solver of TwoPunctures returns what it reports: residuals below the tolerance, bare masses for the target masses, and the energy and angular momentum of the solution | partial | Exact arithmetic, Newton_tol < 1 (for larger tolerances the loop does not run), one variable. Convergence of the iterations is not claimed. The energy is the limit along the y axis, where the code evaluates it. The angular momentum mixes the frames of solver and evolution code if the total momentum and the offset do not vanish: violation. |
| C100 | The preconditioner of TwoPunctures stores the finite-difference Jacobian within its memory, solves each line exactly and is free of races | proved | Exact arithmetic. That gsl_linalg_solve_tridiag solves the system of the line is a hypothesis on the call (it fails for vanishing pivots). Convergence of the relaxation is not claimed. |
| C101 | Numerical grids are cell-centred and of the requested size, and the time step is the Courant factor times the smallest spacing | proved | Exact arithmetic. C101_timestep assumes that some spacing is below the bounds 1e38 and 1e30 of the code, and grids that do not reach through a hole or past an excluded axis. The multipatch branch calls functions that are not in the repository and is not modelled. The violation theorem records that xxmax of a chare is wrong. |
| C102 | The initial data reader stores the given slice of spacetime, in the grid's basis, at every grid point | proved | Exact arithmetic. C102_grid assumes that the points of the interior and of the outer boundary are regular, which regular_settled proves for all systems but the wedges. Systems without Cart_to_xx cannot be used with the reader, and SinhSymTP has a wrong one (C102_sinhSymTP). The gridfunctions of the stress-energy tensor, in another array, are covered pointwise only (C102_values). |
| C103 | The grid point nearest to a place in space is found | partial | Exact arithmetic. The function generated with relative_to=global_grid_center has a closing brace too many (C103_braces_violation). Wedges are left out of the round trip, and SinhSymTP, whose Cart_to_xx is wrong. |
| C104 | The diagnostics write the grid points nearest to the axis, the plane or the centre, each once, in order | partial | Proved for every system of the five families, on grids with an even number of azimuths, Cartesian ranges symmetric. False for the y axis and the xy plane of wedges and the z axis of the ring (arrays of length zero are written; wrong points), for one azimuth (ghost point) and one polar angle (lines twice); each shown by a violation theorem. |
| C105 | Kernels that read the precomputed reference metric compute the same hatted quantities | proved | sp.diff is assumed to differentiate the functions of the coordinate system and to introduce no symbols (Ok); exOk shows that scaled spherical coordinates meet this. |
| C106 | Generated thorns declare, pair, tag and bound the registered gridfunctions | partial | Four-vectors and (ETLegacy) rank-2 tensors with a one-letter name get wrong parities (violations); names of the form *_rhs can be declared twice; without evolved gridfunctions an ETLegacy thorn does not declare AUXEVOL. Base names with digits are excluded. CarpetX thorns other than the evolution thorn declare the auxiliary gridfunctions again. |
| C107 | schedule.ccl, param.ccl and make.code.defn of a thorn contain what is registered | proved | As stated, source files are those of the directory of the thorn: a function registered with a thorn but another subdirectory is scheduled and not compiled (violation theorem). |
| C108 | Functions of a thorn read the values of their parameters | partial | Proved for real parameters whose names do not collide with auxiliary variables; parameters of other types get an address (violation). |
| C109 | The relaxation of NRPyElliptic ends, stops for the stated reasons, survives a crash, and its wave speed obeys the Courant condition | partial | Proved except for the norm: its weights are the squares of the cell volumes (violation), and the residual that is compared is that of the data before the last step (violation). |
| C110 | The progress indicator shows the remaining time | partial | Proved for positive or negative periods and iterations after the first; period zero and the first iteration are undefined in C (violations). |
| C111 | Inner boundary conditions on a distributed grid give the values of the whole grid | partial | One round is proved for every distribution, list of points, data and order of arrival. Consecutive rounds: proved for at most one source chare per chare and channels that keep order; with two sources a reachable counterexample. Migration: counterexample, and the case in which the sources have the lowest numbers. Missing: several sources per chare over consecutive rounds and other migrations, where the property is false. |
| C112 | The chares together write each diagnostics file completely and in order | partial | Each record once, at the position of its point, for every division (C112_once, unconditional). Contents and length proved for numbers whose exponent has two digits; missing: exponents of three digits, NaN and infinity, where the property is false (violations). |
| C113 | Reductions on graphics cards find the sum, minimum and maximum | partial | False for negative numbers (minimum, maximum of negative numbers only), large numbers (minimum) and more than 2^31 numbers. Otherwise proved for all arrays, block sizes of 1 to 32 warps and schedules. NaN are passed over. |
| C114 | Kernels are launched on the whole grid with the declared arguments, and gridfunctions are copied to the index asked for | partial | False for kernels without parameters and for copies to the card between different indices. Otherwise proved. |
| C115 | Parameters have their registered defaults at the start, and functions read the values of the structs | partial | False for texts with upper-case letters, percent signs or too many characters, for more coordinate systems than the default of NUMGRIDS, and for names in the vector header. Otherwise proved for all sets of parameters and orders of statements. |
| C116 | What the Makefile builds is the registered functions | partial | For paths without the extension inside, the executable is the link of all functions compiled from their present text, for all compilers, linkers and left files. Findings: names of object files, compiler ignored, no second attempt, empty name, headers, prefix. Missing: static libraries. |
| C117 | A run frees all memory it allocates, once | partial | Holds for main when the run does not start from a checkpoint, with any checkpoints written. False after a restart (one lost array for each grid) and for the library (coordinates and boundary conditions are never freed; too few structs if the number of grids is raised). |
| C118 | BHaH_defines.h has every registered definition once, in the order of dependence | partial | Content and order hold for every history. The header cannot be written a second time in a session (violation). |
| C119 | A run makes the right number of steps and diagnoses each state | partial | Number of steps, diagnostics before the final time, restart and repeated evolution hold (real numbers). The final state is never diagnosed; griddata_free is called by main but not checked (violations). |

### Behaviour of the code found on the way

Theorems are named in brackets, or belong to the property in brackets. Remarks marked "by reading" are not theorems.

* Qualified names work for reading a parameter, never for setting one (`C02_qualified_write_fails`).
* `adjust_CodeParam_default(name, "unset")` breaks the rule that parameter-file entries have a default (C03).
* Two grid functions whose names differ only in case get the same macro (`C08_case_collision`).
* Rank-1 grid functions have parity and components for three dimensions only (`C09_rank1_dimension4`, `C10_rank1_dimension`); antisymmetric declarations register a grid function named `0` (`C10_antisymmetric_registers_zero`).
* Overlapping symmetry pairs such as `sym02_sym12` are not honoured (C11).
* `_ddnD` symbols written by a user are accepted and never declared (`C53_ddn_undeclared`).
* `cse_preprocess` with a symbol for minus one may use an undeclared symbol, changes fractional powers of minus one and raises for symbolic exponents (C25).
* The SIMD conversion loses a summand when two summands are equal as functions (`C26_repeated_summand`), and may use undeclared constants (C27).
* `NegFusedMulSub` of the SSE2 branch with FMA computes `a*b-c` (`C54_negFusedMulSub`); `log`, `sign`, cube roots and general powers use macros no header defines (`C55_undefined`).
* Tiled loops repeat points when the increment does not divide the tile size (`C31_tiled_increment`).
* `product` with one iterable of numbers raises, and splits strings into characters (C30).
* An exception inside `ConditionalFileUpdater` still writes the file (`C32_exception`); content of white space only creates no file; content with an inner carriage return is written every time.
* A crash while a cache file is written makes the call fail for ever (`C33_stuck`); code and options are joined without separator in the key (`C33_collision`).
* Parallel code generation does not notice duplicates on different workers, loses appended text and undoes changes (C34).
* `nrpyinline` loses indentation and line ends of commented lines (C35).
* Euler leaves a dangling diagnostics pointer (C37); Adams-Bashforth of order 1 has an extra row (C39).
* Default parameter files do not survive the generated parser for texts with `"`, `=`, `#`, for booleans, long arrays, and so on (`C40_violations`); array sizes of 16 or more characters and long quoted values overflow buffers (`C41_size_overflow`, `C41_quoted_overflow`); command-line values are ignored when the file sets nothing known (`C42_ignored`).
* A crash while a checkpoint is written loses the old and the new one (`C43_crash`); an output time halfway between two steps is missed (`C45_missed`).
* `g4DD_to_ADM` reads the shift from the wrong components (C46); the boost divides by zero for zero velocity (`C47_zero`); the indicator functions are not 0/1 in exact arithmetic (C49).
* With SIMD, one-dimensional arrays are read out of bounds when the width does not divide the row (`C56_simd_spill`).
* The distributed time step relies on messages of a channel being delivered in order (`C58_unordered`).
* TwoPunctures solves the Hamiltonian constraint with the unregularised extrinsic curvature but returns components regularised with `TP_epsilon` (1e-6 by default), which are not traceless (`C97_regularised_violation`).
* For unequal masses the centre of mass of TwoPunctures data is not at the origin: `initialize_ID_persist_struct` stores the shift in `center_offset[0]`, the direction of the punctures in the frame of the solver, but `TP_Interp` subtracts it from the `x` coordinate of the evolution code, where the punctures lie along `z` (`C98_centre_violation`).
* Inside the radius of the extension of the second puncture the antisymmetric lapse has the mass of the first puncture in the denominator (`C98_lapse_violation`).
* `multiply_old_lapse` multiplies the lapse with the placeholder -10¹⁰⁰ (`C98_old_lapse_violation`); an unknown name of a lapse is not an error and gives the lapse -10¹⁰⁰ everywhere (`C98_lapse_unknown`).
* `TP_solve` adds `center_offset`, whose components refer to the frame of the evolution code, to positions in the frame of the solver in the reported angular momentum (`C99_angular_momentum_frame_violation`); this cancels if the total momentum vanishes.
* With two planes (`npoints_phi = 2`) `SetMatrix_JFD` enters every coupling between the planes twice, since both neighbours of a plane are the same plane; C100 is stated for three or more planes. In the even planes `relax` starts the lines of constant `al` at 2 and never relaxes line 0 there; this only affects the speed of convergence (not claimed).
* `numerical_grid_params_Nxx_dxx_xx_chare` (superB) sets `xxmax` of a chare to `xxmax` of the whole grid moved by the offset of the chare; it lies beyond the last cell of every chare as soon as a direction is divided (`C101_chare_xxmax_violation`). `xxmin`, the spacings and the coordinates are right, and no other code of the repository reads `xxmax` of a chare.
* The diagnostics along the `y` axis of wedges and the `z` axis of `RingHoleySinhSpherical` have no points, but the generated code writes -1 into arrays of length zero (`C104_bounds_violation`, simple_loop.py:357-365). In the `xy` plane of wedges they write the wrong points (`C104_wedge_violation`: the azimuth is taken to go around the full circle). With one azimuth they write a ghost point (`C104_ghost_violation`), with one polar angle each line of the `z` axis twice (`C104_twice_violation`). The 0D output refuses wedges.
* `register_CFunction__Cart_to_xx_and_nearest_i0i1i2` with `relative_to="global_grid_center"` generates a function with a closing brace too many: the opening brace is in the text added for `local_grid_center` only (`C103_braces_violation`).
* On grids of `SinhSymTP` the initial data reader computes the basis at another point than the grid point (`C102_sinhSymTP`), because `Cart_to_xx` of this system is wrong (C59).
* The initial data reader applies the inner boundary conditions to the evolved gridfunctions only; `T4UU` is left with the components for the basis at the partner of each inner boundary point (read off, not proved).
* `cfl_limited_timestep` takes the minimum over the ghost points too, so that on a grid with a hole the ghost points inside of the hole limit the time step.
* `TP_Newton` ignores the result of `bicgstab`; the result is documented as an iteration count on success, but a positive result means that the tolerance was not reached, and the code for too many iterations is never returned (`C99_bicgstab_codes`). The loop for the bare masses tests the masses before the last update of the bare masses.
* The maps of SinhSymTP coordinates: `Cart_to_xx` returns the bispherical variable instead of `xx0`; `xxSph` is rotated in wedge coordinates (C59, C61); some undocumented names are accepted, such as names that merely contain `Cartesian` (`C62_violation`).
* The boundary routines do not check that there are at least three points in an outer direction: the extrapolation then reads points other threads write (`C65_small_violation`); radiation stencils of odd order are wrong (`C69_odd_violation`) and leave the grid when it is narrow (`C69_narrow_violation`).
* `BSSN_constraints.py:175-179`: the squared momentum constraint is contracted with the conformal instead of the physical metric (`C73_msquared_violation`).
* `BSSN_gauge_RHSs.py:144,155-158`: the frozen shift overwrites a cached quantity, so that later calls return something else (`C77_history_violation`).
* `c_codegen`: an output that is also read may be overwritten too early (`C78_alias_violation`); with a substitution dictionary it raises `TypeError` as soon as there is a temporary (c_codegen.py:594-597, `C78_dict_violation`); constants are not declared when CSE is off (`C78_table_violation`); scalar temporaries are matched by position in the wrong list (`C78_index_violation`); renamings depend on the order of a set (`C78_order_violation`).
* The functions of two derivative operators are exchanged if the registry of operators is not empty when a kernel with derivative functions is generated, which needs a call without `enable_fd_codegen` (`C80_registry_violation`). A gridfunction whose name contains `FDPROTO` gets a call that declares another variable (`C80_name_violation`).
* A kernel that only reads gridfunctions cannot be generated after one with finite differences (`C79_registry_violation`). By reading: in gridfunction mode the options `enable_cse`, `prestring`, `poststring`, the scalar temporaries and the substitution dictionary are ignored (c_codegen.py:432-446).
* `ConformallyFlat_SourceTerms.py:228`: the Kronecker delta is inverted, so that with linear momenta the source term is not the square of the Bowen–York tensor, and the solver converges to data that violate the Hamiltonian constraint (`C82_momentum_violation`; `C82_trace` gives the trace of the tensor).
* By reading: the initial-data routine of the wave equation never uses the expressions for the origin, so a grid point there gets 0/0; the outer boundary uses wave speed 1.0 whatever `wavespeed` is (WaveEquationCurvilinear_RHSs.py).
- **The C function for the harmonics of spin weight -2 falls through.** There is no `break` between the cases of the outer switch, so for an order larger than the degree (but not larger than the maximum) it does not report an error: it returns the harmonic of degree |m| (`C90_c_function_violation`).
- **`use_metric_to_construct_unit_normal=True` does not fit psi4.** The expression of `psi4.py` takes components in the basis of the unit normal and the coordinate vectors (C85); the default tetrad gives these, for any lapse and shift. The option gives coordinate components instead, which read in the other basis are not null unless α = 1 (`C86_metric_violation`). The C function `psi4_tetrad` generated with the option does not receive `alpha` and `vetU` either, so it would not compile.
- **Sign of the GRHD connection terms.** The docstrings call them source terms, and nothing in the repository assembles the equations. C87 shows that they belong on the left, with the flux divergence (`∂_t U + ∂_j F^j + connection = source`); added to the sources as they stand they would enter with the wrong sign.
- **TOVola.** The mirror images at negative radii have the mass with the same sign although it is an odd function of the radius (`C93_mass_violation`; the interpolated mass is not used). When `ode_max_steps` is used up before the surface, the data are normalized at the last radius without any error (`C93_surface_violation`). With fewer than eleven saved radii values are used that were never set (`C93_few_rows`); the check "Not enough data points" comes after eleven points were added, so it is never true. With a stencil of four or fewer points the values are extrapolated (`C93_small_stencil_violation`). The index finder does not find the first of two points (`C93_two_points_violation`).
- **Gridfunctions of thorns.** For four-vectors the parity of the time component is wrong and the symmetry of the third component is written out of bounds (`C106_fourvector_violation`, Symmetry_registration.py:69-71; CarpetX: `C106_carpetX_fourvector_violation`). The first index of a rank-2 tensor with a name of one letter is ignored (`C106_short_violation`). A gridfunction named like the right-hand side of another one is declared twice (`C106_rhs_violation`). An ETLegacy thorn without evolved gridfunctions does not declare its AUXEVOL gridfunctions but registers symmetries for them (`C106_auxevol_violation`). CarpetX thorns that are not the evolution thorn declare the group `aux_variables` again although they inherit it (`C106_carpetX_again_violation`, CarpetX/interface_ccl.py:137-147; the ETLegacy version declares it in the evolution thorn only).
- **NRPyElliptic.** The norm weights each point with the determinant of the reference metric, stored in a variable called `sqrtdetgamma`, instead of its root: the weights are the squares of the cell volumes (`C109_norm_violation`). The residual is computed before a step and compared with the tolerance after it, so that the data written at the end need not satisfy the tolerance (`C109_final_residual_violation`). The checkpoint stores the stop flag: a finished run that is started again makes exactly one step (`C109_restart_one_step`). By reading: `enable_progress_indicator` does not switch the indicator off but doubles it.
- **Progress indicator.** A period of zero, documented as off, is a remainder by zero (`C110_zero_violation`); in the first iteration of a run the result of a division by zero is converted to an integer (`C110_first_violation`).
- **Inner boundary conditions of chares.** The data of a round carry no reference number and two rounds follow each other without a barrier: with two sources a chare can count a message of the next round in place of a missing one (`C111_rounds_violation`, reachable on a spherical grid cut in two in both angles). When a chare moves, the arrays indexed by chare are copied with the number of sources as length; the next message is looked up outside the array (`C111_migration_violation`).
- **Diagnostics files of chares.** Records have 23 characters per field. A number with an exponent of three digits makes the line one character too long and its newline is cut off (`C112_exponent_violation`); NaN and infinity make it too short, and what the memory held goes into the file (`C112_nan_violation`); so does a quantity of type `int` (by reading).
- **Reductions on graphics cards.** The minimum starts from 4294967295 and is combined by comparing bits as unsigned integers: with a negative number in the array the value returned is never the minimum (`C113_negative_violation`), and for large numbers it is 4294967295 (`C113_large_violation`). The maximum of negative numbers is 0 (`C113_max_violation`). For more than 2^31 numbers the index of a thread passes the end of `uint`, and numbers are taken twice (`C113_long_violation`, `C113_long_sum_violation`).
- **Copies to graphics cards.** `cpyHosttoDevice__gf` exchanges the two offsets: with different indices the gridfunction asked for is not changed and another one is overwritten (`C114_to_device_violation`). Its doctest prints the other function.
- **Kernels without parameters.** `c_function_call` cuts two characters off the name or the launch settings (`C114_call_violation`).
- **Defaults of parameters.** The parameters of the grids are set for `NUMGRIDS` grids before `NUMGRIDS` becomes the number of coordinate systems: without a changed default of `NUMGRIDS` the parameters of further grids are not initialised (`C115_start_violation`). Defaults of type `REAL` given as text lose their upper-case letters, `M_PI` becomes `m_pi` (`C115_case_violation`); default texts are used as formats (`C115_percent_violation`) and cut off if too long (`C115_long_violation`). The vector header can declare a name twice (`C115_simd_violation`).
- **Makefile.** Object files are named by replacing `.c` everywhere in the path, so a subdirectory such as `my.code` breaks the build (`C116_build_violation`). `CC ?= gcc` has no effect in GNU make, which has a value for `CC` from the start: without a variable in the environment `cc` is called, whichever compiler was asked for (`C116_compiler_violation`). A failing `make` raises an exception at the first attempt and leaves the caller in the directory of the project; the second attempt with the flags for debugging is never made for that reason (`C116_retry_violation`). With an empty name `compile_Makefile` never succeeds, although the executable gets the name of the project (`C116_empty_violation`). The variable `COMMON_HEADERS` is never set, so changed headers do not cause a new compilation (`C116_headers_violation`). A prefix stays in the dictionary of functions: a later project without prefix has functions with the prefix in files without it (`C116_prefix_violation`).
- **Memory of a run.** `read_checkpoint` allocates the evolved gridfunctions again, so a run that starts from a checkpoint loses one array of all evolved gridfunctions for each grid (`C117_restart_violation`). `bhah_finalize` frees neither the coordinates nor the boundary conditions (`C117_library_violation`). `bhah_initialize` allocates `griddata` for the default of `NUMGRIDS` before `numerical_grids_and_timestep` sets the number of grids; if that is larger the library uses structs that do not exist (`C117_library_bounds_violation`).
- **Header.** `output_BHaH_defines_h` registers its own texts and the members of `griddata_struct` in the dictionaries of the session. Every later call in the same session raises a `ValueError` (`C118_twice_violation`).
- **Main loop.** The last state of a run is never given to the diagnostics, so there is no output at the final time even if it is a multiple of the output period (`C119_final_violation`). `main` calls `griddata_free`, which is not among the functions whose registration is checked (`C119_required_violation`).
- **Files of thorns.** A function registered with `ET_thorn_name` but with another `subdirectory` is scheduled and not compiled (`C107_subdirectory_violation`). A parameter that is not real is initialized with the address that `CCTK_ParameterGet` returns instead of its value, and with the module of the parameter instead of the listed thorn (`C108_int_violation`); in CarpetX without SIMD it is declared twice, and real parameters of other thorns are not read at all (`C108_carpetX_violation`). By reading: the header of the remaining bins is repeated for every entry.

### Assumptions about SymPy

`CseOk`, `CollectOk` and `CanonOk` (in `CSE/`) state what is assumed of `sp.cse`, `sp.collect` and automatic evaluation: values and symbols are kept, temporaries are new and ordered. "New" is by name; SymPy distinguishes symbols with the same name and different assumptions, which the model does not. `sp.Eq(a, a)`, which evaluates to `true`, is not modelled.

### What is modelled

The comment of each definition cites file and lines. By area:

| directory | code |
|-----------|------|
| `Params` | `params.py` |
| `CFunction` | `c_function.py`, `rfm_wrapper_functions.py` |
| `Grid`, `GridData` | `grid.py` (registration, lists, definitions, names, parity), `griddata_commondata.py`, parity table of `CurviBoundaryConditions.py` |
| `IndexedExp` | `indexedexp.py` (declarations, symmetries, inverters, Levi-Civita) |
| `FD` | `finite_difference.py` (coefficients, names, memory accesses), the prototype and core parts of `c_codegen.py` for derivatives, upwinding |
| `CSE`, `SIMD`, `Sympy` | `cse_preprocess_postprocess.py`, `simd.py`, `simd_intrinsics.h`, `expr_tree.py` |
| `Loop` | `loop.py`, `simple_loop.py` (three-dimensional) |
| `Helpers` | `conditional_file_updater.py`, `cached_functions.py`, `clang_format`, `parallel_codegen.py`, `functional.py`, `nrpyinline.py` |
| `MoL` | `RK_Butcher_Table_Dictionary.py`, `MoL.py` |
| `BHaH` | `checkpointing.py`, `cmdline_input_and_parfiles.py` |
| `CodeGen` | `c_codegen.py` without SIMD; with and without derivative functions |
| `RefMetric` | `reference_metric.py` (maps, scale factors, unit vectors, hatted quantities), `xx_tofrom_Cart.py` |
| `CurviBC` | `CurviBoundaryConditions.py` (bcstruct set-up, inner, extrapolation and radiation conditions) |
| `BSSN` | `BSSN_quantities.py`, `BSSN_constraints.py`, `BSSN_RHSs.py`, `BSSN_gauge_RHSs.py`, `ADM_to_BSSN.py`, `BSSN_to_ADM.py`, `psi4.py`, `psi4_tetrads.py` |
| `Hydro` | `GRHD_equations.py` (all expressions; the exponents 0.5 and -3.0 of `e6phi` are real numbers) |
| `Horizon` | `bhahaha/ExpansionFunctionTheta.py` (all expressions; not the variant with precomputed reference metric) |
| `SWSH` | `spin_weighted_spherical_harmonics.py`, `spin_weight_minus2_spherical_harmonics.py`, the decomposition of psi4 into modes of `BHaH/general_relativity/BSSN_C_codegen_library.py` |
| `TOV` | `TOV_equations.py`, the C code of `TOVola_solve.py` (right-hand side, initial condition, loop, storage, extension, normalization) and `TOVola_interp.py`; the stepper of GSL is not modelled |
| `Grids` | the C code of `BHaH/numerical_grids_and_timestep.py` (independent grids) and of `superB/numerical_grids.py` |
| `Diag` | `simple_loop_1D`, `simple_loop_2D` of `BHaH/simple_loop.py` and `output_0d_1d_2d_nearest_gridpoint_slices.py`; `progress_indicator.py` |
| `Precompute` | reference_metric.py:376-629; BHaH/rfm_precompute.py; the order of reads of BHaH/simple_loop.py:160-205. `sp.diff` and `str` are parameters with stated assumptions |
| `Thorn` | ETLegacy and CarpetX: interface_ccl.py, Symmetry_registration.py, MoL_registration.py, boundary_conditions.py, zero_rhss.py as lists of declarations and calls (the layout of the text is not modelled); schedule_ccl.py, param_ccl.py, make_code_defn.py, CodeParameters.py of both (fixed comment text is not modelled) |
| `Elliptic` | the C code of `BHaH/nrpyelliptic/conformally_flat_C_codegen_library.py` (initial guess, background, wave speed, norm, diagnostics, stop conditions) and the main loop of `BHaH/main_c.py` with the calls of the example; a time step of the data and the residual at a point are parameters |
| `Reader` | the C code of `ADM_Initial_Data_Reader__BSSN_Converter.py` and of `BHaH/xx_tofrom_Cart.py`; a finite-difference derivative is any weighted sum along a direction |
| `TP` | the C code of TwoPunctures: `TP_utilities.py` (transforms), `FuncAndJacobian.py` (index, derivatives, evaluation, coefficients, `F_of_v`, `J_times_dv`, interpolation), `CoordTransf.py`, `Equations.py`, `TP_interp.py`, `initialize_ID_persist_struct`, `Newton.py`, `TP_solve.py`, for one variable (`nvar = 1`); work arrays are functions, allocation is not modelled; `gsl_linalg_solve_tridiag` is a parameter; the output of `TP_solve` is left out |
| `Wave` | `WaveEquationCurvilinear_RHSs.py`, `WaveEquation_RHSs.py`, `WaveEquation_Solutions_InitialData.py` |
| `Initial` | `ConformallyFlat_RHSs.py`, `ConformallyFlat_SourceTerms.py`, `InitialData_Cartesian.py`, `InitialData_Spherical.py` |
| `SuperB` | `chare_communication_maps.py`, `numerical_grids.py`, ghost-zone exchange of `timestepping_chare.py`; inner boundary conditions of `superB/CurviBoundaryConditions.py` with their messages in `timestepping_chare.py`, the parts of `superB_pup.py` that concern them; records and offsets of `superB/output_0d_1d_2d_nearest_gridpoint_slices.py` |
| `Equations` | `LorentzBoost.py`, `g4munu_conversions.py`, `jacobians.py`, `Min_Max_and_Piecewise_Expressions.py`, `characteristic_speeds.py`, `HLL_fluxes.py` (formula), `tensor_rotation.py` |
| `GPU` | `helpers/gpu/cuda_utilities.py` (reductions, copies of gridfunctions), `helpers/gpu/gpu_kernel.py` |
| `BHaH/Defaults.lean` | `BHaH/CodeParameters.py`, the structs of `BHaH_defines_h.py`, the start of `main_c.py` |
| `BHaH/Make.lean` | `BHaH/Makefile_helpers.py` (without static libraries, `clean` and `valgrind`) and the part of GNU make that its Makefile uses |
| `BHaH/Heap.lean` | the calls of `malloc` and `free` in `BHaH/main_c.py`, `BHaH/bhah_lib.py`, `BHaH/griddata_commondata.py`, `BHaH/checkpointing.py`, `numerical_grids_and_timestep` (without the horizon finder and memory a function frees itself) |
| `BHaH/Header.lean` | `BHaH/BHaH_defines_h.py`: registration, order of the modules, `griddata_struct` (constant texts are arguments; without `clang_format`) |
| `BHaH/MainLoop.lean` | the main loop and the check of functions in `BHaH/main_c.py`, `bhah_evolve`, the end of `MoL_step_forward_in_time` (real numbers) |

Not modelled: the other equation modules (SEOBNR), the SEOBNR C code, the other diagnostics, configuration.ccl and the include headers of the Einstein Toolkit generators, and examples.

## Axioms

Every theorem named in MANIFEST.json was checked with `#print axioms` against the compiled library: the only axioms that occur are `propext`, `Classical.choice` and `Quot.sound` (some theorems use fewer). `grep` finds no `axiom`, `sorry`, `admit`, `native_decide` or `bv_decide` in `lean/Verif`.

