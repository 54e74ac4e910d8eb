# Design

Formal model of `libgrpp` (C library in /repo) in Lean 4, and theorems about it.

## Conventions of the model

* `double` is idealised as the real numbers `ℝ`; `pow`, `exp`, `sqrt`, `fabs` are the real functions. Rounding, NaN and
  infinities are not modelled, except in Model/Float (C94-C96), where the routines are written over an arbitrary arithmetic.
* `int` loop indices are naturals or integers; overflow of `int` is not modelled unless a property is about it.
  `uint64_t` arithmetic in `binomial.c` is modelled with wrap-around.
* A C function that can go wrong returns `Outcome α`: `ok a`, `ub` (out-of-bounds or uninitialised access, use after free,
  double free), `abort` (failed `assert`) or `exit`.
* Stack arrays are partial functions from indices to optional values: reading an unwritten or out-of-range element is `ub`.
* A loop is a fold over the list of its index values in order. A function writing through a pointer returns the new value.
* Every definition carries a comment with the file and lines it models and says what was simplified.

## Layout

* `lean/Verif/Model/*`  models of the code.
* `lean/Verif/Lemmas/*` helper lemmas.
* `lean/Verif/Props/*`  the property theorems, with a concrete instance (`example`) beside each.
* `lean/Verif/Axioms.lean` prints the axioms of the property theorems.

## Properties: what is modelled and how it is proved

* **C01 Binomial coefficients are exact or zero.** `binomial`/`gcd_ui` modelled on `UInt64`-sized naturals with explicit wrap-around (`mod 2^64`). Loop invariant: after step d the accumulator is C(n,d).
* **C02 Factorial helpers equal their mathematical definitions.** Tables transcribed; factorial over all ints; abort outcome for double_factorial outside -1..30. Table checked entry by entry, lifted to all n by induction.
* **C03 A shell lists every Cartesian component exactly once.** Three nested loops as list comprehension over descending ranges. Counting by induction.
* **C04 The two documented Cartesian orders agree.** Both generators as list functions, equality for all L.
* **C05 Component lookup inverts the component list.** Linear search loop; correctness by induction on the list plus C03's no-duplicates.
* **C06 Shells own private copies of the caller's arrays.** Heap of arrays addressed by pointers; creation allocates fresh blocks; writes to other blocks commute.
* **C07 Shrinking a shell drops exactly the negligible primitives.** In-place compaction loop on two arrays with a read and a write index; equals list filter.
* **C08 Potentials keep exactly the significant primitives and their value.** Same technique as C07 with three arrays; value is a sum over the kept list.
* **C09 Creating and then shrinking a potential changes nothing.** False at |c| = 1e-14 exactly: counterexample, plus the theorem away from that value.
* **C10 Coincidence of centres is an equivalence relation.** Transitivity is false: counterexample; reflexivity, symmetry and a 2-step bound are proved.
* **C11 Accumulating matrix kernels compute y+ax and C+AB.** Loops on row-major arrays.
* **C12 Overlap integrals are the true integrals.** Table-filling loops with bounds- and initialisation-checked reads; idealised real arithmetic; the recursion is proved equal to the Lebesgue integral by integration by parts and Fubini.
* **C13 Overlap, momentum and kinetic integrals stay inside their buffers up to the documented L.** Array accesses checked against the declared dimensions; false for L=10 (witness), proved for L<=9.
* **C14 Overlap matrix is transposed when the shells are exchanged.** Corollary of C12, also directly on the recursion.
* **C15 Overlap, kinetic and momentum integrals are translation invariant.** On the recursion: depends only on differences of centres.
* **C16 One-electron integrals are bilinear in the contractions.** Contraction loops as sums.
* **C17 Kinetic-energy integrals are the true integrals.** As C12 with second derivative table; spec uses the actual second derivatives of the basis function.
* **C18 Kinetic-energy matrix is symmetric under exchange of shells.** From C17 by integration by parts.
* **C19 Momentum integrals are the true integrals and antisymmetric.** As C12 with the first derivative table.
* **C20 Normalisation factor.** Gamma-function free: Gaussian moments by the recursion.
* **C21 Differentiated shells represent the derivative of the basis function.** HasDerivAt of the contracted function with respect to its centre.
* **C22 Overlap gradient is the derivative of the overlap.** Composition of C12 and C21; derivative under the integral via the recursion.
* **C23 Overlap gradient leaves the caller's shells unchanged.** Step model of the mutation of the component list; sequential restoration proved; two-thread interleaving counterexample.
* **C24 Gradient assembly reads only valid matrix elements.** Index arithmetic with ints; false (witness), proved for components with non-zero exponent.
* **C25 GRPP gradients obey translational invariance.** Case analysis on point coincidence with abstract bra/ket derivative blocks.
* **C26 GRPP gradients vanish when they must.** As C25.
* **C27 Gradient case analysis selects exactly one case.** False because coincidence is not transitive: witness; proved when coincidence is transitive on the given points.
* **C28 Local potential integrals with r^0 Gaussians are the true integrals.** Closed form of the n=2 routine against the Lebesgue integral, using C29.
* **C29 Hermite expansion coefficients are correct.** Table loop as in C12; Hermite Gaussians as iterated derivatives.
* **C30 Hermite Coulomb recursion is the derivative of the auxiliary function.** Table loop; statement with iterated derivatives of an abstract radial function.
* **C31 Local-potential integrals stay inside their buffers up to the documented L.** Bounds of E, R and Boys arrays and assert of double_factorial; false for L=10 and for L_A+L_B>=16 at large distance; proved below.
* **C32 Local potential integrals are linear in the potential and independent of the output buffer.** Loop over potential terms with abstract primitive blocks.
* **C33 Point-nucleus attraction is minus charge times the bare 1/r integral.** Loop rule for the pairs of primitives; the McMurchie-Davidson theorems of C63 with c=0; Boys accuracy of C64.
* **C34 Specialised nuclear-model entry points use the caller's model parameters.** Equality of the entry points with the generic routine on the shifted array; witness: the quadrature sum is bounded below by one node for R=1 and above by 3/(2R) times the sum of the weights for large R.
* **C35 Unknown nuclear model never returns a matrix.** Loop rule for a body that either ends the program or leaves the state unchanged.
* **C36 Charged-ball nucleus.** Real integrals of polynomials.
* **C37 Gaussian nucleus.** Gaussian moments; erf defined as an integral.
* **C38 Fermi nucleus.** Real-analysis on the modelled formulas with S_k as series.
* **C39 Initialisation is idempotent and safe under concurrency.** Interleaving semantics with a critical section.
* **C40 Library parameters: last write wins and every setting has an effect.** State machine of setters; for tolerance: radial type-2 model ignores the parameter (negation).
* **C41 A GRPP object frees what it owns exactly once.** Heap of objects with alive flags; free of dead object is ub.
* **C42 Any number of potentials can be attached to a GRPP object.** False: 101st addition; proved up to 100.
* **C43 Full GRPP integrals are the sum of their parts.** Loop model with abstract integral kernels.
* **C44 Single-term gradient routines agree with the full gradient and do not free the caller's objects.** Ownership model as C41 and algebra of the weight.
* **C45 Angular momentum matrices obey the angular momentum algebra.** Model/LMatrix. The loops store the entries of U^H G U, U unitary; commutators in the basis of complex harmonics; transport by U; reality from the symmetry under m -> -m.
* **C46 Unit-sphere monomial integrals.** Closed form; recurrences characterising the sphere integral; true integral via Gaussian integrals.
* **C47 Semilocal integrals do not abort for documented angular momenta.** Argument range of the double-factorial call; false for high L (witness), proved bound.
* **C48 Nested radial quadrature equals the full quadrature at every refinement.** Grid as function of nr; bookkeeping of sums on nested grids.
* **C49 Radial integration always terminates with a verdict.** Fuel-free recursion on grid size.
* **C50 Gaussian moment formula used in screening and one-centre integrals.** Integration by parts / Gamma function.
* **C51 Outer-core integrals are symmetric and respect the projector quantum numbers.** Projectors: angular momentum algebra of the real harmonics (C45, C76) with the Pauli matrices. Symmetry: from C81.
* **C52 Outer-core integrals leave the caller's objects unchanged.** False. The model of Model/OuterCore returns the shells as the call leaves them; in Model/Concurrent two such calls reach a data race on the centre of the first shell.
* **C53 Auxiliary G function recursion.** Recursion in both branches.
* **C54 Boys function evaluation stays inside its table.** Index arithmetic over reals with rounding function; false for order>=16 at x>30.
* **C55 Chebyshev series evaluation is exact.** Model/Dawson: the Clenshaw loop of `xChebyshev_Tn_Series`, by the recursion of the Chebyshev polynomials.
* **C56 Fermi special function evaluation stays inside its table.** Index arithmetic.
* **C57 Scaled modified spherical Bessel derivative recursion.** Model/Bessel: `modified_scaled_bessel_derivative`, `pretabulate_bessel` with the nested loops over the global array (any previous content), all array bounds. The derivative relation is proved from the power series (Lemmas/Bessel).
* **C58 Fortran entry points behave as the C entry points.** Model/Fortran: the wrappers of `fortran.c` on the store of Model/Grpp, each temporary object an allocation; `Holds h own h'` describes the store with the live temporaries `own`.
* **C59 Integral routines without shared writes are schedule independent.** Model/Concurrent: the routines as trees of loads and stores on a memory of blocks shared by threads; deep reads of the objects, private buffers, stores to the output matrices. Each program run alone simulates the model of the routine as a function of values (`Goes`), with the cells it reads and writes; threads whose writes avoid each other's cells keep the states they have alone (`PoolInv`), for every schedule.
* **C60 A GRPP object presents exactly what was attached.** Same invariant as C41, recording the contents of the arrays.
* **C61 Radial tables return what was computed.** Two-pass store model of the tables; type-1 stride is lambda_max+1 (false when n_max differs).
* **C62 The radial quadrature converges to the radial integral.** Change of variables r = -5 ln(1-x^3) and convergence of Riemann sums of a function continuous on [0,1].
* **C63 Integrals over r^-1 and r^-2 local potentials are the true integrals up to the auxiliary functions.** Gaussian product, Hermite expansion, transform 1/r = ∫ Gaussian, and linearity of the recursions in the auxiliary values.
* **C64 Boys function values are accurate.** All literals of the table imported as integers x 10^32; downward recursion from integer enclosures checked by the kernel; Taylor remainder and asymptotic tail bounded analytically.
* **C65 Series for the auxiliary G function is accurate.** Partial sums of exp(-x) times the series and bound of the tail.
* **C66 Fermi and Fermi-bubble potentials are the electrostatic potentials of their densities.** Repeated antiderivatives of 1/(1+exp x), continued across x=0 by the Bernoulli-polynomial identity; moments by repeated integration by parts.
* **C67 Estimated Fermi parameters reproduce the rms radius.** Formula for the rms radius with the exponential terms bounded as alternating series.
* **C68 Fermi special functions S_k are accurate.** `skLiteral` holds the literals of the source; `fermiS` is the series. Each literal is checked against integer enclosures of the series (columns by Taylor steps from row to row, `decide +kernel` over the whole table), lifted to reals by `skRows_close`. Ranges of the routine below -10 by the alternating series.
* **C69 The Fermi potential as computed is accurate.** Spec `fermiDensity` is the normalised Woods-Saxon density, `electronEnergy` its electrostatics. First-order error propagation, no dependence on the model helpers.
* **C70 Spherical harmonic expansion coefficients.** Code model with `uint64_t` products, truncating `int` division and conversion of negative ints to `uint64_t`; spec `rsh` uses Rodrigues' formula and powers of x+iy. Coefficients are integers times a common factor, hence not tiny.
* **C71 Evaluation of spherical harmonics.** Power tables on the stack with initialisation check; tables read with bounds check.
* **C72 Orthonormality, completeness and plane-wave expansion of the harmonics.** Generating function (null vectors) for solid harmonics; surface integrals of powers of linear forms from Gaussian integrals in polar coordinates.
* **C73 Angular integrals.** Sums over components exchanged with the surface integral; expansion of exp(k.w) term by term.
* **C74 Accuracy of the scaled modified spherical Bessel functions.** Model/BesselTable, Model/RfunTable: the literals of the source, generated. Lemmas/BesselCheck encloses the ratios of successive orders by integers from order 80 down, and the function upwards from order 0; Lemmas/BesselRows: the kernel evaluates the comparison for all 1601 rows; Lemmas/BesselSound: soundness. The quartic expansion is bounded with |K^(5)| <= 16, the form for x > 16 with the closed form of i_n.
* **C75 Nuclear attraction integrals of finite nuclei are those of the stated charge density.** Shift of the origin to the nucleus, binomial expansion, plane-wave expansion against polynomials (C72), Fubini in polar coordinates: exact partial-wave sum; then the difference of the two sums; radial part: Bessel accuracy (C74), convergence of the quadrature (C62).
* **C76 Angular momentum matrices generate rotations of the real harmonics.** Spec `turn` (Model/SpecRotation) and `rsh`. Ladder operators from the differential equation of the derivatives of (x^2-1)^l; real from complex harmonics by U.
* **C77 Semilocal integrals away from the centre.** Model/Type2, spec `semilocal` (Model/SpecSemilocal): projections on the harmonics by surface integrals. Shift to C and binomial expansion, plane-wave expansion of each Gaussian (C72), the monomial times harmonic has bounded degree so that the sum over orders is finite; radial integrals by Fubini. Code side: loop rules, filtered copies, bounds of the angular integrals by the addition theorem and Bessel's inequality, Bessel accuracy (C74), convergence (C62).
* **C78 Semilocal integrals on one centre.** Same, with the moments of C50; only order zero survives because i_l(0) = 0 for l > 0.
* **C79 Spin-orbit integrals.** Same with three weights; the thresholded matrix elements enter the bound.
* **C80 Semilocal integrals of degenerate input.** Direct.
* **C81 Outer-core integrals.** Both parts as sums over Cartesian components, turned into spherical ones (`sum_slm_basis`); overlap and type-1 integrals from C12 and C63; the one-centre radial integrals in closed form.
* **C82 Normalisation of radial Gaussians.** Each literal squared against the Gamma function; interval arithmetic in the kernel.
* **C83 Dawson function.** Model/Dawson: the three methods, the six tables of 21 coefficients, the borders. The Chebyshev sums are differentiated exactly; the residual of D' + 2xD = 1 is bounded by the sum of the absolute Chebyshev coefficients (kernel computation over the whole table), and a comparison lemma for the equation bounds the error.
* **C84 G functions with the library's Dawson function.** C65 and C83 and the growth of an error in the recursions, up and down.
* **C85 Overlap and normalisation entry points of the Fortran interface.** Model/Fortran; C12 and the overlap of equal-centre Gaussians with two exponents.
* **C86 Full pseudopotential integrals against the operator.** Model/FullLib: `libKernels` are the modelled routines, `grppElement` the operator. C43 for the routines on this pseudopotential; local part: C63 with C64, C84 and the weights of the auxiliary functions; semilocal parts: C77-C79; outer core: C81 with approximate local integrals.
* **C87 Gradient of the pseudopotential integrals with the library's routines.** `grppForm`, the operator of C86 as a bilinear form of the two functions, is shown to be continuous along the curves of displaced Gaussians (Lemmas/GaussForm, GaussFormParts: decaying functions, weighted integrals, projections on the sphere), hence differentiable with the derivative of the basis functions inserted; the assembly of C25 with inexact matrices.
* **C88 Screening discards no integral above its tolerance.** False. Model/Screening; infinite and NaN estimates are `none`, like EXIT_FAILURE. Witness: two terms r^-2 and r^0, whose estimates and integrals have different ratios; bounds for both make the coefficients cancel in the estimate only.
* **C89 The radial quadrature is accurate.** False. Witness: an s function at a distance which is no node of any of the nine grids, with an exponent so large that the function is negligible at all nodes. Partial: the substitution of the quadrature turns the sum into a Riemann sum of a Lipschitz function.
* **C90 Routines return every block of memory they obtain.** Model/Heap: a second, coarser model of all routines (allocation, release and use of blocks, control flow with arbitrary answers to numerical questions). Triples with a frame: the blocks of the caller stay untouched.
* **C91 libgrpp_finalize releases the memory of the library.** False; the blocks that stay are counted. Partial: further pairs of calls change nothing.
* **C92 The Fortran outer-core subroutine agrees with the C routine.** Model/FortranModule: the Fortran subroutine as loops over the wrappers of C58. Calls that restore the memory compose.
* **C93 The Fortran subroutine for the outer-core gradient returns the gradient.** False: the Fortran subroutine is a stub.
* **C94 Rounding errors of the one-electron integrals.** Model/Float: the code over an arithmetic with a relative error per operation; `Close e v x M`: the computed v differs from x by at most (exp e - 1) M, with |x| at most M; every operation adds its unit to e. The Obara-Saika table by induction, the majorant being the same recursion with absolute values. `round53` is rounding to 53 binary digits, ties to even.
* **C95 Rounding error of the value of a potential.** Same calculus.
* **C96 Rounding errors of matrix products and vector updates.** Same calculus; the negative part is a computation in IEEE arithmetic.
* **C97 Molecular one-electron matrices.** Model/Driver: the loops over shell pairs with running offsets. A loop that adds matrices adds their sum; the blocks tile the matrix. Quadratic forms as integrals of squares.
* **C98 Molecular pseudopotential matrices.** Model/DriverGrpp: pair lists, offsets, one iteration per pair. Per pair the library theorem (C86, uniform values); iterations in any order add disjoint blocks.
* **C99 Periodic table of the driver program.** Model/Elements: the table as data, strings as lists of character codes. Table facts by kernel evaluation over all 131 entries, lifted to all strings.
* **C100 Molecular nuclear-attraction matrices.** Model/DriverNuclear: loops over shell pairs and atoms. Per pair and atom C33 or C75; the estimate of the Fermi parameters by bounds on log 3 and pi.
* **C101 Molecular gradients.** Model/DriverGradient: loops over shell pairs, atoms and pseudopotentials. Per pair C23 or C87; sums of derivatives; undefined behaviour of one pair spreads to the whole loop since no other pair aborts.
* **C102 Matrix files and their comparison.** Model/MatrixFile: the text of the file character by character, %d of fscanf with its undefined overflow, doubles with infinities and NaN; decimal conversion of doubles is a parameter. Proof: the reader applied to the printed lines stores the printed entries; division with remainder tells the positions apart; loop invariant for the first difference.
* **C103 Basis sets: from the text of the file to the shells of the molecule.** Model/BasisFile: %s, %d, %lf of fscanf on the text, skip_line, the two arrays with cells never stored, normalisation through the Fortran wrapper of C85, the shell list. Proof: grammar of the file as inductive predicates; loop invariants over rows, columns, blocks and atoms; the norm by C85.
* **C104 Pseudopotentials: from the text of the file to the objects of the library.** Model/GrppFile: the search, the blocks of outer-core functions and potentials, the three arrays, the pairing by position, printing. Proof: the grammar of the file as inductive predicates, loop invariants; terms by C08.
* **C105 The whole driver program: from the command line and the input files to the output files.** Model/Program: arguments, read_molecule at the level of characters, printing (label arrays), the sequence of calculations, all calculate_write functions with the names of their files. Proof: composition of C97, C98, C99, C100, C101, C102, C103, C104, C106.
* **C106 Gradients of single terms of the pseudopotentials in the driver program.** Model/DriverTerms: the four routines for gradients of single terms. Proof: as C101 for pseudopotentials with one term each; the integrals of a pseudopotential are exactly the sums of those of its terms (determinism of the kernels, C43), hence also the gradients.
* **C107 Molecular matrices of the Fortran program.** Model/FortranDriver: the loops over pairs of shells of evalints.f90, the calls of the module libgrpp.f90 for each term, the tables of outer-core functions and update_matrix_part, on top of Model/FortranModule. Proof: each step adds a block of the matrix (Lemmas/FortranEcp) and gives back the memory (C58, C92); the blocks are those of the driver in C (C97, C98, C100), since the kernels are deterministic.
* **C108 Gradients in the Fortran program.** Model/FortranGradient: calculate_rpp_integrals_gradients with the wrappers of the gradient routines (Model/FortranModule), the buffers and the twelve matrices of each atom. Proof: each call fills its buffers with the values of C106 (Lemmas/FortranGradient, GradFills), each step adds a block to the matrices of one atom; the values are those of the driver in C for the pseudopotentials without outer-core part. Undefined cases: the first undefined call ends the loops (OkUb).
* **C109 Input files of the Fortran program.** Model/FortranFiles: list-directed input on lists of records, read_molecule, get_charge, read_basis, normalize_basis and the part of main.f90 that calls them. Proof: one lemma per read statement on the lines that are not blank, passing over the lines of other entries (scan_data), storing an entry (ftnReadEntry_spec), both passes of the normalisation (main_basis_spec); the functions in the arrays are unique (NormalisedFun.unique), hence those of C103. Lost header: lines of two values are consumed in pairs (pairs_scan).
* **C110 Pseudopotential files of the Fortran program.** Model/FortranRpp: read_rpp and its use in main.f90. Proof: one lemma per loop of read statements (the part of the arrays written so far is a prefix), one for the blocks of an entry, a search lemma for the headers; the comparison with C104 uses that IsGrpp determines the object (grpp_unique). First entry counts, unlike for basis sets.
* **C111 Matrix files of the Fortran program and their comparison.** Model/FortranMatrix: print_matrix. Proof: the file is the one of print_matrix_lower_triangle for the matrix with small elements replaced by zero (ftnPrint_eq); reading uses the lemmas of C102 line by line, with the number read in place of the number printed.
* **C112 The whole Fortran program, from input files to output files.** Model/FortranProgram: main.f90 from the three input files to the output files, with print_basis, print_ecp (formats with reversion as a limit on the number of values) and the labels of basis functions. Proof: ftnProgram_input composes the readers of C109 and C110 and passes the formats; ftnCalculate_ok composes C107, C108 and C111; the driver in C is run by the lemmas of C105 on the same molecule; the files are compared by C111.
* **C113 What a passed test shows.** Model/TestScript: main of compare_matrices.c with the command line and any threshold (Dbl.Exceeds), a directory as a function from names to contents, the scripts run_test.sh as a driver followed by a list of comparisons. Proof: compareFiles_zero gives the verdict for all texts, with the length of what read_matrix reads; write_mem and write_not_mem say what the directory has after the driver; the names of the files are computed (filesOk_names) and checked for each script by the kernel; the contents come from C105, C111 and C112.
* **C114 Estimates of type-1 radial integrals are not below the integrals.** Model/Screening1: screening_radial_type1 with failure and NaN as separate results. Proof: for k = 0 the search finds the maximum exactly in two rounds (screenLoop1_const); r^n exp(-p r^2) lies below a Gaussian function at the maximum by x <= exp(x - 1) (moment_envelope), whose integral is the estimate (integral_gauss_shift). Narrow functions: with the asymptotic Bessel functions and n = 1 the map of the search is r -> sqrt(r* r), which stops at 0.005 when r* = 0.0025 (sharp_estimate); the integral is larger by exp(6.25e-6 p) (sharp_integral).
* **C115 The driver in C leaves the dynamic memory as it found it.** Model/DriverHeap: the functions calculate_write_* and evaluate_* of the driver in C over the heap model of C90 (Model/Heap). Proof with the framed triples of Lemmas/Heap: withBlocks_ht, withGradients_ht and withTables_ht hand the blocks of a frame to its body as blocks of a caller; evalGrpp_ht has the array shell_pairs left over in its postcondition. mainHeap: molecule, basis sets (with realloc as free and allocation) and list of shells around the calculations (deleteEach_ht for the loops of destructors). readGrppHeap: read_grpp for entries within the limits of its arrays, with the shells nobody owns afterwards as part of the result.
* **C116 The comparison program on arbitrary files.** Model/MatrixFile and Model/TestScript on arbitrary texts. Proof: every scan returns a suffix of the text (scanInt_cases, scanEntry_cases), so that the precondition on the numbers is kept by the loop; the range test of the row and column bounds the index (readEntries_safe).

## Trusted base

* The Lean 4.33.0 kernel, and the axioms `propext`, `Classical.choice`, `Quot.sound` (no others; no `sorry`,
  `native_decide` or `bv_decide`).
* Mathlib's definitions (integral, derivative, `Real.exp`, ...), as the meaning of the specifications.
* The reading of the C code: the model is tied to the code only by the citations in the comments.

## Not modelled

* Floating-point rounding outside Model/Float (overlap, kinetic, momentum integrals, value of a potential, matrix product, vector update); infinities,
  NaN, subnormal numbers, fused operations and extended precision anywhere; compiler behaviour, failure of `malloc`.
* The init/finalize wrappers `fortran.c:62-71`, which have no arguments.
* The screening of type-2 integrals is modelled in Model/Screening; the theorems
  on the integrals (C77-C81, C86, C87) do not use that model and hold for every function in its place.
* `test_libgrpp_c` except the assembly of molecular matrices (Model/Driver, Model/DriverGrpp, Model/DriverNuclear) and of the gradients (Model/DriverGradient, Model/DriverTerms), the periodic table and `read_molecule` (Model/Elements, Model/Program), `main` with its `calculate_write` functions (Model/Program), `read_basis_set` and `construct_shell_list` (Model/BasisFile), `read_grpp` and the memory accesses of `print_grpp` (Model/GrppFile), `print_matrix_lower_triangle` (Model/MatrixFile, with `test/compare_matrices.c`; its command line and the scripts `run_test.sh` in Model/TestScript); `test_libgrpp_f90` except the module `libgrpp.f90` and the evaluation of matrices in `evalints.f90` and `basis.f90` (Model/FortranDriver, Model/FortranGradient), and the readers of coordinates and basis sets (Model/FortranFiles) and of pseudopotentials (Model/FortranRpp), `print_matrix` (Model/FortranMatrix) and the main program (Model/FortranProgram): not the text of the output to the terminal, only whether its formats fit; the shell which runs the scripts; build files.
