{"id": "C01", "title": "Binomial coefficients are exact or zero", "statement": "The 64-bit binomial routine never returns a wrong non-zero number: its result is exactly C(n,k), or 0. It is C(n,k) whenever C(n,k)+n fits in 64 bits, and 0 whenever k>n or C(n,k) does not fit.", "quantifier": "all unsigned 64-bit n and k", "why_tests_cant": "2^128 argument pairs; the wrap-around cases sit near 2^64 where no test vector is kept", "anchors": ["libgrpp/binomial.c: binomial", "libgrpp/binomial.c: gcd_ui"]}
{"id": "C02", "title": "Factorial helpers equal their mathematical definitions", "statement": "factorial(n) is n! for every n>=0 and 1 for n<0; factorial_ratio(n,m) is n!/m!; double_factorial(n) is n!! for every n it accepts (-1..30), and it aborts for every other n.", "quantifier": "all integers n, m", "why_tests_cant": "tests see a few n; the abort boundary is what limits the angular integrals", "anchors": ["libgrpp/factorial.c: factorial, factorial_ratio, double_factorial"]}
{"id": "C03", "title": "A shell lists every Cartesian component exactly once", "statement": "For angular momentum L the component list of a shell has (L+1)(L+2)/2 entries, contains each triple (n,l,m) of non-negative integers with n+l+m=L, and contains it exactly once.", "quantifier": "all L>=0, both documented orderings", "why_tests_cant": "tests check small L only", "anchors": ["libgrpp/parameters.c: cartesian_generator_dirac, cartesian_generator_turbomole", "libgrpp/shell.c: libgrpp_generate_shell_cartesians"]}
{"id": "C04", "title": "The two documented Cartesian orders agree", "statement": "Selecting the DIRAC order or the TURBOMOLE order yields the same component list, so switching between them never permutes any integral matrix.", "quantifier": "all L>=0", "why_tests_cant": "needs all L", "anchors": ["libgrpp/parameters.c: cartesian_generator_dirac, cartesian_generator_turbomole, libgrpp_set_cartesian_order"]}
{"id": "C05", "title": "Component lookup inverts the component list", "statement": "Looking up the exponents of the i-th component of a shell gives back i; looking up a triple that is not a component gives the one-past-the-end index.", "quantifier": "all L, all component indices, all triples", "why_tests_cant": "all L and all triples incl. negative exponents", "anchors": ["libgrpp/overlap_gradient.c: nlm_to_linear"]}
{"id": "C06", "title": "Shells own private copies of the caller's arrays", "statement": "After creating a shell, or deep-copying one, later writes by the caller to the arrays passed in (or to the original shell) do not change what the shell contains; a deep copy compares equal to its original when made under the same component order.", "quantifier": "all shells and all later write sequences", "why_tests_cant": "quantifies over all later histories of writes", "anchors": ["libgrpp/shell.c: libgrpp_new_shell, libgrpp_shell_deep_copy"]}
{"id": "C07", "title": "Shrinking a shell drops exactly the negligible primitives", "statement": "Shrinking keeps, in order and with matching exponents, exactly the primitives whose |coefficient| exceeds 1e-14; doing it twice equals doing it once.", "quantifier": "all contraction lengths, coefficients and exponents", "why_tests_cant": "in-place compaction loop over arbitrary lengths", "anchors": ["libgrpp/shell.c: libgrpp_shell_shrink"]}
{"id": "C08", "title": "Potentials keep exactly the significant primitives and their value", "statement": "Creating a potential keeps in order exactly the primitives with |c|>=1e-14 together with their own power and exponent, so the value of the stored potential is the sum over those terms at every r; shrinking keeps exactly |c|>1e-14 and is idempotent.", "quantifier": "all lengths, coefficients, powers, exponents, r", "why_tests_cant": "compaction over arbitrary lengths", "anchors": ["libgrpp/potential.c: libgrpp_new_potential, libgrpp_shrink_potential, libgrpp_potential_value"]}
{"id": "C09", "title": "Creating and then shrinking a potential changes nothing", "statement": "A potential that was just created is already free of negligible terms, so shrinking it returns it unchanged.", "quantifier": "all potentials", "why_tests_cant": "true except at one exact boundary value of a coefficient", "anchors": ["libgrpp/potential.c: libgrpp_new_potential, libgrpp_shrink_potential"]}
{"id": "C10", "title": "Coincidence of centres is an equivalence relation", "statement": "The test whether two centres coincide is reflexive, symmetric and transitive, so that grouping centres by it is unambiguous.", "quantifier": "all triples of points", "why_tests_cant": "real-valued coordinates", "anchors": ["libgrpp/utils.c: points_are_equal"]}
{"id": "C11", "title": "Accumulating matrix kernels compute y+ax and C+AB", "statement": "The vector update adds exactly a*x to y, and the matrix product adds exactly A*B to C (row-major), touching no other element.", "quantifier": "all sizes and contents", "why_tests_cant": "all sizes", "anchors": ["libgrpp/utils.c: libgrpp_daxpy, libgrpp_multiply_matrices"]}
{"id": "C12", "title": "Overlap integrals are the true integrals", "statement": "For shells with positive exponents, every element of the overlap matrix equals the integral over all space of the product of the two contracted normalised Cartesian Gaussians it is labelled with (exact arithmetic).", "quantifier": "all L up to the supported size, all centres, exponents>0, contractions", "why_tests_cant": "continuum of inputs; reference numbers sample a few molecules", "anchors": ["libgrpp/overlap.c: libgrpp_overlap_integrals, overlap_integrals_shell_pair_obara_saika"]}
{"id": "C13", "title": "Overlap, momentum and kinetic integrals stay inside their buffers up to the documented L", "statement": "For shells with angular momentum up to the documented maximum 10, overlap, momentum and kinetic-energy integrals access only memory inside their work arrays.", "quantifier": "all L_A,L_B<=10", "why_tests_cant": "an overflow of a stack array can pass every test unnoticed", "anchors": ["libgrpp/overlap.c", "libgrpp/momentum.c", "libgrpp/kinetic.c", "libgrpp/libgrpp.h: LIBGRPP_MAX_BASIS_L", "README.md"]}
{"id": "C14", "title": "Overlap matrix is transposed when the shells are exchanged", "statement": "The overlap of (A,B) at row i column j equals the overlap of (B,A) at row j column i.", "quantifier": "all shell pairs", "why_tests_cant": "continuum of inputs", "anchors": ["libgrpp/overlap.c: libgrpp_overlap_integrals"]}
{"id": "C15", "title": "Overlap, kinetic and momentum integrals are translation invariant", "statement": "Shifting both centres by the same vector leaves every element of the three matrices unchanged.", "quantifier": "all shells and shift vectors", "why_tests_cant": "continuum of inputs", "anchors": ["libgrpp/overlap.c", "libgrpp/kinetic.c", "libgrpp/momentum.c"]}
{"id": "C16", "title": "One-electron integrals are bilinear in the contractions", "statement": "Concatenating two contractions on the same centre adds their overlap/kinetic/momentum matrices, scaling coefficients scales the matrix, and the order of primitives is irrelevant.", "quantifier": "all contractions on either side", "why_tests_cant": "arbitrary contraction lengths", "anchors": ["libgrpp/overlap.c", "libgrpp/kinetic.c", "libgrpp/momentum.c"]}
{"id": "C17", "title": "Kinetic-energy integrals are the true integrals", "statement": "Every element of the kinetic-energy matrix equals the integral of phi_A * (-1/2 Laplacian phi_B) over all space (exact arithmetic).", "quantifier": "all supported L, centres, exponents>0, contractions", "why_tests_cant": "continuum of inputs", "anchors": ["libgrpp/kinetic.c: libgrpp_kinetic_energy_integrals"]}
{"id": "C18", "title": "Kinetic-energy matrix is symmetric under exchange of shells", "statement": "The kinetic matrix of (A,B) is the transpose of that of (B,A).", "quantifier": "all shell pairs", "why_tests_cant": "the code differentiates only one side, so symmetry is not visible in the code", "anchors": ["libgrpp/kinetic.c"]}
{"id": "C19", "title": "Momentum integrals are the true integrals and antisymmetric", "statement": "Every element of the three momentum matrices equals the imaginary part of <A|-i d/dx_k|B>, and exchanging the shells transposes the matrix and flips its sign.", "quantifier": "all supported L, centres, exponents>0, contractions", "why_tests_cant": "continuum of inputs", "anchors": ["libgrpp/momentum.c: libgrpp_momentum_integrals"]}
{"id": "C20", "title": "Normalisation factor", "statement": "The normalisation factor of a primitive makes the self-overlap of component (n,l,m) equal to (2n-1)!!(2l-1)!!(2m-1)!! for every exponent; in particular s- and p-type primitives and every component with exponents at most 1 have unit norm.", "quantifier": "all exponents>0, all (n,l,m)", "why_tests_cant": "continuum of exponents", "anchors": ["libgrpp/norm_gaussian.c: gaussian_norm_factor"]}
{"id": "C21", "title": "Differentiated shells represent the derivative of the basis function", "statement": "The pair of shells produced for differentiation (L-1 and L+1) combine, with the exponent of the component, to the exact derivative of every contracted function with respect to its centre coordinate.", "quantifier": "all shells, all components, all points in space", "why_tests_cant": "continuum of points", "anchors": ["libgrpp/diff_gaussian.c: differentiate_shell", "libgrpp/grpp_integrals_gradient.c: grpp_gradient_diff_gaussian"]}
{"id": "C22", "title": "Overlap gradient is the derivative of the overlap", "statement": "The overlap gradient with respect to the centre of A (A and B apart) equals the derivative of the overlap integrals with respect to that centre; with respect to the centre of B it is the negative; with respect to any other point it is zero.", "quantifier": "all shells, centres, exponents>0", "why_tests_cant": "continuum of inputs; finite differences only sample", "anchors": ["libgrpp/overlap_gradient.c: libgrpp_overlap_integrals_gradient"]}
{"id": "C23", "title": "Overlap gradient leaves the caller's shells unchanged", "statement": "When the overlap gradient returns, both shell objects hold exactly what they held before, and no other thread can observe them changed in between.", "quantifier": "all shells, all interleavings of two calls sharing a shell", "why_tests_cant": "thread interleavings", "anchors": ["libgrpp/overlap_gradient.c: overlap_gradient_diff_bra_contribution", "README.md: thread safety"]}
{"id": "C24", "title": "Gradient assembly reads only valid matrix elements", "statement": "While assembling gradients from the L-1 and L+1 matrices, only elements inside these matrices are read.", "quantifier": "all L, all components", "why_tests_cant": "an out-of-bounds read multiplied by zero is invisible to tests", "anchors": ["libgrpp/overlap_gradient.c: overlap_gradient_diff_bra_contribution, nlm_to_linear", "libgrpp/grpp_integrals_gradient.c"]}
{"id": "C25", "title": "GRPP gradients obey translational invariance", "statement": "For pairwise well-separated centres A, B, C, the gradients with respect to A, B and C sum to zero, element by element; with two distinct centres the two gradients are opposite.", "quantifier": "all shells, potentials, centres", "why_tests_cant": "continuum of inputs", "anchors": ["libgrpp/grpp_integrals_gradient.c: libgrpp_full_grpp_integrals_gradient"]}
{"id": "C26", "title": "GRPP gradients vanish when they must", "statement": "The gradient is zero when both shells sit on the pseudopotential centre, and when the differentiation point is none of the three centres.", "quantifier": "all shells, potentials, points", "why_tests_cant": "continuum of points", "anchors": ["libgrpp/grpp_integrals_gradient.c: libgrpp_full_grpp_integrals_gradient"]}
{"id": "C27", "title": "Gradient case analysis selects exactly one case", "statement": "For every position of the three centres and the differentiation point exactly one contribution formula is applied.", "quantifier": "all quadruples of points", "why_tests_cant": "the failing configurations are at 1e-12 separation", "anchors": ["libgrpp/grpp_integrals_gradient.c: libgrpp_full_grpp_integrals_gradient", "libgrpp/utils.c: points_are_equal"]}
{"id": "C28", "title": "Local potential integrals with r^0 Gaussians are the true integrals", "statement": "For a potential term with power 2 the type-1 integral equals the integral of phi_A * exp(-c|r-C|^2) * phi_B.", "quantifier": "all supported L, centres, exponents, c>=0", "why_tests_cant": "continuum of inputs", "anchors": ["libgrpp/type1_mcmurchie_davidson.c: libgrpp_type1_integrals_mcmurchie_davidson_1978, evaluate_rpp_type1_mmd_n2_primitive_shell_pair"]}
{"id": "C29", "title": "Hermite expansion coefficients are correct", "statement": "The coefficient table built for the local integrals expands the product x_A^i x_B^j of a Gaussian pair times the potential Gaussian exactly in Hermite Gaussians.", "quantifier": "all i,j, all centres and exponents, all x", "why_tests_cant": "continuum of points", "anchors": ["libgrpp/type1_mcmurchie_davidson.c: setup_E_array"]}
{"id": "C30", "title": "Hermite Coulomb recursion is the derivative of the auxiliary function", "statement": "The recursion table built for r^-1 (and r^-2) potentials equals the repeated centre derivatives of the corresponding auxiliary function.", "quantifier": "all orders t,u,v and all centres", "why_tests_cant": "continuum of inputs", "anchors": ["libgrpp/type1_mcmurchie_davidson.c: setup_R_array, setup_G_array"]}
{"id": "C31", "title": "Local-potential integrals stay inside their buffers up to the documented L", "statement": "For angular momenta up to 10 the local-potential and point-nucleus integrals access only memory inside their work arrays and never abort.", "quantifier": "all L_A,L_B<=10 and all distances", "why_tests_cant": "stack overflow by one element / abort only at large distance", "anchors": ["libgrpp/type1_mcmurchie_davidson.c", "libgrpp/specfunc_boys.c: boys_function", "libgrpp/factorial.c: double_factorial"]}
{"id": "C32", "title": "Local potential integrals are linear in the potential and independent of the output buffer", "statement": "The type-1 matrix is linear in the potential's coefficients (terms not screened), zero for a null potential, and does not depend on what the output buffer held before; powers outside {0,1,2} abort.", "quantifier": "all potentials, shells, buffer contents", "why_tests_cant": "arbitrary potential lengths and garbage buffers", "anchors": ["libgrpp/type1_integrals.c: libgrpp_type1_integrals", "libgrpp/type1_mcmurchie_davidson.c"]}
{"id": "C33", "title": "Point-nucleus attraction is minus charge times the bare 1/r integral", "statement": "The point-charge nuclear attraction matrix is linear in the charge, bilinear in the contractions up to the documented screening, and changes sign with the charge.", "quantifier": "all charges and shells", "why_tests_cant": "all charges", "anchors": ["libgrpp/nuclear_attraction.c: libgrpp_nuclear_attraction_integrals"]}
{"id": "C34", "title": "Specialised nuclear-model entry points use the caller's model parameters", "statement": "Calling the charged-ball, Gaussian, Fermi or Fermi-bubble entry point gives the same matrix as the generic routine with the documented parameter array for that model.", "quantifier": "all shells, charges, model parameters", "why_tests_cant": "no test calls these entry points", "anchors": ["libgrpp/nuclear_attraction.c: libgrpp_nuclear_attraction_integrals_charged_ball, ..._gaussian_model, ..._fermi_model, ..._fermi_bubble_model", "doc/manual.tex"]}
{"id": "C35", "title": "Unknown nuclear model never returns a matrix", "statement": "With a model code other than the six documented ones the routine never returns a matrix computed with some model.", "quantifier": "all integers used as model code, all shells", "why_tests_cant": "all ints", "anchors": ["libgrpp/nuclear_attraction.c: libgrpp_nuclear_attraction_integrals"]}
{"id": "C36", "title": "Charged-ball nucleus", "statement": "The ball density integrates to Z, has the requested rms radius, and the ball potential is the electrostatic potential of this density: it is continuous at the surface, equals -Z/r outside, and satisfies Poisson's equation inside.", "quantifier": "all Z, R_rms>0, r>0", "why_tests_cant": "continuum of r", "anchors": ["libgrpp/nuclear_models.c: libgrpp_charge_density_ball, libgrpp_coulomb_potential_ball"]}
{"id": "C37", "title": "Gaussian nucleus", "statement": "The Gaussian density integrates to Z and has the requested rms radius; its potential is -Z erf(sqrt(xi) r)/r and its value returned at r=0 is the limit r->0.", "quantifier": "all Z, R_rms>0, r", "why_tests_cant": "continuum of r", "anchors": ["libgrpp/nuclear_models.c: libgrpp_charge_density_gaussian, libgrpp_coulomb_potential_gaussian"]}
{"id": "C38", "title": "Fermi nucleus", "statement": "The Fermi density is positive and decreasing for Z>0; the potential is continuous where its two branches meet; the bubble model with k=0 coincides with the Fermi model (density, rms, potential).", "quantifier": "all Z, c, a>0, r", "why_tests_cant": "continuum of r", "anchors": ["libgrpp/nuclear_models.c: Fermi and Fermi-bubble functions"]}
{"id": "C39", "title": "Initialisation is idempotent and safe under concurrency", "statement": "In every interleaving of init, finalize and integral calls by any number of threads, tables are built at most once, and whenever the library reports itself initialised the tables exist.", "quantifier": "all interleavings of any number of threads", "why_tests_cant": "schedules", "anchors": ["libgrpp/init_finalize.c: libgrpp_init, libgrpp_is_initialized, libgrpp_finalize"]}
{"id": "C40", "title": "Library parameters: last write wins and every setting has an effect", "statement": "After any sequence of setter calls each parameter has the last value set (or default); changing the radial tolerance affects radial integration of every kind of integral.", "quantifier": "all sequences of setter calls", "why_tests_cant": "histories", "anchors": ["libgrpp/parameters.c", "libgrpp/radial_type1_integral.c", "libgrpp/radial_type2_integral.c"]}
{"id": "C41", "title": "A GRPP object frees what it owns exactly once", "statement": "Deleting a GRPP object releases each potential and outer-core shell attached to it exactly once and nothing else, for every sequence of set/add calls.", "quantifier": "all call sequences", "why_tests_cant": "histories", "anchors": ["libgrpp/grpp.c"]}
{"id": "C42", "title": "Any number of potentials can be attached to a GRPP object", "statement": "Adding a potential to a GRPP object never writes outside the object's storage.", "quantifier": "all numbers of added potentials", "why_tests_cant": "nobody tests 101 potentials", "anchors": ["libgrpp/grpp.c: libgrpp_grpp_add_averaged_potential, libgrpp_grpp_add_spin_orbit_potential, libgrpp_grpp_add_outercore_potential"]}
{"id": "C43", "title": "Full GRPP integrals are the sum of their parts", "statement": "The full integral routine returns local + sum of semilocal + outer-core scalar parts, and sum of 2/(2l+1)-weighted spin-orbit parts + outer-core spin-orbit parts, whatever the output buffers contained; it aborts if the library is not initialised.", "quantifier": "all GRPP objects with any number of potentials, all buffer contents", "why_tests_cant": "arbitrary numbers of terms", "anchors": ["libgrpp/full_grpp_integrals.c: libgrpp_full_grpp_integrals"]}
{"id": "C44", "title": "Single-term gradient routines agree with the full gradient and do not free the caller's objects", "statement": "Each gradient routine for a single term equals the full gradient of the GRPP containing only that term (spin-orbit: undoing the 2/(2l+1) weight exactly), and the caller's potential is still alive afterwards.", "quantifier": "all shells, potentials, points", "why_tests_cant": "ownership over histories", "anchors": ["libgrpp/grpp_integrals_gradient.c: libgrpp_type1_integrals_gradient, libgrpp_type2_integrals_gradient, libgrpp_spin_orbit_integrals_gradient, libgrpp_outercore_potential_integrals_gradient"]}
{"id": "C45", "title": "Angular momentum matrices obey the angular momentum algebra", "statement": "The three real matrices used for spin-orbit integrals are antisymmetric and, as i times them, satisfy the commutation relations of angular momentum and sum of squares L(L+1).", "quantifier": "all L", "why_tests_cant": "all L", "anchors": ["libgrpp/lmatrix.c: construct_angular_momentum_matrices_rsh, construct_angular_momentum_matrices_csh"]}
{"id": "C46", "title": "Unit-sphere monomial integrals", "statement": "The angular kernel returns 0 when any exponent is odd and 4*pi*(i-1)!!(j-1)!!(k-1)!!/(i+j+k+1)!! otherwise, invariant under permutations, and consistent with x^2+y^2+z^2=1; it equals the true surface integral.", "quantifier": "all exponents in the supported range", "why_tests_cant": "all exponents", "anchors": ["libgrpp/angular_integrals.c: integrate_unitary_sphere_polynomial"]}
{"id": "C47", "title": "Semilocal integrals do not abort for documented angular momenta", "statement": "For basis and pseudopotential angular momenta up to 10 the angular part of the semilocal and spin-orbit integrals never aborts.", "quantifier": "all L_A<=10, L<=10", "why_tests_cant": "needs high-L inputs nobody tests", "anchors": ["libgrpp/angular_integrals.c: angular_type2_integral", "libgrpp/factorial.c: double_factorial", "libgrpp/type2_integrals.c", "libgrpp/libgrpp.h: LIBGRPP_MAX_RPP_L"]}
{"id": "C48", "title": "Nested radial quadrature equals the full quadrature at every refinement", "statement": "After k refinements of the radial grid the accumulated value is exactly the full quadrature sum on the 2^k-refined grid, however the refinements were reached, and the number of points never exceeds the capacity of the grid.", "quantifier": "all integrands, all refinement histories", "why_tests_cant": "histories of lazily expanded grids shared between integrals", "anchors": ["libgrpp/radial_type1_integral.c", "libgrpp/radial_type2_integral.c: calculate_radial_type2_integral, expand_radial_type2_grid"]}
{"id": "C49", "title": "Radial integration always terminates with a verdict", "statement": "The adaptive radial integration terminates for every integrand and reports convergence only when two successive refinements differ by at most the tolerance.", "quantifier": "all integrands and tolerances", "why_tests_cant": "all integrands", "anchors": ["libgrpp/radial_type1_integral.c: calculate_radial_type1_integral", "libgrpp/radial_type2_integral.c: calculate_radial_type2_integral"]}
{"id": "C50", "title": "Gaussian moment formula used in screening and one-centre integrals", "statement": "The closed formula for the integral over r>0 of r^n exp(-a r^2) is exact for every n>=0 and a>0.", "quantifier": "all n, a>0", "why_tests_cant": "continuum", "anchors": ["libgrpp/screening.c: gaussian_integral", "libgrpp/outercore_integrals.c: analytic_one_center_rpp_integral_primitive"]}
{"id": "C51", "title": "Outer-core integrals are symmetric and respect the projector quantum numbers", "statement": "Cross terms between outer-core shells with different L or J contribute nothing; the scalar weights of J=L-1/2 and J=L+1/2 add to one and their spin-orbit weights cancel.", "quantifier": "all outer-core shells, L, J", "why_tests_cant": "all quantum numbers", "anchors": ["libgrpp/outercore_integrals.c"]}
{"id": "C52", "title": "Outer-core integrals leave the caller's objects unchanged", "statement": "Evaluating full GRPP or outer-core integrals does not modify the GRPP object, so one object may be used for several atoms concurrently.", "quantifier": "all GRPP objects, all interleavings of two calls", "why_tests_cant": "thread interleavings", "anchors": ["libgrpp/outercore_integrals.c: libgrpp_outercore_potential_integrals", "README.md: thread safety"]}
{"id": "C53", "title": "Auxiliary G function recursion", "statement": "The values produced for the r^-2 potentials satisfy the exact three-term relation of G_n(x)=int_0^1 exp(-x(1-t^2)) t^(2n) dt in both the small-x and large-x branch.", "quantifier": "all x, all orders", "why_tests_cant": "continuum", "anchors": ["libgrpp/specfunc_gfun.c: gfun_values"]}
{"id": "C54", "title": "Boys function evaluation stays inside its table", "statement": "For 0<=x<=30 and every order needed by supported angular momenta, table indices are in range; for larger x the routine returns a value for every order.", "quantifier": "all x>=0, all orders", "why_tests_cant": "continuum of x", "anchors": ["libgrpp/specfunc_boys.c: boys_function"]}
{"id": "C55", "title": "Chebyshev series evaluation is exact", "statement": "The Clenshaw evaluator returns the sum of a_k T_k(x) for every degree, coefficients and x.", "quantifier": "all degrees, coefficients, x", "why_tests_cant": "all degrees", "anchors": ["libgrpp/specfunc_dawson.c: xChebyshev_Tn_Series"]}
{"id": "C56", "title": "Fermi special function evaluation stays inside its table", "statement": "For every k in 2..7 and x<=0 the table indices are in range.", "quantifier": "all x<=0", "why_tests_cant": "continuum of x", "anchors": ["libgrpp/specfunc_fermi_sk.c: specfunc_fermi_sk"]}
{"id": "C57", "title": "Scaled modified spherical Bessel derivative recursion", "statement": "The recursion used to tabulate derivatives is the exact derivative relation of exp(-x) i_n(x), and table look-ups are in range for 0<=x<=16 and every supported order.", "quantifier": "all x, orders", "why_tests_cant": "continuum", "anchors": ["libgrpp/specfunc_scaled_mod_sph_bessel.c"]}
{"id": "C58", "title": "Fortran entry points behave as the C entry points", "statement": "Each Fortran-callable routine gives the result of its C counterpart on objects built from the same data, and releases every temporary object exactly once.", "quantifier": "all arguments", "why_tests_cant": "all arguments", "anchors": ["libgrpp/fortran.c"]}
{"id": "C59", "title": "Integral routines without shared writes are schedule independent", "statement": "When several threads call integral routines on shared shells and potentials with disjoint output buffers, every interleaving gives each thread the result of running alone, provided the routines used do not write to shared objects.", "quantifier": "all interleavings, any number of threads and calls", "why_tests_cant": "schedules", "anchors": ["README.md: thread safety", "libgrpp/overlap.c", "libgrpp/kinetic.c", "libgrpp/momentum.c", "libgrpp/type1_integrals.c"]}
{"id": "C60", "title": "A GRPP object presents exactly what was attached", "statement": "After any sequence of set/add calls, integrals over the GRPP object use the local potential set last and all other potentials and outer-core shells in the order in which they were added.", "quantifier": "all call sequences", "why_tests_cant": "histories of calls", "anchors": ["libgrpp/grpp.c", "libgrpp/full_grpp_integrals.c: libgrpp_full_grpp_integrals"]}
{"id": "C61", "title": "Radial tables return what was computed", "statement": "After tabulation, looking up any index in range of the table of radial integrals returns the adaptive integral for exactly these indices, and every store is inside the allocated table.", "quantifier": "all integrands, all table dimensions", "why_tests_cant": "index collisions only for particular dimensions", "anchors": ["libgrpp/radial_type1_integral.c: tabulate_radial_type1_integrals, get_radial_type1_integral", "libgrpp/radial_type2_integral.c: tabulate_radial_type2_integrals, get_radial_type2_integral"]}
{"id": "C62", "title": "The radial quadrature converges to the radial integral", "statement": "As the radial grid is refined the quadrature sum tends to the integral over r>0 of r^2 times the integrand.", "quantifier": "all integrands f with r^2 f continuous on r>0 with a limit at 0 and decaying faster than exp(-r/5)", "why_tests_cant": "limit over all grids and all integrands", "anchors": ["libgrpp/radial_type1_integral.c: create_radial_type1_grid, expand_radial_type1_grid", "libgrpp/radial_type2_integral.c: create_radial_type2_grid, expand_radial_type2_grid"]}
{"id": "C63", "title": "Integrals over r^-1 and r^-2 local potentials are the true integrals up to the auxiliary functions", "statement": "The type-1 matrix of a potential with r^0, r^-1 and r^-2 Gaussian terms equals the matrix of the potential between the contracted functions when the auxiliary functions are exact; in general every element differs from the true integral by a fixed linear combination of the errors of the auxiliary functions, at most 1.7e-14 times the sum of the weights for r^-1.", "quantifier": "all supported L, centres, exponents, potentials", "why_tests_cant": "continuum of inputs", "anchors": ["libgrpp/type1_mcmurchie_davidson.c: evaluate_rpp_type1_mmd_n1_primitive_shell_pair, evaluate_rpp_type1_mmd_n0_primitive_shell_pair", "libgrpp/type1_integrals.c: libgrpp_type1_integrals"]}
{"id": "C64", "title": "Boys function values are accurate", "statement": "Every tabulated value is within 4e-15 of the Boys function, and the value returned is within 1.7e-14 of it for every argument and order for which the routine returns.", "quantifier": "all 301 x 34 table entries, all x>=0, all orders", "why_tests_cant": "continuum of x", "anchors": ["libgrpp/specfunc_boys.c: boys_function, boys_table"]}
{"id": "C65", "title": "Series for the auxiliary G function is accurate", "statement": "For arguments up to 12 the Taylor sum at the highest order is below G_n(x) by at most 1e-15, and the downward recursion multiplies the error of order n+1 by exactly 2x/(2n+1).", "quantifier": "all x in the small-argument branch, all orders", "why_tests_cant": "continuum of x", "anchors": ["libgrpp/specfunc_gfun.c: gfun_taylor, gfun_values"]}
{"id": "C66", "title": "Fermi and Fermi-bubble potentials are the electrostatic potentials of their densities", "statement": "The Fermi and Fermi-bubble densities integrate to Z, the rms routines return the rms radius of the density, and the potential routines return the electrostatic energy of an electron in the field of the density for every radius r>0, inside and outside of the half-density radius.", "quantifier": "all Z, c>0, a>0, all k with nonvanishing normalisation, r>0", "why_tests_cant": "continuum of parameters and radii", "anchors": ["libgrpp/nuclear_models.c:libgrpp_coulomb_potential_fermi", "libgrpp/nuclear_models.c:libgrpp_coulomb_potential_fermi_bubble", "libgrpp/nuclear_models.c:libgrpp_rms_radius_fermi_bubble"]}
{"id": "C67", "title": "Estimated Fermi parameters reproduce the rms radius", "statement": "The estimate of the Fermi parameters fails exactly if 5 R^2 < 7 pi^2 a^2 and then leaves c unchanged; otherwise the Fermi model with the estimated c and a has the requested rms radius up to terms of order exp(-c/a).", "quantifier": "all R_rms", "why_tests_cant": "continuum of radii", "anchors": ["libgrpp/nuclear_models.c:libgrpp_estimate_fermi_model_parameters", "libgrpp/nuclear_models.c:libgrpp_rms_radius_fermi"]}
{"id": "C68", "title": "Fermi special functions S_k are accurate", "statement": "Every tabulated value of S_k, k=2..7, is within 2e-12 of the function, and the routine returns a value within 1e-12 of S_k(x) (the accuracy stated in its comment) for every order 2..7 and every x<=0.", "quantifier": "all table rows, all k=2..7, all x<=0", "why_tests_cant": "continuum of x", "anchors": ["libgrpp/specfunc_fermi_sk.c:specfunc_fermi_sk", "libgrpp/specfunc_fermi_sk.c:specfunc_fermi_sk_table"]}
{"id": "C69", "title": "The Fermi potential as computed is accurate", "statement": "With the library's own S_k routine and table, the Fermi potential differs from the electrostatic energy of an electron in the field of the normalised Fermi density by at most 1.1e-9 |Z| (1/c + 1/r), for 0 < a <= c and every r > 0.", "quantifier": "all Z, 0<a<=c, r>0", "why_tests_cant": "continuum of parameters and radii", "anchors": ["libgrpp/nuclear_models.c:libgrpp_coulomb_potential_fermi", "libgrpp/specfunc_fermi_sk.c:specfunc_fermi_sk"]}
{"id": "C70", "title": "Spherical harmonic expansion coefficients", "statement": "The polynomial in x,y,z with the coefficients the library tabulates equals the real spherical harmonic S_lm at every point of the unit sphere; every component of degree l has one coefficient; no non-zero coefficient is below the skip threshold 1e-14.", "quantifier": "all l<=40 (the size of the tables), all |m|<=l, all points of the sphere", "why_tests_cant": "all 41 tables and a continuum of directions", "anchors": ["libgrpp/spherical_harmonics.c: spherical_to_cartesian_coef, tabulate_real_spherical_harmonic_coeffs, generate_cartesian_combinations"]}
{"id": "C71", "title": "Evaluation of spherical harmonics", "statement": "The routines for one harmonic and for all m return S_lm in the direction of the given vector, agree with each other, and give the constant (l=0) or zero (l>0) for a vector shorter than 1e-14.", "quantifier": "all l<=40, |m|<=l, all vectors", "why_tests_cant": "continuum of vectors", "anchors": ["libgrpp/spherical_harmonics.c: evaluate_real_spherical_harmonic, evaluate_real_spherical_harmonics_array"]}
{"id": "C72", "title": "Orthonormality, completeness and plane-wave expansion of the harmonics", "statement": "The real spherical harmonics S_lm behind the coefficient tables are orthonormal on the unit sphere, every monomial is the sum of its projections on them, and the integral of S_lm with exp(k.w) is 4 pi i_l(|k|) S_lm(k/|k|).", "quantifier": "all l, m, k", "why_tests_cant": "infinitely many functions", "anchors": ["libgrpp/spherical_harmonics.c: spherical_to_cartesian_coef", "libgrpp/angular_integrals.c"]}
{"id": "C73", "title": "Angular integrals", "statement": "The type-1 angular integral is the projection of the monomial on S_lambda,mu summed with the harmonics of the direction, so that with modified spherical Bessel functions they give the exact integral of a monomial with a plane wave; the type-2 angular integral is the triple-product integral with a monomial, two harmonics, summed with the given harmonic values (values below 1e-14 count as zero).", "quantifier": "all lambda, L, m, exponents in the supported range, all directions", "why_tests_cant": "continuum of directions", "anchors": ["libgrpp/angular_integrals.c: angular_type1_integral, angular_type2_integral"]}
{"id": "C74", "title": "Accuracy of the scaled modified spherical Bessel functions", "statement": "After the tables have been built, for every order up to 14 and every x >= 0 the routine returns exp(-x) i_n(x) to within 4.3e-13 (5e-11 for orders up to 20; 4.3e-13 for orders up to 51 when x <= 16); every number of the tabulated function in the source is correct to 7e-15 absolutely and 2e-12 relatively. For orders the arrays admit beyond these, the answer for x just above 16 is wrong.", "quantifier": "all x >= 0, all orders", "why_tests_cant": "continuum of arguments; 96060 literals", "anchors": ["libgrpp/specfunc_scaled_mod_sph_bessel.c: modified_bessel_scaled, pretabulate_bessel, bessel_asymptotic_R_function", "libgrpp/specfunc_bessel_table.c"]}
{"id": "C75", "title": "Nuclear attraction integrals of finite nuclei are those of the stated charge density", "statement": "The generic routine with the ball, Gaussian, Fermi, bubble or numerical point model returns matrix elements of the electrostatic energy of an electron in the charge density of that model (total charge Z, given radius parameters), up to an error bounded by the error of its radial quadratures and its screening thresholds; the radial sums use that potential with the stated accuracy and converge to the radial integrals.", "quantifier": "all shells with L_A+L_B <= 14, all geometries (vectors k null or not below 1e-14), all charges and model parameters", "why_tests_cant": "the reference values have to come from an independent formula; tests compare the library with itself or a few stored numbers", "anchors": ["libgrpp/nuclear_attraction.c: libgrpp_nuclear_attraction_integrals", "libgrpp/type1_integrals.c: evaluate_radially_local_potential_integral_primitive_gaussians", "libgrpp/radial_type1_integral.c", "libgrpp/nuclear_models.c"]}
{"id": "C76", "title": "Angular momentum matrices generate rotations of the real harmonics", "statement": "The three real matrices, for the basis order m=-L..L, are those of the rotation generators in the real spherical harmonics S_Lm used by the angular integrals: the rate of change of S_Lm under a rotation about an axis is minus the corresponding column of the matrix applied to the harmonics.", "quantifier": "all L, all m, all points of the unit sphere, all angles, all three axes", "why_tests_cant": "a wrong phase convention or a transposed matrix satisfies the algebra (C45) as well, and no finite set of L settles it", "anchors": ["libgrpp/lmatrix.c: construct_angular_momentum_matrices_rsh, get_transformation_coeffs_csh_to_rsh", "libgrpp/spherical_harmonics.c"]}
{"id": "C77", "title": "Semilocal integrals away from the centre", "statement": "libgrpp_type2_integrals fills the matrix with the matrix elements of U(r) P_L about the centre, and nothing else; the difference is bounded by the errors of the tabulated radial integrals (quadrature, screening, Bessel functions), the thresholds and the rounding of the angular tables, and the quadrature rules converge to the radial integrals.", "quantifier": "all shells and semilocal potentials with L + L_A, L + L_B <= 14, at least one shell away from the centre; any screening answers", "why_tests_cant": "continuum of exponents, positions and potentials; the exact integrals are not known to a test", "anchors": ["libgrpp/type2_integrals.c: libgrpp_type2_integrals, type2_angular_sum", "libgrpp/radial_type2_integral.c"]}
{"id": "C78", "title": "Semilocal integrals on one centre", "statement": "With both shells at the centre libgrpp_type2_integrals uses the exact radial integrals, so that the elements differ from the matrix elements of U(r) P_L only by the thresholds and the rounding of the angular tables.", "quantifier": "all shells at the centre with L + L_A, L + L_B <= 14, all potentials whose moments do not abort (C50)", "why_tests_cant": "continuum of exponents", "anchors": ["libgrpp/type2_integrals.c", "libgrpp/radial_type2_integral.c:126-155"]}
{"id": "C79", "title": "Spin-orbit integrals", "statement": "libgrpp_spin_orbit_integrals fills the three matrices with the matrix elements of U(r) P_L l P_L, l being the angular momentum matrices of C45 and C76, to within a bound of the same kind as C77; with both shells at the centre with exact radial integrals.", "quantifier": "all shells and potentials with L + L_A, L + L_B <= 14; any screening answers", "why_tests_cant": "continuum of exponents, positions and potentials", "anchors": ["libgrpp/spin_orbit_integrals.c: libgrpp_spin_orbit_integrals, type3_angular_sum"]}
{"id": "C80", "title": "Semilocal integrals of degenerate input", "statement": "Semilocal and spin-orbit integrals stop the program before initialisation; shells without primitives give the zero matrix.", "quantifier": "all shells, potentials, positions", "why_tests_cant": "empty shells are not tested", "anchors": ["libgrpp/type2_integrals.c:34-60, 90-100", "libgrpp/spin_orbit_integrals.c"]}
{"id": "C81", "title": "Outer-core integrals", "statement": "libgrpp_outercore_potential_integrals fills four matrices with the scalar and spin-orbit parts of the matrix elements of sum(U P_nlj + P_nlj U) - sum P_nlj (U + U')/2 P_n'lj, P_nlj being the projectors on the outer-core spinors, and changes nothing beyond them; before initialisation it stops the program.", "quantifier": "all supported shells, all lists of outer-core shells with L <= 9 and J = L -+ 1/2, any number of entries", "why_tests_cant": "continuum of exponents and positions; the exact integrals are not known to a test", "anchors": ["libgrpp/outercore_integrals.c: libgrpp_outercore_potential_integrals, libgrpp_outercore_potential_integrals_part_1, libgrpp_outercore_potential_integrals_part_2"]}
{"id": "C82", "title": "Normalisation of radial Gaussians", "statement": "The tabulated factors of radial_gto_norm_factor normalise r^L exp(-alpha r^2) with weight r^2, relative error at most 3e-15; other L read outside the table.", "quantifier": "L = 0, ..., 19, all exponents", "why_tests_cant": "continuum of exponents; the precision of the literals", "anchors": ["libgrpp/outercore_integrals.c: radial_gto_norm_factor"]}
{"id": "C83", "title": "Dawson function", "statement": "Dawsons_Integral returns exp(-x^2) times the integral of exp(t^2) from 0 to x for every x, with a relative error of at most LDBL_EPSILON + 4e-19: power series, six Chebyshev intervals and asymptotic expansion, every tabulated coefficient included.", "quantifier": "every real x; long double of any precision between 52 and 112 bits", "why_tests_cant": "continuum of arguments; the error between sample points, and near the borders of the intervals", "anchors": ["libgrpp/specfunc_dawson.c: Dawsons_Integral, xDawsons_Integral, Dawson_Power_Series, Dawson_Chebyshev_Expansion_1_175 ... _550_725, Dawson_Asymptotic_Expansion"]}
{"id": "C84", "title": "G functions with the library's Dawson function", "statement": "gfun_values computes G_0, ..., G_nmax for every x >= 0 and nmax <= 32 with an absolute error of at most 1.16e-10 (LDBL_EPSILON + 4e-19 for x > 12, 1e-15 for orders from 12 on); a matrix element of exp(-c r^2)/r^2 is then exact up to 1.16e-10 times the sum of the absolute Hermite weights.", "quantifier": "all x >= 0, all orders up to 32, all supported shells", "why_tests_cant": "continuum of arguments; error growth of the recursion", "anchors": ["libgrpp/specfunc_gfun.c: gfun_values", "libgrpp/type1_mcmurchie_davidson.c: evaluate_radially_local_potential_integral_primitive_gaussians"]}
{"id": "C85", "title": "Overlap and normalisation entry points of the Fortran interface", "statement": "evaluate_overlap_integral_contracted_ returns the integral over all space of the product of the two contracted functions with the given exponents of x, y, z, whatever else the shells contain; radial_gto_norm_factor_ returns a positive factor with which every component x^n y^l z^m of the shell has the norm (2n-1)!!(2l-1)!!(2m-1)!!. Both release the two temporary shells exactly once.", "quantifier": "all contractions with positive exponents, n+l+m <= 9, all centres, all components of the shell", "why_tests_cant": "continuum of exponents and coefficients; all components at once", "anchors": ["libgrpp/fortran.c: evaluate_overlap_integral_contracted_, radial_gto_norm_factor_"]}
{"id": "C86", "title": "Full pseudopotential integrals against the operator", "statement": "libgrpp_full_grpp_integrals, with the library's own integral routines and special functions, writes into each of its four matrices numbers which differ from the matrix elements of the pseudopotential operator (local part, semilocal projectors, spin-orbit part with weight 2/(2L+1), outer-core projectors) by at most an explicit bound, whatever the matrices contained, and writes nothing beyond the A x B elements. At each radius the scalar and spin-orbit parts together with spin are U_+ P_{L,L+1/2} + U_- P_{L,L-1/2}. Before libgrpp_init the process is stopped.", "quantifier": "all shells with L <= 9 and positive exponents, all centres, all lists of semilocal, spin-orbit and outer-core terms meeting the documented limits", "why_tests_cant": "all combinations of terms, exponents and centres; the reference values are integrals over space and sphere", "anchors": ["libgrpp/full_grpp_integrals.c: libgrpp_full_grpp_integrals"]}
{"id": "C87", "title": "Gradient of the pseudopotential integrals with the library's routines", "statement": "libgrpp_full_grpp_integrals_gradient, with the library's own integral routines, fills its twelve arrays with numbers which differ from the derivatives of the matrix elements of the pseudopotential operator, when all centres (bra, ket, pseudopotential) at the given point are displaced together, by at most an explicit bound made of the bounds of C86 for the shells with L+1 and L-1; it writes nothing beyond the A x B elements. The gradients with respect to three different centres add up to exactly zero.", "quantifier": "all shells with L <= 8 and positive exponents, all centres, all pseudopotentials within the documented limits for L+1, all points of differentiation", "why_tests_cant": "all combinations of terms, exponents and centres; the reference is the derivative of integrals over space and sphere with respect to the centres", "anchors": ["libgrpp/grpp_integrals_gradient.c: libgrpp_full_grpp_integrals_gradient", "libgrpp/diff_gaussian.c: differentiate_shell", "libgrpp/full_grpp_integrals.c"]}
{"id": "C88", "title": "Screening discards no integral above its tolerance", "statement": "A semilocal integral computed by libgrpp_type2_integrals does not depend on the screening of radial integrals beyond the tolerance of 1e-16: when the estimate of a radial integral is below the tolerance, so that it is stored in place of the integral, the radial integral itself is negligible too.", "quantifier": "all shells, potentials and centres", "why_tests_cant": "the estimate is a signed sum over primitives and terms which can cancel for special ratios of coefficients; random tests with one term or with positive coefficients never meet such a ratio", "anchors": ["libgrpp/screening.c: screening_radial_type2", "libgrpp/radial_type2_integral.c: calculate_radial_type2_integral"]}
{"id": "C89", "title": "The radial quadrature is accurate", "statement": "A semilocal integral returned by libgrpp_type2_integrals differs from the exact matrix element by no more than a fixed bound: the radial quadrature resolves the integrand for all shells and potentials, or the failure is reported.", "quantifier": "all shells, potentials and centres", "why_tests_cant": "the quadrature refines up to 8191 nodes and the flag which reports that it has not settled is ignored; functions so narrow that they fall between two nodes return zero without any sign, and tests with ordinary exponents never meet them", "anchors": ["libgrpp/radial_type2_integral.c: calculate_radial_type2_integral", "libgrpp/radial_type2_integral.c: tabulate_radial_type2_integrals"]}
{"id": "C90", "title": "Routines return every block of memory they obtain", "statement": "Every integral and gradient routine of the C and Fortran interfaces, called with valid objects, frees no block twice, frees no block it has not obtained, uses no block after its release, and on return has released every block it obtained and none of the caller's. The same holds for a shell, a potential or a GRPP object from its constructor to its destructor, with any calls in between.", "quantifier": "all allocators, all heaps with the arguments in use, all outcomes of all comparisons on numbers and all loop counts", "why_tests_cant": "a leak or a double free on a path taken only for a NULL potential, an s shell or coinciding centres needs that path to be run under a memory checker", "anchors": ["libgrpp/*.c: every malloc, calloc and free"]}
{"id": "C91", "title": "libgrpp_finalize releases the memory of the library", "statement": "After libgrpp_finalize the blocks in use are those in use before libgrpp_init.", "quantifier": "all allocators and heaps", "why_tests_cant": "a fixed leak is below the resolution of memory statistics, and programs end after libgrpp_finalize", "anchors": ["libgrpp/init_finalize.c: libgrpp_finalize", "libgrpp/spherical_harmonics.c: create_real_spherical_harmonic_coeffs_tables"]}
{"id": "C92", "title": "The Fortran outer-core subroutine agrees with the C routine", "statement": "libgrpp_outercore_potential_integrals of the Fortran module writes the matrices that the C routine of the same name writes for shells and potentials made of the same arguments, and leaves the dynamic memory as it was.", "quantifier": "all shells, tables of outer-core shells and potentials (with any padding), contents of the result arrays and memory", "why_tests_cant": "the loops are written twice; a wrong row or an omitted pair matters only for several outer-core shells", "anchors": ["test_libgrpp_f90/libgrpp.f90: libgrpp_outercore_potential_integrals", "libgrpp/fortran.c: libgrpp_outercore_potential_integrals_part_1_", "libgrpp/fortran.c: libgrpp_outercore_potential_integrals_part_2_"]}
{"id": "C93", "title": "The Fortran subroutine for the outer-core gradient returns the gradient", "statement": "After libgrpp_outercore_potential_integrals_gradient of the Fortran module the twelve arrays contain the derivatives of the outer-core integrals with respect to the given point.", "quantifier": "all arguments and all contents of the result arrays", "why_tests_cant": "arrays that are zero before the call look like results for points on which nothing depends", "anchors": ["test_libgrpp_f90/libgrpp.f90: libgrpp_outercore_potential_integrals_gradient"]}
{"id": "C94", "title": "Rounding errors of the one-electron integrals", "statement": "In floating-point arithmetic every overlap, kinetic-energy and momentum integral differs from the integral over all space by at most exp(eps)-1 times a majorant (the same sum with the absolute values of its terms), eps linear in the unit roundoff and in the angular momenta, or the program is ended by a trap; nothing else is written.", "quantifier": "all shells with L<=9 and positive exponents, any arithmetic whose operations have relative error u and whose exp and pow have relative error e, in particular IEEE double", "why_tests_cant": "tests compare at fixed inputs, for which the reference values themselves are rounded", "anchors": ["libgrpp/overlap.c: libgrpp_overlap_integrals", "libgrpp/kinetic.c: libgrpp_kinetic_energy_integrals", "libgrpp/momentum.c: libgrpp_momentum_integrals"]}
{"id": "C95", "title": "Rounding error of the value of a potential", "statement": "In floating-point arithmetic libgrpp_potential_value returns the value of the potential up to exp(eps)-1 times the sum of the absolute values of its terms, or the program is ended by a trap.", "quantifier": "all potentials, all r > 0, any arithmetic with bounded relative errors", "why_tests_cant": "tests sample values of r", "anchors": ["libgrpp/potential.c: libgrpp_potential_value"]}
{"id": "C96", "title": "Rounding errors of matrix products and vector updates", "statement": "In floating-point arithmetic the matrix product and the vector update are accurate to exp(eps)-1 times the sum of absolute values of the terms, and this cannot be replaced by a bound relative to the result.", "quantifier": "all sizes and arrays, any arithmetic with bounded relative errors; a concrete IEEE double computation for the negative part", "why_tests_cant": "tests use matrices of moderate elements", "anchors": ["libgrpp/utils.c: libgrpp_multiply_matrices", "libgrpp/utils.c: libgrpp_daxpy"]}
{"id": "C97", "title": "Molecular one-electron matrices", "statement": "The driver program fills the overlap, kinetic-energy and momentum matrices of a molecule with the integrals over all pairs of basis functions, whatever matrices and buffers held before, and writes nothing beyond; the overlap and kinetic matrices are symmetric with nonnegative quadratic form, the momentum matrices antisymmetric; a basis whose matrix has more elements than an int can count leads to undefined behaviour.", "quantifier": "all lists of shells with L<=9 and positive exponents, basis dimensions up to 46340 (and one above for the negative part)", "why_tests_cant": "tests evaluate a few molecules", "anchors": ["test_libgrpp_c/eval_integrals.c: evaluate_overlap_integrals", "test_libgrpp_c/eval_integrals.c: evaluate_kinetic_energy_integrals", "test_libgrpp_c/eval_integrals.c: evaluate_momentum_integrals", "test_libgrpp_c/eval_integrals.c: add_block_to_matrix"]}
{"id": "C98", "title": "Molecular pseudopotential matrices", "statement": "The driver program fills the matrices of the scalar-relativistic and the three spin-orbit operators of a molecule: every element is within the sum of the error bounds of the library of the sum of the matrix elements of all pseudopotentials of the molecule, nothing else is written, and the numbers depend neither on the order of the iterations of the parallel loop nor on what matrices and buffers held before. With 32768 shells or more the size of the list of shell pairs overflows.", "quantifier": "all molecules, bases and pseudopotentials within the preconditions of the library, all orders of the iterations", "why_tests_cant": "tests run a few molecules with one schedule each", "anchors": ["test_libgrpp_c/eval_integrals.c: evaluate_grpp_integrals", "test_libgrpp_c/eval_integrals.c: evaluate_grpp_integrals_shell_pair", "test_libgrpp_c/eval_integrals.c: add_block_to_matrix"]}
{"id": "C99", "title": "Periodic table of the driver program", "statement": "The lookup of a charge by symbol is total on ASCII strings, ignores the case of letters, and returns the first entry whose symbol is the string, or -1; the symbol of a charge leads back to the charge; the charges 0 to 130 have symbols and mass numbers, other arguments are rejected; the mass numbers are those of the most abundant natural isotopes; molecules read from files have charges of the table only.", "quantifier": "all strings, all charges, all files", "why_tests_cant": "the table is data that nobody reads entry by entry; tests use a handful of elements", "anchors": ["test_libgrpp_c/elements.c: get_element_symbol", "test_libgrpp_c/elements.c: get_element_nuc_charge", "test_libgrpp_c/elements.c: get_element_mass_number_abundant", "test_libgrpp_c/molecule.c: read_molecule"]}
{"id": "C100", "title": "Molecular nuclear-attraction matrices", "statement": "The driver program fills the nuclear-attraction matrix of a molecule with the sum over all atoms of the matrix elements of the potential of the nucleus, with the mass number of the periodic table, the rms radius of Johnson and Soff and the conversion from fermi to bohr, for every model of the nucleus offered by the library, up to the error bounds of the library.", "quantifier": "all molecules of elements 0 to 130 and all bases within the limits of the library, all six nuclear models", "why_tests_cant": "tests run a few molecules, with heavy nuclei where models with parameters are used", "anchors": ["test_libgrpp_c/eval_integrals.c: evaluate_nuclear_attraction_integrals", "test_libgrpp_c/eval_integrals.c: add_block_to_matrix", "libgrpp/nuclear_models.c: libgrpp_estimate_fermi_model_parameters", "libgrpp/nuclear_models.c: libgrpp_estimate_nuclear_rms_radius_johnson_1985"]}
{"id": "C101", "title": "Molecular gradients", "statement": "The driver program adds to the matrices it keeps for each atom and coordinate the derivatives of the overlap matrix and of the matrices of all pseudopotentials of a molecule, when the atom is displaced together with the basis functions and the pseudopotential on it; exactly for the overlap, up to the error bounds of the library for the pseudopotentials. Nothing else is written. The derivatives with respect to all atoms add up to zero.", "quantifier": "all molecules and bases within the limits of the library whose basis functions sit on the atoms", "why_tests_cant": "tests compare a few molecules with finite differences", "anchors": ["test_libgrpp_c/eval_integrals_grad.c: evaluate_overlap_integrals_gradient", "test_libgrpp_c/eval_integrals_grad.c: evaluate_grpp_integrals_gradient", "test_libgrpp_c/eval_integrals.c: add_block_to_matrix"]}
{"id": "C102", "title": "Matrix files and their comparison", "statement": "A matrix file written by the driver program is read by the comparison program of the test suite with the right dimension and the same elements in the lower triangle (elements not larger than 1e-14 in magnitude become zero). The comparison of the files of two matrices ends with status 0 only if all elements of the lower triangles agree within the threshold plus 2e-14, and it does so whenever they agree within the threshold less 1e-14.", "quantifier": "all dimensions up to 46340, all matrices of double numbers, all thresholds", "why_tests_cant": "the comparison program is the judge of the tests and is not tested itself; a defect in it makes wrong results pass", "anchors": ["test_libgrpp_c/print_matrix.c: print_matrix_lower_triangle", "test/compare_matrices.c: read_matrix", "test/compare_matrices.c: compare_matrices", "test/compare_matrices.c: main"]}
{"id": "C103", "title": "Basis sets: from the text of the file to the shells of the molecule", "statement": "For every basis file in which the elements of the molecule have entries within the limits of the program (at most ten blocks, at most 100 exponents and 100 functions per block, positive exponents, no vanishing function), the driver program makes for every atom, in order, the shells announced by the entry: angular momentum from the position of the block, the exponents of the file, the coefficients of the file times a positive factor which normalises the functions. Text before and after the entry and comments at the ends of lines do not matter.", "quantifier": "all files, all molecules", "why_tests_cant": "the tests use a few files in one layout; entries that are missing, truncated or too large do not occur in them", "anchors": ["test_libgrpp_c/basis.c: read_basis_set", "test_libgrpp_c/basis.c: new_basis_function", "test_libgrpp_c/shell_list.c: construct_shell_list", "test_libgrpp_c/rpp.c: skip_line", "test_libgrpp_c/main.c: main"]}
{"id": "C104", "title": "Pseudopotentials: from the text of the file to the objects of the library", "statement": "For every file in which the elements of the molecule have entries within the limits of the program, or none, the driver program makes the pseudopotentials announced by the entries: the last block of potentials gives the local potential, the others the averaged ones, all blocks but the first a spin-orbit potential, with the powers, exponents and coefficients of the file except coefficients below 1e-14; the outer-core potentials of a block have alternately J = L - 1/2 and L + 1/2 and are joined with the outer-core functions of the same angular momentum.", "quantifier": "all files, all molecules", "why_tests_cant": "the tests use a few files; whether potentials and functions match is not checked by the program and not visible in the matrices", "anchors": ["test_libgrpp_c/rpp.c: read_grpp", "test_libgrpp_c/rpp.c: print_grpp", "test_libgrpp_c/rpp.c: skip_line", "test_libgrpp_c/main.c: main", "libgrpp/grpp.c", "libgrpp/potential.c: libgrpp_new_potential"]}
{"id": "C105", "title": "The whole driver program: from the command line and the input files to the output files", "statement": "For all known arguments and all well-formed files molecule.xyz, basis.inp and ecp.inp within the limits of the program, the driver program ends with status 0 and writes, for each of the calculations asked for, once and in a fixed order, the files with the lower triangles of the matrices of the overlap, the kinetic energy, the momentum, the pseudopotential, the nuclear attraction for each model of the nucleus, and of their gradients with respect to the coordinates of each atom, in the basis which the files describe; order and repetition of arguments do not matter. If the comparison program accepts such a file against a reference file, the reference agrees with the true integrals. An unknown argument is named in a message and ends the program with status 1, and so does an unknown element; no files are written.", "quantifier": "all arguments, all files, all molecules", "why_tests_cant": "the tests run the program for some molecules and options; wrong combinations of options, files and elements are not tested", "anchors": ["test_libgrpp_c/main.c: main", "test_libgrpp_c/main.c: calculate_write_grpp_integrals", "test_libgrpp_c/main.c: calculate_write_overlap_integrals", "test_libgrpp_c/main.c: calculate_write_kinetic_energy_integrals", "test_libgrpp_c/main.c: calculate_write_momentum_integrals", "test_libgrpp_c/molecule.c: read_molecule", "test_libgrpp_c/shell_list.c: print_shell_list", "test_libgrpp_c/basis.c: print_basis_set", "test/compare_matrices.c: main", "test_libgrpp_c/main.c: calculate_write_nuclear_attraction_integrals", "test_libgrpp_c/main.c: calculate_write_overlap_gradient", "test_libgrpp_c/main.c: calculate_write_grpp_gradient", "test_libgrpp_c/main.c: calculate_write_type1_gradient", "test_libgrpp_c/main.c: calculate_write_type2_gradient", "test_libgrpp_c/main.c: calculate_write_spin_orbit_gradient", "test_libgrpp_c/main.c: calculate_write_outercore_potential_gradient"]}
{"id": "C106", "title": "Gradients of single terms of the pseudopotentials in the driver program", "statement": "For all molecules within the preconditions of C101, the driver routines for gradients of single kinds of terms (local, semilocal, spin-orbit, outer-core) add to each element of the matrices of each atom and coordinate a number within an explicit bound of the derivative of the matrix element of these terms of all pseudopotentials when the atom is displaced, and change nothing else; over all atoms the numbers add up to zero. The gradients of the single terms add up exactly to the gradient of the whole pseudopotentials, scalar and spin-orbit parts separately; the weight 2/(2l+1) of the driver and the factor (2l+1)/2 of the library cancel.", "quantifier": "all molecules, basis sets, pseudopotentials, atoms, coordinates and matrix elements", "why_tests_cant": "the tests compare the gradients for some molecules with finite differences; a wrong weight or a term counted twice in a case not tested goes unnoticed", "anchors": ["test_libgrpp_c/eval_integrals_grad.c: evaluate_type1_integrals_gradient", "test_libgrpp_c/eval_integrals_grad.c: evaluate_type2_integrals_gradient", "test_libgrpp_c/eval_integrals_grad.c: evaluate_spin_orbit_integrals_gradient", "test_libgrpp_c/eval_integrals_grad.c: evaluate_outercore_potential_integrals_gradient", "libgrpp/grpp_integrals_gradient.c: libgrpp_type1_integrals_gradient", "libgrpp/grpp_integrals_gradient.c: libgrpp_type2_integrals_gradient", "libgrpp/grpp_integrals_gradient.c: libgrpp_spin_orbit_integrals_gradient", "libgrpp/grpp_integrals_gradient.c: libgrpp_outercore_potential_integrals_gradient"]}
{"id": "C107", "title": "Molecular matrices of the Fortran program", "statement": "For all molecules, basis sets and pseudopotentials within the limits of the library and of its own arrays, the Fortran program test_libgrpp_f90 fills the matrix of the overlap integrals with the integrals of all pairs of basis functions, the matrix of nuclear attraction and the four matrices of the pseudopotentials (scalar-relativistic, and the three components of the spin-orbit interaction) with the numbers the driver program in C makes for the same shells, atoms and pseudopotentials, although it makes the calls for single terms and gathers the terms by itself, with the outer-core functions in local tables; it gives back all memory; the basis functions are counted and ordered as in the library.", "quantifier": "all molecules, basis sets, pseudopotentials, matrix elements, previous contents of arrays and buffers", "why_tests_cant": "the tests compare files of a few molecules; they cannot show that the two programs agree for all inputs, and not what happens beyond the sizes of the arrays", "anchors": ["test_libgrpp_f90/evalints.f90: evaluate_overlap_integrals", "test_libgrpp_f90/evalints.f90: evaluate_nuclear_attraction_integrals", "test_libgrpp_f90/evalints.f90: evaluate_ecp_integrals", "test_libgrpp_f90/evalints.f90: update_matrix_part", "test_libgrpp_f90/basis.f90: generate_cartesians", "test_libgrpp_f90/basis.f90: cart_basis_size"]}
{"id": "C108", "title": "Gradients in the Fortran program", "statement": "For all molecules, basis sets and pseudopotentials within the limits of the library and of its own arrays, the Fortran program test_libgrpp_f90 fills its gradient matrices (scalar-relativistic and three spin-orbit components, for each coordinate of each atom) with the derivatives of the matrix elements of all pseudopotentials to within an explicit bound, adding up to zero over the atoms, which are the numbers the driver program in C writes for the same input; it gives back all memory.", "quantifier": "all molecules, basis sets, pseudopotentials, atoms, coordinates, matrix elements, previous contents of arrays and buffers, values returned by out-of-bounds reads", "why_tests_cant": "there are no references for the Fortran gradients in the tests; a few molecules cannot show that the two programs agree for all inputs, nor which terms are left out", "anchors": ["test_libgrpp_f90/evalints.f90: calculate_rpp_integrals_gradients", "test_libgrpp_f90/evalints.f90: update_matrix_part", "libgrpp/fortran.c: libgrpp_type1_integrals_gradient_", "libgrpp/fortran.c: libgrpp_type2_integrals_gradient_", "libgrpp/fortran.c: libgrpp_spin_orbit_integrals_gradient_"]}
{"id": "C109", "title": "Input files of the Fortran program", "statement": "For all files of coordinates and basis sets in the documented formats, the Fortran program test_libgrpp_f90 reads all atoms with their elements and positions, and for every element of the molecule the functions of its entry, normalised; the list of basis functions is the one the driver program in C makes from the same data; files with unknown elements or entries that do not fit into the arrays are rejected.", "quantifier": "all files, numbers of atoms, elements, entries, blocks, exponents and coefficients, comments, blank lines", "why_tests_cant": "the test files of the repository have two or three atoms and a few entries in one style; whether an entry is found depends on the entries before it", "anchors": ["test_libgrpp_f90/xyz.f90: read_molecule", "test_libgrpp_f90/xyz.f90: get_charge", "test_libgrpp_f90/basis.f90: read_basis", "test_libgrpp_f90/basis.f90: normalize_basis", "test_libgrpp_f90/main.f90"]}
{"id": "C110", "title": "Pseudopotential files of the Fortran program", "statement": "For all files of pseudopotentials in the documented format, the Fortran program test_libgrpp_f90 finds for every element of the molecule its first entry and holds the potentials and outer-core functions of this entry; the pseudopotentials it gives to the library are those the driver program in C makes from the same data; entries that do not fit into the arrays are rejected.", "quantifier": "all files, elements, entries, numbers of blocks, terms and outer-core functions, contents of the arrays before the call", "why_tests_cant": "the test files of the repository contain one or two entries with few blocks; old contents of the arrays matter only for entries with surplus outer-core functions", "anchors": ["test_libgrpp_f90/rpp.f90: read_rpp", "test_libgrpp_f90/main.f90", "test_libgrpp_c/rpp.c: read_grpp"]}
{"id": "C111", "title": "Matrix files of the Fortran program and their comparison", "statement": "For all matrices, the file written by print_matrix of the Fortran program test_libgrpp_f90 is read by compare_matrices with the right dimension and with the elements of the lower triangle, up to the threshold for printing and the rounding of the printed digits; the comparison with the file the driver in C writes for the same matrix succeeds, and it succeeds only if the matrices agree within the threshold.", "quantifier": "all dimensions up to 46340, matrices (including NaNs), thresholds, and formatting functions with a given relative error", "why_tests_cant": "the test files have few elements near the thresholds; tests never compare matrices with differences of the order of the threshold or with NaNs", "anchors": ["test_libgrpp_f90/evalints.f90: print_matrix", "test/compare_matrices.c: read_matrix, compare_matrices", "test_libgrpp_c/print_matrix.c"]}
{"id": "C112", "title": "The whole Fortran program, from input files to output files", "statement": "For all molecules described to the Fortran program test_libgrpp_f90 and to the driver in C by input files with the same contents, both programs succeed and write files of the same matrices: pseudopotential (averaged and three spin-orbit parts), overlap, nuclear attraction, and the gradients for each atom, so that compare_matrices finds every pair of files equal; the labels of basis functions follow the rows of the matrices.", "quantifier": "all input files within the sizes of the arrays, all molecules which meet the preconditions of the three calculations, all previous contents of arrays and buffers, all orders of the parallel loop of the driver in C", "why_tests_cant": "a few fixed molecules are compared; tests do not reach the limits of arrays and formats, and do not notice undefined behaviour that happens to give the expected files", "anchors": ["test_libgrpp_f90/main.f90", "test_libgrpp_f90/basis.f90: print_basis", "test_libgrpp_f90/rpp.f90: print_ecp", "test_libgrpp_f90/evalints.f90", "test_libgrpp_c/main.c"]}
{"id": "C113", "title": "What a passed test shows", "statement": "The program compare_matrices ends with status 0 exactly if both files given on its command line exist, can be read, have the same dimension and agree within the threshold, the default 1e-10 or that of the command line; a script test/*/run_test.sh ends with 0 only if the driver has done all calculations asked for and each matrix it has written agrees with the reference file, and it does so if they agree.", "quantifier": "all directories, command lines, input files and contents of reference files, all lists of comparisons, all drivers", "why_tests_cant": "the scripts are the tests: they are run on directories in which everything is right, and nothing tests that they fail when they should", "anchors": ["test/compare_matrices.c: main", "test/compare_matrices.c: read_matrix", "test/*/run_test.sh", "test_libgrpp_c/main.c: main"]}
{"id": "C114", "title": "Estimates of type-1 radial integrals are not below the integrals", "statement": "Whenever screening_radial_type1 reports success, the estimate it stores is a number which is not below the absolute value of the type-1 radial integral, so that an estimate below the tolerance shows that the integral is negligible.", "quantifier": "all orders, powers, distances, exponents, prefactors and potentials", "why_tests_cant": "the only call of the routine is inside of a comment, so that no test reaches it; the failures need cancelling coefficients, or functions so narrow that the fixed accuracy of 0.01 of the search for the maximum matters", "anchors": ["libgrpp/screening.c: screening_radial_type1", "libgrpp/screening.c: screening_radial_type1_integral_primitive", "libgrpp/screening.c: screening_type1_equation_for_maximum"]}
{"id": "C115", "title": "The driver in C leaves the dynamic memory as it found it", "statement": "Every calculation of the driver in C (integrals of the pseudopotential, overlap, kinetic energy, momentum, nuclear attraction, and all gradients), and the reading and deletion of molecules, basis sets, shells and pseudopotentials around them, uses no block after its release, frees no block twice, and when it is finished exactly the blocks are in use that were in use before.", "quantifier": "all lists of shells, molecules, pseudopotentials, allocators and outcomes of comparisons of numbers", "why_tests_cant": "a block that is lost changes no matrix, so the test scripts, which compare only matrices, pass; nothing in the repository measures the memory in use", "anchors": ["test_libgrpp_c/main.c: calculate_write_grpp_integrals", "test_libgrpp_c/eval_integrals.c: evaluate_grpp_integrals", "test_libgrpp_c/eval_integrals_grad.c: evaluate_grpp_integrals_gradient", "test_libgrpp_c/rpp.c: read_grpp"]}
{"id": "C116", "title": "The comparison program on arbitrary files", "statement": "For every pair of files, whatever text they hold, compare_matrices ends with status 0 or 1 and touches nothing outside its matrices, as long as the numbers in the files are in the range of int; lines may come in any order and repeatedly, the last line for an element counts; and files that hold no matrix are never found equal.", "quantifier": "all texts with numbers in the range of int, all thresholds, all lists of entries", "why_tests_cant": "the tests only compare well-formed files; a program of the test suite is not itself tested", "anchors": ["test/compare_matrices.c: read_matrix", "test/compare_matrices.c: compare_matrices", "test/compare_matrices.c: main"]}
