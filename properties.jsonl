{"id": "C01", "title": "SO(3) multiplicity is the branching rule", "statement": "For all non-negative v and L, dimSO5r3(v,L) returns the number of integers K with 0<=K<=v, K congruent to v mod 3, K<=L<=2K and L different from 2K-1 (the SO(5)>SO(3) branching rule); in particular it is never negative and is 0 when L>2v.", "quantifier": "every seniority v and angular momentum L", "why_tests_cant": "the closed form has four interacting cases and v, L are unbounded; a table of samples cannot establish equality with the branching rule", "anchors": ["src/acmpy/spherical_space.py:dimSO5r3"]}
{"id": "C02", "title": "Multiplicities sum to the all-L multiplicity", "statement": "For every v, dimSO5r3_allL(v) (computed with an integer division by 6) equals the number of labels (v,alpha,L), i.e. the sum over L=0..2v of dimSO5r3(v,L); dimSO5r3_rngVallL likewise equals the sum over its v range.", "quantifier": "every seniority and every seniority range", "why_tests_cant": "needs equality of a floor-division formula and a sum of unbounded length", "anchors": ["src/acmpy/spherical_space.py:dimSO5r3_allL", "src/acmpy/spherical_space.py:dimSO5r3_rngVallL"]}
{"id": "C03", "title": "Dimension of the SO(5) irrep is exhausted by its SO(3) content", "statement": "For every v, the sum over L of (2L+1)*dimSO5r3(v,L) equals dimSO5(v), and the floor division by 6 in dimSO5 loses nothing.", "quantifier": "every seniority", "why_tests_cant": "cubic identity over an unbounded parameter", "anchors": ["src/acmpy/spherical_space.py:dimSO5", "src/acmpy/spherical_space.py:dimSO3", "src/acmpy/spherical_space.py:dimSO5r3"]}
{"id": "C04", "title": "Range dimensions are the sums of single dimensions", "statement": "dimSO5r3_rngL, dimSO5r3_rngV, dimSO5r3_rngVrngL and dimSO5r3_rngVvarL return the sum of dimSO5r3 over exactly the inclusive rectangle of (v,L) requested.", "quantifier": "every valid range", "why_tests_cant": "ranges unbounded, off-by-one errors only show on some ranges", "anchors": ["src/acmpy/spherical_space.py:dimSO5r3_rngL", "src/acmpy/spherical_space.py:dimSO5r3_rngV", "src/acmpy/spherical_space.py:dimSO5r3_rngVrngL", "src/acmpy/spherical_space.py:dimSO5r3_rngVvarL"]}
{"id": "C05", "title": "Basis label lists enumerate the basis exactly once", "statement": "Every lbsSO5r3_* list called with explicit ranges contains (v,a,L) iff v and L are in the requested ranges and 1<=a<=dimSO5r3(v,L); it has no duplicates and its length equals the corresponding dimSO5r3_* value.", "quantifier": "every valid (v,L) range", "why_tests_cant": "matrix layouts depend on it for all truncations, tests only see a few", "anchors": ["src/acmpy/spherical_space.py:lbsSO5r3_allL", "src/acmpy/spherical_space.py:lbsSO5r3_rngVallL", "src/acmpy/spherical_space.py:lbsSO5r3_rngL", "src/acmpy/spherical_space.py:lbsSO5r3_rngV", "src/acmpy/spherical_space.py:lbsSO5r3_rngVrngL", "src/acmpy/spherical_space.py:lbsSO5r3_rngVvarL"]}
{"id": "C06", "title": "Basis label order", "statement": "In the lists used to lay out full-space matrices, labels are strictly increasing in the order (L, v, alpha) - L varies slowest, alpha fastest - so constant-L blocks are contiguous; the single-v lists are increasing in (L,alpha).", "quantifier": "every valid range and every pair of positions", "why_tests_cant": "pairwise order over unbounded lists", "anchors": ["src/acmpy/spherical_space.py:lbsSO5r3_rngVvarL", "src/acmpy/spherical_space.py:lbsSO5r3_rngVrngL", "src/acmpy/spherical_space.py:lbsSO5r3_rngV", "src/acmpy/spherical_space.py:lbsSO5r3_rngL"]}
{"id": "C07", "title": "Omitting L_max means a single L", "statement": "lbsSO5r3_rngVvarL(v_min,v_max,L) without L_max returns the same list as with L_max=L, and its length is dimSO5r3_rngVvarL(v_min,v_max,L).", "quantifier": "every v range and L", "why_tests_cant": "fails only in the default-argument branch; needs all ranges", "anchors": ["src/acmpy/spherical_space.py:lbsSO5r3_rngVvarL", "src/acmpy/spherical_space.py:dimSO5r3_rngVvarL"]}
{"id": "C08", "title": "Argument validation accepts exactly the legal ranges", "statement": "require_nonnegint, require_posint, require_nonnegint_range and validate_Lvals raise ValueError exactly when the integers are negative / not positive / reversed / (Lvals) empty, negative or not strictly increasing, and otherwise return without effect; dimension and label functions raise instead of returning a value whenever their range is illegal.", "quantifier": "all integers and all lists of integers", "why_tests_cant": "needs the iff for all inputs", "anchors": ["src/acmpy/compat.py:require_nonnegint", "src/acmpy/compat.py:require_nonnegint_range", "src/acmpy/compat.py:require_posint", "src/acmpy/full_space.py:validate_Lvals", "src/acmpy/spherical_space.py:dimSO5r3"]}
{"id": "C09", "title": "Integer quotient and remainder", "statement": "For m>=0, n>0, iquo and irem return q and r with m=q*n+r and 0<=r<n, and raise ValueError otherwise; is_even / is_odd are complementary and correct for negative integers too.", "quantifier": "all integers", "why_tests_cant": "unbounded domain", "anchors": ["src/acmpy/compat.py:iquo", "src/acmpy/compat.py:irem", "src/acmpy/compat.py:is_even", "src/acmpy/compat.py:is_odd"]}
{"id": "C10", "title": "Lambda shifts assigned to a monomial sum to the requested shift", "statement": "For every K, T>=0, R, Lambda_Splits(K,T,R) returns |K|+T or |K|+T+1 integers adding up to R; in the longer case the extra first entry is even unless K=T=0 and R is odd; every other entry is -1, 0 or 1.", "quantifier": "all integers K, R and all T>=0", "why_tests_cant": "three unbounded integers, several interacting cases", "anchors": ["src/acmpy/radial_space.py:Lambda_Splits"]}
{"id": "C11", "title": "A monomial beta^K d^T is factored into the right elementary operators", "statement": "For every K, T, R the sequence of elementary matrices multiplied by RepRadial_bS_DS denotes exactly the operator word beta^K * (d/dbeta)^T in order (beta pairs as beta^2, mixed zero pairs as beta*d/dbeta, ...), the lambda values chain from lambda to lambda+R, the power of anorm is T-K, and the internal 'This shouldn't arise!' error and wrong-pairing branches are never reached.", "quantifier": "all K, T>=0, R", "why_tests_cant": "the correctness argument is about the alignment of zero shifts for arbitrary exponents", "anchors": ["src/acmpy/radial_space.py:RepRadial_bS_DS", "src/acmpy/radial_space.py:Lambda_Splits"]}
{"id": "C12", "title": "Intermediate lambda stays positive", "statement": "If lambda>0 and lambda+R>0 then every elementary matrix used for beta^K d^T is requested at a positive lambda and maps to a positive lambda.", "quantifier": "all K,T,R and all real lambda", "why_tests_cant": "path property over every prefix of an unbounded product", "anchors": ["src/acmpy/radial_space.py:RepRadial_bS_DS", "src/acmpy/radial_space.py:Lambda_Splits"]}
{"id": "C13", "title": "Parsing a radial operator product preserves its meaning", "statement": "For every list of radial operator names, Parse_RadialOp_List returns monomials and S-operators whose ordered product equals the ordered product of the original operators, in every algebra where beta is invertible; it raises exactly on unknown names.", "quantifier": "all operator lists, all interpretations", "why_tests_cant": "unbounded lists and a semantic equality in every model of the algebra", "anchors": ["src/acmpy/radial_space.py:Parse_RadialOp_List", "src/acmpy/radial_space.py:KTOp", "src/acmpy/radial_space.py:SOp"]}
{"id": "C14", "title": "Lambda shift is fully distributed over a product", "statement": "For every parsed operator list and every integer lambda_var, Lambda_RadialOp_List returns one shift per operator (or one extra leading entry) whose sum is lambda_var.", "quantifier": "all operator lists and all integers", "why_tests_cant": "the repository itself leaves a failing assertion with 'Why?' next to it; the sum claim needs all lists", "anchors": ["src/acmpy/radial_space.py:Lambda_RadialOp_List"]}
{"id": "C15", "title": "SU(1,1) generators never receive a lambda shift", "statement": "Lambda_RadialOp_List assigns shift 0 to every S operator, so that RepRadial_Prod never raises 'Non-zero lambda shift' for a valid product.", "quantifier": "all operator lists and lambda shifts", "why_tests_cant": "only particular combinations of exponents trigger it", "anchors": ["src/acmpy/radial_space.py:Lambda_RadialOp_List", "src/acmpy/radial_space.py:RepRadialshfs_Prod"]}
{"id": "C16", "title": "A radial product is represented end to end", "statement": "For every list of radial operators and every lambda_var accepted, the overall sequence of elementary matrices multiplied by RepRadial_Prod denotes the product of the listed operators in order, starts at lambda and ends at lambda+lambda_var.", "quantifier": "all operator lists, all lambda_var", "why_tests_cant": "composition of three procedures over unbounded lists", "anchors": ["src/acmpy/radial_space.py:RepRadial_Prod", "src/acmpy/radial_space.py:RepRadial_Prod_common", "src/acmpy/radial_space.py:RepRadialshfs_Prod"]}
{"id": "C17", "title": "Window of the radial matrix", "statement": "RepRadial_Prod returns a (nu_max-nu_min+1)-square matrix whose (i,j) entry is the element between nu_min+i and nu_min+j, whatever nu_lap is used.", "quantifier": "all nu ranges and all nu_lap", "why_tests_cant": "index arithmetic over all ranges", "anchors": ["src/acmpy/radial_space.py:RepRadial_Prod_common", "src/acmpy/radial_bases.py:dimRadial", "src/acmpy/radial_bases.py:lbsRadial"]}
{"id": "C18", "title": "Enlarging the intermediate space makes banded products exact", "statement": "If every elementary factor in a product connects nu values at most one apart, then the matrix computed with nu_lap at least the number of factors minus one equals the corresponding window of the untruncated operator product.", "quantifier": "all products of banded matrices, all windows", "why_tests_cant": "statement about infinite matrices", "anchors": ["src/acmpy/radial_space.py:RepRadial_Prod_common"]}
{"id": "C19", "title": "SU(1,1) commutation relations", "statement": "The matrix elements ME_Radial_S0, ME_Radial_Sp, ME_Radial_Sm satisfy [S-,S+]=2S0, [S0,S+]=S+, [S0,S-]=-S- and the Casimir relation, for every lambda>0 and all nu.", "quantifier": "all real lambda>0 and all nu", "why_tests_cant": "identities in real parameters", "anchors": ["src/acmpy/radial_space.py:ME_Radial_S0", "src/acmpy/radial_space.py:ME_Radial_Sp", "src/acmpy/radial_space.py:ME_Radial_Sm"]}
{"id": "C20", "title": "beta^2 and its relation to SU(1,1)", "statement": "ME_Radial_b2 is symmetric and equals S+ + S- + 2*S0; ME_Radial_bDb equals S- - S+ - 1/2 (so beta d/dbeta + 1/2 is antisymmetric); and ME_Radial_D2b equals S+ + S- - 2*S0 + (lambda-3/2)(lambda-1/2)*bm2 and is symmetric.", "quantifier": "all real lambda>1 and all nu", "why_tests_cant": "real identities, unbounded nu", "anchors": ["src/acmpy/radial_operators.py:ME_Radial_b2", "src/acmpy/radial_space.py:ME_Radial_bDb", "src/acmpy/radial_space.py:ME_Radial_D2b"]}
{"id": "C21", "title": "beta raising and lowering lambda are adjoint and compose to beta^2", "statement": "ME_Radial_b_ml(lambda+1,i,j)=ME_Radial_b_pl(lambda,j,i), and the sum over intermediate nu of b_ml(lambda+1,i,k)*b_pl(lambda,k,j) equals ME_Radial_b2(lambda,i,j); likewise b_pl(lambda-1)*b_ml(lambda)=b2(lambda) for lambda>1.", "quantifier": "all real lambda and all nu", "why_tests_cant": "real identities, unbounded nu", "anchors": ["src/acmpy/radial_space.py:ME_Radial_b_pl", "src/acmpy/radial_space.py:ME_Radial_b_ml", "src/acmpy/radial_operators.py:ME_Radial_b2"]}
{"id": "C22", "title": "1/beta is the inverse of beta", "statement": "The matrix elements of 1/beta with lambda shift +1 or -1 are adjoint to each other and invert those of beta: summing b_ml(lambda+1,i,k)*bm_pl(lambda,k,j) over k gives delta(i,j), and b_pl(lambda-1)*bm_ml(lambda) likewise.", "quantifier": "all real lambda and all nu", "why_tests_cant": "identities between Gamma-function quotients", "anchors": ["src/acmpy/radial_space.py:ME_Radial_bm_pl", "src/acmpy/radial_space.py:ME_Radial_bm_ml", "src/acmpy/radial_space.py:ME_Radial_b_pl", "src/acmpy/radial_space.py:ME_Radial_b_ml"]}
{"id": "C23", "title": "1/beta^2 is the inverse of beta^2", "statement": "ME_Radial_bm2 is symmetric and summing b2(lambda,i,k)*bm2(lambda,k,j) over k gives delta(i,j) for all lambda>1; at lambda=1 an exception is raised.", "quantifier": "all real lambda>1, all nu", "why_tests_cant": "Gamma-function recurrences", "anchors": ["src/acmpy/radial_space.py:ME_Radial_bm2", "src/acmpy/radial_space.py:ME_Radial_pt"]}
{"id": "C24", "title": "d/dbeta is consistent with beta d/dbeta", "statement": "Composing beta with d/dbeta gives beta*d/dbeta: summing b_ml(lambda+1,i,k)*Db_pl(lambda,k,j) and b_pl(lambda-1,i,k)*Db_ml(lambda,k,j) over k equals bDb(lambda,i,j), and the commutator [d/dbeta,beta]=1 holds between the shifted matrix elements.", "quantifier": "all real lambda and all nu", "why_tests_cant": "infinite-matrix identities", "anchors": ["src/acmpy/radial_space.py:ME_Radial_Db_pl", "src/acmpy/radial_space.py:ME_Radial_Db_ml", "src/acmpy/radial_space.py:ME_Radial_bDb"]}
{"id": "C25", "title": "The lambda-shifted identity operator", "statement": "ME_Radial_id_pl with r=1 equals the composition of b_pl and bm_pl, id_pl with r+1 is the composition of a single shift with the shift by r, id_ml is the transpose of id_pl, and r=0 gives the identity.", "quantifier": "all real lambda>0, all nu and all r>=0", "why_tests_cant": "hypergeometric-type sum with unbounded r", "anchors": ["src/acmpy/radial_space.py:ME_Radial_id_pl", "src/acmpy/radial_space.py:ME_Radial_id_ml", "src/acmpy/radial_space.py:MF_Radial_id_poly", "src/acmpy/radial_space.py:MF_Radial_id_pl"]}
{"id": "C26", "title": "Square roots of beta^2 never fail", "statement": "Every truncated matrix of beta^2 (any nu range, any lambda>0) is symmetric positive definite; hence with a correct symmetric eigensolver RepRadial_b2_sqrt and RepRadial_b2_sqrtInv do not raise, square to beta^2 (its inverse) and are mutually inverse.", "quantifier": "all nu ranges, all lambda>0", "why_tests_cant": "positive definiteness for every matrix size", "anchors": ["src/acmpy/radial_space.py:RepRadial_b2_sqrt", "src/acmpy/radial_space.py:RepRadial_b2_sqrtInv", "src/acmpy/radial_space.py:Matrix_sqrt", "src/acmpy/radial_space.py:Matrix_sqrtInv"]}
{"id": "C27", "title": "Full space dimension and label positions", "statement": "dimXspace equals the length of lbsXspace for explicit ranges, labels are pairwise distinct, and the label (nu,v,a,L) sits at position (position of (v,a,L) among the spherical labels)*(nu_max-nu_min+1)+(nu-nu_min).", "quantifier": "all nu, v, L ranges", "why_tests_cant": "index arithmetic over all ranges", "anchors": ["src/acmpy/full_operators.py:dimXspace", "src/acmpy/full_operators.py:lbsXspace"]}
{"id": "C28", "title": "Direct product matrix elements", "statement": "The matrix built for a product of radial and spherical operators has, between states (nu_f;s_f) and (nu_i;s_i), the element (spherical element)*(radial element for the lambda shift from s_i to s_f), and zero whenever the spherical element is zero; no block overlaps another.", "quantifier": "all ranges, all operator products, all lambda assignments", "why_tests_cant": "layout over all sizes", "anchors": ["src/acmpy/full_operators.py:RepXspace_Twin"]}
{"id": "C29", "title": "Grouping radial and spherical factors preserves products", "statement": "RepXspace_Prod's regrouping of a mixed operator product into radial, spherical and whole-space segments denotes the same operator in every algebra where radial and spherical operators commute; the trailing (possibly empty) segment contributes the identity; unknown names raise ValueError.", "quantifier": "all operator products, all interpretations", "why_tests_cant": "unbounded lists", "anchors": ["src/acmpy/full_operators.py:RepXspace_Prod"]}
{"id": "C30", "title": "Operator sums act linearly with state-dependent coefficients", "statement": "RepXspace of a sum equals the entrywise sum over the terms of (coefficient evaluated at the labels of the initial (column) state) times the product's matrix element; the empty sum gives the zero matrix of size dimXspace.", "quantifier": "all sums, all coefficient functions, all ranges", "why_tests_cant": "unbounded sums and arbitrary coefficient functions", "anchors": ["src/acmpy/full_operators.py:RepXspace", "src/acmpy/full_operators.py:RepXspace_Term"]}
{"id": "C31", "title": "Representations do not depend on call history", "statement": "The value returned by RepXspace depends only on its arguments and the current global settings, not on earlier calls, earlier settings or earlier failures (memoised intermediates are transparent).", "quantifier": "all call histories interleaving representation calls, failures and setting changes", "why_tests_cant": "a property of every history; staleness needs a specific interleaving", "anchors": ["src/acmpy/full_operators.py:RepXspace", "src/acmpy/full_operators.py:RepXspace_Pi", "src/acmpy/full_operators.py:RepXspace_PiPi", "src/acmpy/full_operators.py:RepXspace_PiqPi", "src/acmpy/globals.py:ACM_set_lambda_fun"]}
{"id": "C32", "title": "DigXspace reports exactly the occupied angular momenta", "statement": "The list of L values returned by DigXspace is exactly the increasing list of L in L_min..L_max with non-zero dimension, and each L gets as many eigenvalues as dimXspace at that L.", "quantifier": "all ranges and all Hamiltonians", "why_tests_cant": "off-by-one in block extraction shows only for non-tame Hamiltonians with several L", "anchors": ["src/acmpy/full_space.py:DigXspace"]}
{"id": "C33", "title": "Constant-L blocks tile the full matrix", "statement": "For the L values returned by DigXspace, the index ranges used to cut the transition matrix are disjoint, cover 0..dim-1, have the dimensions dimXspace(L), and block L consists of exactly the labels with that L.", "quantifier": "all ranges", "why_tests_cant": "alignment for every truncation", "anchors": ["src/acmpy/full_space.py:LBlockFullSpace", "src/acmpy/full_space.py:AmpXspeig", "src/acmpy/full_space.py:DigXspace"]}
{"id": "C34", "title": "Block assignment and retrieval", "statement": "Writing an (L_f,L_i) block into a block matrix and reading it back gives the same block, and leaves every other block unchanged.", "quantifier": "all block structures, all block values", "why_tests_cant": "non-interference over all pairs", "anchors": ["src/acmpy/full_space.py:LBlockNDFloatArray", "src/acmpy/full_space.py:LBlockFullSpace"]}
{"id": "C35", "title": "Sign of the [pi x pi] L=2 operator is uniform", "statement": "RepXspace_PiPi(2,...) equals minus the matrix assembled from its blocks (as for L=4), i.e. the same sign for every pair of spherical states.", "quantifier": "all ranges (all numbers of blocks)", "why_tests_cant": "sign depends on the parity of the number of visited blocks", "anchors": ["src/acmpy/full_operators.py:RepXspace_PiPi"]}
{"id": "C36", "title": "[pi x q x pi] is representable for all ranges", "statement": "RepXspace_PiqPi returns a matrix (never an attribute error) for all valid ranges, with zero elements unless L is conserved and |delta v| is 1 or 3.", "quantifier": "all ranges", "why_tests_cant": "error only on particular seniority pairs", "anchors": ["src/acmpy/full_operators.py:RepXspace_PiqPi", "src/acmpy/full_operators.py:QixQxQred"]}
{"id": "C37", "title": "ACM_Adapt calibrates the reference state and transition", "statement": "After a successful ACM_Adapt, the scaled energy displayed for the reference state equals the requested energy, the scaled rate of the reference transition equals the requested rate, and the amplitude scale is the configured function of the rate scale.", "quantifier": "all spectra, all matrix elements, all settings", "why_tests_cant": "algebraic postcondition over reals and all settings", "anchors": ["src/acmpy/full_space.py:ACM_Adapt", "src/acmpy/full_space.py:ACM_ScaleOrAdapt", "src/acmpy/globals.py:glb_eig_sft", "src/acmpy/globals.py:glb_rat_sft"]}
{"id": "C38", "title": "ACM_Scale never changes the scaling factors", "statement": "ACM_Scale leaves every global setting unchanged, whatever it displays.", "quantifier": "all states and arguments", "why_tests_cant": "frame property over all states", "anchors": ["src/acmpy/full_space.py:ACM_Scale", "src/acmpy/full_space.py:ACM_ScaleOrAdapt"]}
{"id": "C39", "title": "A failed adaptation does not change the scaling factors", "statement": "If ACM_Adapt raises an exception, the scaling factors are what they were before.", "quantifier": "all states and arguments", "why_tests_cant": "needs all failure points", "anchors": ["src/acmpy/full_space.py:ACM_Adapt", "src/acmpy/full_space.py:ACM_ScaleOrAdapt"]}
{"id": "C40", "title": "Relative energies are measured from the lowest eigenvalue", "statement": "min_head returns the minimum over all eigenvalues of all L (each list being increasing), so that all displayed relative energies are non-negative and one of them is zero.", "quantifier": "all eigenvalue lists", "why_tests_cant": "all shapes of spectra", "anchors": ["src/acmpy/full_space.py:min_head", "src/acmpy/full_space.py:Show_Eigs"]}
{"id": "C41", "title": "Transition designators select the intended matrix element", "statement": "For a designator with positive indices the displayed value is computed from the (n_f,n_i) entry of the (L_f,L_i) block; designators that refer to non-existent states are skipped and never raise nor read another element.", "quantifier": "all designators and all block sizes", "why_tests_cant": "python negative indices alias silently", "anchors": ["src/acmpy/full_space.py:Show_Mels", "src/acmpy/full_space.py:Show_Mels_Row", "src/acmpy/full_space.py:Show_Mels_Rows"]}
{"id": "C42", "title": "Defaults are restored from any history", "statement": "After any sequence of (successful or failing) setting calls, ACM_set_defaults puts every setting it governs into the same documented default state; calling it twice is the same as once.", "quantifier": "all histories of setting calls", "why_tests_cant": "induction over unbounded histories", "anchors": ["src/acmpy/globals.py:ACM_set_defaults"]}
{"id": "C43", "title": "Transition lists only ever hold valid designators", "statement": "After any history, each entry of the rate and amplitude lists is a list of at most five integers; set replaces, add appends, in order, and the returned count is the length.", "quantifier": "all histories", "why_tests_cant": "invariant over histories", "anchors": ["src/acmpy/globals.py:ACM_set_rat_lst", "src/acmpy/globals.py:ACM_add_rat_lst", "src/acmpy/globals.py:ACM_set_amp_lst", "src/acmpy/globals.py:ACM_add_amp_lst"]}
{"id": "C44", "title": "Numeric settings keep their documented ranges", "statement": "After any history of calls, precisions and widths are non-negative (or positive), eigenvalue counts non-negative, reference indices positive and scaling factors non-zero.", "quantifier": "all histories", "why_tests_cant": "invariant over histories", "anchors": ["src/acmpy/globals.py:ACM_set_output", "src/acmpy/globals.py:ACM_set_listln", "src/acmpy/globals.py:ACM_set_datum", "src/acmpy/globals.py:ACM_set_eig_fit", "src/acmpy/globals.py:ACM_set_scales"]}
{"id": "C45", "title": "Omitted arguments leave settings unchanged", "statement": "Calling a setting procedure with an argument omitted leaves the corresponding setting at its current value.", "quantifier": "all states and all setting procedures", "why_tests_cant": "default arguments are captured at import time", "anchors": ["src/acmpy/globals.py:ACM_set_eig_fit", "src/acmpy/globals.py:ACM_set_rat_fit", "src/acmpy/globals.py:ACM_set_scales", "src/acmpy/globals.py:ACM_set_transition", "src/acmpy/globals.py:ACM_set_rat_form", "src/acmpy/globals.py:ACM_set_amp_form"]}
{"id": "C46", "title": "Rejected settings change nothing", "statement": "If a setting procedure raises, all settings are unchanged.", "quantifier": "all states, all arguments", "why_tests_cant": "needs every failure point of every setter", "anchors": ["src/acmpy/globals.py:ACM_set_output", "src/acmpy/globals.py:ACM_set_scales", "src/acmpy/globals.py:ACM_set_listln", "src/acmpy/globals.py:ACM_set_basis_type"]}
{"id": "C47", "title": "Listed transition designators are printed in field order", "statement": "ACM_show_lst prints every listed designator (L_i, L_f, j_i, j_f, dL) and its shorter forms as L_i(j_i) -> L_f(j_f), each field in its own role, so a listed designator can be read back.", "quantifier": "all lists", "why_tests_cant": "needs all entry shapes", "anchors": ["src/acmpy/globals.py:ACM_show_lst"]}
{"id": "C48", "title": "Basis shift functions have the right parity", "statement": "lambda_sho_fun, lambda_acm_fun and lambda_davi_fun return non-negative integers congruent to v modulo 2 and vanish at v=0; lambda_fix_fun is 0; lambda_jig_fun is 0 at v=0, 1 at odd v and 2 at other even v (parity of v); hence lambda_base plus the shift stays positive.", "quantifier": "all v and all real parameters", "why_tests_cant": "unbounded v and real parameter", "anchors": ["src/acmpy/globals.py:lambda_sho_fun", "src/acmpy/globals.py:lambda_acm_fun", "src/acmpy/globals.py:lambda_davi_fun", "src/acmpy/globals.py:lambda_jig_fun", "src/acmpy/globals.py:lambda_fix_fun"]}
{"id": "C49", "title": "Davidson basis shift is the nearest admissible integer", "statement": "lambda_davi_fun(C)(v) is the integer of the parity of v nearest to sqrt((v+3/2)^2+C)-sqrt(9/4+C).", "quantifier": "all v and all C>=0", "why_tests_cant": "real-valued rounding over a continuum", "anchors": ["src/acmpy/globals.py:lambda_davi_fun"]}
{"id": "C50", "title": "Lambda function test", "statement": "ACM_test_lambda_fun returns true iff successive values of the current function differ by exactly one over the tested range.", "quantifier": "all functions and ranges", "why_tests_cant": "all functions", "anchors": ["src/acmpy/globals.py:ACM_test_lambda_fun", "src/acmpy/globals.py:ACM_set_lambda_fun", "src/acmpy/globals.py:ACM_set_basis_type"]}
{"id": "C51", "title": "SO(5) Clebsch-Gordan selection rules", "statement": "CG_SO5r3 returns 0 whenever v1,v2,v3 or L1,L2,L3 violate the triangle inequality, v1+v2+v3 is odd or a multiplicity label exceeds its dimension, without reading any file.", "quantifier": "all labels", "why_tests_cant": "nine unbounded integers", "anchors": ["src/acmpy/so5_so3_cg.py:CG_SO5r3"]}
{"id": "C52", "title": "SO(5) Clebsch-Gordan lookup never misses", "statement": "For labels passing the selection rules, the key looked up is one of the keys of the loaded table whenever the data file has at least one value per label, so no KeyError arises; each key is loaded from its own line.", "quantifier": "all labels, all data files", "why_tests_cant": "index arithmetic for all quintets", "anchors": ["src/acmpy/so5_so3_cg.py:CG_labels", "src/acmpy/so5_so3_cg.py:load_CG_table", "src/acmpy/so5_so3_cg.py:CG_SO5r3"]}
{"id": "C53", "title": "SO(5) Clebsch-Gordan exchange symmetry", "statement": "For v1>v3 (and v1<v3) CG_SO5r3(v1,a1,L1,v2,a2,L2,v3,a3,L3) equals (-1)^(L3+L2-L1)*sqrt(dimSO5(v3)*dimSO3(L1)/(dimSO5(v1)*dimSO3(L3)))*CG_SO5r3(v3,a3,L3,v2,a2,L2,v1,a1,L1).", "quantifier": "all labels with v1 different from v3", "why_tests_cant": "square-root factors must cancel for all labels", "anchors": ["src/acmpy/so5_so3_cg.py:CG_SO5r3", "src/acmpy/spherical_space.py:dimSO5", "src/acmpy/spherical_space.py:dimSO3"]}
{"id": "C54", "title": "Coefficient table loading is idempotent and order independent", "statement": "After any sequence of CG_SO5r3 / load_CG_table / get_CG_file calls with the same data directory, each coefficient returned is the one determined by the data file alone.", "quantifier": "all call histories", "why_tests_cant": "cache transparency over histories", "anchors": ["src/acmpy/so5_so3_cg.py:load_CG_table", "src/acmpy/so5_so3_cg.py:CG_coeffs", "src/acmpy/so5_so3_cg.py:CG_SO5r3"]}
{"id": "C55", "title": "Coupling with the scalar is the identity", "statement": "CG_SO5r3(v,a1,L,0,1,0,v,a3,L) is 1 if a1=a3 and 0 otherwise.", "quantifier": "all v, L, a1, a3", "why_tests_cant": "multiplicity only exceeds one from v=6 on", "anchors": ["src/acmpy/so5_so3_cg.py:CG_SO5r3", "src/acmpy/so5_so3_cg.py:load_CG_table"]}
{"id": "C56", "title": "Data file names identify the coefficients", "statement": "SO5CG_filename gives different names to different quintets, and the file-name and directory-name parsers recover exactly the labels that were written into the name.", "quantifier": "all quintets of naturals", "why_tests_cant": "unbounded decimal strings", "anchors": ["src/acmpy/so5_so3_cg.py:SO5CG_filename", "src/acmpy/so5cg.py:parse_datafile_name", "src/acmpy/so5cg.py:parse_dir1_name", "src/acmpy/so5cg.py:parse_dir2_name"]}
{"id": "C57", "title": "SO(3) Clebsch-Gordan is total on half-integers", "statement": "For all half-integers, CG_SO3 returns 0 outside the selection rules and otherwise evaluates factorials of non-negative integers only and divides by non-zero numbers; for non half-integers it raises ValueError.", "quantifier": "all half-integer arguments", "why_tests_cant": "six unbounded arguments", "anchors": ["src/acmpy/so5_so3_cg.py:CG_SO3", "src/acmpy/so5_so3_cg.py:Wigner_3j"]}
{"id": "C58", "title": "SO(3) Clebsch-Gordan special values", "statement": "CG_SO3(j,m,0,0,j,m)=1, and for maximal projections CG_SO3(j1,j1,j2,j3-j1,j3,j3) has the closed form with positive sign, hence never vanishes when the triangle condition holds.", "quantifier": "all half-integers satisfying the triangle condition", "why_tests_cant": "unbounded arguments; a zero would make quad_amp_fun divide by zero", "anchors": ["src/acmpy/so5_so3_cg.py:CG_SO3", "src/acmpy/so5_so3_cg.py:Wigner_3j", "src/acmpy/globals.py:quad_amp_fun"]}
{"id": "C59", "title": "ACM_Hamiltonian encodes the documented Hamiltonian", "statement": "For all coefficient values, the operator sum returned by ACM_Hamiltonian denotes c11*Laplacian + c20 + c21*b^2 + c22*b^4 + c23*b^-2 + (c30*b + c31*b^3 + c32*b^5 + c33*b^-1)cos3g + (c40 + c41*b^2 + c42*b^4 + c43*b^-2)cos^2 3g + c50*[pi q pi]; zero coefficients contribute no term.", "quantifier": "all coefficient values, all interpretations of the operators", "why_tests_cant": "14 real parameters", "anchors": ["src/acmpy/internal_operators.py:ACM_Hamiltonian"]}
{"id": "C60", "title": "Rigid-beta Hamiltonians agree in both encodings", "statement": "ACM_HamSH3 and ACM_HamSH6 (and ACM_HamRigidBeta with flag 0 and 1) denote the same polynomial in cos3g for all coefficients, given Convert_610*Y610 = 3*(cos3g)^2-1.", "quantifier": "all coefficients", "why_tests_cant": "polynomial identity in nine parameters", "anchors": ["src/acmpy/internal_operators.py:ACM_HamSH3", "src/acmpy/internal_operators.py:ACM_HamSH6", "src/acmpy/internal_operators.py:ACM_HamRigidBeta"]}
{"id": "C61", "title": "RWC_Ham encodes the Rowe-Welsh-Caprio Hamiltonian", "statement": "RWC_Ham(B,c1,c2,chi,kappa) denotes -Laplacian/(2B) + (B/2)(c1*b^2 + c2*b^4) - chi*b*cos3g + kappa*cos^2 3g.", "quantifier": "all parameter values", "why_tests_cant": "real parameters", "anchors": ["src/acmpy/hamiltonian_data.py:RWC_Ham", "src/acmpy/internal_operators.py:ACM_Hamiltonian"]}
{"id": "C62", "title": "Angular momentum of an operator", "statement": "Op_AM returns a if every term has total angular momentum a, and minus the maximum otherwise; 0 for the empty sum.", "quantifier": "all operator sums", "why_tests_cant": "unbounded sums", "anchors": ["src/acmpy/internal_operators.py:Op_AM"]}
{"id": "C63", "title": "Parity and tameness of an operator", "statement": "Op_Parity returns the common parity of all terms or -1 if they differ; Op_Tame returns True iff no term contains Xspace_Pi, Xspace_PiPi2 or Xspace_PiPi4; NumSO5r3_Prod counts the spherical harmonics.", "quantifier": "all operator sums", "why_tests_cant": "unbounded sums", "anchors": ["src/acmpy/internal_operators.py:Op_Parity", "src/acmpy/internal_operators.py:Op_Tame", "src/acmpy/internal_operators.py:NumSO5r3_Prod"]}
{"id": "C64", "title": "Reduced matrix elements of Q, QxQ, QxQxQ", "statement": "Qred_*, QxQred_*, QxQxQred_* equal ME_SO5red(v+k,w,v) times the matching conversion constant, for all v for which the target seniority is non-negative.", "quantifier": "all seniorities", "why_tests_cant": "unbounded v; factorial identities", "anchors": ["src/acmpy/internal_operators.py:Qred_p1", "src/acmpy/internal_operators.py:Qred_m1", "src/acmpy/internal_operators.py:QxQred_p2", "src/acmpy/internal_operators.py:QxQred_0", "src/acmpy/internal_operators.py:QxQred_m2", "src/acmpy/internal_operators.py:QxQxQred_p3", "src/acmpy/internal_operators.py:QxQxQred_p1", "src/acmpy/internal_operators.py:QxQxQred_m1", "src/acmpy/internal_operators.py:QxQxQred_m3", "src/acmpy/internal_operators.py:ME_SO5red"]}
{"id": "C65", "title": "SO(5)-reduced elements: selection rules and symmetry", "statement": "ME_SO5red(u,w,v) is 0 exactly outside the triangle/parity rules, positive inside, and ME_SO5red(u,w,v)*sqrt(dimSO5(u)) is symmetric in u and v.", "quantifier": "all seniorities", "why_tests_cant": "unbounded arguments", "anchors": ["src/acmpy/internal_operators.py:ME_SO5red", "src/acmpy/spherical_space.py:dimSO5"]}
{"id": "C66", "title": "Diagonal L-dimension operators", "statement": "SpDiag_sqLdim multiplies a state of angular momentum L by (-1)^L*sqrt(2L+1) and SpDiag_sqLdiv by (-1)^L/sqrt(2L+1); they are mutually inverse.", "quantifier": "all label lists", "why_tests_cant": "sign wrong only for even L", "anchors": ["src/acmpy/internal_operators.py:RepSO5_sqLdim", "src/acmpy/internal_operators.py:RepSO5_sqLdiv"]}
{"id": "C67", "title": "Optimal oscillator length is well defined", "statement": "For B>0, c2>0 the cubic RWC1 (c1>=0) has exactly one positive root, and the bracketing loop used for c1<0 terminates with a sign change of RWC2, so a positive root exists in the bracket.", "quantifier": "all real parameters", "why_tests_cant": "continuum of parameters, existence and uniqueness", "anchors": ["src/acmpy/hamiltonian_data.py:RWC_alam", "src/acmpy/hamiltonian_data.py:RWC1", "src/acmpy/hamiltonian_data.py:RWC2", "src/acmpy/hamiltonian_data.py:RWC_alam_clam"]}
{"id": "C68", "title": "Optimality equations are the derivative of the energy", "statement": "RWC1 and RWC2 vanish exactly at the stationary points of the expectation value RWC_expt_link along the corresponding lambda choice.", "quantifier": "all real parameters", "why_tests_cant": "calculus statement", "anchors": ["src/acmpy/hamiltonian_data.py:RWC_expt", "src/acmpy/hamiltonian_data.py:RWC_expt_link", "src/acmpy/hamiltonian_data.py:RWC1", "src/acmpy/hamiltonian_data.py:RWC2", "src/acmpy/hamiltonian_data.py:muf", "src/acmpy/hamiltonian_data.py:vshftf"]}
{"id": "C69", "title": "Transition rates and amplitudes are consistent", "statement": "For each transition format, rates computed from matrix elements are non-negative multiples of the squared matrix element with the documented spin factor, and the displayed rate is the square of the displayed amplitude up to its documented factor.", "quantifier": "all matrix elements and angular momenta", "why_tests_cant": "real-valued laws", "anchors": ["src/acmpy/globals.py:quad_rat_fun", "src/acmpy/globals.py:quad_amp_fun", "src/acmpy/globals.py:mel_rat_fun", "src/acmpy/globals.py:mel_amp_fun"]}
{"id": "C70", "title": "Eigenvalue solver input is symmetrised without changing symmetric operators", "statement": "Eigenfiddle rejects non-square input, diagonalises (H+H^T)/2, which equals H when H is symmetric, and returns as many eigenvalues as rows in increasing order (given a correct symmetric eigensolver).", "quantifier": "all square matrices", "why_tests_cant": "all sizes", "anchors": ["src/acmpy/eigenvalues.py:Eigenfiddle"]}
{"id": "C71", "title": "Predefined operators denote what they are documented to be", "statement": "laplacian_op denotes the Laplacian; comm_su11_op denotes [S-,S+]-2*S0 and comm_bdb_op denotes [d/db,b]-1, so each is zero exactly when the algebra relation holds; quad_op and quadRigid_op denote (4pi/sqrt 15) b Y112 and (4pi/sqrt 15) Y112, both of angular momentum 2.", "quantifier": "all interpretations of the operators in any real algebra", "why_tests_cant": "Tests compare numbers in one truncated basis; the claim is about the denoted operator in every interpretation.", "anchors": ["src/acmpy/internal_operators.py:laplacian_op", "src/acmpy/internal_operators.py:comm_su11_op", "src/acmpy/internal_operators.py:comm_bdb_op", "src/acmpy/internal_operators.py:quad_op"]}
{"id": "C72", "title": "Products of spherical operators are ordered matrix products", "statement": "RepSO5r3_Prod of a list of spherical operators is the ordered product of their matrices on the label range (identity for the empty list), the matrix of a harmonic has entries CG*ME_SO5red between the enumerated states, and an unknown item raises ValueError.", "quantifier": "all lists of items, all ranges, all Clebsch-Gordan tables", "why_tests_cant": "Lists of any length and every range; tests fix a few short products.", "anchors": ["src/acmpy/internal_operators.py:RepSO5r3_Prod_wrk", "src/acmpy/internal_operators.py:RepSO5_Y_rem", "src/acmpy/internal_operators.py:ME_SO5r3"]}
{"id": "C73", "title": "Transition matrices between eigenstates", "statement": "For the L values and bases returned by DigXspace, AmpXspeig returns a matrix of the size of the transition matrix in which the block of (L_f,L_i) is inverse(basis L_f) * block of the transition matrix * basis L_i, and no element of it depends on uninitialised memory.", "quantifier": "all ranges, transition operators and bases", "why_tests_cant": "The result array comes from np.empty; only a proof over all block structures shows that each element is overwritten, whatever it contained.", "anchors": ["src/acmpy/full_space.py:AmpXspeig", "src/acmpy/full_space.py:LBlockNDFloatArray", "src/acmpy/full_space.py:DigXspace"]}
{"id": "C74", "title": "RWC_alam returns the minimum", "statement": "For B>0, c2>0 the pair (a,lambda) returned by RWC_alam(B,c1,c2,v) satisfies lambda=lambda_v(a) (the Davidson lambda of seniority v, RWC_dav(c1,c2,a,v)), and the expectation value of the Hamiltonian over all pairs (b,lambda_v(b)), b>0, is least there and only there.", "quantifier": "all B>0, c2>0, real c1, v>=0, all correct solvers", "why_tests_cant": "A test compares with a few recorded numbers; global minimality over all b>0 for all real parameters is a statement about a continuum.", "anchors": ["src/acmpy/hamiltonian_data.py:RWC_alam", "src/acmpy/hamiltonian_data.py:RWC_alam_clam", "src/acmpy/hamiltonian_data.py:RWC_expt_link", "src/acmpy/hamiltonian_data.py:RWC_dav"]}
{"id": "C75", "title": "The estimates A0_case1, A0_case2_approx, A0_case3_approx", "statement": "A0_case1 and A0_case2_approx are the positive roots of the cubic RWC1 with c2=0 and with c1=0; for c1,c2>0 the a^2 found by RWC_alam lies strictly above both and strictly below their sum; A0_case3_approx balances F2(0) against the leading term 2|c1|/c2 A^4, which is the growth of F2 at infinity; arguments out of range raise ValueError.", "quantifier": "all real B, c1, c2, all integers v", "why_tests_cant": "Bounds for all reals and a limit at infinity.", "anchors": ["src/acmpy/hamiltonian_data.py:A0_case1", "src/acmpy/hamiltonian_data.py:A0_case2_approx", "src/acmpy/hamiltonian_data.py:A0_case3_approx"]}
{"id": "C76", "title": "RWC_alam36 matches second derivatives", "statement": "For B>0, c2>0 the a returned by RWC_alam36 is such that the Davidson (oscillator if c1>=0) potential of the basis has the second derivative of the potential of the Hamiltonian at their common minimum, and the lambda returned is the one of that Davidson potential.", "quantifier": "all B>0, c2>0, real c1", "why_tests_cant": "Equality of derivatives for all real parameters; the recorded cases may be the ones where the formulas agree by accident (c1=-2).", "anchors": ["src/acmpy/hamiltonian_data.py:RWC_alam36"]}
{"id": "C77", "title": "RWC_alam_fun returns the increase of lambda", "statement": "The function f returned by RWC_alam_fun(B,c1,c2) with (a,lambda) gives for each seniority v the integer of the parity of v nearest to lambda_v(a)-lambda_0(a).", "quantifier": "all B>0, c2>0, real c1, all v>=0", "why_tests_cant": "All seniorities and all real parameters; the rounding matters only at special values.", "anchors": ["src/acmpy/hamiltonian_data.py:RWC_alam_fun", "src/acmpy/globals.py:lambda_davi_fun"]}
{"id": "C78", "title": "List and array comparisons and conversions", "statement": "is_zeros and is_close decide exactly whether all elements are within the tolerance (lists of unequal length are never close); is_close is reflexive and symmetric; is_sorted decides weak increase of all pairs; ndarray_to_list is row-major; Matrix_to_ndarray and ndarray_to_Matrix are inverse to each other and keep every element in place.", "quantifier": "all lists of reals, all tolerances, all matrices of every size", "why_tests_cant": "Lists and matrices are unbounded; is_sorted only compares neighbours, so its meaning for all pairs needs induction.", "anchors": ["src/acmpy/compat.py:is_zeros", "src/acmpy/compat.py:is_close", "src/acmpy/compat.py:is_sorted", "src/acmpy/compat.py:is_nd_zeros", "src/acmpy/compat.py:ndarray_to_list", "src/acmpy/compat.py:Matrix_to_ndarray", "src/acmpy/compat.py:ndarray_to_Matrix"]}
{"id": "C79", "title": "ME_Radial agrees with RepRadial_Prod", "statement": "For each radial operator with a closed form and each shift of lambda it is listed for, ME_Radial returns exactly the corresponding entry of the matrix RepRadial_Prod returns for that operator, on every label range and with every overlap; whatever it returns (also through its fallback) is anorm^e times an element of a product of elementary operators that denotes the operator and shifts lambda as requested; a lambda that is not positive or an unknown symbol raises ValueError.", "quantifier": "all operators, all lambda>0 with lambda+lambda_var>0, all shifts, labels, ranges and overlaps", "why_tests_cant": "Real lambda, unbounded labels and shifts; two code paths (a table of formulas and the product machinery) have to agree everywhere.", "anchors": ["src/acmpy/radial_space.py:ME_Radial", "src/acmpy/radial_space.py:RepRadial_Prod"]}
{"id": "C80", "title": "Text of the data files and directory dictionaries", "statement": "parse_line returns a coefficient and a label exactly for the lines that consist of the text of the coefficient and of the nine integers, with any white space between and around, and raises ValueError for all other lines; readdata_float reads the coefficient column of every file load_datafile reads; datafile_dict holds for each label the coefficient of its last line; if the lines carry the documented labels in the documented order, CG_SO5r3 returns, after any history of calls, the coefficient datafile_dict holds for the full label; base_dict finds every data file stored under the documented names unless another entry spells the same numbers, and finds nothing else; show_CG_file prints the values of the file with their labels.", "quantifier": "all lines, files, directory trees, labels and histories of calls", "why_tests_cant": "Texts, directory trees and histories are unbounded; two independent readers of the same files have to agree on every label.", "anchors": ["src/acmpy/so5cg.py:parse_line", "src/acmpy/so5cg.py:load_datafile", "src/acmpy/so5cg.py:datafile_dict", "src/acmpy/so5cg.py:base_dict", "src/acmpy/compat.py:readdata_float", "src/acmpy/so5_so3_cg.py:show_CG_file", "src/acmpy/so5_so3_cg.py:CG_SO5r3"]}
{"id": "C81", "title": "Linear combinations of radial operators", "statement": "RepRadial_LC returns the matrix whose elements are the sums of coefficient times element of the matrix RepRadial_Prod returns for each product (the null matrix of the range for no products), returns a matrix only if all products are represented and otherwise raises the exception of the first rejected product; it is additive under concatenation and homogeneous in the coefficients.", "quantifier": "all linear combinations of any length, all lambda, shifts, ranges and overlaps", "why_tests_cant": "Linear combinations of any length and real coefficients.", "anchors": ["src/acmpy/radial_space.py:RepRadial_LC", "src/acmpy/radial_space.py:RepRadial_LC_common", "src/acmpy/radial_space.py:RepRadial_Prod"]}
{"id": "C82", "title": "The special cases of QixQxQred", "statement": "The four procedures QpxQxQred_p1, QmxQxQred_p1, QpxQxQred_m1, QmxQxQred_m1 agree with QixQxQred at the arguments documented in the source, for every seniority and whatever the Clebsch-Gordan coefficients are.", "quantifier": "all v and all Clebsch-Gordan functions (including failing ones)", "why_tests_cant": "All seniorities; the agreement rests on identities between SO(5)-reduced matrix elements with factorials and on the absence of states beyond L = 2v.", "anchors": ["src/acmpy/full_operators.py:QixQxQred", "src/acmpy/full_operators.py:QpxQxQred_p1", "src/acmpy/full_operators.py:QmxQxQred_p1", "src/acmpy/full_operators.py:QpxQxQred_m1", "src/acmpy/full_operators.py:QmxQxQred_m1"]}
{"id": "C83", "title": "The table of SO(5) spherical harmonics", "statement": "SpHarm_Table has exactly one entry for every state (v, alpha, L) of SO(5) > SO(3) with v <= 6 (branching rule), no other entry, and the last three characters of the name of each symbol are the digits of its labels; Spherical_Operators lists all of them and the two diagonal operators once.", "quantifier": "all states (v, alpha, L), all symbols", "why_tests_cant": "The completeness is a statement about all labels (unbounded alpha and L).", "anchors": ["src/acmpy/spherical_space.py:SpHarm_Table", "src/acmpy/spherical_space.py:SpHarm_Operators", "src/acmpy/spherical_space.py:Spherical_Operators"]}
{"id": "C84", "title": "The conversion factors of the spherical harmonics", "statement": "Convert_112, Convert_212, Convert_310, Convert_316 and Convert_610 are the unique factors that turn the harmonics of unit norm (measure sin(3 gamma) dgamma dOmega, positive on the axis gamma = 0) into the quadrupole tensor, its couplings to L = 2 and L = 6, cos(3 gamma) and 3 cos(3 gamma)^2 - 1.", "quantifier": "real-valued integrals; uniqueness for all factors", "why_tests_cant": "Statements about integrals over gamma of real functions.", "anchors": ["src/acmpy/internal_operators.py:Convert_112", "src/acmpy/internal_operators.py:Convert_212", "src/acmpy/internal_operators.py:Convert_310", "src/acmpy/internal_operators.py:Convert_316", "src/acmpy/internal_operators.py:Convert_610"]}
{"id": "C85", "title": "CG_SO3 returns the Clebsch-Gordan coefficients", "statement": "For every triangle of angular momenta there are coefficients satisfying the textbook definition (the states |j3 M> are got from a highest state of norm 1, annihilated by J+ and with the Condon-Shortley phase, by J-), and CG_SO3 returns exactly them at all half-integer projections; the lowering and raising relations hold for all projections.", "quantifier": "all triangles of half-integers, all half-integer projections", "why_tests_cant": "The definition is a recursion over unboundedly many labels; the code evaluates an alternating sum of factorials.", "anchors": ["src/acmpy/so5_so3_cg.py:CG_SO3", "src/acmpy/so5_so3_cg.py:Wigner_3j"]}
{"id": "C86", "title": "Orthonormality and completeness of the SO(3) Clebsch-Gordan coefficients", "statement": "For fixed j1, j2 the coefficients returned by CG_SO3 form orthogonal matrices: the sum over m1 of the products for j3 and j3' is 1 or 0, and the sum over j3 of the products for (m1, m2) and (m1', m2') is 1 or 0.", "quantifier": "all half-integers", "why_tests_cant": "unbounded labels, exact real arithmetic", "anchors": ["src/acmpy/so5_so3_cg.py:CG_SO3", "src/acmpy/so5_so3_cg.py:Wigner_3j"]}
{"id": "C87", "title": "Symmetries of the SO(3) Clebsch-Gordan coefficients", "statement": "CG_SO3(j2 m2 j1 m1 j3 m3) and CG_SO3(j1 -m1 j2 -m2 j3 -m3) are (-1)^(j1+j2-j3) times CG_SO3(j1 m1 j2 m2 j3 m3), and CG_SO3(j1 m1 j3 -m3 j2 -m2) is (-1)^(j1-m1) sqrt((2j2+1)/(2j3+1)) times it.", "quantifier": "all half-integers", "why_tests_cant": "unbounded labels; the formula used is not manifestly symmetric", "anchors": ["src/acmpy/so5_so3_cg.py:CG_SO3", "src/acmpy/so5_so3_cg.py:Wigner_3j"]}
{"id": "C88", "title": "The momentum operators are the gradient on the five-dimensional space", "statement": "With q multiplication by a coordinate and pi differentiation on R^5, the parts of pi h, [pi x pi] h and [pi x q x pi] h that change the seniority of a state by a given number are radial operators times the parts of q h, [q x q] h and [q x q x q] h; the radial operators are the ones RepXspace_Pi, RepXspace_PiPi and RepXspace_PiqPi pass to RepRadial_LC, and the blocks computed are these radial matrices times the SO(5)-reduced matrix element times the Clebsch-Gordan coefficient.", "quantifier": "all seniorities, all harmonic polynomials, all null vectors, all radial powers, all blocks", "why_tests_cant": "unbounded seniorities; a wrong coefficient gives plausible matrices", "anchors": ["src/acmpy/full_operators.py:RepXspace_Pi", "src/acmpy/full_operators.py:RepXspace_PiPi", "src/acmpy/full_operators.py:RepXspace_PiqPi"]}
{"id": "C89", "title": "ME_SO5red gives the products of the harmonics on the sphere", "statement": "With phi_v the zonal harmonic of seniority v on the sphere in five dimensions (the solution of the SO(5) Laplace equation for the eigenvalue v(v+3) that depends on one coordinate and is 1 at the pole), phi_w phi_v is the sum over u of ME_SO5red(u,w,v)^2 dim(u)/(3 dim(v) dim(w)) phi_u; the squares ME_SO5red(v,w,u)^2 add up to 3 dim(w); multiplication by the coordinate has the squares of Qred_m1 and Qred_p1 as coefficients.", "quantifier": "all seniorities", "why_tests_cant": "unbounded arguments; the closed formula with factorials has no visible relation to the integrals it stands for", "anchors": ["src/acmpy/internal_operators.py:ME_SO5red", "src/acmpy/internal_operators.py:Qred_p1", "src/acmpy/internal_operators.py:Qred_m1"]}
{"id": "C90", "title": "The closed radial matrix elements are integrals in the orthonormal basis", "statement": "With the radial wave functions R(a,lambda,nu) of the ACM paper, (-1)^nu sqrt(2 a nu!/Gamma(lambda+nu)) (a beta)^(lambda-1/2) exp(-a^2 beta^2/2) L_nu^(lambda-1)(a^2 beta^2), which are orthonormal on (0, infinity), ME_Radial(op, a, lambda, v, mu, nu) is the integral of R(a,lambda+v,mu) times the operator applied to R(a,lambda,nu), whenever the paper lists a closed form: beta, 1/beta, d/dbeta (v = 1, -1), beta^2, 1/beta^2, d^2/dbeta^2, beta d/dbeta, the SU(1,1) generators (v = 0), and the identity (v even).", "quantifier": "all a > 0, all lambda > 0 with lambda + v > 0 (for 1/beta^2 and d^2/dbeta^2: lambda > 1), all labels mu, nu", "why_tests_cant": "real parameters and unbounded labels; the integrals are improper, so a numerical comparison is approximate", "anchors": ["src/acmpy/radial_space.py:ME_Radial_S0", "src/acmpy/radial_space.py:ME_Radial_Sp", "src/acmpy/radial_space.py:ME_Radial_Sm", "src/acmpy/radial_operators.py:ME_Radial_b2", "src/acmpy/radial_space.py:ME_Radial_bm2", "src/acmpy/radial_space.py:ME_Radial_D2b", "src/acmpy/radial_space.py:ME_Radial_bDb", "src/acmpy/radial_space.py:ME_Radial_b_pl", "src/acmpy/radial_space.py:ME_Radial_bm_pl", "src/acmpy/radial_space.py:ME_Radial_Db_pl", "src/acmpy/radial_space.py:ME_Radial_b_ml", "src/acmpy/radial_space.py:ME_Radial_bm_ml", "src/acmpy/radial_space.py:ME_Radial_Db_ml", "src/acmpy/radial_space.py:ME_Radial_id_pl", "src/acmpy/radial_space.py:ME_Radial_id_ml", "src/acmpy/radial_space.py:MF_Radial_id_pl", "src/acmpy/radial_space.py:ME_Radial"]}
{"id": "C91", "title": "RWC_expt is the expectation value of RWC_Ham in the lowest basis state", "statement": "For B != 0, anorm > 0, lambda0 > 1, RWC_expt(B,c1,c2,kappa,anorm,lambda0) is the integral over beta of the mean over gamma of R times (H R), with R the lowest radial wave function and H = -laplacian/(2B) + B(c1 beta^2 + c2 beta^4)/2 - chi beta cos(3 gamma) + kappa cos(3 gamma)^2; with (v+3/2)^2 in place of 9/4 it is the radial expectation value for seniority v.", "quantifier": "all real B != 0, c1, c2, chi, kappa, anorm > 0, lambda0 > 1, all seniorities", "why_tests_cant": "six real parameters; the reference value is an improper double integral", "anchors": ["src/acmpy/hamiltonian_data.py:RWC_expt", "src/acmpy/hamiltonian_data.py:RWC_Ham"]}
{"id": "C92", "title": "Products of radial operators are integrals of products of differential operators", "statement": "For a product of any number of S-, S0, S+, beta^2 and beta d/dbeta, with nu_lap at least the number of operators minus one, RepRadial_Prod returns the matrix of the integrals of R(mu) times the operators applied one after the other to R(nu), for all labels in the window.", "quantifier": "all words in these operators, all scales a > 0, all lambda > 0, all windows", "why_tests_cant": "unbounded words and windows, real parameters; the reference is an improper integral of iterated derivatives", "anchors": ["src/acmpy/radial_space.py:RepRadial_Prod", "src/acmpy/radial_space.py:RepRadial", "src/acmpy/radial_operators.py:ME_Radial_b2", "src/acmpy/radial_space.py:ME_Radial_bDb"]}
{"id": "C93", "title": "Show_Eigs displays exactly the angular momenta asked for", "statement": "With no bounds all L are displayed, with L_min alone only that L, otherwise L_min..L_max; one line per L in order with at most toshow levels, measured from the lowest level over all L and divided by the scale. Without levels, or without any L asked for, nothing is printed and None returned; negative toshow, negative or reversed bounds raise ValueError with nothing printed.", "quantifier": "all eigenvalue lists, L values up to the default maximum 10^6, all optional bounds, all settings", "why_tests_cant": "all combinations of optional bounds and all shapes of spectra", "anchors": ["src/acmpy/full_space.py:Show_Eigs"]}
{"id": "C94", "title": "ACM_Adapt refuses reference states that are not in the space", "statement": "If the reference state of the energies (when energies are displayed) or a reference state of the transition (when a transition is fitted) is not in the space, ACM_Adapt raises ValueError before anything is computed, displayed or changed; and it accepts all others, for which the level then exists.", "quantifier": "all legal ranges, all settings, all Hamiltonians", "why_tests_cant": "all ranges and settings; acceptance has to be exact", "anchors": ["src/acmpy/full_space.py:ACM_ScaleOrAdapt", "src/acmpy/full_space.py:ACM_Adapt"]}
{"id": "C95", "title": "Exactly solvable Hamiltonians give the exact spectrum", "statement": "For H = c11 laplacian + c20 + c21 beta^2 + c23/beta^2 (five-dimensional oscillator, Davidson potential) in the basis matched to it, DigXspace returns for every occupied L exactly the energies c20 - c11 a^2 (4 nu + 2 lambda_v) of the labels with this L, sorted and with multiplicity, however the basis is truncated; for the oscillator in the SHO basis these are a^2 (2 nu + v + 5/2).", "quantifier": "all legal ranges, all coefficients with c11 non-zero, all matched scales and lambdas, every well-formed memo state", "why_tests_cant": "the doctests show a few low-lying energies of some Hamiltonians; the identity combines the Hamiltonian generator, the radial closed forms, the Kronecker assembly, the scaling by anorm and the diagonalisation at every truncation", "anchors": ["src/acmpy/full_space.py:DigXspace", "src/acmpy/full_operators.py:RepXspace", "src/acmpy/radial_space.py:RepRadial", "src/acmpy/internal_operators.py:ACM_Hamiltonian"]}
{"id": "C96", "title": "The variational principle: enlarging the space does not raise an energy", "statement": "If two legal spaces are given in the same basis and the second contains the first, every energy DigXspace returns on the first is matched in the second by one with the same L and the same place in ascending order that is not higher. It holds if each product of the Hamiltonian has at most one radial operator, in closed form, and at most one harmonic (any number if only nu_min, nu_max change); it fails for beta^4, whose matrix is the square of the truncated matrix of beta^2.", "quantifier": "all pairs of nested legal ranges, all coefficients, all scales and positive lambdas, every well-formed memo state on either side", "why_tests_cant": "the comparison is between every pair of truncations, and rests on a fact about the eigenvalues of all symmetric matrices and on the matrix elements being independent of the truncation; the doctests show single truncations", "anchors": ["src/acmpy/full_space.py:DigXspace", "src/acmpy/full_operators.py:RepXspace_Twin", "src/acmpy/radial_space.py:RepRadial_Prod_common", "src/acmpy/eigenvalues.py:Eigenfiddle"]}
{"id": "C97", "title": "The matrix of the Hamiltonian is symmetric, so that symmetrising it changes nothing", "statement": "The matrix RepXspace returns for the Hamiltonian is symmetric, whatever coefficients the data files hold, so that the states DigXspace returns are eigenvectors of that matrix itself and not only of its symmetric part, which Eigenfiddle diagonalises. It holds for single self-adjoint radial operators in closed form, and beta^4 without a change of lambda, times any power of cos(3 gamma); it fails for beta^3 cos(3 gamma) (c31 of ACM_Hamiltonian) if the coefficient (0; 3 || 3) in the files is not zero.", "quantifier": "all legal ranges, all file contents, all scales and positive lambdas, all constant coefficients, every well-formed memo state", "why_tests_cant": "Eigenfiddle symmetrises its argument, so that an asymmetric matrix leaves no trace in the energies the doctests print; that the two directions agree depends on the exchange phases of all coefficients and on the adjoints of all radial matrices", "anchors": ["src/acmpy/full_operators.py:RepXspace", "src/acmpy/internal_operators.py:ACM_Hamiltonian", "src/acmpy/radial_space.py:RepRadial_bS_DS", "src/acmpy/radial_space.py:Lambda_Splits", "src/acmpy/so5_so3_cg.py:CG_SO5r3", "src/acmpy/eigenvalues.py:Eigenfiddle"]}
{"id": "C98", "title": "A setting procedure sets what it is given, changes nothing else and returns the new values", "statement": "Each of the procedures ACM_set_... called with valid arguments stores every given value in the setting of that name, leaves every setting it is not responsible for as it was, and returns the values now stored; the number of amplitudes follows the number of rates, the angular momentum of the transition operator follows the operator, and the amplitude scale follows the rate scale. The four basis types select the four functions for lambda (type 3 with C = abeta0^4) and any other number is rejected. Negative numbers and indices below 1 raise ValueError. ACM_show_lambda_fun lists the values of the current function.", "quantifier": "all states of the settings, all valid arguments given or omitted, all invalid numbers", "why_tests_cant": "there are 33 settings and some fifteen procedures, each with optional arguments; a procedure that stores one argument under the name of another, or disturbs an unrelated setting, shows only in a later computation that uses that setting", "anchors": ["src/acmpy/globals.py:ACM_set_output", "src/acmpy/globals.py:ACM_set_listln", "src/acmpy/globals.py:ACM_set_datum", "src/acmpy/globals.py:ACM_set_eig_fit", "src/acmpy/globals.py:ACM_set_rat_fit", "src/acmpy/globals.py:ACM_set_transition", "src/acmpy/globals.py:ACM_set_rat_form", "src/acmpy/globals.py:ACM_set_amp_form", "src/acmpy/globals.py:ACM_set_sft_fun", "src/acmpy/globals.py:ACM_set_scales", "src/acmpy/globals.py:ACM_set_basis_type", "src/acmpy/globals.py:ACM_set_lambda_fun", "src/acmpy/globals.py:ACM_show_lambda_fun"]}
{"id": "C99", "title": "A product of radial operators takes a numerical square root only when parity forces it, and then one", "statement": "The matrix RepRadial_Prod returns for a list of radial operators is the evaluation of a product of elementary matrices. That product contains exactly one square root (of the matrix of beta^2, or of its inverse) if the number of operators in the list that are odd in beta (b, bm, Db) and lambda_var differ in parity, and no square root otherwise. So with equal parities the outcome does not depend on the eigenvalue routine used for the square roots, and with different parities there is no result without it.", "quantifier": "all lists of radial operators, all lambda, lambda_var, ranges and overlaps, all matrix primitives", "why_tests_cant": "a superfluous pair of square roots gives nearly the same numbers, only with truncation and rounding errors; a test compares a few matrices up to a tolerance", "anchors": ["src/acmpy/radial_space.py:RepRadial_Prod", "src/acmpy/radial_space.py:RepRadialshfs_Prod", "src/acmpy/radial_space.py:RepRadial_bS_DS", "src/acmpy/radial_space.py:Lambda_Splits", "src/acmpy/radial_space.py:Lambda_RadialOp_List"]}
{"id": "C100", "title": "In a basis where lambda has the parity of the seniority, the matrices on the whole space contain no numerical square root", "statement": "Suppose lambda(v) - v is even for every seniority v. Then the matrix RepXspace returns for an operator (or the exception it raises) does not depend on the eigenvalue routine behind the numerical square roots, provided that in every term each run of symbols between momentum operators has an even number of odd ones (b, bm, Db and harmonics of odd seniority). All terms of ACM_Hamiltonian, for all coefficients, and the quadrupole operator are of that form; basis types 1, 2 and 3 are such bases and type 0 is not. The reason is that a matrix element of a product of spherical operators vanishes unless the change of seniority has the parity of the number of harmonics of odd seniority.", "quantifier": "all operator sums of that form, all coefficients depending on the labels, all ranges, all lambda functions of that parity, all eigenvalue routines", "why_tests_cant": "the eigenvalue routine is a library call whose errors are small and depend on the platform; a run cannot show that it is never reached for any truncation", "anchors": ["src/acmpy/full_operators.py:RepXspace", "src/acmpy/full_operators.py:RepXspace_Prod", "src/acmpy/full_operators.py:RepXspace_Twin", "src/acmpy/full_operators.py:RepXspace_Pi", "src/acmpy/full_operators.py:RepXspace_PiPi", "src/acmpy/full_operators.py:RepXspace_PiqPi", "src/acmpy/internal_operators.py:ACM_Hamiltonian", "src/acmpy/globals.py:lambda_davi_fun", "src/acmpy/internal_operators.py:RepSO5r3_Prod_wrk"]}
{"id": "C101", "title": "The momentum operator and its squares are represented on every range", "statement": "RepXspace_Pi and RepXspace_PiPi return a matrix for every legal range and every basis with positive lambda, if the Clebsch-Gordan coefficients are known, and so do sums of products in which they occur.", "quantifier": "all ranges, all lambda functions, all scaling parameters, all sums of products of operators", "why_tests_cant": "whether the arrays can be added depends on the parity and the sign of the shift of lambda for every pair of states; no example or test in the repository uses the momentum operators", "anchors": ["src/acmpy/full_operators.py:RepXspace_Pi", "src/acmpy/full_operators.py:RepXspace_PiPi", "src/acmpy/radial_space.py:RepRadial_LC_common", "src/acmpy/radial_space.py:ME_Radial_bm_pl", "src/acmpy/radial_space.py:ME_Radial_bm_ml", "src/acmpy/radial_space.py:ME_Radial_Db_pl"]}
{"id": "C102", "title": "Matrix elements that are not shown are zero", "statement": "An element of the matrix of an operator on the whole space is zero if the angular momenta of its two states differ by more than every term of the operator has, in particular by more than the absolute value of Op_AM; and if the seniorities differ by more than every term can change, or by a number of the wrong parity. After any setting procedures glb_rat_TRopAM is the absolute value of Op_AM of the transition operator. So the transition amplitudes of ACM_Scale and ACM_Adapt vanish for all pairs of angular momenta that differ by more than glb_rat_TRopAM, which are the ones that the display leaves out.", "quantifier": "all operators (sums of products of any symbols), all ranges, all bases, all file systems, all sequences of setting procedures", "why_tests_cant": "a test checks the zeros of one matrix; that a product of any length of harmonics, momenta and radial symbols connects only what its factors add up to is a statement by induction over the product, and it needs the rules of the coefficients for all labels", "anchors": ["src/acmpy/full_space.py:Show_Mels_Rows", "src/acmpy/full_operators.py:RepXspace", "src/acmpy/internal_operators.py:Op_AM", "src/acmpy/globals.py:ACM_set_transition", "src/acmpy/full_space.py:AmpXspeig", "src/acmpy/so5_so3_cg.py:CG_SO5r3"]}
{"id": "C103", "title": "When diagonalising each angular momentum by itself loses nothing", "statement": "If Op_AM assigns angular momentum 0 to the Hamiltonian, then Op_Tame accepts it, its matrix on every smaller range of angular momenta consists of the elements of the matrix on the whole range for the same labels, and the eigenvalues that DigXspace returns for all angular momenta, put together, are those of the symmetric part of the matrix on the whole range, with multiplicities. Op_Tame accepts more: for the scalar product of the harmonic (1,1,2) with itself, written as documented with SpDiag_sqLdim and SpDiag_sqLdiv, the matrix on the whole range connects no different angular momenta, but the matrix that DigXspace diagonalises for L = 0 is 0 where the whole one is not.", "quantifier": "all Hamiltonians whose Op_AM is 0, all ranges of nu, v and L and all smaller ranges of L, all bases, all contents of the coefficient files; the failure for all files whose coefficient (0,1,0)(1,1,2)(1,1,2) is not 0", "why_tests_cant": "the two branches of DigXspace are never compared on the same Hamiltonian; that restricting each factor of a product to one L commutes with the product holds for all lengths of products only because every intermediate state has the same L", "anchors": ["src/acmpy/full_space.py:DigXspace", "src/acmpy/internal_operators.py:Op_Tame", "src/acmpy/internal_operators.py:Op_AM", "src/acmpy/full_operators.py:RepXspace", "src/acmpy/internal_operators.py:RepSO5r3_Prod_wrk"]}
{"id": "C104", "title": "The width of the basis is a unit of length", "statement": "For widths other than 0 the matrix of an operator for one width anorm is the matrix, for any other width w, of the operator in other units: each term multiplied by the power of anorm/w that belongs to it (b -1, b2 -2, bm 1, bm2 2, Db 1, D2b 2, bDb and the SU(1,1) generators 0, pi 1, its squares 2, [pi x q x pi] 1, spherical operators 0). So DigXspace gives the same energies and eigenvectors, or the same exception, for ACM_Hamiltonian with the coefficients in the other units, and for RWC_Ham(B,c1,c2,chi,kappa) with anorm and RWC_Ham(B/u^2,c1,c2/u^2,chi/u,kappa) with anorm/u. RWC_alam and RWC_alam_fun are consistent with this: in other units of length and energy they give anorm/u, the same lambda and the same lambda function. RWC_alam36 for c1>0 is not.", "quantifier": "all sums of products of all operators with coefficients that depend on the state, all widths other than 0, all ranges, all bases, all coefficients, all states of the memo tables; for the optimal parameters all B>0, c2>0, c1, all seniorities, all units u>0, k>0, all solvers that find roots", "why_tests_cant": "tests evaluate a few Hamiltonians at one width each, so a wrong power of anorm in one branch of one operator is not noticed; the claim relates two runs for all products of operators, of any length, including the branches that go through numerical square roots", "anchors": ["src/acmpy/radial_space.py:RepRadial", "src/acmpy/radial_space.py:RepRadial_Prod_rem", "src/acmpy/full_operators.py:RepXspace", "src/acmpy/full_operators.py:RepXspace_Pi", "src/acmpy/full_operators.py:RepXspace_PiPi", "src/acmpy/full_operators.py:RepXspace_PiqPi", "src/acmpy/full_space.py:DigXspace", "src/acmpy/internal_operators.py:ACM_Hamiltonian", "src/acmpy/hamiltonian_data.py:RWC_alam", "src/acmpy/hamiltonian_data.py:RWC_alam_fun"]}
{"id": "C105", "title": "Results do not depend on the eigenvalue routine", "statement": "Let two routines for eigenvalues and inverses both do what NumPy documents (orthonormal eigenvectors, ascending eigenvalues, inverses). Then Matrix_sqrt and Matrix_sqrtInv give the same matrix or the same exception with both; so do RepXspace, with the same memo tables afterwards, and DigXspace as to angular momenta and energies, for every operator. The blocks of AmpXspeig for a tame Hamiltonian agree in the squares of their elements added up with any weights that depend on the energies of the two levels, so in the rates between multiplets of degenerate levels; an element between levels that are not degenerate is the same up to its sign, and a diagonal one with its sign. Nothing more is determined: changing the signs of the eigenvectors gives another such routine, and multiplies the elements by the two signs.", "quantifier": "all pairs of routines that do what NumPy documents, all operators with coefficients that depend on the state, all ranges, parameters and states of the memo tables; all weights; all choices of signs", "why_tests_cant": "tests run one version of LAPACK on one machine; the claim compares with every other version, whose eigenvectors differ in sign and, for degenerate eigenvalues, by any rotation, and says which numbers of a published calculation are reproducible", "anchors": ["src/acmpy/eigenvalues.py:Eigenfiddle", "src/acmpy/radial_space.py:Matrix_sqrt", "src/acmpy/radial_space.py:Matrix_sqrtInv", "src/acmpy/full_operators.py:RepXspace", "src/acmpy/full_space.py:DigXspace", "src/acmpy/full_space.py:AmpXspeig"]}
{"id": "C106", "title": "Transitions in the two directions (detailed balance)", "statement": "Let the transition operator be a sum of constants times a radial operator with exact self-adjoint matrices times one harmonic of odd seniority, of angular momenta of the same parity as l; with a function lambda for which the radial matrices have closed forms wherever the harmonic connects two seniorities. The quadrupole operators quad_op (lambda_acm_fun, lambda_sho_fun) and quadRigid_op (fixed lambda) are of this kind with l = 2. Then, with coefficients read from any files, the matrix of RepXspace satisfies M[p,q] sqrt(2 Lp + 1) = (-1)^(Lp + l - Lq) M[q,p] sqrt(2 Lq + 1), although the program computes the two elements from different formulas; so do the elements of AmpXspeig between the eigenvectors that DigXspace finds for a tame Hamiltonian, self-adjoint or not. Hence the rates computed with quad_rat_fun satisfy (2 Li + 1) B(i -> f) = (2 Lf + 1) B(f -> i), and those with mel_rat_fun are equal.", "quantifier": "all operators of this kind, all legal ranges and positive lambda, all contents of the coefficient files, all eigenvalue routines that do what NumPy documents, all states of the memo tables, all pairs of levels", "why_tests_cant": "tests compare rates in one direction with printed tables; detailed balance ties each element of every matrix to another one, for all files and dimensions, and fails for unlike signs, exchanged arguments or a wrong factor in the reduced elements even when all rates of a table are right", "anchors": ["src/acmpy/full_operators.py:RepXspace", "src/acmpy/full_operators.py:RepXspace_Twin", "src/acmpy/internal_operators.py:RepSO5_Y_rem", "src/acmpy/so5_so3_cg.py:CG_SO5r3", "src/acmpy/full_space.py:AmpXspeig", "src/acmpy/globals.py:quad_rat_fun", "src/acmpy/globals.py:mel_rat_fun", "src/acmpy/internal_operators.py:quad_op", "src/acmpy/internal_operators.py:quadRigid_op"]}
{"id": "C107", "title": "The unit and the zero of the energy", "statement": "Let c > 0 and d be any reals, and let H be any operator. DigXspace for cH gives the energies of H multiplied by c, or raises the same exception. For H + d it gives the energies of H plus d (where the function lambda is defined and lambda positive). For a tame Hamiltonian the transition rates between the levels of cH + d are those of H (summed over degenerate states), and single amplitudes between nondegenerate levels agree up to sign. ACM_Adapt for cH returns c times the energies but prints exactly the same lines of energies, because its scaling factor eig_sft becomes c times as large; with relative display (eig_rel) this holds for cH + d too. ACM_Hamiltonian called with k times its coefficients (k not 0) is k times the Hamiltonian.", "quantifier": "all operators, all c > 0 and d, all arguments, all coefficient functions CG, all eigenvalue routines that do what NumPy documents, all states of the memo tables; for ACM_Adapt all states with positive eig_num and empty lists of rates and amplitudes", "why_tests_cant": "the claim compares runs of the program on arbitrarily related Hamiltonians; a routine may return other eigenvectors for cH + d than for H, so the equality of rates is a statement about all admissible routines at once", "anchors": ["src/acmpy/full_space.py:DigXspace", "src/acmpy/full_space.py:AmpXspeig", "src/acmpy/full_space.py:ACM_Adapt", "src/acmpy/full_space.py:Show_Eigs", "src/acmpy/full_operators.py:RepXspace", "src/acmpy/internal_operators.py:ACM_Hamiltonian"]}
{"id": "C108", "title": "Operators that are functions of the quantum numbers", "statement": "A Hamiltonian all of whose terms consist of a coefficient only (an arbitrary function of NUMBER, SENIORITY, ALFA and ANGMOM) can be diagonalised whenever the ranges are legal, lambda is defined and positive; the angular momenta of the result are exactly those that occur; for each one the energies are, in ascending order and with multiplicity, the values of the function at the labels of the basis states: nu in nu_min..nu_max, v in v_min..v_max, 1 <= alpha <= number of copies of L in v.", "quantifier": "all such operators and functions, all legal ranges, all eigenvalue routines that do what NumPy documents, all states of the memo tables", "why_tests_cant": "no test uses NUMBER or ALFA; a coefficient evaluated at the wrong label, or at the label of the row instead of the column, shows only for particular functions", "anchors": ["src/acmpy/full_space.py:DigXspace", "src/acmpy/full_operators.py:RepXspace", "src/acmpy/full_operators.py:RepXspace_Term", "src/acmpy/full_operators.py:lbsXspace", "src/acmpy/internal_operators.py:NUMBER", "src/acmpy/internal_operators.py:SENIORITY", "src/acmpy/internal_operators.py:ALFA", "src/acmpy/internal_operators.py:ANGMOM"]}
{"id": "C109", "title": "Repeating a calculation", "statement": "What ACM_Scale and ACM_Adapt return or raise, how they change the settings, and the lines they print are a function of the settings and the arguments: from any two states with the same settings and current memo tables (whatever has been computed and printed before) the results are the same, the new settings are the same and the same lines are appended to the output. After ACM_Adapt has succeeded, running the same calculation again, with or without fitting energies or transitions, returns the same, prints the same lines and changes no setting: ACM_Scale repeats the display of ACM_Adapt, and ACM_Adapt is idempotent. ACM_Scale called twice does the same twice, also when it raises.", "quantifier": "all operators, arguments, settings, coefficient functions, eigenvalue routines (no assumption on what they compute), contents of uninitialised memory, all states with current memo tables, all combinations of fitting", "why_tests_cant": "a test compares finitely many histories; the claim is about every earlier history and every combination of settings, including histories that ended in exceptions", "anchors": ["src/acmpy/full_space.py:ACM_ScaleOrAdapt", "src/acmpy/full_space.py:ACM_Scale", "src/acmpy/full_space.py:ACM_Adapt", "src/acmpy/full_space.py:Show_Eigs", "src/acmpy/full_space.py:Show_Mels", "src/acmpy/full_space.py:AmpXspeig", "src/acmpy/full_space.py:DigXspace", "src/acmpy/full_operators.py:RepXspace"]}
{"id": "C110", "title": "What the displays of ACM_Adapt depend on", "statement": "ACM_Adapt scales energies and transition rates to reference values, so its display has no arbitrary units. Every value it prints for energies and rates is the same for any two correct eigenvalue routines (hence any signs of eigenvectors), any contents of uninitialised memory and any positive multiple of the Hamiltonian; adding a constant to the Hamiltonian changes nothing either if energies are displayed relative to the lowest one. The scale factor for energies it stores is multiplied with the unit, the one for rates does not change. Multiplying the transition operator by a positive number changes no printed value of energies, rates or amplitudes and multiplies the stored scale factors accordingly; the rate and amplitude functions of globals.py (quad, mel, unit, mix) with the default square root meet the conditions.", "quantifier": "all Hamiltonians with operators that keep angular momentum, transition operators, ranges, settings and lists of transitions for which the first run succeeds, all correct eigenvalue routines, all contents of uninitialised memory, all c > 0, d, k; for the first two parts levels of equal angular momentum are not degenerate, the rate function does not depend on the sign of the matrix element and no amplitudes are listed", "why_tests_cant": "a test uses one eigenvalue routine and finitely many units; the claim compares every pair of them, and the order of scaling, fitting and printing matters for every combination of settings", "anchors": ["src/acmpy/full_space.py:ACM_Adapt", "src/acmpy/full_space.py:ACM_ScaleOrAdapt", "src/acmpy/full_space.py:Show_Eigs", "src/acmpy/full_space.py:Show_Mels", "src/acmpy/full_space.py:AmpXspeig", "src/acmpy/full_space.py:DigXspace", "src/acmpy/globals.py:quad_rat_fun", "src/acmpy/globals.py:quad_amp_fun", "src/acmpy/globals.py:mel_amp_fun"]}
{"id": "C111", "title": "Prolate and oblate: inversion of the coordinates", "statement": "Changing the sign of the five coordinates (adding pi/3 to gamma, which exchanges prolate and oblate shapes) gives every basis state the sign (-1)^v and changes the sign of the terms of an operator that change the parity of the seniority. In the code: RepXspace of the inverted operator has the same matrix up to the signs of the two states (and fails with the same exception); DigXspace of the inverted Hamiltonian finds the same angular momenta and energies; transition rates of the inverted operator are the same, diagonal elements included, and for a transition operator that changes its sign, such as the quadrupole operator, the rates are the same while the moments change their sign; ACM_Adapt prints the same energies and rates. The inversion changes the sign of c30..c33 and c50 in ACM_Hamiltonian, of the odd coefficients of ACM_HamSH3, ACM_HamSH6 and ACM_HamRigidBeta, and of chi in RWC_Ham.", "quantifier": "all operators, ranges, Clebsch-Gordan tables, states with correct memos and pairs of correct eigenvalue routines; for transitions the Hamiltonian has only operators that keep the angular momentum, for single elements the levels are not degenerate; all coefficients", "why_tests_cant": "a test compares finitely many Hamiltonians with their mirror images; the claim holds for every operator product, with any table of Clebsch-Gordan coefficients", "anchors": ["src/acmpy/full_operators.py:RepXspace", "src/acmpy/full_space.py:DigXspace", "src/acmpy/full_space.py:AmpXspeig", "src/acmpy/full_space.py:ACM_Adapt", "src/acmpy/internal_operators.py:ACM_Hamiltonian", "src/acmpy/internal_operators.py:ACM_HamSH3", "src/acmpy/internal_operators.py:ACM_HamSH6", "src/acmpy/internal_operators.py:ACM_HamRigidBeta", "src/acmpy/hamiltonian_data.py:RWC_Ham"]}
{"id": "C112", "title": "Linearity and sum rules", "statement": "Operators enter linearly. If for every operator product the coefficient of C is c times that of A plus d times that of B, then RepXspace of C is c times the matrix of A plus d times that of B, whatever the order and repetition of the terms; ACM_Hamiltonian depends linearly on its fourteen coefficients in this sense; DigXspace succeeds for C if it does for A and B. The energies of each angular momentum that DigXspace finds add up to the trace of the matrix of the Hamiltonian, and their squares to the sum of the squares of the elements of its symmetric part; so the sum of the energies is linear in the Hamiltonian. The sum of the squares of all amplitudes of a transition operator between two angular momenta, and the sum of its diagonal amplitudes for one, are the same for the eigenvectors of any two Hamiltonians on the same space.", "quantifier": "all operators and linear combinations, ranges, Clebsch-Gordan tables, correct eigenvalue routines and states with correct memos; for energies and transitions the Hamiltonians have only operators that keep the angular momentum", "why_tests_cant": "a test compares finitely many combinations; the sums have to hold for every Hamiltonian, with any table of Clebsch-Gordan coefficients", "anchors": ["src/acmpy/full_operators.py:RepXspace", "src/acmpy/full_space.py:DigXspace", "src/acmpy/full_space.py:AmpXspeig", "src/acmpy/internal_operators.py:ACM_Hamiltonian"]}
{"id": "C113", "title": "Energies of a sum of Hamiltonians", "statement": "If C = c A + d B with c, d >= 0, level i of A and level j of B (counted from 0 in increasing order, at the same angular momentum) satisfy c E_A(i) + d E_B(j) <= E_C(i+j), and E_C(i) <= c E_A(i+j) + d E_B(n-1-j) where n is the number of levels (Weyl). So the lowest energy is a concave function of the Hamiltonian and the highest a convex one. Adding d B to a Hamiltonian, with d of either sign, moves each level by an amount between the smallest and the largest of d times the energies of B: operators without negative energies never lower a level, and the energies depend continuously on the coefficients of ACM_Hamiltonian.", "quantifier": "all Hamiltonians which have only operators that keep the angular momentum, all coefficients, ranges, Clebsch-Gordan tables, correct eigenvalue routines and states with correct memos", "why_tests_cant": "an inequality for all pairs of Hamiltonians and all levels cannot be tested exhaustively", "anchors": ["src/acmpy/full_space.py:DigXspace", "src/acmpy/eigenvalues.py:Eigenfiddle", "src/acmpy/internal_operators.py:ACM_Hamiltonian"]}
{"id": "C114", "title": "Energies and diagonal elements", "statement": "For every set of k basis states, the sum of the diagonal elements of the Hamiltonian's matrix on these states is at least the sum of the k lowest energies of that angular momentum and at most the sum of the k highest (Ky Fan). So every diagonal element lies between the lowest and the highest energy.", "quantifier": "all Hamiltonians which have only operators that keep the angular momentum, all ranges, widths, Clebsch-Gordan tables, correct eigenvalue routines, states with correct memos, and all sets of basis states", "why_tests_cant": "the set of basis states is arbitrary, as are the Hamiltonian and the size of the space", "anchors": ["src/acmpy/full_space.py:DigXspace", "src/acmpy/eigenvalues.py:Eigenfiddle", "src/acmpy/full_operators.py:RepXspace"]}
{"id": "C115", "title": "The formulas of the paper, and the energy of the ground state", "statement": "The formulas of papers/wr2015.py are the ones the library uses: lambdav_61, 62, 63 are lambda0 plus the values of lambda_sho_fun, lambda_acm_fun and lambda_fix_fun; lambda0_B11 is lam_dav at seniority 0; beta0_B15 is beta_dav; RWC_expt is E_B16 plus kappa/3, and raises exactly if a width is 0, lambda0 = 1 or B = 0. RWC_expt is the diagonal element, in the lowest basis state, of the matrix which RepXspace makes for RWC_Ham, for every chi, if the basis has at least two radial functions and seniority 3. So the energy of the ground state found by DigXspace is never above RWC_expt of the basis parameters, and with the parameters of RWC_alam never above RWC_expt_link for any width.", "quantifier": "all parameters B, c1, c2, chi, kappa, all widths and lambda values which are positive and not 1, all ranges with nu_min = v_min = 0, nu_max >= 1, v_max >= 3, all Clebsch-Gordan tables whose coefficient (0,1,0;3,1,0|3,1,0) is 1 or -1, correct eigenvalue routines and root finders", "why_tests_cant": "two independent computations, one of them numerical diagonalisation, are related by equality and inequality for all real parameters", "anchors": ["src/acmpy/papers/wr2015.py:E_B16", "src/acmpy/papers/wr2015.py:lambda0_B11", "src/acmpy/hamiltonian_data.py:RWC_expt", "src/acmpy/hamiltonian_data.py:RWC_Ham", "src/acmpy/hamiltonian_data.py:RWC_alam", "src/acmpy/full_space.py:DigXspace"]}
{"id": "C116", "title": "Displaying the results again", "statement": "After ACM_Scale or ACM_Adapt has returned, Show_Eigs, Show_Rats and Show_Amps, called on the values it returned, print again exactly the lines that were printed, and change no setting; this needs the lists and the numbers of items to be passed as arguments. Left out, the arguments do not stand for the current settings: Show_Rats and Show_Amps then print nothing, whatever lists are set, and Show_Eigs prints 4 energies, whatever number is set.", "quantifier": "all operators, bounds, settings with a non-negative number of energies, states, Clebsch-Gordan tables and eigenvalue routines", "why_tests_cant": "equality of two displays for all calculations; a test fixes one", "anchors": ["src/acmpy/full_space.py:Show_Eigs", "src/acmpy/full_space.py:Show_Rats", "src/acmpy/full_space.py:Show_Amps", "src/acmpy/full_space.py:ACM_ScaleOrAdapt"]}
{"id": "C117", "title": "The examples of the worksheet give the same in every session", "statement": "Each of the 42 examples of the package examples returns the same (or raises the same), prints the same lines and leaves the same settings in every session: whatever settings were made before, whatever was calculated, whichever examples were run and whatever raised. Its preparations succeed and print nothing; every example that calls ACM_Adapt does so with admissible bounds and with reference levels that exist within the bounds; the settings in force are the documented ones; Example_2_5_c restores the numbers of items per line exactly if its calculation returns; the Hamiltonians are those of RWC_Ham; the dimensions and lambda values printed by the examples without a calculation are 55, 220, (0, 1, 0, ...) and (0, 1, 2, ...).", "quantifier": "all sessions (lists of setting calls, calculations and examples, each of which may raise), all examples, all Clebsch-Gordan tables, eigenvalue routines and basis parameters", "why_tests_cant": "the session before the example is arbitrary, and so are the memo tables it left", "anchors": ["src/acmpy/examples/example.py:Example", "src/acmpy/examples/section_1.py:Example_1_2", "src/acmpy/examples/section_2.py:make_RWC_ham", "src/acmpy/examples/section_3.py:Example_3_3_a", "src/acmpy/examples/section_4.py:Example_4_5_d", "src/acmpy/globals.py:ACM_set_defaults"]}
{"id": "C118", "title": "The memo tables of the radial procedures change no result, and arrays handed out are not changed", "statement": "The radial procedures remember their results with functools.cache and return the same array object again, or a view of it. After any history of calls, of clearing tables, and of the caller changing arrays that RepRadial_LC returned, each call of RepRadial, RepRadial_param, RepRadial_b2_sqrt, RepRadial_b2_sqrtInv, RepRadial_bS_DS, RepRadialshfs_Prod, RepRadial_Prod, RepRadial_Prod_rem, RepRadial_LC and RepRadial_LC_rem returns an array with the entries that the procedure without tables gives, or raises the same. No call changes an array that was there before. The array returned by RepRadial_LC is new and in no table. A call that succeeded is not computed again as long as its table is not cleared. The array returned by RepRadial_Prod, on the other hand, can be the one that the table of RepRadial_Prod_rem holds.", "quantifier": "all histories of calls (which may raise), clears and changes by the caller; all operators, parameters, ranges and linear algebra routines", "why_tests_cant": "sharing of arrays shows only in particular orders of calls; a change in place of a remembered array is found only if a later call with the same arguments is compared", "anchors": ["src/acmpy/radial_space.py:RepRadial", "src/acmpy/radial_space.py:RepRadial_bS_DS", "src/acmpy/radial_space.py:RepRadialshfs_Prod", "src/acmpy/radial_space.py:RepRadial_Prod_rem", "src/acmpy/radial_space.py:RepRadial_LC_common", "src/acmpy/radial_space.py:RepRadial_LC"]}
{"id": "C119", "title": "Which matrix elements of a power of beta are exact on a truncated space", "statement": "The matrix of beta^(2m+|r|) from the basis at lambda to the basis at lambda + r, on labels nu_min..nu_max with overlap nu_lap, is always formed, however the power is written with b, b2, 1/b and 1/b2. No element is larger than the integral that it stands for. An element is equal to the integral exactly when it is not lost at an end of the enlarged range lo..hi: with final label f and initial label i, it is lost if hi + 1 <= f + m and 2 hi + 2 <= f + i + m + max(0,-r), or if lo > 0, f + 1 <= lo + m and f + i + 2 <= 2 lo + m + max(0,r). With an overlap of at least m every element is exact. With overlap 0, which is what the whole space uses, the last diagonal element of beta^4 on 0..n is too small by (lambda + n)(n + 1)/a^4.", "quantifier": "all words for a power, all m and r, all lambda with lambda > 0 and lambda + r > 0, all a > 0, all ranges and overlaps; all products of banded operators with non-negative elements; all spherical products and choices of lambda on the whole space", "why_tests_cant": "a test compares a few elements with a table; which of the elements near the end of the range are affected depends on the order of the factors, on the sign of the shift and on the overlap", "anchors": ["src/acmpy/radial_space.py:RepRadial_Prod_common", "src/acmpy/radial_space.py:RepRadialshfs_Prod", "src/acmpy/radial_space.py:RepRadial_bS_DS", "src/acmpy/radial_space.py:Lambda_Splits", "src/acmpy/full_operators.py:RepXspace_Twin"]}
{"id": "C120", "title": "The printed tables show the computed values correctly rounded", "statement": "For all settings with non-negative widths and precisions, the line of a table of eigenvalues is '  At L=', the angular momentum, ': [', the values separated by commas, ']'; each value is written in decimal notation with rel_pre decimals, correctly rounded with ties to even, and filled with blanks on the left to rel_wid characters and not beyond. The written numbers are in the order of the values. Two lines with the same text belong to the same angular momentum and to equally many values, which agree within one unit of the last decimal. The lines of rates and amplitudes are made by formatting twice: for every format with two fields and every transition format with four fields, both with plain text around the fields, the line is the format with the transition and the rounded value inserted, with L1, n1, L2, n2 in this order; a row has the fill symbol for n1 and a list of values. The heads give the lowest eigenvalue and the divisors with low_pre decimals. ACM_set_rat_fit names the transition with six decimals. The nested formats of ACM_show_lst give the lines of C47. After any history of calls of the setting procedures no line raises.", "quantifier": "all settings, all real values, all formats with plain text, all lists of values, all designators, all histories", "why_tests_cant": "the text depends on widths, precisions, signs, ties, carries into a new digit and on user-defined formats that are themselves formatted twice; a test compares a few printed lines", "anchors": ["src/acmpy/full_space.py:Show_Eigs", "src/acmpy/full_space.py:Show_Mels", "src/acmpy/full_space.py:Show_Mels_Row", "src/acmpy/globals.py:ACM_set_output", "src/acmpy/globals.py:ACM_set_rat_fit", "src/acmpy/globals.py:ACM_show_lst"]}
{"id": "C121", "title": "Printed lines close their brackets and formats are used as given", "statement": "Every printed line has as many opening as closing brackets if the formats have, the format of general matrix elements prints the transition and the value and nothing of the Maple placeholders, and a format in which braces are escaped can be used.", "quantifier": "all histories of setting calls, all balanced formats and designations, all lines", "why_tests_cant": "a test of a table looks at the numbers; a user-defined format is only used when a table is printed", "anchors": ["src/acmpy/full_space.py:Show_Eigs", "src/acmpy/full_space.py:Show_Mels", "src/acmpy/globals.py:def_mel_format"]}
{"id": "C122", "title": "Exactly when the matrix of a power of beta times spherical operators is symmetric", "statement": "The matrices of beta^(2m+|r|) on a truncated range, from lambda to lambda + r and back, are transposes of each other if m = 0 or r = 0, and are not if m > 0 and r is not 0, unless the range is too short for the power (m > 2 nu_max + 1 with nu_min = 0, or m > nu_max - nu_min). On the whole space, for a symmetric spherical matrix, the matrix of beta^n times it is therefore symmetric exactly if every pair of states it connects has equal lambda or a change of lambda of n. So in the basis of lambda_acm_fun the matrices of the terms c31 beta^3 cos(3 gamma) and c32 beta^5 cos(3 gamma) of ACM_Hamiltonian are symmetric only if the spherical matrix is zero.", "quantifier": "all words for a power, all m and r, all lambda with lambda > 0 and lambda + r > 0, all a > 0, all ranges; all symmetric spherical matrices; all file contents, all coefficients other than 0, every well-formed memo state", "why_tests_cant": "Eigenfiddle symmetrises its argument, so that an asymmetric matrix leaves no trace in the energies a test sees; for which powers, shifts and ranges the truncation breaks the symmetry cannot be read off from examples", "anchors": ["src/acmpy/radial_space.py:RepRadial_bS_DS", "src/acmpy/radial_space.py:Lambda_Splits", "src/acmpy/full_operators.py:RepXspace_Twin", "src/acmpy/internal_operators.py:ACM_Hamiltonian", "src/acmpy/eigenvalues.py:Eigenfiddle"]}
{"id": "C123", "title": "The messages of the setting procedures tell the settings", "statement": "The calls of the setting procedures with their messages make the same settings and raise in the same places as without them. A call with show <= 0, or one that gives valid designators only, prints nothing; every other call that returns prints something. From the messages of ACM_set_output, ACM_set_listln, ACM_set_datum, ACM_set_eig_fit, ACM_set_rat_fit and ACM_set_basis_type one can read off the settings that are then in force (the fitted values to six decimals), from those of the procedures for the lists the refused designators in order. The lists are shown with one line for each designator. What ACM_set_defaults prints is the documented text and does not depend on earlier settings; the announcements of ACM_set_rat_form and ACM_set_amp_form show the format filled in, and tell the designation.", "quantifier": "all histories of calls of the setting procedures, all arguments, all texts that Python shows for floats, functions and operators; all formats of two fields and plain text", "why_tests_cant": "tests/test_globals.py looks at returned values only, never at what is printed; that different settings never give the same message is a statement about all pairs of settings, and that a text does not depend on the history is one about all histories", "anchors": ["src/acmpy/globals.py:ACM_set_output", "src/acmpy/globals.py:ACM_set_listln", "src/acmpy/globals.py:ACM_set_datum", "src/acmpy/globals.py:ACM_set_eig_fit", "src/acmpy/globals.py:ACM_set_rat_fit", "src/acmpy/globals.py:ACM_set_basis_type", "src/acmpy/globals.py:ACM_set_rat_form", "src/acmpy/globals.py:ACM_set_amp_form", "src/acmpy/globals.py:ACM_set_transition", "src/acmpy/globals.py:ACM_set_defaults", "src/acmpy/globals.py:ACM_show_lst"]}
{"id": "C124", "title": "What show_CG_file prints are the coefficients that are used", "statement": "For a quintet (v1,v2,a2,L2,v3) within the selection rules with v1 <= v3 and v2 > 0 whose data file holds one number for each label, show_CG_file prints 'This file contains N CG coefficients' (or 'coefficient' when N is 1) and then, for each label (a1,L1,a3,L3) in the documented order, one line with the label and the text of the number that CG_SO5r3 returns for it, whatever calls were made before. From the printed text the numbers of the file can be read back. The number announced is the number of lines that follow.", "quantifier": "all file systems, base directories, histories of calls, quintets, and all texts that Python shows for floats", "why_tests_cant": "test_so5_so3_cg.py never looks at what show_CG_file prints, and the equality with CG_SO5r3 is over all quintets, histories and data files", "anchors": ["src/acmpy/so5_so3_cg.py:show_CG_file", "src/acmpy/so5_so3_cg.py:get_CG_file", "src/acmpy/so5_so3_cg.py:CG_SO5r3"]}
{"id": "C125", "title": "Eigenvectors returns all eigenvalues with a basis of eigenvectors, exactly when there is a real one", "statement": "If Eigenvectors(M) returns (values, P) then M is square, P is invertible, column j of P is an eigenvector of M for values[j], and the values are all roots of the characteristic polynomial with their multiplicities. It returns exactly when M is similar over the reals to a diagonal matrix; a matrix that is diagonalisable over the complex numbers only gives TypeError, one that is not square ValueError. For a symmetric matrix it returns, and its values in ascending order are those of Eigenfiddle.", "quantifier": "all real matrices of any size and shape, all diagonalisation routines that satisfy what SymPy documents", "why_tests_cant": "tests/test_eigenvalues.py tries one 4x4 matrix and checks M P = P D for it: it cannot see lost multiplicities (P singular), complex eigenvalues, or the agreement with Eigenfiddle on all symmetric matrices", "anchors": ["src/acmpy/eigenvalues.py:Eigenvectors", "src/acmpy/eigenvalues.py:Eigenfiddle"]}
{"id": "C126", "title": "The diagonal amplitude of an operator in a level is the derivative of the energy of that level", "statement": "Let an operator B with Op_AM(B) = 0 be added to a Hamiltonian A with coefficient d, and let g_i be the diagonal elements of the block (L, L) of AmpXspeig for B with the eigenvectors that DigXspace returns for A. For any set of levels with angular momentum L, the sum of E_i + d g_i is at least the sum of as many of the lowest energies of A + d B and at most that of as many of the highest. The sum of the k lowest energies changes by at most d times the sum of the g_i of the k lowest levels, and by at least d times the same sum computed with the eigenvectors of A + d B. Where the energies are differentiable functions of d at 0, the derivative of E_k is g_k.", "quantifier": "all legal ranges, all Hamiltonians that pass Op_Tame, all operators of angular momentum 0, all coefficients, all coefficient files, any linear algebra that satisfies its contract, any content of the memo tables", "why_tests_cant": "the energies and the amplitudes come from different procedures (DigXspace for single angular momenta, AmpXspeig for a matrix on the whole range that is cut into blocks); no test compares them, and a test could only do so at a few coefficients, to within the rounding of a difference quotient", "anchors": ["src/acmpy/full_space.py:AmpXspeig", "src/acmpy/full_space.py:DigXspace", "src/acmpy/full_operators.py:RepXspace", "src/acmpy/eigenvalues.py:Eigenfiddle", "src/acmpy/full_space.py:LBlockNDFloatArray"]}
{"id": "C127", "title": "The memo table of RepRadialshfs_Prod is keyed by the operators themselves", "statement": "KTOp and SOp objects compare equal exactly if they are of the same class and have the same numbers, and equal objects have equal hash values. So a series of calls of a function cached on the arguments of RepRadialshfs_Prod returns or raises, call by call, what the function does, whatever Python's hash functions are and in whatever order the dict inspects colliding entries; the function is computed once per distinct arguments (each time if it raises), and the table holds a result exactly for arguments of a call that returned. KTOp(K, T) can be made exactly for T >= 0 and SOp(S) for S in -1, 0, 1.", "quantifier": "all operators, all series of calls with any arguments, all hash functions for int, float and tuple, all dict implementations that inspect every entry with the hash value of the key", "why_tests_cant": "hash collisions between operators of the two classes are decided by Python's hash functions (SOp(S) hashes as the int, KTOp(K, T) as the tuple); a test meets almost none of them", "anchors": ["src/acmpy/radial_space.py:KTOp", "src/acmpy/radial_space.py:SOp", "src/acmpy/radial_space.py:RepRadialshfs_Prod"]}
{"id": "C128", "title": "In a basis of constant lambda, amplitudes of a product of operators are sums over intermediate states", "statement": "Let lambda have the same value for all seniorities of the range. Let A be a sum of numbers times radial operators times spherical harmonics, and B a sum of products of spherical harmonics with any coefficients. If RepXspace represents A and B, it represents the product A B (every term of A times every term of B), and the matrix is the product of the two matrices. If AmpXspeig returns amplitudes of A and of B between the eigenstates that DigXspace found for a Hamiltonian, it returns those of A B, and each is the sum, over all eigenstates z of all angular momenta in the range, of the element of A from z times the element of B to z.", "quantifier": "all legal ranges, all such operators, all Hamiltonians that pass Op_Tame, all constant values of lambda, all coefficient functions, any linear algebra that satisfies its contract, any content of the memo tables", "why_tests_cant": "the matrix of A B is computed in one piece from one angular and one radial product, never from the matrices of A and B; that the two agree, for operators of any length and including the change to the eigenbasis and the division into blocks, is a statement about all pairs of operators and no test multiplies two representations", "anchors": ["src/acmpy/full_operators.py:RepXspace", "src/acmpy/full_operators.py:RepXspace_Prod", "src/acmpy/full_operators.py:RepXspace_Twin", "src/acmpy/internal_operators.py:RepSO5r3_Prod_wrk", "src/acmpy/full_space.py:AmpXspeig", "src/acmpy/full_space.py:LBlockNDFloatArray"]}
{"id": "C129", "title": "The levels in a space and in a larger one interlace", "statement": "Let two legal spaces in the same basis be given, the second containing the first, and a Hamiltonian whose products consist of at most one radial operator with a closed form and at most one harmonic (any number of harmonics, if the range of v is not enlarged). If DigXspace diagonalises both, then for each angular momentum L of the first, with d the number of states that the second has more, each level k of the first lies between level k and level k + d of the second. This holds for the Hamiltonians of ACM_Hamiltonian without beta^4 and beta^3 terms in the basis of lambda_acm_fun.", "quantifier": "all pairs of nested legal spaces, all such Hamiltonians with any coefficients, all coefficient functions, any linear algebra that satisfies its contract, any content of the memo tables", "why_tests_cant": "it compares the complete spectra of all pairs of spaces; no test diagonalises one Hamiltonian in two spaces", "anchors": ["src/acmpy/full_space.py:DigXspace", "src/acmpy/full_operators.py:RepXspace", "src/acmpy/eigenvalues.py:Eigenfiddle", "src/acmpy/internal_operators.py:ACM_Hamiltonian"]}
{"id": "C130", "title": "Hamiltonians that do not depend on the angles: levels come in SO(5) multiplets", "statement": "Let the Hamiltonian be a sum of products of radial operators, with coefficients that depend on nu and on the seniority only (such as ACM_Hamiltonian without terms in cos(3 gamma) and [pi x q x pi]), and fix anorm, lambda_base, the range of nu and glb_lam_fun. There is one list of energies for each seniority v, the sorted eigenvalues of the (symmetric part of the) radial matrix for v, such that in every space, with any range of seniorities and of angular momenta, the levels that DigXspace reports for an angular momentum L are these lists, one copy for each label (v, alpha, L) of lbsSO5r3_rngV, merged in ascending order.", "quantifier": "all such Hamiltonians, all basis parameters and basis shift functions, all ranges of v and L, any linear algebra that satisfies its contract, any content of the memo tables, any Clebsch-Gordan coefficients", "why_tests_cant": "it says that the energies for all L and all truncations in v come from the same lists; a test checks the numbers of single calculations", "anchors": ["src/acmpy/full_space.py:DigXspace", "src/acmpy/full_operators.py:RepXspace", "src/acmpy/full_operators.py:RepXspace_Twin", "src/acmpy/spherical_space.py:lbsSO5r3_rngV", "src/acmpy/internal_operators.py:ACM_Hamiltonian"]}
{"id": "C131", "title": "Truncation never takes an energy below the exact ground state", "statement": "Let the Hamiltonian be ACM_Hamiltonian with numbers c11 < 0, c20, c21 >= 0, c22 >= 0 and c23, and no other terms: c11 laplacian + c20 + c21 beta^2 + c22 beta^4 + c23 / beta^2. In every basis whose values of lambda are above 1, whatever its width and ranges, DigXspace succeeds, reports exactly the occupied angular momenta, and each energy that it reports for L is at least c20 + 2 sqrt(-c11 c21) mu for the seniority v of some label (v, alpha, L) of lbsSO5r3_rngV, where (mu - 1)^2 = (v + 3/2)^2 - c23 / c11. For c22 = 0 and the larger root mu this bound is the exact energy of the lowest state of seniority v.", "quantifier": "all such coefficients, all legal ranges, all nonzero widths and all basis shift functions that keep lambda above 1, any linear algebra that satisfies its contract, any content of the memo tables, any Clebsch-Gordan coefficients", "why_tests_cant": "a test compares the energies of one truncated calculation with stored numbers; it cannot know the exact infinite-dimensional bound for every width, every lambda and every truncation", "anchors": ["src/acmpy/full_space.py:DigXspace", "src/acmpy/internal_operators.py:ACM_Hamiltonian", "src/acmpy/radial_space.py:RepRadial", "src/acmpy/full_operators.py:RepXspace"]}
{"id": "C132", "title": "Energies converge when the range of nu grows", "statement": "Let the Hamiltonian be ACM_Hamiltonian with numbers c11 < 0, c20, c21 >= 0 and c23, and no other terms, in a basis whose values of lambda are above 1, with any width. For every angular momentum L in the range for which lbsSO5r3_rngV lists states, and every k, there is a limit E such that for every eps > 0 and every sufficiently large nu_max, all else being kept, DigXspace succeeds, lists L, and reports for it a k-th lowest energy e with E <= e < E + eps, whatever was computed before. E is not below c20 + 2 sqrt(-c11 c21) mu for the seniority v of some of the listed states, where (mu - 1)^2 = (v + 3/2)^2 - c23 / c11.", "quantifier": "all such coefficients, all legal ranges, all nonzero widths and all basis shift functions that keep lambda above 1, every L, every k, every eps, any linear algebra that satisfies its contract, any content of the memo tables", "why_tests_cant": "convergence is a statement about infinitely many truncations; a test runs a few of them", "anchors": ["src/acmpy/full_space.py:DigXspace", "src/acmpy/internal_operators.py:ACM_Hamiltonian", "src/acmpy/radial_space.py:RepRadial", "src/acmpy/full_operators.py:RepXspace"]}
{"id": "C133", "title": "The lowest energies converge to the exact ones in a basis of any width", "statement": "Let the Hamiltonian be ACM_Hamiltonian with numbers c11 < 0, c20, c21 > 0 and c23, and no other terms, in a basis with nu_min = 0 whose values of lambda are above 1 and matched to the Hamiltonian, (lambda_v - 1)^2 = (v + 3/2)^2 - c23 / c11, but whose width anorm is any nonzero number. For every L in the range for which lbsSO5r3_rngV lists states and every eps > 0, for all sufficiently large nu_max, DigXspace succeeds, lists L, and the lowest energy that it reports for L lies within [m, m + eps), where m is the least of the exact energies c20 + 2 sqrt(-c11 c21) lambda_v over the listed states.", "quantifier": "all such coefficients, all legal ranges with nu_min = 0, all nonzero widths and all matched basis shift functions that keep lambda above 1, every L, every eps, any linear algebra that satisfies its contract, any content of the memo tables", "why_tests_cant": "the claim is about the limit of infinitely many truncations, for a continuum of widths and coefficients; a test compares a few truncations with stored numbers", "anchors": ["src/acmpy/full_space.py:DigXspace", "src/acmpy/internal_operators.py:ACM_Hamiltonian", "src/acmpy/radial_space.py:RepRadial", "src/acmpy/full_operators.py:RepXspace"]}
{"id": "C134", "title": "All energies converge to the exact ones in a basis of any width", "statement": "Let the Hamiltonian be ACM_Hamiltonian with numbers c11 < 0, c20, c21 > 0 and c23, and no other terms, in a basis with nu_min = 0 whose values of lambda are above 1 and matched to the Hamiltonian, (lambda_v - 1)^2 = (v + 3/2)^2 - c23 / c11, but whose width anorm is any nonzero number. For every L in the range and every k, let y be the k-th, counted from 0, in the ordered list of the exact energies c20 + 2 sqrt(-c11 c21) (lambda_v + 2 nu) of the labels that lbsXspace lists for nu from 0 to k and this L, and let that list not be empty. For every eps > 0, for all sufficiently large nu_max, DigXspace succeeds, lists L, and the k-th energy that it reports for L lies within [y, y + eps).", "quantifier": "all such coefficients, all legal ranges with nu_min = 0, all nonzero widths and all matched basis shift functions that keep lambda above 1, every L, every k, every eps, any linear algebra that satisfies its contract, any content of the memo tables", "why_tests_cant": "the claim is about the limit of infinitely many truncations, for every excited state and a continuum of widths and coefficients; a test compares a few truncations with stored numbers", "anchors": ["src/acmpy/full_space.py:DigXspace", "src/acmpy/internal_operators.py:ACM_Hamiltonian", "src/acmpy/radial_space.py:RepRadial", "src/acmpy/full_operators.py:RepXspace"]}
{"id": "C135", "title": "A bound on the error of the lowest energies in a basis of any width", "statement": "Let the Hamiltonian be ACM_Hamiltonian with numbers c11 < 0, c20, c21 > 0 and c23, and no other terms, in a basis with nu_min = 0, nu_max = N, whose values of lambda are above 1 and matched to the Hamiltonian, (lambda_v - 1)^2 = (v + 3/2)^2 - c23 / c11, and whose width a = anorm is any nonzero number. Then DigXspace succeeds and for every L that it lists, the lowest energy is at least the least of the exact energies E_v = c20 + 2 sqrt(-c11 c21) lambda_v of the states that lbsSO5r3_rngV lists for L, and at most E_v + (p a - q / a)^2 (lambda_v + N) t^(2 N) (lambda_v)_N / N! for each of these states, with p = sqrt(-c11), q = sqrt(c21), t = (p a^2 - q) / (p a^2 + q), and (lambda)_N = lambda (lambda + 1) ... (lambda + N - 1).", "quantifier": "all such coefficients, all legal ranges with nu_min = 0, all nonzero widths and all matched basis shift functions that keep lambda above 1, every L, any linear algebra that satisfies its contract, any content of the memo tables", "why_tests_cant": "the bound holds for every truncation and a continuum of widths and coefficients; the tests compare a few energies with stored numbers and have no bound for the error of the truncation", "anchors": ["src/acmpy/full_space.py:DigXspace", "src/acmpy/internal_operators.py:ACM_Hamiltonian", "src/acmpy/radial_space.py:RepRadial", "src/acmpy/full_operators.py:RepXspace"]}
{"id": "C136", "title": "How close the energy of a trial state is to a level", "statement": "Let H be the symmetrised matrix of a Hamiltonian for one angular momentum that DigXspace lists. For every vector w that is not zero and every number m, one of the returned energies E satisfies |E - m| |w| <= |H w - m w|. In particular, one of them is at most as far from a diagonal element of H as the root of the sum of the squares of the other elements of its row. For a vector w of length 1, the mean value of H is not below the lowest energy, and if it is below a number b that none of the other energies is below, it exceeds the lowest energy by at most the square of the spread |H w - mean w| divided by b - mean (Temple).", "quantifier": "all Hamiltonians which have only operators that keep the angular momentum, all ranges, widths, Clebsch-Gordan tables, correct eigenvalue routines, states with correct memos, all vectors and numbers", "why_tests_cant": "the vector and the number are arbitrary reals, as are the Hamiltonian and the size of the space; no test looks at vectors that are not eigenvectors", "anchors": ["src/acmpy/full_space.py:DigXspace", "src/acmpy/eigenvalues.py:Eigenfiddle", "src/acmpy/full_operators.py:RepXspace"]}
{"id": "C137", "title": "Where the levels lie: rows of the matrix and spaces of trial states", "statement": "Let H be the symmetrised matrix of a Hamiltonian for one angular momentum that DigXspace lists. Every returned energy is at most as far from some diagonal element of H as the sum of the absolute values of the other elements of that row. If the mean value of H is at most m times the square of the length for all combinations of k + 1 linearly independent vectors, there are more than k energies and number k, counted from 0 in the returned order, is at most m. If it is at least m times the square of the length, number k counted from the highest is at least m. For each of the returned energies there are k + 1 such vectors for which the upper bound m is that energy.", "quantifier": "all Hamiltonians which have only operators that keep the angular momentum, all ranges, widths, Clebsch-Gordan tables, correct eigenvalue routines, states with correct memos, all k, all families of k + 1 independent vectors and all numbers m", "why_tests_cant": "the bound is for every family of vectors and every combination of them with real coefficients, in spaces of any dimension; no test looks at vectors that are not eigenvectors", "anchors": ["src/acmpy/full_space.py:DigXspace", "src/acmpy/eigenvalues.py:Eigenfiddle", "src/acmpy/full_operators.py:RepXspace"]}
{"id": "C138", "title": "Amplitudes between states of different energy, and conserved quantities", "statement": "Let H be the symmetrised matrix of a Hamiltonian for one angular momentum that DigXspace lists, N the matrix of an operator of angular momentum 0, and G the block of the amplitudes of that operator between the states of this angular momentum that AmpXspeig returns. The sum of (E_f - E_i)^2 G_fi^2 over all pairs of states is the sum of the squares of the elements of H N - N H. Hence H and N commute exactly when the amplitudes between states of different energy are all zero.", "quantifier": "all Hamiltonians which have only operators that keep the angular momentum, all operators of angular momentum 0, all ranges, widths, files of Clebsch-Gordan coefficients, correct eigenvalue routines and states with correct memos", "why_tests_cant": "it relates the results of two procedures for arbitrary pairs of operators and sizes, and whether two matrices commute exactly cannot be decided with rounded numbers", "anchors": ["src/acmpy/full_space.py:DigXspace", "src/acmpy/full_space.py:AmpXspeig", "src/acmpy/full_operators.py:RepXspace"]}
