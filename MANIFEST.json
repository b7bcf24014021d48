{
 "claims": [
  {
   "property": "C01",
   "status": "proved",
   "theorems": [
    "Acm.Props.C01_dimSO5r3_branching",
    "Acm.Props.C01_dimSO5r3_negative",
    "Acm.Props.C01_dimSO5r3_total",
    "Acm.Props.C01_dimSO5r3_top"
   ],
   "note": "dimSO5r3 equals the branching count for all v, L; 0 on negative input; never raises."
  },
  {
   "property": "C02",
   "status": "proved",
   "theorems": [
    "Acm.Props.C02_dimSO5r3_allL",
    "Acm.Props.C02_dimSO5r3_allL_api",
    "Acm.Props.C02_dimSO5r3_rngVallL"
   ],
   "note": "dimSO5r3_allL and dimSO5r3_rngVallL equal the sums of multiplicities."
  },
  {
   "property": "C03",
   "status": "proved",
   "theorems": [
    "Acm.Props.C03_dimSO5_exhausted",
    "Acm.Props.C03_dimSO5_exact",
    "Acm.Props.C03_dimSO3"
   ],
   "note": "weighted sum of multiplicities equals dimSO5; division by 6 exact."
  },
  {
   "property": "C04",
   "status": "proved",
   "theorems": [
    "Acm.Props.C04_rngL",
    "Acm.Props.C04_rngV",
    "Acm.Props.C04_rngVrngL",
    "Acm.Props.C04_rngVvarL"
   ],
   "note": "all range dimension functions equal the sums over the inclusive rectangle."
  },
  {
   "property": "C05",
   "status": "proved",
   "theorems": [
    "Acm.Props.C05_rngVvarL",
    "Acm.Props.C05_rngVrngL",
    "Acm.Props.C05_rngV",
    "Acm.Props.C05_rngL",
    "Acm.Props.C05_rngVallL",
    "Acm.Props.C05_allL"
   ],
   "note": "membership iff, no duplicates and length for all six lists with explicit ranges."
  },
  {
   "property": "C06",
   "status": "proved",
   "theorems": [
    "Acm.Props.C06_order",
    "Acm.Props.C06_allL",
    "Acm.Props.C06_blocks"
   ],
   "note": "strictly increasing in (L, v, alpha); constant-L blocks contiguous."
  },
  {
   "property": "C07",
   "status": "partial",
   "theorems": [
    "Acm.Props.C07_labels_omitted_content",
    "Acm.Props.C07_labels_omitted_violated",
    "Acm.Props.C07_witness",
    "Acm.Props.C07_dim_omitted_partial"
   ],
   "note": "The claim is false of the code: lbsSO5r3_rngVvarL without L_max misses the largest alpha (spherical_space.py:413). Proved: exact content of the returned list, violation for every non-trivial space, witness, and the dimension half (C07_dim_omitted_partial)."
  },
  {
   "property": "C08",
   "status": "proved",
   "theorems": [
    "Acm.Props.C08_values",
    "Acm.Props.C08_values_range",
    "Acm.Props.C08_values_int",
    "Acm.Props.C08_validate_Lvals",
    "Acm.Props.C08_operators",
    "Acm.Props.C08_calculation",
    "Acm.Props.C08_scale_adapt",
    "Acm.Props.C08_amplitudes",
    "Acm.Props.C08_require_nonnegint",
    "Acm.Props.C08_require_posint",
    "Acm.Props.C08_require_nonnegint_range",
    "Acm.Props.C08_illegal_ranges",
    "Acm.Props.C08_illegal_single",
    "Acm.Props.C08_illegal_rest"
   ],
   "note": "Validation of integers, ranges and lists of L values proved as equalities, for Python values of every type used (bool counts as int; other types raise TypeError)."
  },
  {
   "property": "C09",
   "status": "proved",
   "theorems": [
    "Acm.Props.C09_iquo_irem",
    "Acm.Props.C09_iquo_irem_err",
    "Acm.Props.C09_parity"
   ],
   "note": "Euclidean division law, error cases, parity of all integers."
  },
  {
   "property": "C10",
   "status": "proved",
   "theorems": [
    "Acm.Props.C10_Lambda_Splits",
    "Acm.Props.C10_Lambda_Splits_extra_sign",
    "Acm.Props.C10_Lambda_Splits_rejects"
   ],
   "note": "for all K, R and T>=0; plus sign of the extra entry and rejection of T<0."
  },
  {
   "property": "C11",
   "status": "proved",
   "theorems": [
    "Acm.Props.C11_bS_DS_factorisation",
    "Acm.Props.C11_bS_DS_matrix",
    "Acm.Props.C11_bS_DS_rejects"
   ],
   "note": "run of the same code over formal words: succeeds, word = b^K D^T in every monoid, lambda chain, anorm power; and every returned matrix is an evaluation of such a product, for arbitrary matrix primitives."
  },
  {
   "property": "C12",
   "status": "partial",
   "theorems": [
    "Acm.Props.C12_positive_lambda_partial",
    "Acm.Props.C12_fails"
   ],
   "note": "False of the code for K<0, T odd, R=0, lambda<=1 (C12_fails). Proved in all other cases."
  },
  {
   "property": "C13",
   "status": "proved",
   "theorems": [
    "Acm.Props.C13_parse",
    "Acm.Props.C13_parse_raises"
   ],
   "note": "equality of words in every monoid with invertible beta; raises iff an unknown symbol occurs."
  },
  {
   "property": "C14",
   "status": "proved",
   "theorems": [
    "Acm.Props.C14_shifts_sum"
   ],
   "note": "for every list of valid operators and every integer shift."
  },
  {
   "property": "C15",
   "status": "partial",
   "theorems": [
    "Acm.Props.C15_generator_shifted",
    "Acm.Props.C15_generators_unshifted_partial",
    "Acm.Props.C15_fails"
   ],
   "note": "False of the code (leaked loop index, radial_space.py:2007; witness C15_fails). Proved when the parity of the shift can be met; exactly when it fails: C15_generator_shifted."
  },
  {
   "property": "C16",
   "status": "proved",
   "theorems": [
    "Acm.Props.C16_acceptance",
    "Acm.Props.C16_unreachable",
    "Acm.Props.C16_formed",
    "Acm.Props.C16_matrix",
    "Acm.Props.C16_radial_product",
    "Acm.Props.C16_accepts",
    "Acm.Props.C16_rejects_valid",
    "Acm.Props.C16_rejects"
   ],
   "note": "Proved for every product the code accepts. Which products it accepts is proved exactly (C16_acceptance): some are refused although both ends are positive (C16_rejects_valid). A matrix is returned exactly if the product is accepted and the elementary matrices exist (C16_formed), for lambda not an integer exactly if it is accepted (C16_matrix; monomials with negative powers of beta and an odd number of derivatives excepted, see C12)."
  },
  {
   "property": "C17",
   "status": "proved",
   "theorems": [
    "Acm.Props.C17_window"
   ],
   "note": "entries of the returned window equal the labelled elements of the product of the elementary matrices, restricted to the enlarged range, for all ranges and nu_lap (eigh/inv as contracts)."
  },
  {
   "property": "C18",
   "status": "proved",
   "theorems": [
    "Acm.Props.C18_product_exists",
    "Acm.Props.C18_window_exact",
    "Acm.Props.C18_exact",
    "Acm.Props.C18_banded_product"
   ],
   "note": "general exactness for banded factors, uniqueness of the untruncated product, and an end-to-end theorem for products of S-, S0, S+, beta^2, beta d/dbeta."
  },
  {
   "property": "C19",
   "status": "proved",
   "theorems": [
    "Acm.Props.C19_su11",
    "Acm.Props.C19_adjoint"
   ],
   "note": "for every lambda>0; products are sums over all intermediate labels."
  },
  {
   "property": "C20",
   "status": "proved",
   "theorems": [
    "Acm.Props.C20_b2_bDb",
    "Acm.Props.C20_D2b"
   ],
   "note": "for every lambda>0 (D2b: lambda != 1)."
  },
  {
   "property": "C21",
   "status": "proved",
   "theorems": [
    "Acm.Props.C21_adjoint",
    "Acm.Props.C21_up_down",
    "Acm.Props.C21_down_up"
   ],
   "note": "adjointness for every real lambda; products for lambda>0 and lambda>1."
  },
  {
   "property": "C22",
   "status": "proved",
   "theorems": [
    "Acm.Props.C22_inverse",
    "Acm.Props.C22_inverse_down"
   ],
   "note": "two-sided inverses in both directions."
  },
  {
   "property": "C23",
   "status": "proved",
   "theorems": [
    "Acm.Props.C23_bm2_inverse",
    "Acm.Props.C23_raises",
    "Acm.Props.C23_rejects",
    "Acm.Props.C23_bm_bm"
   ],
   "note": "two-sided inverse for every lambda>0 except 1; lambda=1 raises; equals the product of the two 1/beta for lambda>1."
  },
  {
   "property": "C24",
   "status": "proved",
   "theorems": [
    "Acm.Props.C24_up_down",
    "Acm.Props.C24_down_up",
    "Acm.Props.C24_shifted_commutator",
    "Acm.Props.C24_second_derivative"
   ],
   "note": "both orders, both commutators and the second derivative (infinite sums)."
  },
  {
   "property": "C25",
   "status": "proved",
   "theorems": [
    "Acm.Props.C25_composition",
    "Acm.Props.C25_single_shift",
    "Acm.Props.C25_transpose",
    "Acm.Props.C25_zero"
   ],
   "note": "composition for all r, s; single shift = beta(1/beta) = (1/beta)beta; transpose; r=0."
  },
  {
   "property": "C26",
   "status": "proved",
   "theorems": [
    "Acm.Props.C26_b2_posDef",
    "Acm.Props.C26_sqrt",
    "Acm.Props.C26_rejects"
   ],
   "note": "positive definiteness for all ranges; square roots under the documented contract of eigh and inv, which is shown satisfiable."
  },
  {
   "property": "C27",
   "status": "proved",
   "theorems": [
    "Acm.Props.C27_dimension",
    "Acm.Props.C27_distinct",
    "Acm.Props.C27_members",
    "Acm.Props.C27_position",
    "Acm.Props.C27_default",
    "Acm.Props.C27_rejects"
   ],
   "note": "dimension = number of labels, no duplicates, exact membership, position formula, default L_max, ValueError exactly on illegal ranges."
  },
  {
   "property": "C28",
   "status": "proved",
   "theorems": [
    "Acm.Props.C28_elements",
    "Acm.Props.C28_exists"
   ],
   "note": "every element of a radial-spherical product is the product of the spherical and radial elements (zero where the spherical one is); the representation exists whenever the factors do."
  },
  {
   "property": "C29",
   "status": "proved",
   "theorems": [
    "Acm.Props.C29_identity",
    "Acm.Props.C29_segments",
    "Acm.Props.C29_regrouping",
    "Acm.Props.C29_unknown"
   ],
   "note": "segments denote the product in every monoid where radial and spherical operators commute; empty product is the identity matrix; unknown names raise."
  },
  {
   "property": "C30",
   "status": "proved",
   "theorems": [
    "Acm.Props.C30_exists",
    "Acm.Props.C30_sum"
   ],
   "note": "a sum has a representation iff each product has; elements are the sum of coefficient at the column label times product element; empty sum is zero. For memo tables that are current (which is so after import; C31 says when)."
  },
  {
   "property": "C31",
   "status": "partial",
   "theorems": [
    "Acm.Props.C31_partial",
    "Acm.Props.C31_fails"
   ],
   "note": "The claim is false of the code: memo tables keyed without glb_lam_fun survive a failed call (C31_fails). Proved for all histories with no change of glb_lam_fun after a failed or direct product call."
  },
  {
   "property": "C32",
   "status": "partial",
   "theorems": [
    "Acm.Props.C32_partial",
    "Acm.Props.C32_illegal",
    "Acm.Props.C32_untame",
    "Acm.Props.C32_fails"
   ],
   "note": "The claim about the counts is false of the code for Hamiltonians that are not tame: every L but the last gets one eigenvalue too many (C32_fails, C32_untame). Proved in full for tame Hamiltonians, and the list of L values for all."
  },
  {
   "property": "C33",
   "status": "proved",
   "theorems": [
    "Acm.Props.C33_tiling",
    "Acm.Props.C33_dimL"
   ],
   "note": "The blocks of the occupied L values are consecutive, disjoint, cover all rows and have the right labels, for all legal ranges."
  },
  {
   "property": "C34",
   "status": "proved",
   "theorems": [
    "Acm.Props.C34_accepts",
    "Acm.Props.C34_set_get",
    "Acm.Props.C34_missing"
   ],
   "note": "Set/get laws for all block structures made by the constructor, including when an assignment is accepted."
  },
  {
   "property": "C35",
   "status": "partial",
   "theorems": [
    "Acm.Props.C35_partial",
    "Acm.Props.C35_fails"
   ],
   "note": "The claim is false of the code for L=2: the sign is flipped inside the loop (full_operators.py:1047). Proved: exact sign of every block; uniform sign for L other than 2."
  },
  {
   "property": "C36",
   "status": "partial",
   "theorems": [
    "Acm.Props.C36_fails",
    "Acm.Props.C36_never",
    "Acm.Props.C36_partial",
    "Acm.Props.C36_exists",
    "Acm.Props.C36_even",
    "Acm.Props.C36_parity_fails",
    "Acm.Props.C36_sum_fails",
    "Acm.Props.C36_exact_partial"
   ],
   "note": "The claim is false of the code: S.one raises AttributeError (full_operators.py:1283), and a TypeError arises between states that differ by three in v in every basis that respects parity (C36_parity_fails). Proved: exactly when the matrix is returned (C36_exact_partial), for lambda that is not an integer; selection rule on success."
  },
  {
   "property": "C37",
   "status": "proved",
   "theorems": [
    "Acm.Props.C37_energy",
    "Acm.Props.C37_transition"
   ],
   "note": "After every successful ACM_Adapt, for all settings (over the reals): the energy and the rate of the references after scaling, the scale of the amplitudes, and the displayed lines; a successful call is exhibited."
  },
  {
   "property": "C38",
   "status": "proved",
   "theorems": [
    "Acm.Props.C38_scale",
    "Acm.Props.C38_scale_all"
   ],
   "note": "Frame property for all states and arguments, whether the call succeeds or raises; glb_nu_lap, which nothing sets to another value than 0, is set to 0."
  },
  {
   "property": "C39",
   "status": "partial",
   "theorems": [
    "Acm.Props.C39_frame_partial",
    "Acm.Props.C39_partial",
    "Acm.Props.C39_none_partial",
    "Acm.Props.C39_fails"
   ],
   "note": "The claim is false of the code: the scaling factor is assigned before the zero check (full_space.py:1309-1312, C39_fails). Proved: nothing but the scaling factors changes, and they are unchanged if the failure comes before fitting."
  },
  {
   "property": "C40",
   "status": "proved",
   "theorems": [
    "Acm.Props.C40_min_head",
    "Acm.Props.C40_min_head_empty",
    "Acm.Props.C40_show",
    "Acm.Props.C40_show_absolute",
    "Acm.Props.C40_relative",
    "Acm.Props.C40_sorted"
   ],
   "note": "For all spectra with increasing lists; the lists made by DigXspace are such, assuming the eigensolver contract."
  },
  {
   "property": "C41",
   "status": "partial",
   "theorems": [
    "Acm.Props.C41_designator_partial",
    "Acm.Props.C41_show_partial",
    "Acm.Props.C41_fails_row",
    "Acm.Props.C41_fails_series"
   ],
   "note": "The claim is false of the code: a row index 0 reads another row (full_space.py:975) and a five-index designator beyond the last L raises (full_space.py:854). Proved: what is displayed, for all lists of designators outside these two cases."
  },
  {
   "property": "C42",
   "status": "proved",
   "theorems": [
    "Acm.Props.C42_init",
    "Acm.Props.C42_defaults",
    "Acm.Props.C42_any_state"
   ],
   "note": "From any state, hence after any history including failures; idempotent; the hypothesis only says the default format string accepts its arguments."
  },
  {
   "property": "C43",
   "status": "proved",
   "theorems": [
    "Acm.Props.C43_valid",
    "Acm.Props.C43_lists"
   ],
   "note": "Invariant over all histories; exact effect of the four procedures."
  },
  {
   "property": "C44",
   "status": "partial",
   "theorems": [
    "Acm.Props.C44_ranges_partial",
    "Acm.Props.C44_scales_fails",
    "Acm.Props.C44_scales_partial"
   ],
   "note": "Ranges proved for all histories. False for the scaling factors (ACM_set_scales accepts 0); proved for histories whose scale arguments are non-zero/positive."
  },
  {
   "property": "C45",
   "status": "partial",
   "theorems": [
    "Acm.Props.C45_omitted_partial",
    "Acm.Props.C45_fails",
    "Acm.Props.C45_fails_witness"
   ],
   "note": "Proved for ACM_set_scales, ACM_set_output, ACM_set_listln. False for the six procedures whose defaults are captured at import."
  },
  {
   "property": "C46",
   "status": "partial",
   "theorems": [
    "Acm.Props.C46_atomic_partial",
    "Acm.Props.C46_fails",
    "Acm.Props.C46_first_partial",
    "Acm.Props.C46_frame_partial"
   ],
   "note": "Proved for the procedures that check first. False for ACM_set_output, ACM_set_listln, ACM_set_scales (witnesses proved)."
  },
  {
   "property": "C47",
   "status": "partial",
   "theorems": [
    "Acm.Props.C47_lines_partial",
    "Acm.Props.C47_order",
    "Acm.Props.C47_fails",
    "Acm.Props.C47_readback",
    "Acm.Props.C47_all"
   ],
   "note": "Four-field designators are printed with L_f and j_i exchanged (globals.py:863); all other forms proved, and every line can be read back."
  },
  {
   "property": "C48",
   "status": "partial",
   "theorems": [
    "Acm.Props.C48_simple",
    "Acm.Props.C48_rejects",
    "Acm.Props.C48_davi_partial",
    "Acm.Props.C48_davi_fails"
   ],
   "note": "Proved for all functions and, for the Davidson function, all C>=0; false for negative C accepted by the code."
  },
  {
   "property": "C49",
   "status": "partial",
   "theorems": [
    "Acm.Props.C49_nearest_partial",
    "Acm.Props.C49_fails"
   ],
   "note": "False: the code has (v+1)^2 for (v+3/2)^2 (globals.py:184), witness proved; the quantity actually rounded and its distance to the documented one are proved."
  },
  {
   "property": "C50",
   "status": "proved",
   "theorems": [
    "Acm.Props.C50_test",
    "Acm.Props.C50_bases"
   ],
   "note": "For all functions defined on the range; all basis types."
  },
  {
   "property": "C51",
   "status": "proved",
   "theorems": [
    "Acm.Props.C51_selection_rules"
   ],
   "note": "Every answer outside the rules is zero, in every reachable state and for every file system."
  },
  {
   "property": "C52",
   "status": "proved",
   "theorems": [
    "Acm.Props.C52_lookup",
    "Acm.Props.C52_total"
   ],
   "note": "Value is that of the data file entry; every argument within the rules is answered when the files are those of the data set."
  },
  {
   "property": "C53",
   "status": "proved",
   "theorems": [
    "Acm.Props.C53_exchange"
   ],
   "note": "Sign and dimension factor of the exchange, for all labels."
  },
  {
   "property": "C54",
   "status": "proved",
   "theorems": [
    "Acm.Props.C54_order_independent",
    "Acm.Props.C54_one_file",
    "Acm.Props.C54_load_idempotent",
    "Acm.Props.C54_reads_once"
   ],
   "note": "Answers are independent of the history of calls; each file is read at most once."
  },
  {
   "property": "C55",
   "status": "partial",
   "theorems": [
    "Acm.Props.C55_scalar_fails",
    "Acm.Props.C55_exact",
    "Acm.Props.C55_scalar_partial"
   ],
   "note": "False: the v2=0 table is filled with 1.0 also for a1 != a3 (witness proved). Proved for a1 = a3."
  },
  {
   "property": "C56",
   "status": "proved",
   "theorems": [
    "Acm.Props.C56_names_injective",
    "Acm.Props.C56_parsers",
    "Acm.Props.C56_datafile_sound",
    "Acm.Props.C56_dir2_sound",
    "Acm.Props.C56_dir1_sound",
    "Acm.Props.C56_base"
   ],
   "note": "Names injective, parsers invert them, accepted names are exactly the generated ones (plus what the parser provably accepts)."
  },
  {
   "property": "C57",
   "status": "proved",
   "theorems": [
    "Acm.Props.C57_CG_SO3_total",
    "Acm.Props.C57_CG_SO3_rejects"
   ],
   "note": "Rational arguments; total on half-integers, rejects others."
  },
  {
   "property": "C58",
   "status": "proved",
   "theorems": [
    "Acm.Props.C58_scalar",
    "Acm.Props.C58_maximal",
    "Acm.Props.C58_maximal_pos"
   ],
   "note": "Coupling with a scalar; maximal weight closed form and positivity."
  },
  {
   "property": "C59",
   "status": "proved",
   "theorems": [
    "Acm.Props.C59_hamiltonian",
    "Acm.Props.C59_no_zero_terms",
    "Acm.Props.C59_zero"
   ],
   "note": "In every interpretation in a real algebra the sum denotes the documented Hamiltonian; no zero terms; empty for zero coefficients."
  },
  {
   "property": "C60",
   "status": "proved",
   "theorems": [
    "Acm.Props.C60_SH3",
    "Acm.Props.C60_SH6",
    "Acm.Props.C60_same",
    "Acm.Props.C60_rigid",
    "Acm.Props.C60_flag"
   ],
   "note": "Both encodings denote the same polynomial in cos3g, given the defining relation of Y_610; HamRigidBeta for both flags; other flags rejected."
  },
  {
   "property": "C61",
   "status": "proved",
   "theorems": [
    "Acm.Props.C61_rwc"
   ],
   "note": "RWC_Ham denotes the documented operator for all real parameters with B nonzero."
  },
  {
   "property": "C62",
   "status": "proved",
   "theorems": [
    "Acm.Props.C62_empty",
    "Acm.Props.C62_definite",
    "Acm.Props.C62_indefinite"
   ],
   "note": "Definite and indefinite angular momentum, for all sums."
  },
  {
   "property": "C63",
   "status": "proved",
   "theorems": [
    "Acm.Props.C63_parity_empty",
    "Acm.Props.C63_parity",
    "Acm.Props.C63_tame",
    "Acm.Props.C63_count"
   ],
   "note": "Parity, tameness and harmonic count for all sums; parity of a symbol as in the code's documentation."
  },
  {
   "property": "C64",
   "status": "partial",
   "theorems": [
    "Acm.Props.C64_constants",
    "Acm.Props.C64_Qred_p1",
    "Acm.Props.C64_Qred_m1",
    "Acm.Props.C64_QxQred_p2",
    "Acm.Props.C64_QxQred_0",
    "Acm.Props.C64_QxQred_m2",
    "Acm.Props.C64_QxQxQred_p3",
    "Acm.Props.C64_QxQxQred_p1",
    "Acm.Props.C64_QxQxQred_m1",
    "Acm.Props.C64_QxQxQred_m3_partial",
    "Acm.Props.C64_QxQxQred_m3_fails"
   ],
   "note": "Proved for eight of the nine functions. False for QxQxQred_m3 (internal_operators.py:207 has v*2 for v+2): wrong for every v>=3; the exact wrong factor is proved."
  },
  {
   "property": "C65",
   "status": "proved",
   "theorems": [
    "Acm.Props.C65_selection",
    "Acm.Props.C65_negative",
    "Acm.Props.C65_symmetry"
   ],
   "note": "Selection rules, positivity, symmetry with the SO(5) dimensions, rejection of negative input."
  },
  {
   "property": "C66",
   "status": "partial",
   "theorems": [
    "Acm.Props.C66_sqLdiv",
    "Acm.Props.C66_sqLdim_partial",
    "Acm.Props.C66_sqLdim_fails",
    "Acm.Props.C66_product_partial"
   ],
   "note": "sqLdiv proved. False for sqLdim (internal_operators.py:326, -1 ** L): every even-L state has the wrong sign; the actual entries and the actual product are proved."
  },
  {
   "property": "C67",
   "status": "proved",
   "theorems": [
    "Acm.Props.C67_cubic",
    "Acm.Props.C67_clam",
    "Acm.Props.C67_start",
    "Acm.Props.C67_bracket",
    "Acm.Props.C67_unique",
    "Acm.Props.C67_rejects",
    "Acm.Props.C67_alam"
   ],
   "note": "Props/HamData: the cubic has exactly one positive root (C67_cubic, any sign of c1) and RWC_alam_clam returns it whatever the order of the solver's list (C67_clam); F2(0) has the value of the comment and is negative (C67_start); the doubling loop ends and brackets a root (C67_bracket); that root is the only positive one (C67_unique); RWC_alam returns it, or the root finder's failure (C67_alam). Solvers by contract (Spec.SolverOk), shown satisfiable (solver_exists)."
  },
  {
   "property": "C68",
   "status": "proved",
   "theorems": [
    "Acm.Props.C68_seniority_neg",
    "Acm.Props.C68_seniority_nonneg",
    "Acm.Props.C68_link"
   ],
   "note": "Props/HamData: RWC_expt_link is differentiable and stationary exactly at the roots of RWC2 (c1<0) and RWC1 (c1>=0) (C68_link); the same for every seniority for the energy of the spec (C68_seniority_neg, C68_seniority_nonneg)."
  },
  {
   "property": "C69",
   "status": "proved",
   "theorems": [
    "Acm.Props.C69_rates",
    "Acm.Props.C69_squares",
    "Acm.Props.C69_quad",
    "Acm.Props.C69_mix"
   ],
   "note": "Rates, squares, and the quad factor with the Clebsch-Gordan model."
  },
  {
   "property": "C70",
   "status": "proved",
   "theorems": [
    "Acm.Props.C70_nonsquare",
    "Acm.Props.C70_eigen",
    "Acm.Props.C70_symmetric"
   ],
   "note": "For any eigensolver that satisfies the NumPy contract (satisfiable)."
  },
  {
   "property": "C71",
   "status": "proved",
   "theorems": [
    "Acm.Props.C71_laplacian_op",
    "Acm.Props.C71_comm_su11",
    "Acm.Props.C71_comm_bdb",
    "Acm.Props.C71_quad",
    "Acm.Props.C71_quad_AM"
   ],
   "note": "laplacian_op, the two commutators, quad_op and quadRigid_op."
  },
  {
   "property": "C72",
   "status": "proved",
   "theorems": [
    "Acm.Props.C72_matrices",
    "Acm.Props.C72_only",
    "Acm.Props.C72_unknown",
    "Acm.Props.C72_product",
    "Acm.Props.C72_entries",
    "Acm.Props.C72_invalid"
   ],
   "note": "Ordered product, entries, and rejection of unknown items, for every Clebsch-Gordan function."
  },
  {
   "property": "C73",
   "status": "partial",
   "theorems": [
    "Acm.Props.C73_blocks",
    "Acm.Props.C73_memory",
    "Acm.Props.C73_fails"
   ],
   "note": "False of the code for Hamiltonians that are not tame and ranges with two or more occupied L values, where AmpXspeig raises (C73_fails). Proved for square bases of the right dimensions, assuming the shape contract of the matrix inverse."
  },
  {
   "property": "C74",
   "status": "partial",
   "theorems": [
    "Acm.Props.C74_neg_partial",
    "Acm.Props.C74_nonneg_partial",
    "Acm.Props.C74_link_partial",
    "Acm.Props.C74_fails"
   ],
   "note": "Props/HamData: global strict minimum and matching lambda for c1<0 and every seniority (C74_neg_partial), for c1>=0 and seniority 0 (C74_nonneg_partial), and in terms of RWC_expt_link (C74_link_partial). Fails for c1>=0, v>0 (C74_fails): the equation is that for lambda=v+5/2 but 2.5 is returned."
  },
  {
   "property": "C75",
   "status": "proved",
   "theorems": [
    "Acm.Props.C75_case1",
    "Acm.Props.C75_case2",
    "Acm.Props.C75_bounds",
    "Acm.Props.C75_growth",
    "Acm.Props.C75_case3",
    "Acm.Props.C75_rejects"
   ],
   "note": "Props/HamApprox: C75_case1, C75_case2 (unique positive roots), C75_bounds (both sides), C75_growth (limit), C75_case3, C75_rejects."
  },
  {
   "property": "C76",
   "status": "partial",
   "theorems": [
    "Acm.Props.C76_neg_partial",
    "Acm.Props.C76_lambda",
    "Acm.Props.C76_fails",
    "Acm.Props.C76_fails_nonneg"
   ],
   "note": "Props/HamApprox: the a for c1<0 is right (C76_neg_partial); lambda is right exactly if c1=-2 (C76_lambda, C76_fails); for c1>0 the second derivative is c1/4 instead of B c1 (C76_fails_nonneg)."
  },
  {
   "property": "C77",
   "status": "partial",
   "theorems": [
    "Acm.Props.C77_nonneg",
    "Acm.Props.C77_neg_partial"
   ],
   "note": "Props/HamApprox: exact for c1>=0 (C77_nonneg); for c1<0 the value is the nearest integer or the one 2 below it, because lambda_davi_fun rounds a smaller quantity (C77_neg_partial, see C49_fails)."
  },
  {
   "property": "C78",
   "status": "proved",
   "theorems": [
    "Acm.Props.C78_is_zeros",
    "Acm.Props.C78_is_close",
    "Acm.Props.C78_is_close_laws",
    "Acm.Props.C78_is_sorted",
    "Acm.Props.C78_conversions",
    "Acm.Props.C78_is_nd_zeros"
   ],
   "note": "Props/Compat: decision equivalences, laws, and the two conversions as inverses."
  },
  {
   "property": "C79",
   "status": "proved",
   "theorems": [
    "Acm.Props.C79_agrees",
    "Acm.Props.C79_meaning",
    "Acm.Props.C79_rejects",
    "Acm.Props.C79_unchecked"
   ],
   "note": "Props/RadialElement: agreement with RepRadial_Prod, meaning of every returned value, rejection; C79_unchecked shows that the positivity of the shifted lambda is not checked by the closed forms."
  },
  {
   "property": "C80",
   "status": "proved",
   "theorems": [
    "Acm.Props.C80_line",
    "Acm.Props.C80_line_rejects",
    "Acm.Props.C80_printed",
    "Acm.Props.C80_int_unique",
    "Acm.Props.C80_column",
    "Acm.Props.C80_file",
    "Acm.Props.C80_dict",
    "Acm.Props.C80_same_coefficient",
    "Acm.Props.C80_tree_sound",
    "Acm.Props.C80_tree_complete",
    "Acm.Props.C80_tree_shadow",
    "Acm.Props.C80_show",
    "Acm.Props.C80_show_rejects"
   ],
   "note": "Props/CGData: reading of lines as an equivalence, files, dictionaries, agreement with CG_SO5r3, directory trees, display; C80_tree_shadow shows that v2=3 and v2=03 shadow each other. `float` of a field is a parameter."
  },
  {
   "property": "C81",
   "status": "partial",
   "theorems": [
    "Acm.Props.C81_value_partial",
    "Acm.Props.C81_terms",
    "Acm.Props.C81_rejected",
    "Acm.Props.C81_fails",
    "Acm.Props.C81_add_partial",
    "Acm.Props.C81_smul"
   ],
   "note": "The claim is false of the code: NumPy refuses to add an array of SymPy numbers in place to one of floats, and three matrix element functions return SymPy numbers (C81_fails). Proved: values, terms, exceptions, sums and multiples whenever the first matrix has SymPy numbers or no other has."
  },
  {
   "property": "C82",
   "status": "partial",
   "theorems": [
    "Acm.Props.C82_Qp_p1",
    "Acm.Props.C82_Qm_p1",
    "Acm.Props.C82_Qm_m1",
    "Acm.Props.C82_Qp_m1_partial",
    "Acm.Props.C82_rejects",
    "Acm.Props.C82_sign_fails",
    "Acm.Props.C82_factor_fails"
   ],
   "note": "False as documented: the sign is opposite (C82_sign_fails), and QpxQxQred_m1 divides by sqrt(dimSO3(L1-2)) instead of sqrt(5*dimSO3(L1)) (C82_factor_fails). Proved: three of them are exactly the negative, with the same exceptions; the fourth up to the exact factor."
  },
  {
   "property": "C83",
   "status": "proved",
   "theorems": [
    "Acm.Props.C83_states",
    "Acm.Props.C83_injective",
    "Acm.Props.C83_names",
    "Acm.Props.C83_operators"
   ],
   "note": ""
  },
  {
   "property": "C84",
   "status": "proved",
   "theorems": [
    "Acm.Props.C84_convert",
    "Acm.Props.C84_unique"
   ],
   "note": "The coupling to L = 2 uses the coefficients of the model of CG_SO3."
  },
  {
   "property": "C85",
   "status": "proved",
   "theorems": [
    "Acm.Props.C85_exists",
    "Acm.Props.C85_CG_SO3",
    "Acm.Props.C85_lowering",
    "Acm.Props.C85_raising"
   ],
   "note": "Props/CGLadder; the specification (Spec/CGLadder) contains no formula for the coefficients."
  },
  {
   "property": "C86",
   "status": "proved",
   "theorems": [
    "Acm.Props.C86_orthonormal",
    "Acm.Props.C86_complete"
   ],
   "note": ""
  },
  {
   "property": "C87",
   "status": "proved",
   "theorems": [
    "Acm.Props.C87_exchange",
    "Acm.Props.C87_reverse",
    "Acm.Props.C87_turn"
   ],
   "note": "These generate all the symmetries of the 3j symbol."
  },
  {
   "property": "C88",
   "status": "partial",
   "theorems": [
    "Acm.Props.C88_pi",
    "Acm.Props.C88_pipi",
    "Acm.Props.C88_piqpi_partial",
    "Acm.Props.C88_piqpi_fails"
   ],
   "note": "`C88_pi` and `C88_pipi` are complete; for [pi x q x pi] the blocks that change the seniority by three (`C88_piqpi_partial`); for v_fin = v_init - 1 the code has the factor 2v instead of 2v+1 (`C88_piqpi_fails`), for v_fin = v_init + 1 it raises (C36)"
  },
  {
   "property": "C89",
   "status": "proved",
   "theorems": [
    "Acm.Props.C89_zonal",
    "Acm.Props.C89_product",
    "Acm.Props.C89_sum",
    "Acm.Props.C89_Q"
   ],
   "note": "Existence and uniqueness of the zonal harmonics from the differential equation, their recurrence, and the expansion of all products (linearisation of the Gegenbauer polynomials of index 3/2)"
  },
  {
   "property": "C90",
   "status": "proved",
   "theorems": [
    "Acm.Props.C90_orthonormal",
    "Acm.Props.C90_integral",
    "Acm.Props.C90_bm2_restriction"
   ],
   "note": "All operators with closed forms, all scales and labels; the integrals are shown to exist"
  },
  {
   "property": "C91",
   "status": "proved",
   "theorems": [
    "Acm.Props.C91_expectation",
    "Acm.Props.C91_energy"
   ],
   "note": "Both the full expectation value for seniority 0 and the radial one for all seniorities"
  },
  {
   "property": "C92",
   "status": "proved",
   "theorems": [
    "Acm.Props.C92_product_integral"
   ],
   "note": "Combines C18 (truncation is exact) with C90 (single elements are integrals) by finite expansions in the basis"
  },
  {
   "property": "C93",
   "status": "proved",
   "theorems": [
    "Acm.Props.C93_nothing",
    "Acm.Props.C93_negative",
    "Acm.Props.C93_bounds",
    "Acm.Props.C93_absent",
    "Acm.Props.C93_relative",
    "Acm.Props.C93_absolute"
   ],
   "note": "The default maximum L_MAX_DEFAULT = 10^6 is a hypothesis on the L values and on L_min alone"
  },
  {
   "property": "C94",
   "status": "partial",
   "theorems": [
    "Acm.Props.C94_accepts",
    "Acm.Props.C94_refuses_partial",
    "Acm.Props.C94_scale",
    "Acm.Props.C94_found",
    "Acm.Props.C94_fails"
   ],
   "note": "When amplitudes are listed but no rates, the transition is fitted (line 1320) but its states are not checked (line 1284): C94_fails; the rest is proved"
  },
  {
   "property": "C95",
   "status": "proved",
   "theorems": [
    "Acm.Props.C95_spectrum",
    "Acm.Props.C95_oscillator"
   ],
   "note": ""
  },
  {
   "property": "C96",
   "status": "partial",
   "theorems": [
    "Acm.Props.C96_variational_partial",
    "Acm.Props.C96_acm_partial",
    "Acm.Props.C96_fails"
   ],
   "note": "products with at most one radial operator; negation proved for beta^4 (C96_fails)"
  },
  {
   "property": "C97",
   "status": "partial",
   "theorems": [
    "Acm.Props.C97_harmonic",
    "Acm.Props.C97_y310",
    "Acm.Props.C97_matrix_partial",
    "Acm.Props.C97_energies_partial",
    "Acm.Props.C97_acm_partial",
    "Acm.Props.C97_fails"
   ],
   "note": "single radial operators in closed form, beta^4 without a change of lambda, and powers of cos(3 gamma); negation proved for beta^3 cos(3 gamma) (C97_fails), and for every power in C122"
  },
  {
   "property": "C98",
   "status": "proved",
   "theorems": [
    "Acm.Props.C98_output",
    "Acm.Props.C98_listln",
    "Acm.Props.C98_datum",
    "Acm.Props.C98_eig_fit",
    "Acm.Props.C98_rat_fit",
    "Acm.Props.C98_transition",
    "Acm.Props.C98_forms",
    "Acm.Props.C98_basis",
    "Acm.Props.C98_scales",
    "Acm.Props.C98_lists",
    "Acm.Props.C98_rejects",
    "Acm.Props.C98_show_lambda"
   ],
   "note": "every setting procedure, with the settings enumerated"
  },
  {
   "property": "C99",
   "status": "proved",
   "theorems": [
    "Acm.Props.C99_roots",
    "Acm.Props.C99_independent",
    "Acm.Props.C99_needed"
   ],
   "note": "all lists, all shifts, all primitives"
  },
  {
   "property": "C100",
   "status": "proved",
   "theorems": [
    "Acm.Props.C100_seniority",
    "Acm.Props.C100_matrix",
    "Acm.Props.C100_hamiltonian",
    "Acm.Props.C100_quadrupole",
    "Acm.Props.C100_bases"
   ],
   "note": "all operators of the stated form"
  },
  {
   "property": "C101",
   "status": "partial",
   "theorems": [
    "Acm.Props.C101_even",
    "Acm.Props.C101_pi_fails",
    "Acm.Props.C101_pipi_fails",
    "Acm.Props.C101_sum_pi_fails",
    "Acm.Props.C101_sum_pipi_fails",
    "Acm.Props.C101_pi_partial",
    "Acm.Props.C101_diagonal_partial",
    "Acm.Props.C101_type_error"
   ],
   "note": "False of the code: a TypeError in every basis that respects parity (C101_pi_fails), for the squares in every basis (C101_pipi_fails). Proved: exactly when the momentum is represented (C101_pi_partial: even changes of lambda between neighbouring states), and where the squares are (C101_diagonal_partial)."
  },
  {
   "property": "C102",
   "status": "proved",
   "theorems": [
    "Acm.Props.C102_terms",
    "Acm.Props.C102_angular",
    "Acm.Props.C102_seniority",
    "Acm.Props.C102_setting",
    "Acm.Props.C102_amplitudes",
    "Acm.Props.C102_scale"
   ],
   "note": "For the coefficients that CG_SO5r3 gives for any contents of the files (angular momentum), and for any coefficients (seniority)."
  },
  {
   "property": "C103",
   "status": "proved",
   "theorems": [
    "Acm.Props.C103_tame",
    "Acm.Props.C103_blocks",
    "Acm.Props.C103_spectrum",
    "Acm.Props.C103_fails"
   ],
   "note": "For the coefficients that CG_SO5r3 gives for any contents of the files. C103_spectrum supposes that the matrix on the whole range can be formed. C103_fails: Op_Tame is not sufficient (finding 24)."
  },
  {
   "property": "C104",
   "status": "proved",
   "theorems": [
    "Acm.Props.C104_radial",
    "Acm.Props.C104_prod",
    "Acm.Props.C104_rep",
    "Acm.Props.C104_dig",
    "Acm.Props.C104_hamiltonian",
    "Acm.Props.C104_rwc",
    "Acm.Props.C104_alam",
    "Acm.Props.C104_alam_fun",
    "Acm.Props.C104_alam36_fails"
   ],
   "note": "For coefficients of operators that are functions of the state; C104_alam compares two calls that both succeed. C104_alam36_fails: RWC_alam36 is not covariant (finding 17)."
  },
  {
   "property": "C105",
   "status": "proved",
   "theorems": [
    "Acm.Props.C105_sqrt",
    "Acm.Props.C105_rep",
    "Acm.Props.C105_energies",
    "Acm.Props.C105_rates",
    "Acm.Props.C105_signs",
    "Acm.Props.C105_amplitudes"
   ],
   "note": "C105_rates and C105_amplitudes for tame Hamiltonians (for others AmpXspeig raises, C73_fails); C105_sqrt, C105_rep and C105_energies without restriction."
  },
  {
   "property": "C106",
   "status": "proved",
   "theorems": [
    "Acm.Props.C106_matrix",
    "Acm.Props.C106_amplitudes",
    "Acm.Props.C106_rates",
    "Acm.Props.C106_quad"
   ],
   "note": "For harmonics of odd seniority only: for the others the elements between states of the same seniority depend on the symmetry of the files, which the program does not check (C97_fails)."
  },
  {
   "property": "C107",
   "status": "proved",
   "theorems": [
    "Acm.Props.C107_scale",
    "Acm.Props.C107_shift",
    "Acm.Props.C107_rates",
    "Acm.Props.C107_rates_shift",
    "Acm.Props.C107_hamiltonian",
    "Acm.Props.C107_adapt",
    "Acm.Props.C107_adapt_shift"
   ],
   "note": "For ACM_Adapt the lists of rates and amplitudes to display are empty; for negative c nothing is claimed (the order of the levels is reversed)."
  },
  {
   "property": "C108",
   "status": "proved",
   "theorems": [
    "Acm.Props.C108_energies",
    "Acm.Props.C108_numbers"
   ],
   "note": "For all functions of the four quantum numbers."
  },
  {
   "property": "C109",
   "status": "proved",
   "theorems": [
    "Acm.Props.C109_settings",
    "Acm.Props.C109_after_adapt",
    "Acm.Props.C109_scale_twice"
   ],
   "note": "Memo tables that are not current are excluded (C31_fails); glb_nu_lap, which nothing sets to anything but 0, is assumed to be 0."
  },
  {
   "property": "C110",
   "status": "proved",
   "theorems": [
    "Acm.Props.C110_units",
    "Acm.Props.C110_zero",
    "Acm.Props.C110_norm",
    "Acm.Props.C110_rate_functions",
    "Acm.Props.C110_amplitude_functions",
    "Acm.Props.C110_default_scale"
   ],
   "note": "Amplitudes change their sign with the eigenvectors, so the first two parts are about energies and rates; degenerate levels are excluded there since the routine may choose any basis for them."
  },
  {
   "property": "C111",
   "status": "proved",
   "theorems": [
    "Acm.Props.C111_matrix",
    "Acm.Props.C111_energies",
    "Acm.Props.C111_rates",
    "Acm.Props.C111_even",
    "Acm.Props.C111_odd",
    "Acm.Props.C111_hamiltonian",
    "Acm.Props.C111_sh3",
    "Acm.Props.C111_sh6",
    "Acm.Props.C111_rigid",
    "Acm.Props.C111_rwc",
    "Acm.Props.C111_quadrupole",
    "Acm.Props.C111_adapt"
   ],
   "note": "Degenerate levels are compared by sums over them (strength, moment), since the eigenvalue routine may choose any basis."
  },
  {
   "property": "C112",
   "status": "proved",
   "theorems": [
    "Acm.Props.C112_matrix",
    "Acm.Props.C112_combination",
    "Acm.Props.C112_hamiltonian",
    "Acm.Props.C112_energies",
    "Acm.Props.C112_exists",
    "Acm.Props.C112_linear",
    "Acm.Props.C112_strength"
   ],
   "note": ""
  },
  {
   "property": "C113",
   "status": "proved",
   "theorems": [
    "Acm.Props.C113_weyl",
    "Acm.Props.C113_concave",
    "Acm.Props.C113_shift"
   ],
   "note": ""
  },
  {
   "property": "C114",
   "status": "proved",
   "theorems": [
    "Acm.Props.C114_diagonal",
    "Acm.Props.C114_between"
   ],
   "note": ""
  },
  {
   "property": "C115",
   "status": "proved",
   "theorems": [
    "Acm.Props.C115_formulas",
    "Acm.Props.C115_element",
    "Acm.Props.C115_ground",
    "Acm.Props.C115_alam"
   ],
   "note": "The minimum over the widths uses C74, so it needs B, c2 > 0."
  },
  {
   "property": "C116",
   "status": "partial",
   "theorems": [
    "Acm.Props.C116_redisplay_partial",
    "Acm.Props.C116_omitted_lists",
    "Acm.Props.C116_fails",
    "Acm.Props.C116_fails_eigs"
   ],
   "note": "The property fails for arguments left out, which the documentation says stand for the current settings: defaults are evaluated at import (C116_fails, C116_fails_eigs, C116_omitted_lists)."
  },
  {
   "property": "C117",
   "status": "proved",
   "theorems": [
    "Acm.Props.C117_any_session",
    "Acm.Props.C117_any_state",
    "Acm.Props.C117_reference",
    "Acm.Props.C117_settings",
    "Acm.Props.C117_unset",
    "Acm.Props.C117_not_restored",
    "Acm.Props.C117_printed",
    "Acm.Props.C117_hamiltonian"
   ],
   "note": "The times and the markers printed are not modelled."
  },
  {
   "property": "C118",
   "status": "proved",
   "theorems": [
    "Acm.Props.C118_history",
    "Acm.Props.C118_history_prod",
    "Acm.Props.C118_history_lc",
    "Acm.Props.C118_keeps",
    "Acm.Props.C118_fresh",
    "Acm.Props.C118_remember",
    "Acm.Props.C118_again",
    "Acm.Props.C118_cleared",
    "Acm.Props.C118_shared"
   ],
   "note": "The dtype of an array is computed beside it, not stored with it; equal keys of different types (1, 1.0, True) are one key."
  },
  {
   "property": "C119",
   "status": "proved",
   "theorems": [
    "Acm.Props.C119_window",
    "Acm.Props.C119_power",
    "Acm.Props.C119_overlap",
    "Acm.Props.C119_corner",
    "Acm.Props.C119_space"
   ],
   "note": "Powers of at least |r| and of the same parity as r. For other powers the square roots of beta^2 are taken on the truncated space."
  },
  {
   "property": "C120",
   "status": "proved",
   "theorems": [
    "Acm.Props.C120_eigs",
    "Acm.Props.C120_order",
    "Acm.Props.C120_readback",
    "Acm.Props.C120_mel",
    "Acm.Props.C120_row",
    "Acm.Props.C120_head",
    "Acm.Props.C120_rat_fit",
    "Acm.Props.C120_lst",
    "Acm.Props.C120_session"
   ],
   "note": "Real numbers for floats, so no -0.0, inf or nan; CPython rounds the exact binary value, which is what the model does with a real."
  },
  {
   "property": "C121",
   "status": "partial",
   "theorems": [
    "Acm.Props.C121_bracket_fails",
    "Acm.Props.C121_percent_fails",
    "Acm.Props.C121_escape_fails",
    "Acm.Props.C121_balanced_partial"
   ],
   "note": "The code violates the property. The head of a table of absolute eigenvalues does not close its bracket (full_space.py:504; C121_bracket_fails, for all settings); def_mel_format prints a percent sign (globals.py:227; C121_percent_fails, every line); an escaped brace raises when the line is printed (C121_escape_fails). C121_balanced_partial covers all other lines."
  },
  {
   "property": "C122",
   "status": "proved",
   "theorems": [
    "Acm.Props.C122_radial",
    "Acm.Props.C122_space",
    "Acm.Props.C122_acm"
   ],
   "note": "Powers of at least |r| and of the same parity as r, as in C119."
  },
  {
   "property": "C123",
   "status": "partial",
   "theorems": [
    "Acm.Props.C123_settings",
    "Acm.Props.C123_silent",
    "Acm.Props.C123_output",
    "Acm.Props.C123_listln",
    "Acm.Props.C123_datum",
    "Acm.Props.C123_eig_fit",
    "Acm.Props.C123_rat_fit",
    "Acm.Props.C123_basis",
    "Acm.Props.C123_refused",
    "Acm.Props.C123_lists",
    "Acm.Props.C123_defaults_partial",
    "Acm.Props.C123_defaults_fails",
    "Acm.Props.C123_preview_fails",
    "Acm.Props.C123_desg_fails",
    "Acm.Props.C123_scales",
    "Acm.Props.C123_transition_partial",
    "Acm.Props.C123_functions"
   ],
   "note": "Code violates it: what `ACM_set_defaults` prints depends on the earlier designation of the rates (`C123_defaults_fails`), the announcements of formats show the format with empty fields (`C123_preview_fails`), and `ACM_set_rat_form` does not tell the designation (`C123_desg_fails`)."
  },
  {
   "property": "C124",
   "status": "partial",
   "theorems": [
    "Acm.Props.C124_values_partial",
    "Acm.Props.C124_read",
    "Acm.Props.C124_scalar_fails",
    "Acm.Props.C124_count_fails"
   ],
   "note": "Code violates it: for v2 = 0 a data file is read although `CG_SO5r3` needs none (`C124_scalar_fails`), and a file with more numbers than labels is announced with its own length while only the labelled numbers are printed (`C124_count_fails`)."
  },
  {
   "property": "C125",
   "status": "proved",
   "theorems": [
    "Acm.Props.C125_eigen",
    "Acm.Props.C125_returns",
    "Acm.Props.C125_refused",
    "Acm.Props.C125_symmetric"
   ],
   "note": "SymPy's `diagonalize` is a parameter with its documented contract (M P = P D, P invertible, D diagonal; that it returns for every diagonalisable matrix is a hypothesis of C125_returns, C125_refused and C125_symmetric); numbers are exact."
  },
  {
   "property": "C126",
   "status": "proved",
   "theorems": [
    "Acm.Props.C126_levels",
    "Acm.Props.C126_between",
    "Acm.Props.C126_derivative"
   ],
   "note": "Numbers are exact; the diagonalisation and the inverse are parameters with their contract."
  },
  {
   "property": "C127",
   "status": "proved",
   "theorems": [
    "Acm.Props.C127_equal",
    "Acm.Props.C127_arguments",
    "Acm.Props.C127_hash",
    "Acm.Props.C127_new",
    "Acm.Props.C127_calls"
   ],
   "note": "functools.cache and the dict are modelled (calls by position; no nan among the floats); numbers are exact. The procedure itself is a parameter: that it is a function of its arguments is C118."
  },
  {
   "property": "C128",
   "status": "proved",
   "theorems": [
    "Acm.Props.C128_matrix",
    "Acm.Props.C128_amplitudes"
   ],
   "note": "Numbers are exact; the diagonalisation and the inverse are parameters with their contract. The second factor has no radial operators: the radial basis is truncated, so that products of radial matrices are not matrices of products."
  },
  {
   "property": "C129",
   "status": "proved",
   "theorems": [
    "Acm.Props.C129_interlace",
    "Acm.Props.C129_acm"
   ],
   "note": "Numbers are exact; the diagonalisation is a parameter with its contract. For products of several radial operators it is wrong already for the lower bound (C96_fails)."
  },
  {
   "property": "C130",
   "status": "proved",
   "theorems": [
    "Acm.Props.C130_multiplets",
    "Acm.Props.C130_acm"
   ],
   "note": "Numbers are exact; the diagonalisation is a parameter with its contract."
  },
  {
   "property": "C131",
   "status": "proved",
   "theorems": [
    "Acm.Props.C131_lowest"
   ],
   "note": "Numbers are exact; the diagonalisation is a parameter with its contract."
  },
  {
   "property": "C132",
   "status": "proved",
   "theorems": [
    "Acm.Props.C132_converges"
   ],
   "note": "Numbers are exact; the diagonalisation is a parameter with its contract. The value of the limit is not identified."
  },
  {
   "property": "C133",
   "status": "proved",
   "theorems": [
    "Acm.Props.C133_ground"
   ],
   "note": "Numbers are exact; the diagonalisation is a parameter with its contract. Only the lowest energy for each L; for the others see C134."
  },
  {
   "property": "C134",
   "status": "proved",
   "theorems": [
    "Acm.Props.C134_levels"
   ],
   "note": "Numbers are exact; the diagonalisation is a parameter with its contract. Extends C133 from the lowest energy to all of them."
  },
  {
   "property": "C135",
   "status": "proved",
   "theorems": [
    "Acm.Props.C135_error"
   ],
   "note": "Numbers are exact; the diagonalisation is a parameter with its contract. The error of floating point arithmetic is not modelled."
  },
  {
   "property": "C136",
   "status": "proved",
   "theorems": [
    "Acm.Props.C136_residual",
    "Acm.Props.C136_element",
    "Acm.Props.C136_temple"
   ],
   "note": "Numbers are exact; the diagonalisation is a parameter with its contract."
  },
  {
   "property": "C137",
   "status": "proved",
   "theorems": [
    "Acm.Props.C137_rows",
    "Acm.Props.C137_upper",
    "Acm.Props.C137_lower",
    "Acm.Props.C137_attained"
   ],
   "note": "Numbers are exact; the diagonalisation is a parameter with its contract."
  },
  {
   "property": "C138",
   "status": "proved",
   "theorems": [
    "Acm.Props.C138_weighted",
    "Acm.Props.C138_conserved"
   ],
   "note": "Numbers are exact; the diagonalisation is a parameter with its contract."
  }
 ]
}