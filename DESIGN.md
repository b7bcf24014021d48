# Design

Formal model of `agryman/acmpy` (source in /repo, read as text, never run) in Lean 4, under `lean/Verif`.

* `lean/Verif/Model/*.lean`  - the model, function by function, each definition citing file and lines.
* `lean/Verif/Spec/*.lean`   - small independent specifications.
* `lean/Verif/Lemmas/*.lean` - helper lemmas.
* `lean/Verif/Props/*.lean`  - the property theorems, each with an `example` showing that its hypotheses are met by a concrete non-trivial case.

`properties.jsonl` states the properties, `MANIFEST.json` maps each to its theorems, `seeded/LOG.jsonl` records the mutation tests.

What the mutation tests show, and what they do not: `failed` lists the declarations whose proofs failed in the build of the edited model. In most entries these are lemmas that evaluate the edited definition; Lake then does not build the modules that use them, so the theorems of the property were not seen to fail. A lemma that evaluates a definition fails after almost any edit of it, so such an entry does not show that the theorems of the property are strong enough to exclude the edit. `claim_observed` is true only where a theorem of the property named in `claim` is itself among the failures; elsewhere `claim` is what the edit is expected to break, judged by reading. Even where it is true, what failed is a proof, which is not a proof that the statement is false for the edited model; entries with `refuted` have that too.

## Trusted base

* Lean's kernel (4.33.0) and Mathlib as installed. Every theorem depends on at most the axioms `propext`, `Classical.choice` and `Quot.sound`. There are no axioms of our own, no `sorry`, no `native_decide`, no `bv_decide`. Some finite tables are checked with `decide +kernel`, which uses the kernel only.
* The transcription of Python into Lean: that the definitions under `Model` say what the cited lines do. Nothing was run; the correspondence is by reading. Each definition cites the lines and says where it simplifies. One independent check: the values recorded in the project's own tests are values of the running program, and `Verif/Tests` proves that the model gives them. Covered are all tables of `tests/test_radial_me.py` and `tests/test_hamiltonian_data.py`, the 1x1 and 2x2 cases and the matrices of beta^2 of `tests/test_radial_space.py`, `tests/test_globals.py`, `tests/test_so5_so3_cg.py`, and the parts on names, lines, blocks, lists of L and integers of `tests/test_so5cg.py`, `tests/test_full_space.py` and `tests/test_compat.py`, within the tolerances of the tests. Not covered: the tests that read reference matrices from CSV files, and numerical square roots and eigenvalues. These theorems validate the model and are not claims about the program.
* The statements of the theorems and the definitions under `Spec`.

### What is assumed of the environment

Always as explicit parameters or hypotheses, never as axioms; each contract is shown to be satisfiable.

* `np.linalg.eigh`, `np.linalg.inv`: a parameter `LinAlg`, with the contract `LinAlgOk` where it is needed (`linAlg_exists`).
* SymPy's `Matrix.diagonalize`: a parameter `Diagonalizer`, with the contract `DiagonalizeOk` (and `DiagonalizeComplete`) where it is needed (`diagonalizer_exists`).
* `sympy.solveset`, `scipy.optimize.root_scalar`: a parameter `Solver`, with the contract `SolverOk` (`solver_exists`).
* `np.empty`: an arbitrary array (`FEnv.junk`).
* The file system with the Clebsch-Gordan tables: a parameter; in `full_operators.py` and above a function `CG` of the labels (C54 says that the answers do not depend on the history of calls).
* `scipy.special.poch`: the quotient of Gamma functions.

## Modelling conventions

* Python integers are `Int` (`Nat` for labels once validated); exceptions are values of `Except PyErr`; messages are not modelled. A computation on global state is `StPy σ α = σ → Except PyErr α × σ`: changes made before an exception are kept.
* Python floats and SymPy expressions are real numbers: rounding, overflow, `nan`, `inf` are NOT modelled. A division by zero which the code does not catch gives 0 in the model (NumPy: `inf` or `nan`; Python: `ZeroDivisionError`); theorems where this could matter have the divisor as a hypothesis.
* NumPy arrays are values (shape and entries; whether the entries are floats or SymPy objects is modelled where arrays are added in place, `RepRadial_LC`): two names of the same array are not modelled, with one exception: for the remembered matrices of `radial_space.py` a second model (`Verif/Model/Memo.lean`) has a memory of arrays, references, views and the `functools.cache` tables, and C118 says that it agrees with the first. Elsewhere the model cannot show an error due to sharing; reading /repo, every in-place change there is an item assignment to an array made in the same function.
* Loops are folds or structural recursion; a `while` loop is a recursion with fuel and a theorem that enough fuel exists.
* `functools.cache` is dropped where the function depends on its arguments only (for the radial procedures this is justified by C118); it is an explicit table for the functions that read global settings (`RepXspace_Pi`, `RepXspace_PiPi`, `RepXspace_PiqPi`; C31).
* What is printed is recorded as a list of values; `Verif/Model/Text.lean` gives the text of every line of the tables with a model of `str.format` (C120).

## What is modelled

| file | modelled | not modelled |
|---|---|---|
| `compat.py` | validation (also of values of any type), `iquo`, `irem`, parity, list comparisons, conversions | `require_algebraic`; `readdata_float` beyond the first column as numbers |
| `spherical_space.py` | all | |
| `radial_bases.py`, `radial_operators.py` | all | |
| `radial_space.py` | all matrix elements, matrices, square roots, parsing, lambda shifts, products, linear combinations, `ME_Radial` | Python's own hash functions (parameters of C127, which justifies the structural equality of the memo tables) |
| `internal_operators.py` | all | SymPy's structural comparison of expressions (equality of the functions denoted instead) |
| `so5_so3_cg.py` | all | `str` of a float (a parameter), timing |
| `so5cg.py` | names, lines and dictionaries of the data files | the `iterdir` order (a directory is a list of entries), `float` of a text (a parameter), non-ASCII white space and digits |
| `globals.py` | all settings, lambda functions, rates, listing of designators, everything the setting procedures print (what `str` gives for a float, a function or an operator is arbitrary) | nothing |
| `hamiltonian_data.py` | all | floating point convergence of the solvers |
| `eigenvalues.py` | all | SymPy's `diagonalize` and NumPy's `eigh` (parameters with their documented contracts), `float` of numbers that are not exact |
| `full_operators.py` | all | |
| `full_space.py` | all, with the texts of the tables | |
| `papers/wr2015.py` | all formulas | the symbolic equations `Eq_61`, ..., which are these formulas applied to symbols |
| `examples` | all examples | `run_example.py` (prints a summary), markers, times, values printed by setting procedures |
| `gamma.py`, `hello_world.py`, `acm1_4.py` (imports), `tests`, `debug`, `performance` | - | not part of the library's behaviour |

## Findings: where the code does not have a property

Each is proved (a `_fails` theorem or an exact description of what happens) and the property is proved outside the case as a `_partial` theorem.

1. `lbsSO5r3_rngVvarL` without `L_max` misses the largest alpha (spherical_space.py:413) - C07.
2. `RepSO5_sqLdim` uses `-1 ** L`, which is -1 (internal_operators.py:326) - C66.
3. `QxQxQred_m3` has `v * 2` for `v + 2` (internal_operators.py:207) - C64.
4. `lambda_davi_fun` has `(v + 1) ** 2` for `(v + 1.5) ** 2` (globals.py:184) - C48, C49, C77.
5. `ACM_show_lst` prints four-index designators with two fields exchanged (globals.py:863) - C47.
6. `DigXspace`, Hamiltonians that are not tame: every slice but the last is one too long (full_space.py:189), and `AmpXspeig` then raises - C32, C73.
7. `RepXspace_PiPi` flips the sign inside the loop over blocks for L = 2 (full_operators.py:1047) - C35.
8. `RepXspace_PiqPi` uses `S.one`, an AttributeError (full_operators.py:1283); between states that differ by three in v it raises TypeError in every basis that respects parity, since a matrix of floats is the first term of the sum and a matrix of SymPy numbers the second (lines 1254-1279) - C36.
9. The table of coefficients for v2 = 0 has 1.0 for different alpha (so5_so3_cg.py) - C55.
10. `Show_Mels`: a five-index designator beyond the last L raises; a row index 0 reads another row (full_space.py:854, 975) - C41.
11. `ACM_Adapt` assigns the scaling factor before it rejects zero (full_space.py:1309-1312) - C39. Several setters assign before they check - C46.
12. `Lambda_RadialOp_List` uses a leaked loop index: a generator of SU(1,1) gets a shift (radial_space.py:2007) - C15; and some valid products are rejected - C16 (exactly which: C16_acceptance, C15_generator_shifted).
13. Memo tables are keyed without the lambda function - C31.
14. `RepRadial_bS_DS` passes through a non-positive lambda for K < 0, R = 0, T odd, lambda <= 1 - C12.
15. Default arguments are captured at import - C45. `ACM_set_scales` accepts 0 - C44.
16. `RWC_alam` returns lambda = 2.5 for c1 >= 0 and any seniority, although it solves the equation for lambda = v + 5/2 - C74.
17. `RWC_alam36`: lambda belongs to the returned a only if c1 = -2; for c1 >= 0 the second derivative is c1/4 instead of B c1, and the width it gives changes with the unit of length - C76, C104.
18. `QpxQxQred_m1` divides by sqrt(dimSO3(L1-2)) where the Maple code has sqrt(5*dimSO3(L1)) (full_operators.py:1498); all four special cases have the opposite sign of `QixQxQred` at the documented arguments - C82.
19. `RepXspace_PiqPi`, v_fin = v_init - 1: the coefficient of the second term is `-(2*v_init)` (full_operators.py:1310) where the operator identity (and the Maple code) has 2 v + 1 - C88.
20. `ACM_Adapt` fits the reference transition also if only amplitudes are listed (full_space.py:1320), but checks its states only if rates are listed (1284) - C94.
21. `RepXspace_Twin` sets `glb_nu_lap` to 0 (full_operators.py:624), so products of radial operators are products of truncated matrices and an energy can rise when the space is enlarged: for -7 laplacian + beta^4, v = 0, from 95/4 (nu = 0) to 105/4 (nu = 0, 1) - C96. Which elements of the powers of beta are affected is determined in C119; of beta^4 (without change of lambda, nu_min = 0) it is the last diagonal element only, too small by (lambda + n)(n + 1)/a^4.
22. With a change of lambda, `RepRadial_bS_DS` and `Lambda_Splits` (radial_space.py:1300-1333) let beta act before beta^2 in both directions, on truncated matrices: the matrix of beta^3 cos(3 gamma), the term `c31` of `ACM_Hamiltonian`, is not symmetric, nor is that of beta^5 cos(3 gamma), the term `c32`, and `Eigenfiddle` replaces them by their symmetric parts without notice - C97, C122.
23. Three matrix element functions use SymPy's `sqrt` (radial_space.py:306, 342, 392: `1/beta` with a change of lambda, `d/dbeta` with an increase), so that their matrices are arrays of objects, the others arrays of floats; `RepRadial_LC_common` adds in place (2122), which NumPy refuses for floats += objects - C81. Therefore `RepXspace_Pi` raises `TypeError` in every basis that respects parity, the default one among them, and `RepXspace_PiPi` in every basis as soon as two states differ by two in seniority - C101.
24. `Op_Tame` (internal_operators.py:1066) only looks for momenta, not for "terms of non-zero angular momentum" (full_space.py:70-73): a scalar product [SpDiag_sqLdim, Y, SpDiag_sqLdiv, Y], permitted by internal_operators.py:362-368, is treated one L at a time and loses the intermediate states of other L - C103.
25. The default arguments of `Show_Eigs`, `Show_Rats` and `Show_Amps` (full_space.py:471, 1027-1028, 1054-1055) are the settings at import, not "the global variables" of the comments (1003-1005): without the list, `Show_Rats` and `Show_Amps` print nothing, whatever lists are set, and 4 is used for the number of items - C116. If the calculation of an example raises, its `unset` is not called (example.py:38-41) - C117.
26. The head of a table of absolute eigenvalues lacks the closing bracket (full_space.py:504; the Maple source in line 445 has it); `def_mel_format` is `  ME( %{0!s} ) = {1!s}` with a percent sign left over from `%s` (globals.py:225-227); formats are formatted twice (full_space.py:796-801, 841), so that an escaped brace in a user's format raises when a table is printed - C121.
27. Messages of the setting procedures: `ACM_set_transition` prints `glb_rat_desg` in front of the operator (globals.py:1025; the `printf` in lines 1001-1002 has no field for it), which `ACM_set_defaults` sets only afterwards, so that the text printed with the defaults depends on earlier settings; `ACM_set_rat_form` and `ACM_set_amp_form` print the format itself instead of the format filled in (1084, 1138; Maple line 1062); `ACM_set_rat_form` lacks the line that tells the designation (Maple line 1054) - C123.
28. `show_CG_file` for v2 = 0 (so5_so3_cg.py:228-240) reads a data file although the coefficients with the scalar are 1 without any file: where there is no such file it raises `FileNotFoundError` (C124_scalar_fails). For a file with more numbers than labels it announces the number of numbers and prints only as many lines as there are labels, because `zip` stops silently (C124_count_fails).

Noticed while reading, not stated as a property: `ACM_set_sft_fun` with a callable without `__name__` raises after the setting is made; `RepSO5_sqLdiv` returns a SymPy matrix; `RepRadial_LC_rem` is cached and declared to take a list, which is unhashable (the callers pass tuples); `Op_Parity` and `Op_Tame` ignore `Xspace_PiqPi`; `ACM_set_sft_fun` does not refresh the amplitude shift; changing the base directory keeps the tables already loaded; the regular expressions with `$` accept a trailing newline; `v2=3` and `v2=03` shadow each other in `base_dict` (C80_tree_shadow); the comment on `Convert_610` (internal_operators.py:56) says 3 cos(3 gamma) + 1, it gives 3 cos(3 gamma)^2 - 1 (C84); the restriction lambda > 1 for `1/beta^2` is not enforced, so that negative expectation values are returned below 1 (C90_bm2_restriction); `RWC_alam_clam` raises `IndexError` if B = 0 or c1 = c2 = 0.

## Per-property status

For each property: how it is modelled and proved, the outcome, and the theorems (namespace `Acm.Props`).

* **C01** SO(3) multiplicity is the branching rule - **proved**. Approach: `dimSO5r3` transcribed on integers with its guards; spec = counting K in a filtered range. Proof: case analysis on the four branches + closed form of the count of an arithmetic progression. Outcome: dimSO5r3 equals the branching count for all v, L; 0 on negative input; never raises. Theorems: `C01_dimSO5r3_branching`, `C01_dimSO5r3_negative`, `C01_dimSO5r3_total`, `C01_dimSO5r3_top`.
* **C02** Multiplicities sum to the all-L multiplicity - **proved**. Approach: `dimSO5r3_allL`; sum over L; induction on v in steps of 3. Outcome: dimSO5r3_allL and dimSO5r3_rngVallL equal the sums of multiplicities. Theorems: `C02_dimSO5r3_allL`, `C02_dimSO5r3_allL_api`, `C02_dimSO5r3_rngVallL`.
* **C03** Dimension of the SO(5) irrep is exhausted by its SO(3) content - **proved**. Approach: `dimSO5`, `dimSO3`; same induction, polynomial arithmetic. Outcome: weighted sum of multiplicities equals dimSO5; division by 6 exact. Theorems: `C03_dimSO5_exhausted`, `C03_dimSO5_exact`, `C03_dimSO3`.
* **C04** Range dimensions are the sums of single dimensions - **proved**. Approach: range dimension loops as folds; spec = Finset/list sum over the rectangle. Outcome: all range dimension functions equal the sums over the inclusive rectangle. Theorems: `C04_rngL`, `C04_rngV`, `C04_rngVrngL`, `C04_rngVvarL`.
* **C05** Basis label lists enumerate the basis exactly once - **proved**. Approach: list comprehensions as `flatMap`; membership iff, `Nodup`, length. Outcome: membership iff, no duplicates and length for all six lists with explicit ranges. Theorems: `C05_rngVvarL`, `C05_rngVrngL`, `C05_rngV`, `C05_rngL`, `C05_rngVallL`, `C05_allL`.
* **C06** Basis label order - **proved**. Approach: `List.Pairwise` with the lexicographic order. Outcome: strictly increasing in (L, v, alpha); constant-L blocks contiguous. Theorems: `C06_order`, `C06_allL`, `C06_blocks`.
* **C07** Omitting L_max means a single L - **partial**. Approach: both branches of the default argument; expected to fail (missing +1) - witness and `_partial`. Outcome: The claim is false of the code: lbsSO5r3_rngVvarL without L_max misses the largest alpha (spherical_space.py:413). Proved: exact content of the returned list, violation for every non-trivial space, witness, and the dimension half (C07_dim_omitted_partial). Theorems: `C07_labels_omitted_content`, `C07_labels_omitted_violated`, `C07_witness`, `C07_dim_omitted_partial`.
* **C08** Argument validation accepts exactly the legal ranges - **proved**. Approach: validators as `Except`-valued functions, iff statements. Outcome: Validation of integers, ranges and lists of L values proved as equalities, for Python values of every type used (bool counts as int; other types raise TypeError). Theorems: `C08_values`, `C08_values_range`, `C08_values_int`, `C08_validate_Lvals`, `C08_operators`, `C08_calculation`, `C08_scale_adapt`, `C08_amplitudes`, `C08_require_nonnegint`, `C08_require_posint`, `C08_require_nonnegint_range`, `C08_illegal_ranges`, `C08_illegal_single`, `C08_illegal_rest`.
* **C09** Integer quotient and remainder - **proved**. Approach: `iquo`, `irem`, `is_even`, `is_odd` with Python floor semantics. Outcome: Euclidean division law, error cases, parity of all integers. Theorems: `C09_iquo_irem`, `C09_iquo_irem_err`, `C09_parity`.
* **C10** Lambda shifts assigned to a monomial sum to the requested shift - **proved**. Approach: `Lambda_Splits` on Int/Nat lists, proof by cases and `List.sum_replicate`. Outcome: for all K, R and T>=0; plus sign of the extra entry and rejection of T<0. Theorems: `C10_Lambda_Splits`, `C10_Lambda_Splits_extra_sign`, `C10_Lambda_Splits_rejects`.
* **C11** A monomial beta^K d^T is factored into the right elementary operators - **proved**. Approach: the while loop of `RepRadial_bS_DS` as a symbolic plan: list of (elementary operator, lambda shift); spec = free word b^K D^T. Outcome: run of the same code over formal words: succeeds, word = b^K D^T in every monoid, lambda chain, anorm power; and every returned matrix is an evaluation of such a product, for arbitrary matrix primitives. Theorems: `C11_bS_DS_factorisation`, `C11_bS_DS_matrix`, `C11_bS_DS_rejects`.
* **C12** Intermediate lambda stays positive - **partial**. Approach: running partial sums of the plan.  Fails for K<0,R=0,T odd,lambda<=1 - witness and `_partial`. Outcome: False of the code for K<0, T odd, R=0, lambda<=1 (C12_fails). Proved in all other cases. Theorems: `C12_positive_lambda_partial`, `C12_fails`.
* **C13** Parsing a radial operator product preserves its meaning - **proved**. Approach: the right-to-left loop; semantics in an arbitrary monoid with a unit `b`. Outcome: equality of words in every monoid with invertible beta; raises iff an unknown symbol occurs. Theorems: `C13_parse`, `C13_parse_raises`.
* **C14** Lambda shift is fully distributed over a product - **proved**. Approach: `Lambda_RadialOp_List` with loops as recursion; sum theorem. Outcome: for every list of valid operators and every integer shift. Theorems: `C14_shifts_sum`.
* **C15** SU(1,1) generators never receive a lambda shift - **partial**. Approach: expected to fail (`lambda_list[i0] -= 1`) - witness and `_partial` under matching parity. Outcome: False of the code (leaked loop index, radial_space.py:2007; witness C15_fails). Proved when the parity of the shift can be met; exactly when it fails: C15_generator_shifted. Theorems: `C15_generator_shifted`, `C15_generators_unshifted_partial`, `C15_fails`.
* **C16** A radial product is represented end to end - **proved**. Approach: composition of C13, C14, C11. Outcome: Proved for every product the code accepts. Which products it accepts is proved exactly (C16_acceptance): some are refused although both ends are positive (C16_rejects_valid). A matrix is returned exactly if the product is accepted and the elementary matrices exist (C16_formed), for lambda not an integer exactly if it is accepted (C16_matrix; monomials with negative powers of beta and an odd number of derivatives excepted, see C12). Theorems: `C16_acceptance`, `C16_unreachable`, `C16_formed`, `C16_matrix`, `C16_radial_product`, `C16_accepts`, `C16_rejects_valid`, `C16_rejects`.
* **C17** Window of the radial matrix - **proved**. Approach: matrices as (rows, cols, entry function), numpy slices. Outcome: entries of the returned window equal the labelled elements of the product of the elementary matrices, restricted to the enlarged range, for all ranges and nu_lap (eigh/inv as contracts). Theorems: `C17_window`.
* **C18** Enlarging the intermediate space makes banded products exact - **proved**. Approach: banded infinite matrices, induction on the number of factors. Outcome: general exactness for banded factors, uniqueness of the untruncated product, and an end-to-end theorem for products of S-, S0, S+, beta^2, beta d/dbeta. Theorems: `C18_product_exists`, `C18_window_exact`, `C18_exact`, `C18_banded_product`.
* **C19** SU(1,1) commutation relations - **proved**. Approach: matrix elements over the reals, infinite tridiagonal products as finite sums. Outcome: for every lambda>0; products are sums over all intermediate labels. Theorems: `C19_su11`, `C19_adjoint`.
* **C20** beta^2 and its relation to SU(1,1) - **proved**. Approach: as C19. Outcome: for every lambda>0 (D2b: lambda != 1). Theorems: `C20_b2_bDb`, `C20_D2b`.
* **C21** beta raising and lowering lambda are adjoint and compose to beta^2 - **proved**. Approach: as C19. Outcome: adjointness for every real lambda; products for lambda>0 and lambda>1. Theorems: `C21_adjoint`, `C21_up_down`, `C21_down_up`.
* **C22** 1/beta is the inverse of beta - **proved**. Approach: Pochhammer quotients through `Real.Gamma`. Outcome: two-sided inverses in both directions. Theorems: `C22_inverse`, `C22_inverse_down`.
* **C23** 1/beta^2 is the inverse of beta^2 - **proved**. Approach: as C22. Outcome: two-sided inverse for every lambda>0 except 1; lambda=1 raises; equals the product of the two 1/beta for lambda>1. Theorems: `C23_bm2_inverse`, `C23_raises`, `C23_rejects`, `C23_bm_bm`.
* **C24** d/dbeta is consistent with beta d/dbeta - **proved**. Approach: as C22. Outcome: both orders, both commutators and the second derivative (infinite sums). Theorems: `C24_up_down`, `C24_down_up`, `C24_shifted_commutator`, `C24_second_derivative`.
* **C25** The lambda-shifted identity operator - **proved**. Approach: polynomial `MF_Radial_id_poly` over the reals, Pascal-type recurrence. Outcome: composition for all r, s; single shift = beta(1/beta) = (1/beta)beta; transpose; r=0. Theorems: `C25_composition`, `C25_single_shift`, `C25_transpose`, `C25_zero`.
* **C26** Square roots of beta^2 never fail - **proved**. Approach: sum-of-squares identity for the quadratic form; eigensolver contract as explicit hypothesis. Outcome: positive definiteness for all ranges; square roots under the documented contract of eigh and inv, which is shown satisfiable. Theorems: `C26_b2_posDef`, `C26_sqrt`, `C26_rejects`.
* **C27** Full space dimension and label positions - **proved**. Approach: index of a label in a product list. Outcome: dimension = number of labels, no duplicates, exact membership, position formula, default L_max, ValueError exactly on illegal ranges. Theorems: `C27_dimension`, `C27_distinct`, `C27_members`, `C27_position`, `C27_default`, `C27_rejects`.
* **C28** Direct product matrix elements - **proved**. Approach: block assignment loops as pointwise function updates. Outcome: every element of a radial-spherical product is the product of the spherical and radial elements (zero where the spherical one is); the representation exists whenever the factors do. Theorems: `C28_elements`, `C28_exists`.
* **C29** Grouping radial and spherical factors preserves products - **proved**. Approach: segment grouping; semantics in a monoid with commuting images. Outcome: segments denote the product in every monoid where radial and spherical operators commute; empty product is the identity matrix; unknown names raise. Theorems: `C29_identity`, `C29_segments`, `C29_regrouping`, `C29_unknown`.
* **C30** Operator sums act linearly with state-dependent coefficients - **proved**. Approach: fold over terms; entrywise sums. Outcome: a sum has a representation iff each product has; elements are the sum of coefficient at the column label times product element; empty sum is zero. For memo tables that are current (which is so after import; C31 says when). Theorems: `C30_exists`, `C30_sum`.
* **C31** Representations do not depend on call history - **partial**. Approach: state machine with memo tables and global settings; history = list of calls. Fails after an exception or a direct call of RepXspace_Pi - witness and `_partial`. Outcome: The claim is false of the code: memo tables keyed without glb_lam_fun survive a failed call (C31_fails). Proved for all histories with no change of glb_lam_fun after a failed or direct product call. Theorems: `C31_partial`, `C31_fails`.
* **C32** DigXspace reports exactly the occupied angular momenta - **partial**. Approach: both branches of DigXspace. Fails in the non-tame branch (slice one too long) - witness and `_partial`. Outcome: The claim about the counts is false of the code for Hamiltonians that are not tame: every L but the last gets one eigenvalue too many (C32_fails, C32_untame). Proved in full for tame Hamiltonians, and the list of L values for all. Theorems: `C32_partial`, `C32_illegal`, `C32_untame`, `C32_fails`.
* **C33** Constant-L blocks tile the full matrix - **proved**. Approach: `LBlockFullSpace` offsets; prefix sums. Outcome: The blocks of the occupied L values are consecutive, disjoint, cover all rows and have the right labels, for all legal ranges. Theorems: `C33_tiling`, `C33_dimL`.
* **C34** Block assignment and retrieval - **proved**. Approach: function-update lemma on blocks. Outcome: Set/get laws for all block structures made by the constructor, including when an assignment is accepted. Theorems: `C34_accepts`, `C34_set_get`, `C34_missing`.
* **C35** Sign of the [pi x pi] L=2 operator is uniform - **partial**. Approach: expected to fail (negation inside the loop) - exact sign formula, witness, `_partial` for L=4. Outcome: The claim is false of the code for L=2: the sign is flipped inside the loop (full_operators.py:1047). Proved: exact sign of every block; uniform sign for L other than 2. Theorems: `C35_partial`, `C35_fails`.
* **C36** [pi x q x pi] is representable for all ranges - **partial**. Approach: expected to fail (`S.one`), witness and exact characterisation. Outcome: The claim is false of the code: S.one raises AttributeError (full_operators.py:1283), and a TypeError arises between states that differ by three in v in every basis that respects parity (C36_parity_fails). Proved: exactly when the matrix is returned (C36_exact_partial), for lambda that is not an integer; selection rule on success. Theorems: `C36_fails`, `C36_never`, `C36_partial`, `C36_exists`, `C36_even`, `C36_parity_fails`, `C36_sum_fails`, `C36_exact_partial`.
* **C37** ACM_Adapt calibrates the reference state and transition - **proved**. Approach: `ACM_ScaleOrAdapt` as a state transformer over the reals. Outcome: After every successful ACM_Adapt, for all settings (over the reals): the energy and the rate of the references after scaling, the scale of the amplitudes, and the displayed lines; a successful call is exhibited. Theorems: `C37_energy`, `C37_transition`.
* **C38** ACM_Scale never changes the scaling factors - **proved**. Approach: frame property. Outcome: Frame property for all states and arguments, whether the call succeeds or raises; glb_nu_lap, which nothing sets to another value than 0, is set to 0. Theorems: `C38_scale`, `C38_scale_all`.
* **C39** A failed adaptation does not change the scaling factors - **partial**. Approach: expected to fail - witness and `_partial`. Outcome: The claim is false of the code: the scaling factor is assigned before the zero check (full_space.py:1309-1312, C39_fails). Proved: nothing but the scaling factors changes, and they are unchanged if the failure comes before fitting. Theorems: `C39_frame_partial`, `C39_partial`, `C39_none_partial`, `C39_fails`.
* **C40** Relative energies are measured from the lowest eigenvalue - **proved**. Approach: `min_head`. Outcome: For all spectra with increasing lists; the lists made by DigXspace are such, assuming the eigensolver contract. Theorems: `C40_min_head`, `C40_min_head_empty`, `C40_show`, `C40_show_absolute`, `C40_relative`, `C40_sorted`.
* **C41** Transition designators select the intended matrix element - **partial**. Approach: `Show_Mels*` with Python indexing semantics; expected partial failure. Outcome: The claim is false of the code: a row index 0 reads another row (full_space.py:975) and a five-index designator beyond the last L raises (full_space.py:854). Proved: what is displayed, for all lists of designators outside these two cases. Theorems: `C41_designator_partial`, `C41_show_partial`, `C41_fails_row`, `C41_fails_series`.
* **C42** Defaults are restored from any history - **proved**. Approach: all setters as `Settings -> Except Err Settings` with partial mutation; history induction. Outcome: From any state, hence after any history including failures; idempotent; the hypothesis only says the default format string accepts its arguments. Theorems: `C42_init`, `C42_defaults`, `C42_any_state`.
* **C43** Transition lists only ever hold valid designators - **proved**. Approach: history induction. Outcome: Invariant over all histories; exact effect of the four procedures. Theorems: `C43_valid`, `C43_lists`.
* **C44** Numeric settings keep their documented ranges - **partial**. Approach: history induction. Outcome: Ranges proved for all histories. False for the scaling factors (ACM_set_scales accepts 0); proved for histories whose scale arguments are non-zero/positive. Theorems: `C44_ranges_partial`, `C44_scales_fails`, `C44_scales_partial`.
* **C45** Omitted arguments leave settings unchanged - **partial**. Approach: fails for import-time defaults - witnesses and `_partial`. Outcome: Proved for ACM_set_scales, ACM_set_output, ACM_set_listln. False for the six procedures whose defaults are captured at import. Theorems: `C45_omitted_partial`, `C45_fails`, `C45_fails_witness`.
* **C46** Rejected settings change nothing - **partial**. Approach: fails for some setters - witnesses and `_partial`. Outcome: Proved for the procedures that check first. False for ACM_set_output, ACM_set_listln, ACM_set_scales (witnesses proved). Theorems: `C46_atomic_partial`, `C46_fails`, `C46_first_partial`, `C46_frame_partial`.
* **C47** Listed transition designators are printed in field order - **partial**. Approach: fails - witness and `_partial`. Outcome: Four-field designators are printed with L_f and j_i exchanged (globals.py:863); all other forms proved, and every line can be read back. Theorems: `C47_lines_partial`, `C47_order`, `C47_fails`, `C47_readback`, `C47_all`.
* **C48** Basis shift functions have the right parity - **partial**. Approach: functions on Nat/Real. Outcome: Proved for all functions and, for the Davidson function, all C>=0; false for negative C accepted by the code. Theorems: `C48_simple`, `C48_rejects`, `C48_davi_partial`, `C48_davi_fails`.
* **C49** Davidson basis shift is the nearest admissible integer - **partial**. Approach: fails ((v+1)^2) - witness; `_partial` for the function computed. Outcome: False: the code has (v+1)^2 for (v+3/2)^2 (globals.py:184), witness proved; the quantity actually rounded and its distance to the documented one are proved. Theorems: `C49_nearest_partial`, `C49_fails`.
* **C50** Lambda function test - **proved**. Approach: loop over range. Outcome: For all functions defined on the range; all basis types. Theorems: `C50_test`, `C50_bases`.
* **C51** SO(5) Clebsch-Gordan selection rules - **proved**. Approach: CG as state + file system parameter. Outcome: Every answer outside the rules is zero, in every reachable state and for every file system. Theorems: `C51_selection_rules`.
* **C52** SO(5) Clebsch-Gordan lookup never misses - **proved**. Approach: label membership. Outcome: Value is that of the data file entry; every argument within the rules is answered when the files are those of the data set. Theorems: `C52_lookup`, `C52_total`.
* **C53** SO(5) Clebsch-Gordan exchange symmetry - **proved**. Approach: real arithmetic of square roots. Outcome: Sign and dimension factor of the exchange, for all labels. Theorems: `C53_exchange`.
* **C54** Coefficient table loading is idempotent and order independent - **proved**. Approach: cache invariant over histories. Outcome: Answers are independent of the history of calls; each file is read at most once. Theorems: `C54_order_independent`, `C54_one_file`, `C54_load_idempotent`, `C54_reads_once`.
* **C55** Coupling with the scalar is the identity - **partial**. Approach: fails for a1<>a3 - witness and `_partial`. Outcome: False: the v2=0 table is filled with 1.0 also for a1 != a3 (witness proved). Proved for a1 = a3. Theorems: `C55_scalar_fails`, `C55_exact`, `C55_scalar_partial`.
* **C56** Data file names identify the coefficients - **proved**. Approach: decimal printing/parsing on character lists, regex matching as a parser. Outcome: Names injective, parsers invert them, accepted names are exactly the generated ones (plus what the parser provably accepts). Theorems: `C56_names_injective`, `C56_parsers`, `C56_datafile_sound`, `C56_dir2_sound`, `C56_dir1_sound`, `C56_base`.
* **C57** SO(3) Clebsch-Gordan is total on half-integers - **proved**. Approach: doubled half-integers as Int. Outcome: Rational arguments; total on half-integers, rejects others. Theorems: `C57_CG_SO3_total`, `C57_CG_SO3_rejects`.
* **C58** SO(3) Clebsch-Gordan special values - **proved**. Approach: single-term sums. Outcome: Coupling with a scalar; maximal weight closed form and positivity. Theorems: `C58_scalar`, `C58_maximal`, `C58_maximal_pos`.
* **C59** ACM_Hamiltonian encodes the documented Hamiltonian - **proved**. Approach: operator sums as lists; denotation in an arbitrary algebra. Outcome: In every interpretation in a real algebra the sum denotes the documented Hamiltonian; no zero terms; empty for zero coefficients. Theorems: `C59_hamiltonian`, `C59_no_zero_terms`, `C59_zero`.
* **C60** Rigid-beta Hamiltonians agree in both encodings - **proved**. Approach: as C59. Outcome: Both encodings denote the same polynomial in cos3g, given the defining relation of Y_610; HamRigidBeta for both flags; other flags rejected. Theorems: `C60_SH3`, `C60_SH6`, `C60_same`, `C60_rigid`, `C60_flag`.
* **C61** RWC_Ham encodes the Rowe-Welsh-Caprio Hamiltonian - **proved**. Approach: as C59. Outcome: RWC_Ham denotes the documented operator for all real parameters with B nonzero. Theorems: `C61_rwc`.
* **C62** Angular momentum of an operator - **proved**. Approach: fold over terms. Outcome: Definite and indefinite angular momentum, for all sums. Theorems: `C62_empty`, `C62_definite`, `C62_indefinite`.
* **C63** Parity and tameness of an operator - **proved**. Approach: fold over terms. Outcome: Parity, tameness and harmonic count for all sums; parity of a symbol as in the code's documentation. Theorems: `C63_parity_empty`, `C63_parity`, `C63_tame`, `C63_count`.
* **C64** Reduced matrix elements of Q, QxQ, QxQxQ - **partial**. Approach: factorial identities over the reals; QxQxQred_m3 fails - witness and `_partial`. Outcome: Proved for eight of the nine functions. False for QxQxQred_m3 (internal_operators.py:207 has v*2 for v+2): wrong for every v>=3; the exact wrong factor is proved. Theorems: `C64_constants`, `C64_Qred_p1`, `C64_Qred_m1`, `C64_QxQred_p2`, `C64_QxQred_0`, `C64_QxQred_m2`, `C64_QxQxQred_p3`, `C64_QxQxQred_p1`, `C64_QxQxQred_m1`, `C64_QxQxQred_m3_partial`, `C64_QxQxQred_m3_fails`.
* **C65** SO(5)-reduced elements: selection rules and symmetry - **proved**. Approach: factorial arithmetic. Outcome: Selection rules, positivity, symmetry with the SO(5) dimensions, rejection of negative input. Theorems: `C65_selection`, `C65_negative`, `C65_symmetry`.
* **C66** Diagonal L-dimension operators - **partial**. Approach: fails for even L (`-1 ** L`) - witness and `_partial`. Outcome: sqLdiv proved. False for sqLdim (internal_operators.py:326, -1 ** L): every even-L state has the wrong sign; the actual entries and the actual product are proved. Theorems: `C66_sqLdiv`, `C66_sqLdim_partial`, `C66_sqLdim_fails`, `C66_product_partial`.
* **C67** Optimal oscillator length is well defined - **proved**. Approach: intermediate value theorem, strict monotonicity. Outcome: Props/HamData: the cubic has exactly one positive root (C67_cubic, any sign of c1) and RWC_alam_clam returns it whatever the order of the solver's list (C67_clam); F2(0) has the value of the comment and is negative (C67_start); the doubling loop ends and brackets a root (C67_bracket); that root is the only positive one (C67_unique); RWC_alam returns it, or the root finder's failure (C67_alam). Solvers by contract (Spec.SolverOk), shown satisfiable (solver_exists). Theorems: `C67_cubic`, `C67_clam`, `C67_start`, `C67_bracket`, `C67_unique`, `C67_rejects`, `C67_alam`.
* **C68** Optimality equations are the derivative of the energy - **proved**. Approach: `HasDerivAt`. Outcome: Props/HamData: RWC_expt_link is differentiable and stationary exactly at the roots of RWC2 (c1<0) and RWC1 (c1>=0) (C68_link); the same for every seniority for the energy of the spec (C68_seniority_neg, C68_seniority_nonneg). Theorems: `C68_seniority_neg`, `C68_seniority_nonneg`, `C68_link`.
* **C69** Transition rates and amplitudes are consistent - **proved**. Approach: real identities. Outcome: Rates, squares, and the quad factor with the Clebsch-Gordan model. Theorems: `C69_rates`, `C69_squares`, `C69_quad`, `C69_mix`.
* **C70** Eigenvalue solver input is symmetrised without changing symmetric operators - **proved**. Approach: matrix algebra, eigensolver as contract. Outcome: For any eigensolver that satisfies the NumPy contract (satisfiable). Theorems: `C70_nonsquare`, `C70_eigen`, `C70_symmetric`.
* **C71** Predefined operators denote what they are documented to be - **proved**. Approach: operator sums interpreted in an arbitrary real algebra, as C59. Outcome: laplacian_op, the two commutators, quad_op and quadRigid_op. Theorems: `C71_laplacian_op`, `C71_comm_su11`, `C71_comm_bdb`, `C71_quad`, `C71_quad_AM`.
* **C72** Products of spherical operators are ordered matrix products - **proved**. Approach: matrices as arrays of reals, Clebsch-Gordan coefficients as a parameter; induction on the list. Outcome: Ordered product, entries, and rejection of unknown items, for every Clebsch-Gordan function. Theorems: `C72_matrices`, `C72_only`, `C72_unknown`, `C72_product`, `C72_entries`, `C72_invalid`.
* **C73** Transition matrices between eigenstates - **partial**. Approach: `AmpXspeig` with the result array starting as arbitrary memory (`FEnv.junk`); block algebra. Outcome: False of the code for Hamiltonians that are not tame and ranges with two or more occupied L values, where AmpXspeig raises (C73_fails). Proved for square bases of the right dimensions, assuming the shape contract of the matrix inverse. Theorems: `C73_blocks`, `C73_memory`, `C73_fails`.
* **C74** RWC_alam returns the minimum - **partial**. Approach: sign of the derivative on both sides of the root (C67, C68), monotonicity on intervals. Outcome: Props/HamData: global strict minimum and matching lambda for c1<0 and every seniority (C74_neg_partial), for c1>=0 and seniority 0 (C74_nonneg_partial), and in terms of RWC_expt_link (C74_link_partial). Fails for c1>=0, v>0 (C74_fails): the equation is that for lambda=v+5/2 but 2.5 is returned. Theorems: `C74_neg_partial`, `C74_nonneg_partial`, `C74_link_partial`, `C74_fails`.
* **C75** The estimates A0_case1, A0_case2_approx, A0_case3_approx - **proved**. Approach: real algebra, intermediate values, limits of quotients. Outcome: Props/HamApprox: C75_case1, C75_case2 (unique positive roots), C75_bounds (both sides), C75_growth (limit), C75_case3, C75_rejects. Theorems: `C75_case1`, `C75_case2`, `C75_bounds`, `C75_growth`, `C75_case3`, `C75_rejects`.
* **C76** RWC_alam36 matches second derivatives - **partial**. Approach: first and second derivatives of the two potentials. Outcome: Props/HamApprox: the a for c1<0 is right (C76_neg_partial); lambda is right exactly if c1=-2 (C76_lambda, C76_fails); for c1>0 the second derivative is c1/4 instead of B c1 (C76_fails_nonneg). Theorems: `C76_neg_partial`, `C76_lambda`, `C76_fails`, `C76_fails_nonneg`.
* **C77** RWC_alam_fun returns the increase of lambda - **partial**. Approach: composition of C67, C74, C48, C49. Outcome: Props/HamApprox: exact for c1>=0 (C77_nonneg); for c1<0 the value is the nearest integer or the one 2 below it, because lambda_davi_fun rounds a smaller quantity (C77_neg_partial, see C49_fails). Theorems: `C77_nonneg`, `C77_neg_partial`.
* **C78** List and array comparisons and conversions - **proved**. Approach: induction over lists; row-major index arithmetic. Outcome: Props/Compat: decision equivalences, laws, and the two conversions as inverses. Theorems: `C78_is_zeros`, `C78_is_close`, `C78_is_close_laws`, `C78_is_sorted`, `C78_conversions`, `C78_is_nd_zeros`.
* **C79** ME_Radial agrees with RepRadial_Prod - **proved**. Approach: run of the product planner for a single operator, computed symbolically for every closed form; C17 for the fallback. Outcome: Props/RadialElement: agreement with RepRadial_Prod, meaning of every returned value, rejection; C79_unchecked shows that the positivity of the shifted lambda is not checked by the closed forms. Theorems: `C79_agrees`, `C79_meaning`, `C79_rejects`, `C79_unchecked`.
* **C80** Text of the data files and directory dictionaries - **proved**. Approach: inductive description of lines made of fields; the scanner run on it and its converse; dictionaries as the last binding of a list. Outcome: Props/CGData: reading of lines as an equivalence, files, dictionaries, agreement with CG_SO5r3, directory trees, display; C80_tree_shadow shows that v2=3 and v2=03 shadow each other. `float` of a field is a parameter. Theorems: `C80_line`, `C80_line_rejects`, `C80_printed`, `C80_int_unique`, `C80_column`, `C80_file`, `C80_dict`, `C80_same_coefficient`, `C80_tree_sound`, `C80_tree_complete`, `C80_tree_shadow`, `C80_show`, `C80_show_rejects`.
* **C81** Linear combinations of radial operators - **partial**. Approach: induction on the list with the shape of the matrices from C17. Outcome: The claim is false of the code: NumPy refuses to add an array of SymPy numbers in place to one of floats, and three matrix element functions return SymPy numbers (C81_fails). Proved: values, terms, exceptions, sums and multiples whenever the first matrix has SymPy numbers or no other has. Theorems: `C81_value_partial`, `C81_terms`, `C81_rejected`, `C81_fails`, `C81_add_partial`, `C81_smul`.
* **C82** The special cases of QixQxQred - **partial**. Approach: C64 for the reduced elements; the lists of intermediate states are equal because no state has L > 2v. Outcome: False as documented: the sign is opposite (C82_sign_fails), and QpxQxQred_m1 divides by sqrt(dimSO3(L1-2)) instead of sqrt(5*dimSO3(L1)) (C82_factor_fails). Proved: three of them are exactly the negative, with the same exceptions; the fourth up to the exact factor. Theorems: `C82_Qp_p1`, `C82_Qm_p1`, `C82_Qm_m1`, `C82_Qp_m1_partial`, `C82_rejects`, `C82_sign_fails`, `C82_factor_fails`.
* **C83** The table of SO(5) spherical harmonics - **proved**. Approach: Bound L by 2v and alpha by 2, then the finite table. Outcome:  Theorems: `C83_states`, `C83_injective`, `C83_names`, `C83_operators`.
* **C84** The conversion factors of the spherical harmonics - **proved**. Approach: The sums of squares over K are polynomials in cos(3 gamma)^2; fundamental theorem of calculus. Outcome: The coupling to L = 2 uses the coefficients of the model of CG_SO3. Theorems: `C84_convert`, `C84_unique`.
* **C85** CG_SO3 returns the Clebsch-Gordan coefficients - **proved**. Approach: Recursion of the alternating sums; Vandermonde-like sum of binomials for the norm; abstract theory of ladder operators (Lemmas/Ladder) for uniqueness. Outcome: Props/CGLadder; the specification (Spec/CGLadder) contains no formula for the coefficients. Theorems: `C85_exists`, `C85_CG_SO3`, `C85_lowering`, `C85_raising`.
* **C86** Orthonormality and completeness of the SO(3) Clebsch-Gordan coefficients - **proved**. Approach: [J+, J-] = 2 Jz and the adjointness of J+ and J- give orthogonality; a left inverse of a square matrix is a right inverse. Outcome:  Theorems: `C86_orthonormal`, `C86_complete`.
* **C87** Symmetries of the SO(3) Clebsch-Gordan coefficients - **proved**. Approach: Each transformed table satisfies the definition up to a sign, so uniqueness applies. Outcome: These generate all the symmetries of the 3j symbol. Theorems: `C87_exchange`, `C87_reverse`, `C87_turn`.
* **C88** The momentum operators are the gradient on the five-dimensional space - **partial**. Approach: Work with harmonic polynomials on R^5 and null vectors: the product rule splits z.grad (r^2k h) into the parts of seniority v+1 and v-1; the radial words act on powers of beta by the same factors. Outcome: `C88_pi` and `C88_pipi` are complete; for [pi x q x pi] the blocks that change the seniority by three (`C88_piqpi_partial`); for v_fin = v_init - 1 the code has the factor 2v instead of 2v+1 (`C88_piqpi_fails`), for v_fin = v_init + 1 it raises (C36) Theorems: `C88_pi`, `C88_pipi`, `C88_piqpi_partial`, `C88_piqpi_fails`.
* **C89** ME_SO5red gives the products of the harmonics on the sphere - **proved**. Approach: Uniqueness by evaluating all derivatives of the differential equation at the pole; existence by the three-term recurrence; products by induction on w, using a four-term relation between the coefficients, which is a rational identity with three boundary cases. Outcome: Existence and uniqueness of the zonal harmonics from the differential equation, their recurrence, and the expansion of all products (linearisation of the Gegenbauer polynomials of index 3/2) Theorems: `C89_zonal`, `C89_product`, `C89_sum`, `C89_Q`.
* **C90** The closed radial matrix elements are integrals in the orthonormal basis - **proved**. Approach: Laguerre polynomials by the Rodrigues formula; the moment functional (Gamma function) with integration by parts gives orthogonality; each operator maps a basis function to a power times a polynomial, so each matrix element is a moment; the integrals reduce to Mathlib's Gamma integral after scaling. Outcome: All operators with closed forms, all scales and labels; the integrals are shown to exist Theorems: `C90_orthonormal`, `C90_integral`, `C90_bm2_restriction`.
* **C91** RWC_expt is the expectation value of RWC_Ham in the lowest basis state - **proved**. Approach: Sum of the integrals of C90 for d^2/dbeta^2, 1/beta^2, beta^2, and of one for beta^4; the mean over gamma by the antiderivatives of cos^k sin. Outcome: Both the full expectation value for seniority 0 and the radial one for all seniorities Theorems: `C91_expectation`, `C91_energy`.
* **C92** Products of radial operators are integrals of products of differential operators - **proved**. Approach: The operators act on the polynomial factor; each column of the matrix is a finite expansion in the basis; induction on the word. Outcome: Combines C18 (truncation is exact) with C90 (single elements are integrals) by finite expansions in the basis Theorems: `C92_product_integral`.
* **C93** Show_Eigs displays exactly the angular momenta asked for - **proved**. Approach: Spec predicate Asked on the optional bounds; case split on the bounds; the printing loop by induction. Outcome: The default maximum L_MAX_DEFAULT = 10^6 is a hypothesis on the L values and on L_min alone Theorems: `C93_nothing`, `C93_negative`, `C93_bounds`, `C93_absent`, `C93_relative`, `C93_absolute`.
* **C94** ACM_Adapt refuses reference states that are not in the space - **partial**. Approach: HasState from the list of labels; refChecks accepts iff the states exist; then the first statement of ACM_ScaleOrAdapt that can raise. Outcome: When amplitudes are listed but no rates, the transition is fitted (line 1320) but its states are not checked (line 1284): C94_fails; the rest is proved Theorems: `C94_accepts`, `C94_refuses_partial`, `C94_scale`, `C94_found`, `C94_fails`.
* **C95** Exactly solvable Hamiltonians give the exact spectrum - **proved**. Approach: The closed forms of Sp, Sm, 1/beta^2 cancel under the matching conditions and leave a diagonal matrix in S0; eigenvalues of a diagonal matrix are its diagonal, by the characteristic polynomial. Outcome:  Theorems: `C95_spectrum`, `C95_oscillator`.
* **C96** The variational principle: enlarging the space does not raise an energy - **partial**. Approach: The matrix on the smaller space is a principal submatrix of the one on the larger (entries depend on the two labels only); the k-th eigenvalue of a principal submatrix is at least that of the whole matrix, by an intersection of subspaces. Outcome: products with at most one radial operator; negation proved for beta^4 (C96_fails) Theorems: `C96_variational_partial`, `C96_acm_partial`, `C96_fails`.
* **C97** The matrix of the Hamiltonian is symmetric, so that symmetrising it changes nothing - **partial**. Approach: The exchange symmetry of the coefficients makes the harmonic y310 symmetric up to the phases and dimensions, which cancel for L = 0; each radial matrix for a change of lambda is the transpose of the one for the opposite change; the products with parity selection then are symmetric term by term. Outcome: single radial operators in closed form, beta^4 without a change of lambda, and powers of cos(3 gamma); negation proved for beta^3 cos(3 gamma) (C97_fails), and for every power in C122 Theorems: `C97_harmonic`, `C97_y310`, `C97_matrix_partial`, `C97_energies_partial`, `C97_acm_partial`, `C97_fails`.
* **C98** A setting procedure sets what it is given, changes nothing else and returns the new values - **proved**. Approach: The settings are enumerated in the specification and ChangesOnly says which may differ; each procedure is evaluated on valid arguments, given or omitted, and on the first invalid one. Outcome: every setting procedure, with the settings enumerated Theorems: `C98_output`, `C98_listln`, `C98_datum`, `C98_eig_fit`, `C98_rat_fit`, `C98_transition`, `C98_forms`, `C98_basis`, `C98_scales`, `C98_lists`, `C98_rejects`, `C98_show_lambda`.
* **C99** A product of radial operators takes a numerical square root only when parity forces it, and then one - **proved**. Approach: The number of roots of a representation is the parity mismatch between its exponent and its shift; the mismatches of the list chosen by Lambda_RadialOp_List add up to 0 or 1 by induction over the list; the selection of a representation never reads the square roots when there is no mismatch. Outcome: all lists, all shifts, all primitives Theorems: `C99_roots`, `C99_independent`, `C99_needed`.
* **C100** In a basis where lambda has the parity of the seniority, the matrices on the whole space contain no numerical square root - **proved**. Approach: Parity of the spherical matrices from C65 and C72, parity of the radial shift from C99; the block loops are compared position by position and the products segment by segment. Outcome: all operators of the stated form Theorems: `C100_seniority`, `C100_matrix`, `C100_hamiltonian`, `C100_quadrupole`, `C100_bases`.
* **C101** The momentum operator and its squares are represented on every range - **partial**. Approach: The array type of each product from a run of the model on formal products (Lemmas/RadialDtype), for the words that occur by cases on the parity and sign of the shift (Lemmas/RadialSingle); then the blocks for a pair of states in both directions. Outcome: False of the code: a TypeError in every basis that respects parity (C101_pi_fails), for the squares in every basis (C101_pipi_fails). Proved: exactly when the momentum is represented (C101_pi_partial: even changes of lambda between neighbouring states), and where the squares are (C101_diagonal_partial). Theorems: `C101_even`, `C101_pi_fails`, `C101_pipi_fails`, `C101_sum_pi_fails`, `C101_sum_pipi_fails`, `C101_pi_partial`, `C101_diagonal_partial`, `C101_type_error`.
* **C102** Matrix elements that are not shown are zero - **proved**. Approach: A relation between labels for each weight such that weights add up; every symbol's matrix respects the relation for its weight (selection rules of the coefficients, of the radial-free blocks, and the tests in RepXspace_Pi, _PiPi, _PiqPi), so products and sums do. Then the block structure of AmpXspeig (C73, C33). Outcome: For the coefficients that CG_SO5r3 gives for any contents of the files (angular momentum), and for any coefficients (seniority). Theorems: `C102_terms`, `C102_angular`, `C102_seniority`, `C102_setting`, `C102_amplitudes`, `C102_scale`.
* **C103** When diagonalising each angular momentum by itself loses nothing - **proved**. Approach: Matrices of all symbols of angular momentum 0 vanish between different L (C102), so taking the submatrix for a range of L commutes with products and sums; the whole matrix is block diagonal, so its characteristic polynomial is the product of those of the blocks, and LinAlgOk gives each of these as the product over the eigenvalues. For the failure, the matrices are computed on two states. Outcome: For the coefficients that CG_SO5r3 gives for any contents of the files. C103_spectrum supposes that the matrix on the whole range can be formed. C103_fails: Op_Tame is not sufficient (finding 24). Theorems: `C103_tame`, `C103_blocks`, `C103_spectrum`, `C103_fails`.
* **C104** The width of the basis is a unit of length - **proved**. Approach: Pairs of an array and a power of anorm form an algebra in which products of radial operators can be evaluated; one homomorphism to arrays forgets the power, the other one multiplies by it, so every branch of the radial routines, including the ones through square roots, commutes with the scaling; blocks, products and sums on the whole space follow. RWC_alam: the energy scales, and the minimum is unique (C74, C67). Outcome: For coefficients of operators that are functions of the state; C104_alam compares two calls that both succeed. C104_alam36_fails: RWC_alam36 is not covariant (finding 17). Theorems: `C104_radial`, `C104_prod`, `C104_rep`, `C104_dig`, `C104_hamiltonian`, `C104_rwc`, `C104_alam`, `C104_alam_fun`, `C104_alam36_fails`.
* **C105** Results do not depend on the eigenvalue routine - **proved**. Approach: For two orthonormal eigenbases P, Q of one matrix, R = Q^T P satisfies w_i R_ij = R_ij v_j, so P g(v) P^T = Q g(w) Q^T for every function g: square roots agree, and by induction over products and sums all matrices; sorted eigenvalues agree as lists. The sums of squares are traces of g(H) T k(K) T^T. Outcome: C105_rates and C105_amplitudes for tame Hamiltonians (for others AmpXspeig raises, C73_fails); C105_sqrt, C105_rep and C105_energies without restriction. Theorems: `C105_sqrt`, `C105_rep`, `C105_energies`, `C105_rates`, `C105_signs`, `C105_amplitudes`.
* **C106** Transitions in the two directions (detailed balance) - **proved**. Approach: Element by element: the reduced element of one harmonic between different seniorities is reciprocal by C97_harmonic and vanishes between equal ones by the selection rule of C65; the radial factors are equal by good_symm. A basis change P^T B Q keeps the relation for each pair of angular momenta. Outcome: For harmonics of odd seniority only: for the others the elements between states of the same seniority depend on the symmetry of the files, which the program does not check (C97_fails). Theorems: `C106_matrix`, `C106_amplitudes`, `C106_rates`, `C106_quad`.
* **C107** The unit and the zero of the energy - **proved**. Approach: Compose the eigenvalue routine with e -> (e - d)/c: eigenvalues of cM + d found by a routine are c times those another admissible routine finds for M, plus d, with the same vectors. So a run for cH + d with a routine is a run for H with another one, and C105 says what does not depend on the routine. The matrices of cH + d are c times those of H plus d times the unit matrix by linearity of RepXspace. Outcome: For ACM_Adapt the lists of rates and amplitudes to display are empty; for negative c nothing is claimed (the order of the levels is reversed). Theorems: `C107_scale`, `C107_shift`, `C107_rates`, `C107_rates_shift`, `C107_hamiltonian`, `C107_adapt`, `C107_adapt_shift`.
* **C108** Operators that are functions of the quantum numbers - **proved**. Approach: The matrix of an empty product is the unit matrix, so the matrix of such an operator is diagonal with the values of the function; the eigenvalues of a diagonal matrix are its entries (diag_perm). The labels come from C27. Outcome: For all functions of the four quantum numbers. Theorems: `C108_energies`, `C108_numbers`.
* **C109** Repeating a calculation - **proved**. Approach: A relational program logic (Twin): two runs of the same procedure from states with the same settings. It is closed under sequencing, branching, printing and assignments to settings; the only place where memo tables are read is RepXspace, where tracks_rep (C31) says that they do not matter. For the second claim the state after the fit is written down, and each fit is shown to reproduce itself. Outcome: Memo tables that are not current are excluded (C31_fails); glb_nu_lap, which nothing sets to anything but 0, is assumed to be 0. Theorems: `C109_settings`, `C109_after_adapt`, `C109_scale_twice`.
* **C110** What the displays of ACM_Adapt depend on - **proved**. Approach: A second relational logic (Pair, Par) in which the two runs may have different scale factors, and matrix elements agree up to the given factors. The fits divide out the factors; C105 (routine), C107 (unit and zero) and C73 (blocks of the transition operator) supply the relation between the matrix elements. Outcome: Amplitudes change their sign with the eigenvectors, so the first two parts are about energies and rates; degenerate levels are excluded there since the routine may choose any basis for them. Theorems: `C110_units`, `C110_zero`, `C110_norm`, `C110_rate_functions`, `C110_amplitude_functions`, `C110_default_scale`.
* **C111** Prolate and oblate: inversion of the coordinates - **proved**. Approach: By C102 the matrix of a term connects only states whose seniorities differ by the parity of the term, so its conjugation with the signs of the states multiplies it by (-1)^n. The matrix of a sum, and the blocks of DigXspace, are conjugated by a diagonal orthogonal matrix; the eigenvectors for the second Hamiltonian, with rows multiplied by the signs, are another basis of eigenvectors for the first, and C105 compares two such bases. Outcome: Degenerate levels are compared by sums over them (strength, moment), since the eigenvalue routine may choose any basis. Theorems: `C111_matrix`, `C111_energies`, `C111_rates`, `C111_even`, `C111_odd`, `C111_hamiltonian`, `C111_sh3`, `C111_sh6`, `C111_rigid`, `C111_rwc`, `C111_quadrupole`, `C111_adapt`.
* **C112** Linearity and sum rules - **proved**. Approach: By C30 the matrix of a sum of terms is the sum of the coefficients at the column state times the matrices of the products; regrouping by products gives linearity. Trace and sum of squares do not change under an orthogonal change of basis, which C70 and C73 give for levels and transitions. Outcome:  Theorems: `C112_matrix`, `C112_combination`, `C112_hamiltonian`, `C112_energies`, `C112_exists`, `C112_linear`, `C112_strength`.
* **C113** Energies of a sum of Hamiltonians - **proved**. Approach: By C112 the matrix that is diagonalised for C is the same combination of the matrices for A and B. Weyl's inequalities follow from a dimension count: eigenvectors of A from level i on, of B from level j on and of C up to level i+j span spaces with a common nonzero vector. For negative coefficients the order of the levels of B is reversed. Outcome:  Theorems: `C113_weyl`, `C113_concave`, `C113_shift`.
* **C114** Energies and diagonal elements - **proved**. Approach: In the eigenbasis a diagonal element is a convex combination of the energies; the weights of an energy over the chosen states sum to at most 1 and all weights to k, so the sum is smallest when the k lowest energies have weight 1. The upper bound is the lower bound for the complement, with the trace (C112). Outcome:  Theorems: `C114_diagonal`, `C114_between`.
* **C115** The formulas of the paper, and the energy of the ground state - **proved**. Approach: C112 splits the matrix into the radial part, the term with cos 3 gamma and the term with its square. The first is computed from the closed forms of the radial elements, the second vanishes as it changes the seniority by an odd number (C102), the third is the square of one element of Y310, whose reduced matrix element is known (C72, C65). Then C114 bounds the ground state, and C74 gives the minimum. Outcome: The minimum over the widths uses C74, so it needs B, c2 > 0. Theorems: `C115_formulas`, `C115_element`, `C115_ground`, `C115_alam`.
* **C116** Displaying the results again - **partial**. Approach: Split the run into diagonalisation, energies and transitions; each display depends on the settings in force at its end only, and these are not changed afterwards. The failing case is a concrete run (C97 machinery) and the definition of the defaults. Outcome: The property fails for arguments left out, which the documentation says stand for the current settings: defaults are evaluated at import (C116_fails, C116_fails_eigs, C116_omitted_lists). Theorems: `C116_redisplay_partial`, `C116_omitted_lists`, `C116_fails`, `C116_fails_eigs`.
* **C117** The examples of the worksheet give the same in every session - **proved**. Approach: All examples descend from Example_1_2, which starts with ACM_set_defaults, so the settings at the start of a calculation depend on three globals only, which no procedure changes (induction over the session). The Hamiltonians and the quadrupole operator contain no momenta, so the memo tables are not read; the calculation then depends on the settings only (relation between two runs). Outcome: The times and the markers printed are not modelled. Theorems: `C117_any_session`, `C117_any_state`, `C117_reference`, `C117_settings`, `C117_unset`, `C117_not_restored`, `C117_printed`, `C117_hamiltonian`.
* **C118** The memo tables of the radial procedures change no result, and arrays handed out are not changed - **proved**. Approach: A memory of arrays with references and views, in which the procedures are written again with their changes in place. Simulation by the procedures without tables: the tables stay good (every array in them has the right entries and is not owned by a caller), memory only grows except for the one array that the sum of RepRadial_LC_common is building, which is in no table. Outcome: The dtype of an array is computed beside it, not stored with it; equal keys of different types (1, 1.0, True) are one key. Theorems: `C118_history`, `C118_history_prod`, `C118_history_lc`, `C118_keeps`, `C118_fresh`, `C118_remember`, `C118_again`, `C118_cleared`, `C118_shared`.
* **C119** Which matrix elements of a power of beta are exact on a truncated space - **proved**. Approach: The factors of a power are m times beta^2 after r steps of beta. All their elements are non-negative, so a product on a truncated range is smaller than the full product exactly if some path of non-zero elements leaves the range. The reach of such paths is computed. The full product gives the integrals by the recursions of the Laguerre functions (C90, C92). Outcome: Powers of at least |r| and of the same parity as r. For other powers the square roots of beta^2 are taken on the truncated space. Theorems: `C119_window`, `C119_power`, `C119_overlap`, `C119_corner`, `C119_space`.
* **C120** The printed tables show the computed values correctly rounded - **proved**. Approach: A model of str.format (scan of the template, numbering of fields, format specifications) and of the fixed-point conversion. Templates are sequences of plain text and fields; the scan of such a sequence is evaluated by induction. Rounding to nearest with ties to even is monotone; a text determines its number, and texts without commas can be read from a line. Outcome: Real numbers for floats, so no -0.0, inf or nan; CPython rounds the exact binary value, which is what the model does with a real. Theorems: `C120_eigs`, `C120_order`, `C120_readback`, `C120_mel`, `C120_row`, `C120_head`, `C120_rat_fit`, `C120_lst`, `C120_session`.
* **C121** Printed lines close their brackets and formats are used as given - **partial**. Approach: The lines are known exactly by C120; brackets are counted, decimal numbers contain none. Outcome: The code violates the property. The head of a table of absolute eigenvalues does not close its bracket (full_space.py:504; C121_bracket_fails, for all settings); def_mel_format prints a percent sign (globals.py:227; C121_percent_fails, every line); an escaped brace raises when the line is printed (C121_escape_fails). C121_balanced_partial covers all other lines. Theorems: `C121_bracket_fails`, `C121_percent_fails`, `C121_escape_fails`, `C121_balanced_partial`.
* **C122** Exactly when the matrix of a power of beta times spherical operators is symmetric - **proved**. Approach: By C119 an element equals the integral, which is the same in both directions, exactly if it is not lost; an element is found that is lost in one direction only. Without a change of lambda the matrix is a power of the symmetric tridiagonal matrix of beta^2. Outcome: Powers of at least |r| and of the same parity as r, as in C119. Theorems: `C122_radial`, `C122_space`, `C122_acm`.
* **C123** The messages of the setting procedures tell the settings - **partial**. Approach: Simulation of the model without messages; the messages are products of fixed words and decimal numbers, which are cancelled from the left. Outcome: Code violates it: what `ACM_set_defaults` prints depends on the earlier designation of the rates (`C123_defaults_fails`), the announcements of formats show the format with empty fields (`C123_preview_fails`), and `ACM_set_rat_form` does not tell the designation (`C123_desg_fails`). Theorems: `C123_settings`, `C123_silent`, `C123_output`, `C123_listln`, `C123_datum`, `C123_eig_fit`, `C123_rat_fit`, `C123_basis`, `C123_refused`, `C123_lists`, `C123_defaults_partial`, `C123_defaults_fails`, `C123_preview_fails`, `C123_desg_fails`, `C123_scales`, `C123_transition_partial`, `C123_functions`.
* **C124** What show_CG_file prints are the coefficients that are used - **partial**. Approach: From C80 (the list of lines) and C52 (the coefficient looked up): labels are distinct, so each line pairs a label with the looked-up number; reading back by splitting at newlines. Outcome: Code violates it: for v2 = 0 a data file is read although `CG_SO5r3` needs none (`C124_scalar_fails`), and a file with more numbers than labels is announced with its own length while only the labelled numbers are printed (`C124_count_fails`). Theorems: `C124_values_partial`, `C124_read`, `C124_scalar_fails`, `C124_count_fails`.
* **C125** Eigenvectors returns all eigenvalues with a basis of eigenvectors, exactly when there is a real one - **proved**. Approach: A real matrix with a complex eigenbasis for real eigenvalues has a real one: det(Re P + t Im P) is a polynomial in t that is not zero at t = i, so not at all real t. Characteristic polynomials of similar matrices agree. Outcome: SymPy's `diagonalize` is a parameter with its documented contract (M P = P D, P invertible, D diagonal; that it returns for every diagonalisable matrix is a hypothesis of C125_returns, C125_refused and C125_symmetric); numbers are exact. Theorems: `C125_eigen`, `C125_returns`, `C125_refused`, `C125_symmetric`.
* **C126** The diagonal amplitude of an operator in a level is the derivative of the energy of that level - **proved**. Approach: The block (L, L) of the matrix on the range is the matrix for L alone (C103, positions of the blocks), so AmpXspeig gives the matrix of B between the eigenvectors of A (C73). The bound is the inequality of C114 in the basis of the eigenvectors of A. For the derivative: the sum of the k lowest energies minus d times the sum of the g_i is largest at d = 0, so its derivative there is 0. Outcome: Numbers are exact; the diagonalisation and the inverse are parameters with their contract. Theorems: `C126_levels`, `C126_between`, `C126_derivative`.
* **C127** The memo table of RepRadialshfs_Prod is keyed by the operators themselves - **proved**. Approach: The methods are decided by cases. The dict is a list of entries with stored hash values; invariant: every entry is a result of the function under the hash of its key. Induction over the calls, for any rearrangement of the entries that keeps those with the hash value. Outcome: functools.cache and the dict are modelled (calls by position; no nan among the floats); numbers are exact. The procedure itself is a parameter: that it is a function of its arguments is C118. Theorems: `C127_equal`, `C127_arguments`, `C127_hash`, `C127_new`, `C127_calls`.
* **C128** In a basis of constant lambda, amplitudes of a product of operators are sums over intermediate states - **proved**. Approach: In a basis of constant lambda an element of RepXspace_Twin is a number times an angular element times a radial element (C28), and the angular matrix of a joined product is the product of the angular matrices; with no radial factors on the right the radial matrix there is the identity. RepXspace is linear in the terms. For the amplitudes, the sum over the states of the range is split into the blocks of angular momenta, and in each block the product of the eigenvectors and their transpose, which is 1, is inserted. Outcome: Numbers are exact; the diagonalisation and the inverse are parameters with their contract. The second factor has no radial operators: the radial basis is truncated, so that products of radial matrices are not matrices of products. Theorems: `C128_matrix`, `C128_amplitudes`.
* **C129** The levels in a space and in a larger one interlace - **proved**. Approach: The matrix on the first space is a part of that on the second (from C96). The lower bound is that of C96; the upper one is the same inequality for the negative of the matrices, with the levels numbered from above. Outcome: Numbers are exact; the diagonalisation is a parameter with its contract. For products of several radial operators it is wrong already for the lower bound (C96_fails). Theorems: `C129_interlace`, `C129_acm`.
* **C130** Hamiltonians that do not depend on the angles: levels come in SO(5) multiplets - **proved**. Approach: By C28 and C30 the matrix for one L is block diagonal, one block for each state on the sphere, and the block depends on its seniority only. Its characteristic polynomial is the product of those of the blocks; the levels are its roots. Outcome: Numbers are exact; the diagonalisation is a parameter with its contract. Theorems: `C130_multiplets`, `C130_acm`.
* **C131** Truncation never takes an energy below the exact ground state - **proved**. Approach: Write the radial Hamiltonian without beta^4 minus the bound as A^T A, with A the infinite matrix of s (d/dbeta - (mu - 1/2)/beta) + t beta from the basis for lambda to that for lambda + 1, using the products of the radial matrices (Lemmas/RadialDb.lean); the truncated form is then a sum of squares, as is beta^4, which the program represents by the square of a symmetric matrix. The levels are eigenvalues of the blocks of C130. Outcome: Numbers are exact; the diagonalisation is a parameter with its contract. Theorems: `C131_lowest`.
* **C132** Energies converge when the range of nu grows - **proved**. Approach: The spaces for growing nu_max are nested and the Hamiltonian has one radial operator per term, so no energy rises (C96); all energies have a common lower bound (C131); a falling sequence that is bounded below converges to its infimum. Two runs in the same space from different memo tables agree by C96 in both directions. Outcome: Numbers are exact; the diagonalisation is a parameter with its contract. The value of the limit is not identified. Theorems: `C132_converges`.
* **C133** The lowest energies converge to the exact ones in a basis of any width - **proved**. Approach: The exact ground state for seniority v has the expansion t^n sqrt((lambda)_n / n!) in the basis of another width, with |t| < 1. By induction on the length, the energy of the truncated expansion exceeds the exact one by (P - Q)^2 (lambda + N) psi_N^2, which vanishes by the ratio test; the lowest eigenvalue is not above the energy of any vector. The lower bound is C132 (from C131). Outcome: Numbers are exact; the diagonalisation is a parameter with its contract. Only the lowest energy for each L; for the others see C134. Theorems: `C133_ground`.
* **C134** All energies converge to the exact ones in a basis of any width - **proved**. Approach: For each seniority the truncated matrix is A^T A + 2PQ lambda with a bidiagonal A, and the square truncation of A A^T is that of lambda + 1, so that by induction on k its k-th eigenvalue is at least 2PQ (lambda + 2k). From above: the exact k-th eigenvector is obtained from the ground state for lambda + k by the raising operators, decays geometrically, and so nearly is an eigenvector of the truncated matrix, which puts an eigenvalue near each exact one. The energies for L are the union over the states with their multiplicity (as C130), and counting how many lie below a number carries the bounds over to the merged ordered lists. Outcome: Numbers are exact; the diagonalisation is a parameter with its contract. Extends C133 from the lowest energy to all of them. Theorems: `C134_levels`.
* **C135** A bound on the error of the lowest energies in a basis of any width - **proved**. Approach: The lower bound is C131. From above: the energy of the truncated expansion of the exact ground state (as in C133), whose last coefficient squared is t^(2N) (lambda)_N / N! by induction. Outcome: Numbers are exact; the diagonalisation is a parameter with its contract. The error of floating point arithmetic is not modelled. Theorems: `C135_error`.
* **C136** How close the energy of a trial state is to a level - **proved**. Approach: Expand w in the orthonormal eigenvectors of H (C70): the sums over the components become sums of (E - m)^2 and of E with weights that add up to the square of the length of w. Temple: (E - E_0)(E - b) is nonnegative for every level. Outcome: Numbers are exact; the diagonalisation is a parameter with its contract. Theorems: `C136_residual`, `C136_element`, `C136_temple`.
* **C137** Where the levels lie: rows of the matrix and spaces of trial states - **proved**. Approach: Rows: the columns of the orthogonal matrix of C70 are eigenvectors, so the theorem of Gershgorin applies. Upper bound: k linear conditions on k + 1 coefficients leave a combination orthogonal to the first k eigenvectors. Attained: the first k + 1 eigenvectors. Outcome: Numbers are exact; the diagonalisation is a parameter with its contract. Theorems: `C137_rows`, `C137_upper`, `C137_lower`, `C137_attained`.
* **C138** Amplitudes between states of different energy, and conserved quantities - **proved**. Approach: The block of amplitudes is the matrix of the operator turned to the eigenvectors (C126). Between eigenvectors the commutator is the amplitude times the difference of the energies, and a rotation keeps the sum of the squares of the elements. Outcome: Numbers are exact; the diagonalisation is a parameter with its contract. Theorems: `C138_weighted`, `C138_conserved`.
