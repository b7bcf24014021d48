import Verif.Model.Radial

/-!
# Model of `ME_Radial` of `src/acmpy/radial_space.py`

One matrix element of one radial operator: a table of closed formulas, and a fallback on
`RepRadial_Prod`.  The symbol `Radial_id` is `none`, every other symbol is `some s`.
-/

namespace Acm

/-- radial_space.py lines 626-674 `ME_Radial`, with the check of `RadialBasis` (radial_bases.py
lines 15-22); `RadialOperator_b2(basis).matrix_element` (radial_operators.py lines 45-53) is
`ME_Radial_b2`.  The labels `mu_f`, `mu_i` are not negative. -/
noncomputable def ME_Radial (la : LinAlg) (radial_op : Option RadSym) (anorm lambdaa : ℝ)
    (lambda_var : Int) (mu_f mu_i : ℕ) : Py ℝ := do
  if lambdaa ≤ 0 then throw .valueError
  else if radial_op = some .b2 ∧ lambda_var = 0 then do
    let x ← ME_Radial_b2 lambdaa mu_f mu_i
    pure (x / anorm ^ 2)
  else if radial_op = some .bm2 ∧ lambda_var = 0 then do
    let x ← ME_Radial_bm2 lambdaa mu_f mu_i
    pure (x * anorm ^ 2)
  else if radial_op = some .D2b ∧ lambda_var = 0 then do
    let x ← ME_Radial_D2b lambdaa mu_f mu_i
    pure (x * anorm ^ 2)
  else if radial_op = some .bDb ∧ lambda_var = 0 then
    ME_Radial_bDb lambdaa mu_f mu_i
  else if radial_op = some .b ∧ lambda_var = 1 then do
    let x ← ME_Radial_b_pl lambdaa mu_f mu_i
    pure (x / anorm)
  else if radial_op = some .bm ∧ lambda_var = 1 then do
    let x ← ME_Radial_bm_pl lambdaa mu_f mu_i
    pure (x * anorm)
  else if radial_op = some .Db ∧ lambda_var = 1 then do
    let x ← ME_Radial_Db_pl lambdaa mu_f mu_i
    pure (x * anorm)
  else if radial_op = some .b ∧ lambda_var = -1 then do
    let x ← ME_Radial_b_ml lambdaa mu_f mu_i
    pure (x / anorm)
  else if radial_op = some .bm ∧ lambda_var = -1 then do
    let x ← ME_Radial_bm_ml lambdaa mu_f mu_i
    pure (x * anorm)
  else if radial_op = some .Db ∧ lambda_var = -1 then do
    let x ← ME_Radial_Db_ml lambdaa mu_f mu_i
    pure (x * anorm)
  else if radial_op = some .S0 ∧ lambda_var = 0 then
    ME_Radial_S0 lambdaa mu_f mu_i
  else if radial_op = some .Sp ∧ lambda_var = 0 then
    ME_Radial_Sp lambdaa mu_f mu_i
  else if radial_op = some .Sm ∧ lambda_var = 0 then
    ME_Radial_Sm lambdaa mu_f mu_i
  else if radial_op = none ∧ is_even lambda_var then
    if lambda_var ≥ 0 then
      ME_Radial_id_pl lambdaa mu_f mu_i (Int.fdiv lambda_var 2).toNat
    else
      ME_Radial_id_ml lambdaa mu_f mu_i (Int.fdiv (-lambda_var) 2).toNat
  else do
    let op_prod : List RadSym := match radial_op with | none => [] | some s => [s]
    let q ← iquo (|lambda_var| + 3) 2
    let MM ← RepRadialProd la anorm op_prod lambdaa lambda_var 0 (max mu_f mu_i : ℕ) q
    pure (MM.e mu_f mu_i)

end Acm
