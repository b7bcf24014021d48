import Verif.Model.Compat
import Mathlib.Algebra.Order.Field.Basic
import Mathlib.Data.Int.Cast.Basic

/-!
# Model of the radial product machinery of `src/acmpy/radial_space.py`

`Lambda_Splits`, `RepRadial_bS_DS`, the `KTOp`/`SOp` classes, `Parse_RadialOp_List`,
`Lambda_RadialOp_List`, `RepRadialshfs_Prod`, `RepRadial_Prod` and `RepRadial_LC`.

The functions that multiply matrices are written once, over an arbitrary
"radial algebra" `RadAlg M`: which matrices the primitives return, and how matrices are
multiplied, scaled and created.  Running the *same* code with real matrices gives the
numbers (`Verif/Model/Radial.lean`); running it with formal words records which primitive
matrix is used where (`Verif/Spec/RadialWords.lean`).

Simplifications: `lambdaa` (a float) ranges over a linearly ordered field `F`;
`functools.cache` is dropped for these functions, whose results depend on their
arguments only (see C31); messages of exceptions are not modelled.
-/

namespace Acm

/-- radial_space.py lines 32-41, 51-55: the symbols accepted in a radial operator
product, and (`other`) any other symbol. -/
inductive RadSym where
  | Sm | S0 | Sp | b2 | bm2 | D2b | bDb | b | bm | Db
  | other
  deriving DecidableEq, Repr

/-- The matrix-element functions passed to `RepRadial`: radial_space.py lines 127-439
and `ME_Radial_b2` of radial_operators.py lines 45-53. -/
inductive RadME where
  | Sm | S0 | Sp | b2 | bm2 | D2b | bDb
  | b_pl | bm_pl | Db_pl | b_ml | bm_ml | Db_ml
  deriving DecidableEq, Repr

/-- What the product code needs from matrices, for one fixed range `nu_min..nu_max` and
one value of `anorm`. -/
structure RadAlg (F M : Type) where
  /-- `RepRadial(ME, lambdaa, nu_min, nu_max)`, radial_space.py lines 714-724. -/
  rep : RadME → F → Py M
  /-- `RepRadial_param(ME_Radial_id_pl, lambdaa, nu_min, nu_max, r)`, lines 741-750. -/
  id_pl : F → Int → Py M
  /-- `RepRadial_param(ME_Radial_id_ml, lambdaa, nu_min, nu_max, r)`. -/
  id_ml : F → Int → Py M
  /-- `RepRadial_b2_sqrt(lambdaa, nu_min, nu_max)`, lines 753-763. -/
  b2_sqrt : F → Py M
  /-- `RepRadial_b2_sqrtInv(lambdaa, nu_min, nu_max)`, lines 766-772. -/
  b2_sqrtInv : F → Py M
  /-- `A @ B`. -/
  mul : M → M → M
  /-- `A * anorm ** k` (`A / anorm ** -k` for negative `k`). -/
  scale : Int → M → M
  /-- `np.eye(nu_max - nu_min + 1)`. -/
  eye : M

/-- radial_space.py lines 1300-1328 `Lambda_Splits`. -/
def Lambda_Splits (K T R : Int) : Py (List Int) := do
  require_nonnegint T
  let KT : Int := |K| + T
  let IR : Int := |R| - KT
  let shifts ←
    if IR > 0 then
      if is_even IR then pure (IR :: pyRep 1 KT)
      else if KT > 0 then pure ((IR + 1) :: 0 :: pyRep 1 (KT - 1))
      else pure [IR]
    else do
      let Z ← iquo (-IR) 2
      let T2 ← iquo T 2
      let ZT := min Z T2
      let shifts : List Int :=
        pyRep 0 (KT - |R| - 2 * ZT) ++ pyRep 1 |R| ++ pyRep 0 (2 * ZT)
      if K < 0 ∧ R = 0 ∧ is_odd T then do
        let shifts ← pySet shifts (-K - 1) 1
        pySet shifts (-K) (-1)
      else pure shifts
  if R < 0 then pure (shifts.map fun s => -s) else pure shifts

section
variable {F M : Type} [Field F] [LinearOrder F]

/-- radial_space.py lines 1136-1229: the branch of the `while` loop that selects the
matrix for factor `i` (1-based) and the number `imm` of factors it consumes. -/
def bS_DS_select (A : RadAlg F M) (K : Int) (lam_splits : List Int) (i : Nat)
    (lambda_run : F) : Py (M × Nat) := do
  let split ← pyGet lam_splits (i - 1)
  if split > 0 then
    if i ≤ K then do
      pyAssert (K > 0)
      let Mat ← A.rep .b_pl lambda_run
      pure (A.scale (-1) Mat, 1)
    else if i ≤ -K then do
      pyAssert (K < 0)
      let Mat ← A.rep .bm_pl lambda_run
      pure (A.scale 1 Mat, 1)
    else do
      pyAssert (i > |K|)
      let Mat ← A.rep .Db_pl lambda_run
      pure (A.scale 1 Mat, 1)
  else if split < 0 then
    if i ≤ K then do
      pyAssert (K > 0)
      let Mat ← A.rep .b_ml lambda_run
      pure (A.scale (-1) Mat, 1)
    else if i ≤ -K then do
      pyAssert (K < 0)
      let Mat ← A.rep .bm_ml lambda_run
      pure (A.scale 1 Mat, 1)
    else do
      pyAssert (i > |K|)
      let Mat ← A.rep .Db_ml lambda_run
      pure (A.scale 1 Mat, 1)
  else if i > 1 ∧ pyGet lam_splits (i - 2) = .ok 0 then
    if i ≤ K then do
      pyAssert (K > 0)
      let Mat ← A.rep .b2 lambda_run
      pure (A.scale (-2) Mat, 2)
    else if i ≤ -K then do
      pyAssert (K < 0)
      let Mat ← A.rep .bm2 lambda_run
      pure (A.scale 2 Mat, 2)
    else if i = K + 1 then do
      pyAssert (K > 0)
      let Mat ← A.rep .bDb lambda_run
      pure (Mat, 2)
    else if i = -K - 1 then
      throw .valueError
    else do
      let Mat ← A.rep .D2b lambda_run
      pure (A.scale 2 Mat, 2)
  else
    if i ≤ K then do
      pyAssert (K > 0)
      let Mat ← A.b2_sqrt lambda_run
      pure (A.scale (-1) Mat, 1)
    else if i ≤ -K then do
      pyAssert (K < 0)
      let Mat ← A.b2_sqrtInv lambda_run
      pure (A.scale 1 Mat, 1)
    else do
      pyAssert (i > |K|)
      let Mat ← A.b2_sqrtInv lambda_run
      let Mat2 ← A.rep .bDb lambda_run
      pure (A.scale 1 (A.mul Mat Mat2), 1)

/-- Reading a local variable that may not have been assigned yet. -/
def readVar {α : Type} : Option α → Py α
  | none => throw .nameError
  | some x => pure x

/-- radial_space.py lines 1231-1234: update of `Mat_product`; `none` is a `Mat_product`
not yet assigned (`UnboundLocalError`, a `NameError`, when read). -/
def bS_DS_update (A : RadAlg F M) (n : Nat) (lamX : Int) (i : Nat) (Mat : M)
    (Mat_product : Option M) : Py M :=
  if i = n ∧ lamX ≥ 0 then pure Mat
  else do
    let P ← readVar Mat_product
    pure (A.mul Mat P)

/-- radial_space.py lines 1134-1237: the `while` loop, from factor `i` down. -/
def bS_DS_loop (A : RadAlg F M) (K : Int) (lam_splits : List Int) (n : Nat) (lamX : Int) :
    Nat → F → Option M → Py (F × Option M)
  | 0, lambda_run, Mat_product => pure (lambda_run, Mat_product)
  | i + 1, lambda_run, Mat_product => do
    let (Mat, imm) ← bS_DS_select A K lam_splits (i + 1) lambda_run
    let P ← bS_DS_update A n lamX (i + 1) Mat Mat_product
    let split ← pyGet lam_splits i
    let lambda_run := lambda_run + (split : F)
    if imm = 1 then bS_DS_loop A K lam_splits n lamX i lambda_run (some P)
    else match i with
      | 0 => pure (lambda_run, some P)
      | j + 1 => bS_DS_loop A K lam_splits n lamX j lambda_run (some P)

/-- radial_space.py lines 1239-1250: the end of `RepRadial_bS_DS`, after the loop. -/
def bS_DS_finish (A : RadAlg F M) (n : Nat) (lamX : Int) (lambda_run : F)
    (Mat_product : Option M) : Py M := do
  let Mat_product ←
    if lamX > 0 then do
      pyAssert (is_even lamX)
      let Mat ← A.id_pl lambda_run (Int.fdiv lamX 2)
      if n > 0 then do
        let P ← readVar Mat_product
        pure (some (A.mul Mat P))
      else pure (some Mat)
    else pure Mat_product
  readVar (if n = 0 ∧ lamX = 0 then some A.eye else Mat_product)

/-- radial_space.py lines 1077-1250 `RepRadial_bS_DS` (`anorm`, `nu_min`, `nu_max` are
those of the algebra `A`). -/
def RepRadial_bS_DS (A : RadAlg F M) (K T : Int) (lambdaa : F) (R : Int) : Py M := do
  if lambdaa ≤ 0 ∨ lambdaa + (R : F) ≤ 0 then throw .valueError
  else if K = 0 ∧ T = 0 ∧ is_odd R then
    if R < 0 then do
      let P ← A.b2_sqrt (lambdaa + (R : F))
      let Mat ← A.rep .bm_ml (lambdaa + (R : F) + 1)
      let P := A.mul P Mat
      if R < -1 then do
        let Mat ← A.id_ml lambdaa (Int.fdiv (-(R + 1)) 2)
        pure (A.mul P Mat)
      else pure P
    else do
      let P ← A.b2_sqrt lambdaa
      let Mat ← A.rep .bm_pl lambdaa
      let P := A.mul Mat P
      if R > 1 then do
        let Mat ← A.id_pl (lambdaa + 1) (Int.fdiv (R - 1) 2)
        pure (A.mul Mat P)
      else pure P
  else do
    let lam_splits ← Lambda_Splits K T R
    let n : Nat := (|K| + T).toNat
    let lamX : Int := if lam_splits.length > n then lam_splits.headD 0 else 0
    let lam_splits := if lam_splits.length > n then lam_splits.tail else lam_splits
    pyAssert (lam_splits.length = n)
    let start ←
      if lamX < 0 then do
        pyAssert (is_even lamX)
        let Mat ← A.id_ml lambdaa (Int.fdiv (-lamX) 2)
        pure (lambdaa + (lamX : F), some Mat)
      else pure (lambdaa, none)
    let (lambda_run, Mat_product) ← bS_DS_loop A K lam_splits n lamX n start.1 start.2
    bS_DS_finish A n lamX lambda_run Mat_product

/-- radial_space.py lines 1343-1401: the classes `KTOp` (fields `K`, `T`) and `SOp`
(field `S`, here `s`). -/
inductive KTSOp where
  | KT (K T : Int)
  | S (s : Int)
  deriving DecidableEq, Repr

/-- radial_space.py lines 1371-1375 and 1393-1401: the method `representation`. -/
def KTSOp.representation (A : RadAlg F M) (op : KTSOp) (lambdaa : F) (R : Int) : Py M :=
  match op with
  | .KT K T => RepRadial_bS_DS A K T lambdaa R
  | .S s => do
    if R ≠ 0 then throw .valueError
    else do
      let ME ← pyGet [RadME.Sm, RadME.S0, RadME.Sp] (s + 1)
      A.rep ME lambdaa

/-- radial_space.py lines 1492-1502: the loop of `RepRadialshfs_Prod`, run from the last
factor to the first; it returns `lambda_run` and `Mat_product`.  The model recurses on the
lists: the tail is processed first. -/
def RepRadialshfs_loop (A : RadAlg F M) (lambdaa : F) :
    List KTSOp → List Int → Py (F × Option M)
  | [], _ => pure (lambdaa, none)
  | _ :: _, [] => throw .indexError
  | r_op :: ops, R :: shfs => do
    let (lambda_run, Mat_product) ← RepRadialshfs_loop A lambdaa ops shfs
    let Mat ← r_op.representation A lambda_run R
    pure (lambda_run + (R : F),
      match Mat_product with
      | none => some Mat
      | some P => some (A.mul Mat P))

/-- radial_space.py lines 1477-1504 `RepRadialshfs_Prod`. -/
def RepRadialshfs_Prod (A : RadAlg F M) (rps_op : List KTSOp) (lambdaa : F)
    (lambda_shfs : List Int) : Py M := do
  let (_, P) ← RepRadialshfs_loop A lambdaa rps_op lambda_shfs
  match P with
  | none => pure A.eye
  | some P => pure P

end

/-- The local variables of `Parse_RadialOp_List`, radial_space.py lines 1788-1790. -/
structure ParseState where
  POp_List : List KTSOp
  T : Int
  K : Int
  deriving DecidableEq, Repr

/-- `KTOp(K, T)` with the check of its constructor, radial_space.py lines 1358-1363. -/
def mkKTOp (K T : Int) : Py KTSOp := do
  require_nonnegint T
  pure (.KT K T)

/-- radial_space.py lines 1800-1803 (`if K != 0 or T > 0: ...`). -/
def parseFlush (s : ParseState) : Py ParseState :=
  if s.K ≠ 0 ∨ s.T > 0 then do
    let op ← mkKTOp s.K s.T
    pure ⟨op :: s.POp_List, 0, 0⟩
  else pure s

/-- radial_space.py lines 1798-1825: one pass of the loop body. -/
def parseStep (s : ParseState) (op : RadSym) : Py ParseState :=
  let S_case (idx : Int) : Py ParseState := do
    let s ← parseFlush s
    pure { s with POp_List := .S (idx - 2) :: s.POp_List }
  let D_case (idx : Int) : Py ParseState := do
    let s ← if s.K ≠ 0 then (do
        let op ← mkKTOp s.K s.T
        pure (⟨op :: s.POp_List, 0, 0⟩ : ParseState)) else pure s
    pure { s with T := s.T + idx }
  match op with
  | .Sm => S_case 1
  | .S0 => S_case 2
  | .Sp => S_case 3
  | .Db => D_case 1
  | .D2b => D_case 2
  | .bDb => do
    let s ← if s.K ≠ 0 then (do
        let op ← mkKTOp s.K s.T
        pure (⟨op :: s.POp_List, 0, s.K⟩ : ParseState)) else pure s
    pure { s with T := s.T + 1, K := 1 }
  | .b => pure { s with K := s.K + 1 }
  | .b2 => pure { s with K := s.K + 2 }
  | .bm => pure { s with K := s.K - 1 }
  | .bm2 => pure { s with K := s.K - 2 }
  | .other => throw .valueError

/-- radial_space.py lines 1787-1830 `Parse_RadialOp_List`. -/
def Parse_RadialOp_List (rs_op : List RadSym) : Py (List KTSOp) := do
  let s ← rs_op.reverse.foldlM parseStep ⟨[], 0, 0⟩
  if s.K ≠ 0 ∨ s.T > 0 then do
    let op ← mkKTOp s.K s.T
    pure (op :: s.POp_List)
  else pure s.POp_List

/-- radial_space.py lines 1962-1968: the entry of `max_vars` of an operator. -/
def KTSOp.maxVar : KTSOp → Int
  | .KT K T => |K| + T
  | .S _ => 0

/-- `isinstance(op, KTOp)`. -/
def KTSOp.isKT : KTSOp → Bool
  | .KT _ _ => true
  | .S _ => false

/-- radial_space.py lines 1980-1985: flip leading ones to `-1` until
`lambda_rem >= odd_count`.  The loop runs over the list; the arguments are the rest of the
list and the current `odd_count`. -/
def lambdaFlip (lambda_rem : Int) : List Int → Int → List Int
  | [], _ => []
  | x :: xs, odd_count =>
    if lambda_rem ≥ odd_count then x :: xs
    else if x = 1 then -1 :: lambdaFlip lambda_rem xs (odd_count - 2)
    else x :: lambdaFlip lambda_rem xs odd_count

/-- radial_space.py lines 1996-2001: the loop that hands out even shifts.  `todo` are the
`(max_var, odd_var)` still to come, `i0` the index reached, `last` the value of the loop
variable so far.  Returns the new entries, the final `lambda_rem` and the final value of
the loop variable `i0` (which line 2007 reads after the loop). -/
def lambdaFill : List (Int × Int) → Int → Int → Int → Py (List Int × Int × Int)
  | [], _, lambda_rem, last => pure ([], lambda_rem, last)
  | (max_var, odd_var) :: todo, i0, lambda_rem, _ =>
    if lambda_rem ≤ 0 then
      pure (odd_var :: todo.map Prod.snd, lambda_rem, i0)
    else do
      let q ← iquo (min (lambda_rem + 1) (max_var - odd_var)) 2
      let var := 2 * q
      let (rest, rem, last) ← lambdaFill todo (i0 + 1) (lambda_rem - var) i0
      pure ((odd_var + var) :: rest, rem, last)

/-- `xs[i] += d`. -/
def pyAddAt (xs : List Int) (i d : Int) : Py (List Int) := do
  let x ← pyGet xs i
  pySet xs i (x + d)

/-- `xs.index(1)` when present. -/
def indexOfOne : List Int → Option Nat
  | [] => none
  | x :: xs => if x = 1 then some 0 else (indexOfOne xs).map (· + 1)

/-- radial_space.py lines 1974-1976: `oddin`, the 1-based position of the first odd
monomial, if the parities of the shift and of the product differ, else 0. -/
def oddinOf (d : Int) (odd_vars : List Int) : Int :=
  if is_odd d then
    match indexOfOne odd_vars with
    | some j => 1 + (j : Int)
    | none => 0
  else 0

/-- radial_space.py lines 2016-2022: where the shift that does not fit into the product
goes. -/
def lambdaPlace (rsp_op : List KTSOp) (lambda_var lambda_rem : Int) (l : List Int) :
    Py (List Int) :=
  if lambda_rem > 0 then
    if lambda_var > 0 ∧ rsp_op.length > 0 ∧ (rsp_op.head?.map KTSOp.isKT) = some true then
      pyAddAt l 0 lambda_rem
    else if lambda_var < 0 ∧ 0 < rsp_op.length ∧
        (rsp_op.getLast?.map KTSOp.isKT) = some true then
      pyAddAt l (-1) lambda_rem
    else pure (lambda_rem :: l)
  else pure l

/-- radial_space.py lines 1978-2022: the list before the sign of `lambda_var` is
applied. -/
def lambdaAbsList (rsp_op : List KTSOp) (lambda_var : Int) (max_vars odd_vars : List Int) :
    Py (List Int) :=
  let lambda_rem := |lambda_var|
  let max_count := max_vars.sum
  let odd_count := odd_vars.sum
  let oddin := oddinOf (lambda_rem - max_count) odd_vars
  if lambda_rem < odd_count then
    let l := lambdaFlip lambda_rem odd_vars odd_count
    if oddin > 0 then pySet l (oddin - 1) 0 else pure l
  else if lambda_rem < max_count then do
    let r ← lambdaFill (max_vars.zip odd_vars) 0 (lambda_rem - odd_count) 0
    if r.2.1 < 0 then
      if oddin > 0 then pyAddAt r.1 (oddin - 1) (-1) else pyAddAt r.1 r.2.2 (-1)
    else pure r.1
  else if oddin > 0 then do
    let l ← pyAddAt max_vars (oddin - 1) (-1)
    lambdaPlace rsp_op lambda_var (lambda_rem - max_count + 1) l
  else lambdaPlace rsp_op lambda_var (lambda_rem - max_count) max_vars

/-- radial_space.py lines 1956-2027 `Lambda_RadialOp_List`. -/
def Lambda_RadialOp_List (rsp_op : List KTSOp) (lambda_var : Int) : Py (List Int) := do
  let max_vars := rsp_op.map KTSOp.maxVar
  let odd_vars ← max_vars.mapM (fun m => irem m 2)
  let lambda_list ← lambdaAbsList rsp_op lambda_var max_vars odd_vars
  if lambda_var ≥ 0 then pure lambda_list else pure (lambda_list.map fun x => -x)

section
variable {F M : Type} [Field F] [LinearOrder F]

/-- radial_space.py lines 1643-1652: the operators and shifts handed to
`RepRadialshfs_Prod`. -/
def RepRadial_Prod_plan (rbs_op : List RadSym) (lambda_var : Int) :
    Py (List KTSOp × List Int) := do
  let parsed_ops ← Parse_RadialOp_List rbs_op
  let lambda_shfs ← Lambda_RadialOp_List parsed_ops lambda_var
  if lambda_shfs.length > parsed_ops.length then
    if lambda_shfs.headD 0 > 0 then
      pure (.KT 0 0 :: parsed_ops, lambda_shfs)
    else
      pure (parsed_ops ++ [.KT 0 0], lambda_shfs.tail ++ [lambda_shfs.headD 0])
  else pure (parsed_ops, lambda_shfs)

/-- radial_space.py lines 1616-1663 `RepRadial_Prod` = `RepRadial_Prod_common`.
`A nu_min nu_max` is the matrix algebra on the range `nu_min..nu_max`, and
`slice rep a b` is `rep[a:b, a:b]`. -/
def RepRadial_Prod (A : Int → Int → RadAlg F M) (slice : M → Int → Int → M)
    (rbs_op : List RadSym) (lambdaa : F) (lambda_var nu_min nu_max nu_lap : Int) : Py M := do
  if lambdaa ≤ 0 then throw .valueError
  else if lambdaa + (lambda_var : F) ≤ 0 then throw .valueError
  else do
    let (parsed_ops, lambda_shfs) ← RepRadial_Prod_plan rbs_op lambda_var
    let nu_min_shift := min nu_lap nu_min
    let rep ← RepRadialshfs_Prod (A (nu_min - nu_min_shift) (nu_max + nu_lap)) parsed_ops
      lambdaa lambda_shfs
    if nu_lap = 0 then pure rep
    else pure (slice rep nu_min_shift (1 + nu_max - nu_min + nu_min_shift))

end

end Acm
