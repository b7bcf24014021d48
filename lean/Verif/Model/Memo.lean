import Verif.Model.Radial

/-!
# The memo tables of `src/acmpy/radial_space.py`, with arrays as objects that can be shared and changed

The radial procedures are decorated with `functools.cache`: a second call with the same arguments returns *the same
array object* as the first.  Elsewhere in this model arrays are values and the tables are left out
(`Verif/Model/RadialWords.lean`, `Verif/Model/Radial.lean`).  Here the same procedures are written once more, with

* a memory of arrays, in which `A @ B`, `A * x`, `np.array`, `np.eye`, `np.zeros` store a new array and `A *= x`,
  `A += B` change one that is there;
* references: an array object is a stored array or a view `base[a:b, a:b]` of one, which shares its storage;
* the eight tables, as one dictionary whose keys are the procedure and its arguments.

Simplifications: floats are real numbers (so a key has one value of `lambdaa`, not the many that print alike), the
`dtype` of an array is not stored with it but computed by the procedures of `Verif/Model/Radial.lean`.
-/

namespace Acm.Memo

/-- A NumPy array object: the stored array number `base` (`win = []`), or the view `[a:b, a:b]` of it, or a view of
that view, and so on. -/
structure ARef where
  base : ℕ
  win : List (Int × Int)
  deriving DecidableEq

/-- The procedures that have a memo table, with their arguments: radial_space.py lines 714 `RepRadial`, 741
`RepRadial_param` (called with `ME_Radial_id_pl` and `ME_Radial_id_ml`), 753 `RepRadial_b2_sqrt`, 766
`RepRadial_b2_sqrtInv`, 1077 `RepRadial_bS_DS`, 1477 `RepRadialshfs_Prod`, 1719 `RepRadial_Prod_rem`, 2155
`RepRadial_LC_rem`. -/
inductive Key where
  | rep (ME : RadME) (lambdaa : ℝ) (nu_min nu_max : Int)
  | idPl (lambdaa : ℝ) (nu_min nu_max param : Int)
  | idMl (lambdaa : ℝ) (nu_min nu_max param : Int)
  | b2_sqrt (lambdaa : ℝ) (nu_min nu_max : Int)
  | b2_sqrtInv (lambdaa : ℝ) (nu_min nu_max : Int)
  | bS_DS (K T : Int) (anorm lambdaa : ℝ) (R nu_min nu_max : Int)
  | shfs (rps_op : List KTSOp) (anorm lambdaa : ℝ) (lambda_shfs : List Int) (nu_min nu_max : Int)
  | prod (rbs_op : List RadSym) (anorm lambdaa : ℝ) (lambda_var nu_min nu_max nu_lap : Int)
  | lc (rlc_op : List (ℝ × List RadSym)) (anorm lambdaa : ℝ) (lambda_var nu_min nu_max nu_lap : Int)

/-- The stored arrays and the memo tables. -/
structure HState where
  mem : List Arr
  tab : Key → Option ARef

/-- Nothing stored, nothing remembered: the state after the import of the module. -/
def HState.init : HState := ⟨[], fun _ => none⟩

/-- Procedures that use the memory and the tables. -/
abbrev HM := StPy HState

/-- The entries that are seen through an array object. -/
noncomputable def HState.read (s : HState) (r : ARef) : Arr :=
  r.win.foldl (fun A w => A.slice w.1 w.2 w.1 w.2) (s.mem.getD r.base (Arr.zeros 0 0))

/-- A new array. -/
def alloc (A : Arr) : HM ARef := fun s => (.ok ⟨s.mem.length, []⟩, ⟨s.mem ++ [A], s.tab⟩)

/-- The entries of an array. -/
noncomputable def get (r : ARef) : HM Arr := fun s => (.ok (s.read r), s)

/-- `A *= x`, `A += B` for an array that is not a view: the stored array is changed. -/
noncomputable def change (r : ARef) (f : Arr → Arr) : HM Unit := fun s =>
  (.ok (), ⟨s.mem.set r.base (f (s.read r)), s.tab⟩)

open Classical in
/-- `functools.cache`: the array remembered for these arguments, or else the one that the procedure returns, which is
remembered.  An exception is not remembered. -/
noncomputable def memo (k : Key) (body : HM ARef) : HM ARef := fun s =>
  match s.tab k with
  | some r => (.ok r, s)
  | none =>
    match body s with
    | (.ok r, s') => (.ok r, ⟨s'.mem, fun k' => if k' = k then some r else s'.tab k'⟩)
    | (.error e, s') => (.error e, s')

/-- `cache_clear()` of the tables of some procedures. -/
def clear (which : Key → Bool) : HM Unit := fun s =>
  (.ok (), ⟨s.mem, fun k => if which k then none else s.tab k⟩)

/-- `A @ B`: a new array. -/
noncomputable def matmul (A B : ARef) : HM ARef := do
  let a ← get A
  let b ← get B
  alloc (a.mul b)

/-- `A * x` (`A / (1 / x)`): a new array. -/
noncomputable def times (A : ARef) (x : ℝ) : HM ARef := do
  let a ← get A
  alloc (a.smul x)

/-- radial_space.py lines 714-724 `RepRadial`. -/
noncomputable def RepRadial (ME : RadME) (lambdaa : ℝ) (nu_min nu_max : Int) : HM ARef :=
  memo (.rep ME lambdaa nu_min nu_max) do
    let M ← StPy.lift (Acm.RepRadial ME.fn lambdaa nu_min nu_max)
    alloc M

/-- radial_space.py lines 741-750 `RepRadial_param` with `ME_Radial_id_pl`. -/
noncomputable def id_pl (lambdaa : ℝ) (nu_min nu_max param : Int) : HM ARef :=
  memo (.idPl lambdaa nu_min nu_max param) do
    let M ← StPy.lift (RepRadial_param ME_Radial_id_pl lambdaa nu_min nu_max param.toNat)
    alloc M

/-- radial_space.py lines 741-750 `RepRadial_param` with `ME_Radial_id_ml`. -/
noncomputable def id_ml (lambdaa : ℝ) (nu_min nu_max param : Int) : HM ARef :=
  memo (.idMl lambdaa nu_min nu_max param) do
    let M ← StPy.lift (RepRadial_param ME_Radial_id_ml lambdaa nu_min nu_max param.toNat)
    alloc M

/-- radial_space.py lines 753-763 `RepRadial_b2_sqrt` (which does not use the table of `RepRadial`). -/
noncomputable def RepRadial_b2_sqrt (la : LinAlg) (lambdaa : ℝ) (nu_min nu_max : Int) : HM ARef :=
  memo (.b2_sqrt lambdaa nu_min nu_max) do
    let M ← StPy.lift (Acm.RepRadial_b2_sqrt la lambdaa nu_min nu_max)
    alloc M

/-- radial_space.py lines 766-772 `RepRadial_b2_sqrtInv`. -/
noncomputable def RepRadial_b2_sqrtInv (la : LinAlg) (lambdaa : ℝ) (nu_min nu_max : Int) : HM ARef :=
  memo (.b2_sqrtInv lambdaa nu_min nu_max) do
    let Mat ← RepRadial .b2 lambdaa nu_min nu_max
    let A ← get Mat
    let M ← StPy.lift (Matrix_sqrtInv la A)
    alloc M

section
variable (la : LinAlg) (anorm : ℝ) (nu_min nu_max : Int)

/-- radial_space.py lines 1136-1229: the branch of the `while` loop that selects the matrix for factor `i` (1-based)
and the number `imm` of factors it consumes.  `Mat = Mat * anorm` makes a new array; line 1227, `Mat *= anorm`, changes
the array that line 1226 has made. -/
noncomputable def bS_DS_select (K : Int) (lam_splits : List Int) (i : Nat) (lambda_run : ℝ) : HM (ARef × Nat) := do
  let split ← StPy.lift (pyGet lam_splits (i - 1))
  if split > 0 then
    if i ≤ K then do
      StPy.lift (pyAssert (K > 0))
      let Mat ← RepRadial .b_pl lambda_run nu_min nu_max
      let Mat ← times Mat (anorm ^ (-1 : Int))
      pure (Mat, 1)
    else if i ≤ -K then do
      StPy.lift (pyAssert (K < 0))
      let Mat ← RepRadial .bm_pl lambda_run nu_min nu_max
      let Mat ← times Mat (anorm ^ (1 : Int))
      pure (Mat, 1)
    else do
      StPy.lift (pyAssert (i > |K|))
      let Mat ← RepRadial .Db_pl lambda_run nu_min nu_max
      let Mat ← times Mat (anorm ^ (1 : Int))
      pure (Mat, 1)
  else if split < 0 then
    if i ≤ K then do
      StPy.lift (pyAssert (K > 0))
      let Mat ← RepRadial .b_ml lambda_run nu_min nu_max
      let Mat ← times Mat (anorm ^ (-1 : Int))
      pure (Mat, 1)
    else if i ≤ -K then do
      StPy.lift (pyAssert (K < 0))
      let Mat ← RepRadial .bm_ml lambda_run nu_min nu_max
      let Mat ← times Mat (anorm ^ (1 : Int))
      pure (Mat, 1)
    else do
      StPy.lift (pyAssert (i > |K|))
      let Mat ← RepRadial .Db_ml lambda_run nu_min nu_max
      let Mat ← times Mat (anorm ^ (1 : Int))
      pure (Mat, 1)
  else if i > 1 ∧ pyGet lam_splits (i - 2) = .ok 0 then
    if i ≤ K then do
      StPy.lift (pyAssert (K > 0))
      let Mat ← RepRadial .b2 lambda_run nu_min nu_max
      let Mat ← times Mat (anorm ^ (-2 : Int))
      pure (Mat, 2)
    else if i ≤ -K then do
      StPy.lift (pyAssert (K < 0))
      let Mat ← RepRadial .bm2 lambda_run nu_min nu_max
      let Mat ← times Mat (anorm ^ (2 : Int))
      pure (Mat, 2)
    else if i = K + 1 then do
      StPy.lift (pyAssert (K > 0))
      let Mat ← RepRadial .bDb lambda_run nu_min nu_max
      pure (Mat, 2)
    else if i = -K - 1 then
      StPy.lift (throw .valueError)
    else do
      let Mat ← RepRadial .D2b lambda_run nu_min nu_max
      let Mat ← times Mat (anorm ^ (2 : Int))
      pure (Mat, 2)
  else
    if i ≤ K then do
      StPy.lift (pyAssert (K > 0))
      let Mat ← RepRadial_b2_sqrt la lambda_run nu_min nu_max
      let Mat ← times Mat (anorm ^ (-1 : Int))
      pure (Mat, 1)
    else if i ≤ -K then do
      StPy.lift (pyAssert (K < 0))
      let Mat ← RepRadial_b2_sqrtInv la lambda_run nu_min nu_max
      let Mat ← times Mat (anorm ^ (1 : Int))
      pure (Mat, 1)
    else do
      StPy.lift (pyAssert (i > |K|))
      let Mat ← RepRadial_b2_sqrtInv la lambda_run nu_min nu_max
      let Mat2 ← RepRadial .bDb lambda_run nu_min nu_max
      let Mat ← matmul Mat Mat2
      change Mat (Arr.smul (anorm ^ (1 : Int)))
      pure (Mat, 1)

/-- radial_space.py lines 1231-1234: multiply the new matrix into the product. -/
noncomputable def bS_DS_update (n : Nat) (lamX : Int) (i : Nat) (Mat : ARef) (Mat_product : Option ARef) : HM ARef :=
  if i = n ∧ lamX ≥ 0 then pure Mat
  else do
    let P ← StPy.lift (readVar Mat_product)
    matmul Mat P

/-- radial_space.py lines 1134-1237: the `while` loop, from factor `i` down. -/
noncomputable def bS_DS_loop (K : Int) (lam_splits : List Int) (n : Nat) (lamX : Int) :
    Nat → ℝ → Option ARef → HM (ℝ × Option ARef)
  | 0, lambda_run, Mat_product => pure (lambda_run, Mat_product)
  | i + 1, lambda_run, Mat_product => do
    let (Mat, imm) ← bS_DS_select la anorm nu_min nu_max K lam_splits (i + 1) lambda_run
    let P ← bS_DS_update n lamX (i + 1) Mat Mat_product
    let split ← StPy.lift (pyGet lam_splits i)
    let lambda_run := lambda_run + (split : ℝ)
    if imm = 1 then bS_DS_loop K lam_splits n lamX i lambda_run (some P)
    else match i with
      | 0 => pure (lambda_run, some P)
      | j + 1 => bS_DS_loop K lam_splits n lamX j lambda_run (some P)

/-- radial_space.py lines 1239-1250: the end of `RepRadial_bS_DS`, after the loop. -/
noncomputable def bS_DS_finish (n : Nat) (lamX : Int) (lambda_run : ℝ) (Mat_product : Option ARef) : HM ARef := do
  let Mat_product ←
    if lamX > 0 then do
      StPy.lift (pyAssert (is_even lamX))
      let Mat ← id_pl lambda_run nu_min nu_max (Int.fdiv lamX 2)
      if n > 0 then do
        let P ← StPy.lift (readVar Mat_product)
        let P ← matmul Mat P
        pure (some P)
      else pure (some Mat)
    else pure Mat_product
  if n = 0 ∧ lamX = 0 then alloc (Arr.eye (nu_max - nu_min + 1).toNat)
  else StPy.lift (readVar Mat_product)

/-- radial_space.py lines 1082-1109: a change of `lambda` by an odd number without any operator. -/
noncomputable def bS_DS_odd (lambdaa : ℝ) (R : Int) : HM ARef :=
  if R < 0 then do
    let P ← RepRadial_b2_sqrt la (lambdaa + (R : ℝ)) nu_min nu_max
    let Mat ← RepRadial .bm_ml (lambdaa + (R : ℝ) + 1) nu_min nu_max
    let P ← matmul P Mat
    if R < -1 then do
      let Mat ← id_ml lambdaa nu_min nu_max (Int.fdiv (-(R + 1)) 2)
      matmul P Mat
    else pure P
  else do
    let P ← RepRadial_b2_sqrt la lambdaa nu_min nu_max
    let Mat ← RepRadial .bm_pl lambdaa nu_min nu_max
    let P ← matmul Mat P
    if R > 1 then do
      let Mat ← id_pl (lambdaa + 1) nu_min nu_max (Int.fdiv (R - 1) 2)
      matmul Mat P
    else pure P

/-- radial_space.py lines 1111-1132: `lambda_run` and `Mat_product` at the start of the loop. -/
noncomputable def bS_DS_start (lamX : Int) (lambdaa : ℝ) : HM (ℝ × Option ARef) :=
  if lamX < 0 then do
    StPy.lift (pyAssert (is_even lamX))
    let Mat ← id_ml lambdaa nu_min nu_max (Int.fdiv (-lamX) 2)
    pure (lambdaa + (lamX : ℝ), some Mat)
  else pure (lambdaa, none)

/-- radial_space.py lines 1078-1250: the body of `RepRadial_bS_DS`. -/
noncomputable def bS_DS_body (K T : Int) (lambdaa : ℝ) (R : Int) : HM ARef := do
  if lambdaa ≤ 0 ∨ lambdaa + (R : ℝ) ≤ 0 then StPy.lift (throw .valueError)
  else if K = 0 ∧ T = 0 ∧ is_odd R then bS_DS_odd la nu_min nu_max lambdaa R
  else do
    let lam_splits ← StPy.lift (Lambda_Splits K T R)
    let n : Nat := (|K| + T).toNat
    let lamX : Int := if lam_splits.length > n then lam_splits.headD 0 else 0
    let lam_splits := if lam_splits.length > n then lam_splits.tail else lam_splits
    StPy.lift (pyAssert (lam_splits.length = n))
    let start ← bS_DS_start nu_min nu_max lamX lambdaa
    let (lambda_run, Mat_product) ← bS_DS_loop la anorm nu_min nu_max K lam_splits n lamX n start.1 start.2
    bS_DS_finish nu_min nu_max n lamX lambda_run Mat_product

/-- radial_space.py lines 1077-1250 `RepRadial_bS_DS`. -/
noncomputable def RepRadial_bS_DS (K T : Int) (lambdaa : ℝ) (R : Int) : HM ARef :=
  memo (.bS_DS K T anorm lambdaa R nu_min nu_max) (bS_DS_body la anorm nu_min nu_max K T lambdaa R)

/-- radial_space.py lines 1371-1375 and 1393-1401: the method `representation`. -/
noncomputable def representation (op : KTSOp) (lambdaa : ℝ) (R : Int) : HM ARef :=
  match op with
  | .KT K T => RepRadial_bS_DS la anorm nu_min nu_max K T lambdaa R
  | .S s => do
    if R ≠ 0 then StPy.lift (throw .valueError)
    else do
      let ME ← StPy.lift (pyGet [RadME.Sm, RadME.S0, RadME.Sp] (s + 1))
      RepRadial ME lambdaa nu_min nu_max

/-- radial_space.py lines 1492-1502: the loop of `RepRadialshfs_Prod` (the model recurses on the lists: the tail is
processed first). -/
noncomputable def shfs_loop (lambdaa : ℝ) : List KTSOp → List Int → HM (ℝ × Option ARef)
  | [], _ => pure (lambdaa, none)
  | _ :: _, [] => StPy.lift (throw .indexError)
  | r_op :: ops, R :: shfs => do
    let (lambda_run, Mat_product) ← shfs_loop lambdaa ops shfs
    let Mat ← representation la anorm nu_min nu_max r_op lambda_run R
    match Mat_product with
    | none => pure (lambda_run + (R : ℝ), some Mat)
    | some P => do
      let P ← matmul Mat P
      pure (lambda_run + (R : ℝ), some P)

/-- radial_space.py lines 1477-1504 `RepRadialshfs_Prod`. -/
noncomputable def RepRadialshfs_Prod (rps_op : List KTSOp) (lambdaa : ℝ) (lambda_shfs : List Int) : HM ARef :=
  memo (.shfs rps_op anorm lambdaa lambda_shfs nu_min nu_max) do
    let (_, P) ← shfs_loop la anorm nu_min nu_max lambdaa rps_op lambda_shfs
    match P with
    | none => alloc (Arr.eye (nu_max - nu_min + 1).toNat)
    | some P => pure P

end

/-- `A[a:b, a:b]`: a view, which shares the storage. -/
def ARef.view (A : ARef) (a b : Int) : ARef := ⟨A.base, A.win ++ [(a, b)]⟩

section
variable (la : LinAlg)

/-- radial_space.py lines 1632-1663 `RepRadial_Prod_common`.  The result is the remembered array itself, or a view of
it. -/
noncomputable def Prod_common (rbs_op : List RadSym) (anorm lambdaa : ℝ) (lambda_var nu_min nu_max nu_lap : Int) :
    HM ARef := do
  if lambdaa ≤ 0 then StPy.lift (throw .valueError)
  else if lambdaa + (lambda_var : ℝ) ≤ 0 then StPy.lift (throw .valueError)
  else do
    let (parsed_ops, lambda_shfs) ← StPy.lift (RepRadial_Prod_plan rbs_op lambda_var)
    let nu_min_shift := min nu_lap nu_min
    let rep ← RepRadialshfs_Prod la anorm (nu_min - nu_min_shift) (nu_max + nu_lap) parsed_ops lambdaa lambda_shfs
    if nu_lap = 0 then pure rep
    else pure (rep.view nu_min_shift (1 + nu_max - nu_min + nu_min_shift))

/-- The tables that radial_space.py lines 1623-1628 clear. -/
def clearedByProd : Key → Bool
  | .rep .. => true
  | .idPl .. => true
  | .idMl .. => true
  | .shfs .. => true
  | .bS_DS .. => true
  | .b2_sqrt .. => true
  | .b2_sqrtInv .. => true
  | _ => false

/-- radial_space.py lines 1616-1630 `RepRadial_Prod`. -/
noncomputable def RepRadial_Prod (rbs_op : List RadSym) (anorm lambdaa : ℝ) (lambda_var nu_min nu_max nu_lap : Int) :
    HM ARef := do
  let rep ← Prod_common la rbs_op anorm lambdaa lambda_var nu_min nu_max nu_lap
  clear clearedByProd
  pure rep

/-- radial_space.py lines 1719-1726 `RepRadial_Prod_rem`. -/
noncomputable def RepRadial_Prod_rem (rbs_op : List RadSym) (anorm lambdaa : ℝ)
    (lambda_var nu_min nu_max nu_lap : Int) : HM ARef :=
  memo (.prod rbs_op anorm lambdaa lambda_var nu_min nu_max nu_lap)
    (Prod_common la rbs_op anorm lambdaa lambda_var nu_min nu_max nu_lap)

/-- radial_space.py lines 2121-2122: the loop of `RepRadial_LC_common`, `M += ... * float(coeff)`, which changes the
array `M`. -/
noncomputable def LC_loop (anorm lambdaa : ℝ) (lambda_var nu_min nu_max nu_lap : Int) (d : Dtype) (M : ARef) :
    List (ℝ × List RadSym) → HM Unit
  | [] => pure ()
  | (coeff, op) :: rest => do
    let P ← RepRadial_Prod_rem la op anorm lambdaa lambda_var nu_min nu_max nu_lap
    let X ← times P coeff
    let dP ← StPy.lift (RepRadialProd_dtype op lambdaa lambda_var nu_min nu_max nu_lap)
    StPy.lift (iaddCheck d dP)
    let X ← get X
    change M fun M => M.add X
    LC_loop anorm lambdaa lambda_var nu_min nu_max nu_lap d M rest

/-- radial_space.py lines 2106-2124 `RepRadial_LC_common`. -/
noncomputable def LC_common (rlc_op : List (ℝ × List RadSym)) (anorm lambdaa : ℝ)
    (lambda_var nu_min nu_max nu_lap : Int) : HM ARef :=
  match rlc_op with
  | [] => alloc (Arr.zeros (nu_max - nu_min + 1).toNat (nu_max - nu_min + 1).toNat)
  | (coeff, op) :: rest => do
    let P ← RepRadial_Prod_rem la op anorm lambdaa lambda_var nu_min nu_max nu_lap
    let M ← times P coeff
    let d ← StPy.lift (RepRadialProd_dtype op lambdaa lambda_var nu_min nu_max nu_lap)
    LC_loop la anorm lambdaa lambda_var nu_min nu_max nu_lap d M rest
    pure M

/-- The tables that radial_space.py lines 2096-2101 clear (not that of `RepRadial_bS_DS`). -/
def clearedByLC : Key → Bool
  | .prod .. => true
  | .shfs .. => true
  | .rep .. => true
  | .idPl .. => true
  | .idMl .. => true
  | .b2_sqrt .. => true
  | .b2_sqrtInv .. => true
  | _ => false

/-- radial_space.py lines 2089-2103 `RepRadial_LC`. -/
noncomputable def RepRadial_LC (rlc_op : List (ℝ × List RadSym)) (anorm lambdaa : ℝ)
    (lambda_var nu_min nu_max nu_lap : Int) : HM ARef := do
  let M ← LC_common la rlc_op anorm lambdaa lambda_var nu_min nu_max nu_lap
  clear clearedByLC
  pure M

/-- radial_space.py lines 2155-2161 `RepRadial_LC_rem`. -/
noncomputable def RepRadial_LC_rem (rlc_op : List (ℝ × List RadSym)) (anorm lambdaa : ℝ)
    (lambda_var nu_min nu_max nu_lap : Int) : HM ARef :=
  memo (.lc rlc_op anorm lambdaa lambda_var nu_min nu_max nu_lap)
    (LC_common la rlc_op anorm lambdaa lambda_var nu_min nu_max nu_lap)

/-- The call of a memoised procedure. -/
noncomputable def Key.call : Key → HM ARef
  | .rep ME lambdaa lo hi => RepRadial ME lambdaa lo hi
  | .idPl lambdaa lo hi r => id_pl lambdaa lo hi r
  | .idMl lambdaa lo hi r => id_ml lambdaa lo hi r
  | .b2_sqrt lambdaa lo hi => RepRadial_b2_sqrt la lambdaa lo hi
  | .b2_sqrtInv lambdaa lo hi => RepRadial_b2_sqrtInv la lambdaa lo hi
  | .bS_DS K T anorm lambdaa R lo hi => RepRadial_bS_DS la anorm lo hi K T lambdaa R
  | .shfs ops anorm lambdaa lambda_shfs lo hi => RepRadialshfs_Prod la anorm lo hi ops lambdaa lambda_shfs
  | .prod op anorm lambdaa var lo hi lap => RepRadial_Prod_rem la op anorm lambdaa var lo hi lap
  | .lc op anorm lambdaa var lo hi lap => RepRadial_LC_rem la op anorm lambdaa var lo hi lap

end

end Acm.Memo
