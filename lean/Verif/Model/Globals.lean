import Verif.Model.Operators
import Verif.Model.CGSO3
import Verif.Model.Radial
import Verif.Model.CGSO5
import Mathlib.Algebra.Order.Floor.Defs
import Mathlib.Algebra.Order.Archimedean.Real.Basic

/-!
# Model of `src/acmpy/globals.py`

The global variables of the module are the fields of `Glb`; a procedure is a computation on
that state (`StPy`), which keeps the changes made before an exception.

Simplifications: floats are real numbers.  Printed text is not part of the state; of
printing only what can raise is kept: the divisions of `ACM_show_scales` and the formatting
with a user-supplied format in `ACM_set_rat_fit` (parameter `fmt`).  A default argument value taken
from a global is evaluated once, when the module is imported: an omitted argument
(`none`) gives that constant, not the current setting.
-/

namespace Acm

/-! ### functions of matrix elements (lines 43-101) -/

/-- globals.py line 344 `MatrixElementFunction`: arguments `Li`, `Lf`, `Mel`; the first argument
is the global `glb_rat_TRopAM`, which some of the functions read. -/
abbrev MelFun := Int → Int → Int → ℝ → Py ℝ

/-- globals.py lines 43-44 `quad_amp_fun`. -/
noncomputable def quad_amp_fun : MelFun := fun TRopAM Li Lf Mel => do
  let c ← CG_SO3 Li Li TRopAM (Lf - Li) Lf Lf
  pure (Mel * c)

/-- globals.py lines 50-51 `mel_amp_fun`. -/
noncomputable def mel_amp_fun : MelFun := fun _ _ Lf Mel => do
  let r ← pySqrt (2 * Lf + 1)
  pure (Mel * r)

/-- globals.py lines 57-58 `unit_amp_fun`. -/
def unit_amp_fun : MelFun := fun _ _ _ Mel => pure Mel

/-- globals.py lines 64-65 `quad_rat_fun` (`dimSO3` is odd, so no division by 0). -/
noncomputable def quad_rat_fun : MelFun := fun _ Li Lf Mel => do
  let df ← dimSO3 Lf
  let di ← dimSO3 Li
  pure (Mel ^ 2 * df / di)

/-- globals.py lines 71-72 `mel_rat_fun`. -/
noncomputable def mel_rat_fun : MelFun := fun _ _ Lf Mel => do
  let df ← dimSO3 Lf
  pure (Mel ^ 2 * df)

/-- globals.py lines 78-79 `unit_rat_fun`. -/
noncomputable def unit_rat_fun : MelFun := fun _ _ _ Mel => pure (Mel ^ 2)

/-- globals.py lines 97-101 `gen_amp_mul`. -/
noncomputable def gen_amp_mul (Li Lf Lt : Int) : Py ℝ :=
  if Li = Lf then CG_SO3 Lf Lf Lt 0 Lf Lf else pySqrt (2 * Lf + 1)

/-- globals.py lines 88-89 `mix_amp_fun`. -/
noncomputable def mix_amp_fun : MelFun := fun TRopAM Li Lf Mel => do
  let c ← gen_amp_mul Li Lf TRopAM
  pure (Mel * c)

/-! ### functions giving the shift of lambda (lines 118-188) -/

/-- globals.py line 177 `LambdaFunction`. -/
abbrev LambdaFunction := Int → Py Int

/-- globals.py lines 118-121 `lambda_fix_fun`. -/
def lambda_fix_fun : LambdaFunction := fun v => do
  require_nonnegint v
  pure 0

/-- globals.py lines 127-130 `lambda_sho_fun`. -/
def lambda_sho_fun : LambdaFunction := fun v => do
  require_nonnegint v
  pure v

/-- globals.py lines 136-139 `lambda_acm_fun`. -/
def lambda_acm_fun : LambdaFunction := fun v => do
  require_nonnegint v
  irem v 2

/-- globals.py lines 149-152 `lambda_jig_fun`. -/
def lambda_jig_fun : LambdaFunction := fun v => do
  require_nonnegint v
  if v = 0 then pure 0
  else do
    let r ← irem v 2
    pure (2 - r)

/-- globals.py lines 180-188 `lambda_davi_fun` (`(v + 1) ** 2`, where the comment and the Maple
code have `(v + 1.5)^2`). -/
noncomputable def lambda_davi_fun (C : ℝ) : LambdaFunction := fun v => do
  require_nonnegint v
  let r1 ← pySqrt (((v : ℝ) + 1) ^ 2 + C)
  let r2 ← pySqrt (2.25 + C)
  let diffint : Int := ⌊r1 - r2⌋
  if is_odd (diffint - v) then pure (diffint + 1) else pure diffint

/-! ### the state -/

/-- globals.py lines 250-407: the global variables. -/
structure Glb where
  eig_sft : ℝ
  rat_sft : ℝ
  amp_sft : ℝ
  rel_pre : Int
  rel_wid : Int
  low_pre : Int
  eig_num : Int
  rat_num : Int
  amp_num : Int
  eig_fit : ℝ
  eig_L : Int
  eig_idx : Int
  rat_fit : ℝ
  rat_L1 : Int
  rat_L2 : Int
  rat_1dx : Int
  rat_2dx : Int
  lam_fun : LambdaFunction
  rat_TRop : OperatorSum
  rat_TRopAM : Int
  rat_fun : MelFun
  rat_format : String
  rat_desg : String
  amp_fun : MelFun
  amp_format : String
  amp_desg : String
  amp_sft_fun : ℝ → Py ℝ
  tran_format : String
  tran_fill : String
  rat_lst : List (List Int)
  amp_lst : List (List Int)
  eig_rel : Bool
  nu_lap : Int

/-- globals.py line 212. -/
def def_rat_desg : String := "transition rates"
/-- globals.py line 213. -/
def def_rat_format : String := "  B(E2: {}) = {}"
/-- globals.py line 214. -/
def def_amp_desg : String := "transition amplitudes"
/-- globals.py line 215. -/
def def_amp_format : String := "  Amp( {} ) = {}"

/-- globals.py lines 250-407: the values after import. -/
noncomputable def Glb.init : Glb where
  eig_sft := 1
  rat_sft := 1
  amp_sft := 1
  rel_pre := 2
  rel_wid := 7
  low_pre := 4
  eig_num := 4
  rat_num := 4
  amp_num := 4
  eig_fit := 6
  eig_L := 2
  eig_idx := 1
  rat_fit := 100
  rat_L1 := 2
  rat_L2 := 0
  rat_1dx := 1
  rat_2dx := 1
  lam_fun := lambda_acm_fun
  rat_TRop := quad_op
  rat_TRopAM := 2
  rat_fun := quad_rat_fun
  rat_format := def_rat_format
  rat_desg := def_rat_desg
  amp_fun := quad_amp_fun
  amp_format := def_amp_format
  amp_desg := def_amp_desg
  amp_sft_fun := pySqrt
  tran_format := "{}({}) -> {}({})"
  tran_fill := "#"
  rat_lst := []
  amp_lst := []
  eig_rel := true
  nu_lap := 0

/-- Computations on the global variables. -/
abbrev GM (α : Type) := StPy Glb α

/-- Assign to globals. -/
def GM.modify (f : Glb → Glb) : GM Unit := fun g => (.ok (), f g)

/-- Read the globals. -/
def GM.get : GM Glb := fun g => (.ok g, g)

/-- `if x is not None: check(x); glb_... = x`. -/
def setIf {α : Type} (x : Option α) (check : α → Py Unit) (upd : α → Glb → Glb) : GM Unit :=
  match x with
  | none => pure ()
  | some x => do
    StPy.lift (check x)
    GM.modify (upd x)

/-! ### the setting procedures (lines 439-1344) -/

/-- `1 / x` for a float. -/
noncomputable def pyRecip (x : ℝ) : Py ℝ := if x = 0 then throw .zeroDivisionError else pure (1 / x)

/-- globals.py lines 473-479 `ACM_show_scales`. -/
noncomputable def ACM_show_scales (show_ : Int) : GM (ℝ × ℝ × ℝ) := do
  let g ← GM.get
  if show_ > 0 then do
    let _ ← StPy.lift (pyRecip g.eig_sft)
    let _ ← StPy.lift (pyRecip g.rat_sft)
    let _ ← StPy.lift (pyRecip g.amp_sft)
    pure (g.eig_sft, g.rat_sft, g.amp_sft)
  else pure (g.eig_sft, g.rat_sft, g.amp_sft)

/-- globals.py lines 439-452 `ACM_set_scales`. -/
noncomputable def ACM_set_scales (eig_sft rat_sft : Option ℝ) (show_ : Int) : GM Unit := do
  setIf eig_sft (fun _ => pure ()) fun x g => { g with eig_sft := x }
  setIf rat_sft (fun _ => pure ()) fun x g => { g with rat_sft := x }
  let g ← GM.get
  let a ← StPy.lift (g.amp_sft_fun g.rat_sft)
  GM.modify fun g => { g with amp_sft := a }
  let _ ← ACM_show_scales show_
  pure ()

/-- globals.py lines 499-508 `ACM_set_sft_fun`; the default was captured at import (line 370). -/
noncomputable def ACM_set_sft_fun (amp_fun : Option (ℝ → Py ℝ)) (_show : Int) : GM (ℝ → Py ℝ) := do
  GM.modify fun g => { g with amp_sft_fun := amp_fun.getD pySqrt }
  let g ← GM.get
  pure g.amp_sft_fun

/-- globals.py lines 536-559 `ACM_set_output`. -/
def ACM_set_output (rel_pre rel_wid low_pre : Option Int) (_show : Int) :
    GM (Int × Int × Int) := do
  setIf rel_pre require_nonnegint fun x g => { g with rel_pre := x }
  setIf rel_wid require_nonnegint fun x g => { g with rel_wid := x }
  setIf low_pre require_nonnegint fun x g => { g with low_pre := x }
  let g ← GM.get
  pure (g.rel_pre, g.rel_wid, g.low_pre)

/-- globals.py lines 584-602 `ACM_set_listln`. -/
def ACM_set_listln (eig_num rat_num : Option Int) (_show : Int) : GM (Int × Int × Int) := do
  setIf eig_num require_nonnegint fun x g => { g with eig_num := x }
  setIf rat_num require_nonnegint fun x g => { g with rat_num := x, amp_num := x }
  let g ← GM.get
  pure (g.eig_num, g.rat_num, g.amp_num)

/-- globals.py lines 623-636 `ACM_set_datum`. -/
def ACM_set_datum (datflag : Int) (_show : Int) : GM Bool := do
  StPy.lift (require_nonnegint datflag)
  GM.modify fun g => { g with eig_rel := decide (datflag > 0) }
  let g ← GM.get
  pure g.eig_rel

/-- globals.py lines 659-676 `ACM_set_eig_fit`; defaults captured at import (lines 289-290). -/
noncomputable def ACM_set_eig_fit (eig_fit : Option ℝ) (eig_L eig_idx : Option Int)
    (_show : Int) : GM (ℝ × Int × Int) := do
  StPy.lift (require_nonnegint (eig_L.getD 2))
  StPy.lift (require_posint (eig_idx.getD 1))
  GM.modify fun g => { g with eig_fit := eig_fit.getD 6, eig_L := eig_L.getD 2,
                              eig_idx := eig_idx.getD 1 }
  let g ← GM.get
  pure (g.eig_fit, g.eig_L, g.eig_idx)

/-- globals.py lines 716-744 `ACM_set_rat_fit`; defaults captured at import (lines 304-306).
`fmt` tells whether formatting the line with the current `glb_rat_format` raises. -/
noncomputable def ACM_set_rat_fit (fmt : String → Py Unit) (rat_fit : Option ℝ)
    (rat_L1 rat_L2 rat_1dx rat_2dx : Option Int) (show_ : Int) :
    GM (ℝ × Int × Int × Int × Int) := do
  StPy.lift (require_nonnegint (rat_L1.getD 2))
  StPy.lift (require_nonnegint (rat_L2.getD 0))
  StPy.lift (require_posint (rat_1dx.getD 1))
  StPy.lift (require_posint (rat_2dx.getD 1))
  GM.modify fun g => { g with rat_fit := rat_fit.getD 100, rat_L1 := rat_L1.getD 2,
                              rat_L2 := rat_L2.getD 0, rat_1dx := rat_1dx.getD 1,
                              rat_2dx := rat_2dx.getD 1 }
  let g ← GM.get
  StPy.lift (if show_ > 0 then fmt g.rat_format else pure ())
  pure (g.rat_fit, g.rat_L1, g.rat_L2, g.rat_1dx, g.rat_2dx)

/-- globals.py lines 782-786: the loop of `ACM_add_rat_lst` and `ACM_add_amp_lst`. -/
def addDesignators (lst : List (List Int)) : List (List Int) → List (List Int)
  | [] => lst
  | ent :: rest =>
    if ent.length > 5 then addDesignators lst rest else addDesignators (lst ++ [ent]) rest

/-- globals.py lines 779-788 `ACM_add_rat_lst`. -/
def ACM_add_rat_lst (rat_lst : List (List Int)) : GM Int := do
  GM.modify fun g => { g with rat_lst := addDesignators g.rat_lst rat_lst }
  let g ← GM.get
  pure g.rat_lst.length

/-- globals.py lines 758-762 `ACM_set_rat_lst`. -/
def ACM_set_rat_lst (rat_lst : List (List Int)) : GM Int := do
  GM.modify fun g => { g with rat_lst := [] }
  ACM_add_rat_lst rat_lst

/-- globals.py lines 916-925 `ACM_add_amp_lst`. -/
def ACM_add_amp_lst (amp_lst : List (List Int)) : GM Int := do
  GM.modify fun g => { g with amp_lst := addDesignators g.amp_lst amp_lst }
  let g ← GM.get
  pure g.amp_lst.length

/-- globals.py lines 895-899 `ACM_set_amp_lst`. -/
def ACM_set_amp_lst (amp_lst : List (List Int)) : GM Int := do
  GM.modify fun g => { g with amp_lst := [] }
  ACM_add_amp_lst amp_lst

/-- `'{:+d}'.format(n)`. -/
def pyStrSigned (n : Int) : List Char := if n < 0 then pyStr n else '+' :: pyStr n

/-- `'{}({}) -> {}({})'.format(a, b, c, d)` (line 377; no procedure changes `glb_tran_format`). -/
def tranLine (a b c d : List Char) : List Char :=
  a ++ ['('] ++ b ++ [')', ' ', '-', '>', ' '] ++ c ++ ['('] ++ d ++ [')']

/-- globals.py lines 856-872: the line `ACM_show_lst` prints for one designator (without the two
leading blanks), `none` if it is skipped.  Simplification: the two nested `format` calls are one
(`showLstText` has both, C120). -/
def show_lst_line (ent : List Int) : Option (List Char) :=
  match ent with
  | [] => some (tranLine ['L', '_', 'i'] ['j', '_', 'i'] ['L', '_', 'f'] ['j', '_', 'f'])
  | [a] => some (tranLine ['L', '_', 'i'] ['j', '_', 'i'] (pyStr a) ['j', '_', 'f'])
  | [a, b] => some (tranLine (pyStr a) ['j', '_', 'i'] (pyStr b) ['j', '_', 'f'])
  | [a, b, c] => some (tranLine (pyStr a) ['j', '_', 'i'] (pyStr b) (pyStr c))
  | [a, b, c, d] => some (tranLine (pyStr a) (pyStr b) (pyStr c) (pyStr d))
  | [a, b, c, d, k] =>
    if k ≠ 0 then
      some (tranLine (pyStr a ++ pyStrSigned k ++ ['k']) (pyStr c)
        (pyStr b ++ pyStrSigned k ++ ['k']) (pyStr d))
    else some (tranLine (pyStr a) (pyStr b) (pyStr c) (pyStr d))
  | _ => none

/-- globals.py lines 843-877 `ACM_show_lst`: the lines printed for the designators. -/
def ACM_show_lst (lst : List (List Int)) (show_ : Int) : List (List Char) :=
  if show_ > 0 then lst.filterMap show_lst_line else []

/-- globals.py lines 1015-1033 `ACM_set_transition`; default captured at import (line 331). -/
noncomputable def ACM_set_transition (TR_op : Option OperatorSum) (_show : Int) :
    GM (OperatorSum × Int) := do
  GM.modify fun g => { g with rat_TRop := TR_op.getD quad_op,
                              rat_TRopAM := |Op_AM (TR_op.getD quad_op)| }
  let g ← GM.get
  pure (g.rat_TRop, g.rat_TRopAM)

/-- globals.py lines 1068-1086 `ACM_set_rat_form`; defaults captured at import (lines 346-348). -/
noncomputable def ACM_set_rat_form (rat_fun : Option MelFun) (rat_format rat_desg : Option String)
    (_show : Int) : GM (MelFun × String × String) := do
  GM.modify fun g => { g with rat_fun := rat_fun.getD quad_rat_fun,
                              rat_format := rat_format.getD def_rat_format,
                              rat_desg := rat_desg.getD def_rat_desg }
  let g ← GM.get
  pure (g.rat_fun, g.rat_format, g.rat_desg)

/-- globals.py lines 1121-1140 `ACM_set_amp_form`; defaults captured at import (lines 360-362). -/
noncomputable def ACM_set_amp_form (amp_fun : Option MelFun) (amp_format amp_desg : Option String)
    (_show : Int) : GM (MelFun × String × String) := do
  GM.modify fun g => { g with amp_fun := amp_fun.getD quad_amp_fun,
                              amp_format := amp_format.getD def_amp_format,
                              amp_desg := amp_desg.getD def_amp_desg }
  let g ← GM.get
  pure (g.amp_fun, g.amp_format, g.amp_desg)

/-- globals.py lines 1157-1166 `ACM_set_lambda_fun`. -/
def ACM_set_lambda_fun (lambda_fun : LambdaFunction) (_show : Int) : GM LambdaFunction := do
  GM.modify fun g => { g with lam_fun := lambda_fun }
  pure lambda_fun

/-- globals.py lines 1212-1239 `ACM_set_basis_type`. -/
noncomputable def ACM_set_basis_type (choice : Int) (abeta0 : ℝ) (_show : Int) :
    GM LambdaFunction := do
  StPy.lift (require_nonnegint choice)
  if choice = 0 then ACM_set_lambda_fun lambda_fix_fun 0
  else if choice = 1 then ACM_set_lambda_fun lambda_sho_fun 0
  else if choice = 2 then ACM_set_lambda_fun lambda_acm_fun 0
  else if choice = 3 then ACM_set_lambda_fun (lambda_davi_fun (abeta0 ^ 4)) 0
  else StPy.lift (throw .valueError)

/-- globals.py lines 1249-1253 `ACM_show_lambda_fun`. -/
def ACM_show_lambda_fun (vmin vmax : Int) : GM (List Int) := fun g =>
  (do
    require_nonnegint vmin
    require_nonnegint vmax
    (pyRange vmin (vmax + 1)).mapM g.lam_fun, g)

/-- globals.py lines 1285-1292: the loop of `ACM_test_lambda_fun`. -/
def testLambda (f : LambdaFunction) (lam : Int) : List Int → Py Bool
  | [] => pure true
  | v :: vs => do
    let lamv ← f v
    if lamv - lam = 1 ∨ lamv - lam = -1 then testLambda f lamv vs else pure false

/-- globals.py lines 1279-1292 `ACM_test_lambda_fun`. -/
def ACM_test_lambda_fun (vmin vmax : Int) : GM Bool := fun g =>
  (do
    require_nonnegint vmin
    require_nonnegint vmax
    let lam ← g.lam_fun vmin
    testLambda g.lam_fun lam (pyRange (vmin + 1) (vmax + 1)), g)

/-- globals.py lines 1324-1344 `ACM_set_defaults`. -/
noncomputable def ACM_set_defaults (fmt : String → Py Unit) (show_ : Int) : GM Unit := do
  let _ ← ACM_set_output (some 2) (some 7) (some 4) show_
  let _ ← ACM_set_listln (some 4) (some 4) show_
  let _ ← ACM_set_datum 1 show_
  let _ ← ACM_set_basis_type 2 0 show_
  let _ ← ACM_set_transition (some quad_op) show_
  let _ ← ACM_set_rat_form (some quad_rat_fun) (some def_rat_format) (some def_rat_desg) show_
  let _ ← ACM_set_amp_form (some quad_amp_fun) (some def_amp_format) (some def_amp_desg) show_
  let _ ← ACM_set_sft_fun (some pySqrt) show_
  let _ ← ACM_set_eig_fit (some 6) (some 2) (some 1) show_
  let _ ← ACM_set_rat_fit fmt (some 100) (some 2) (some 0) (some 1) (some 1) show_
  let _ ← ACM_set_rat_lst []
  let _ ← ACM_set_amp_lst []
  ACM_set_scales (some 1) (some 1) show_

/-- The calls of setting procedures a program can make. -/
inductive GCall where
  | scales (eig_sft rat_sft : Option ℝ) (show_ : Int)
  | sftFun (amp_fun : Option (ℝ → Py ℝ)) (show_ : Int)
  | output (rel_pre rel_wid low_pre : Option Int) (show_ : Int)
  | listln (eig_num rat_num : Option Int) (show_ : Int)
  | datum (datflag : Int) (show_ : Int)
  | eigFit (eig_fit : Option ℝ) (eig_L eig_idx : Option Int) (show_ : Int)
  | ratFit (rat_fit : Option ℝ) (rat_L1 rat_L2 rat_1dx rat_2dx : Option Int) (show_ : Int)
  | setRatLst (lst : List (List Int))
  | addRatLst (lst : List (List Int))
  | setAmpLst (lst : List (List Int))
  | addAmpLst (lst : List (List Int))
  | transition (TR_op : Option OperatorSum) (show_ : Int)
  | ratForm (rat_fun : Option MelFun) (rat_format rat_desg : Option String) (show_ : Int)
  | ampForm (amp_fun : Option MelFun) (amp_format amp_desg : Option String) (show_ : Int)
  | lambdaFun (lambda_fun : LambdaFunction) (show_ : Int)
  | basisType (choice : Int) (abeta0 : ℝ) (show_ : Int)
  | defaults (show_ : Int)

/-- Drop the returned value. -/
def GM.void {α : Type} (x : GM α) : GM Unit := do let _ ← x; pure ()

/-- Execute one call. -/
noncomputable def GCall.exec (fmt : String → Py Unit) : GCall → GM Unit
  | .scales e r s => ACM_set_scales e r s
  | .sftFun f s => (ACM_set_sft_fun f s).void
  | .output a b c s => (ACM_set_output a b c s).void
  | .listln a b s => (ACM_set_listln a b s).void
  | .datum d s => (ACM_set_datum d s).void
  | .eigFit f l i s => (ACM_set_eig_fit f l i s).void
  | .ratFit f a b c d s => (ACM_set_rat_fit fmt f a b c d s).void
  | .setRatLst l => (ACM_set_rat_lst l).void
  | .addRatLst l => (ACM_add_rat_lst l).void
  | .setAmpLst l => (ACM_set_amp_lst l).void
  | .addAmpLst l => (ACM_add_amp_lst l).void
  | .transition o s => (ACM_set_transition o s).void
  | .ratForm f a b s => (ACM_set_rat_form f a b s).void
  | .ampForm f a b s => (ACM_set_amp_form f a b s).void
  | .lambdaFun f s => (ACM_set_lambda_fun f s).void
  | .basisType c a s => (ACM_set_basis_type c a s).void
  | .defaults s => ACM_set_defaults fmt s

/-- The globals after a history of calls, each of which may have raised. -/
noncomputable def runGCalls (fmt : String → Py Unit) (cs : List GCall) (g : Glb) : Glb :=
  cs.foldl (fun g c => (c.exec fmt g).2) g

end Acm
