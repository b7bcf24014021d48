import Verif.Model.Text

/-!
# Model of the messages of the setting procedures (globals.py)

The procedures of `Verif/Model/Globals.lean` again, with what they print.

Simplifications.  The text of a float, of a function and of an operator (`str(x)`), and the `__name__` of a function are
parameters.  The six formats of `ACM_show_lst` are made when they are needed, not before the first line is printed; no
procedure changes `glb_tran_format`.
-/

namespace Acm.Msg

/-- The global variables, and the text printed so far. -/
structure GOut where
  glb : Glb
  out : List Char

/-- Procedures that print. -/
abbrev GP (α : Type) := StPy GOut α

/-- What Python shows for objects: `str(x)` of a float, of a function of matrix elements, of a function giving lambda, of
an operator; `__name__` of a function, which need not exist. -/
structure Names where
  flt : ℝ → List Char
  mel : MelFun → List Char
  lam : LambdaFunction → List Char
  op : OperatorSum → List Char
  sft : (ℝ → Py ℝ) → Py (List Char)

/-- A part of a procedure that does not print. -/
def run {α : Type} (m : GM α) : GP α := fun s => ((m s.glb).1, ⟨(m s.glb).2, s.out⟩)

/-- Read the globals. -/
def glb : GP Glb := fun s => (.ok s.glb, s)

/-- `print(t, end='')`. -/
def write (t : List Char) : GP Unit := fun s => (.ok (), ⟨s.glb, s.out ++ t⟩)

/-- `print(t)`. -/
def print (t : List Char) : GP Unit := write (t ++ ['\n'])

/-- `if show > 0: ...`. -/
def say (show_ : Int) (m : GP Unit) : GP Unit := if show_ > 0 then m else pure ()

/-- globals.py lines 473-479 `ACM_show_scales`. -/
noncomputable def ACM_show_scales (n : Names) (show_ : Int) : GP (ℝ × ℝ × ℝ) := do
  let g ← glb
  say show_ do
    let a ← StPy.lift (pyRecip g.eig_sft)
    print ("Relative eigenenergies to be multiplied by ".toList ++ n.flt a ++ ";".toList)
    let b ← StPy.lift (pyRecip g.rat_sft)
    print ("\"".toList ++ g.rat_desg.toList ++ "\" to be multiplied by ".toList ++ n.flt b ++ ";".toList)
    let c ← StPy.lift (pyRecip g.amp_sft)
    print ("\"".toList ++ g.amp_desg.toList ++ "\" to be multiplied by ".toList ++ n.flt c ++ ".".toList)
  pure (g.eig_sft, g.rat_sft, g.amp_sft)

/-- globals.py lines 439-452 `ACM_set_scales`. -/
noncomputable def ACM_set_scales (n : Names) (eig_sft rat_sft : Option ℝ) (show_ : Int) : GP Unit := do
  run (Acm.ACM_set_scales eig_sft rat_sft 0)
  let _ ← ACM_show_scales n show_
  pure ()

/-- globals.py lines 499-508 `ACM_set_sft_fun`. -/
noncomputable def ACM_set_sft_fun (n : Names) (amp_fun : Option (ℝ → Py ℝ)) (show_ : Int) : GP Unit := do
  let _ ← run (Acm.ACM_set_sft_fun amp_fun show_)
  say show_ do
    let g ← glb
    let t ← StPy.lift (n.sft g.amp_sft_fun)
    print ("\"".toList ++ g.amp_desg.toList ++ "\" scaling factor calculated using the procedure: ".toList ++ t ++ ".".toList)

/-- globals.py lines 536-559 `ACM_set_output`. -/
def ACM_set_output (rel_pre rel_wid low_pre : Option Int) (show_ : Int) : GP Unit := do
  let _ ← run (Acm.ACM_set_output rel_pre rel_wid low_pre show_)
  say show_ do
    let g ← glb
    print (pyStr g.rel_pre ++ " decimal places for each displayed value,".toList)
    print (pyStr g.rel_wid ++ " total digits for each displayed value,".toList)
    print ("except ".toList ++ pyStr g.low_pre ++ " decimal places for lowest (absolute) eigenvalue.".toList)

/-- globals.py lines 584-602 `ACM_set_listln`. -/
def ACM_set_listln (eig_num rat_num : Option Int) (show_ : Int) : GP Unit := do
  let _ ← run (Acm.ACM_set_listln eig_num rat_num show_)
  say show_ do
    let g ← glb
    print ("Display lowest ".toList ++ pyStr g.eig_num ++ " eigenvalue(s) at each L.".toList)
    print ("Display lowest ".toList ++ pyStr g.rat_num ++ " rate/amplitude(s) in each list.".toList)

/-- globals.py lines 623-636 `ACM_set_datum`. -/
def ACM_set_datum (datflag : Int) (show_ : Int) : GP Unit := do
  let _ ← run (Acm.ACM_set_datum datflag show_)
  say show_ do
    let g ← glb
    if g.eig_rel then print "Eigenvalues displayed relative to minimal value.".toList
    else print "Absolute eigenvalues displayed.".toList

/-- globals.py lines 659-676 `ACM_set_eig_fit`. -/
noncomputable def ACM_set_eig_fit (eig_fit : Option ℝ) (eig_L eig_idx : Option Int) (show_ : Int) : GP Unit := do
  let _ ← run (Acm.ACM_set_eig_fit eig_fit eig_L eig_idx show_)
  say show_ do
    let g ← glb
    let t ← StPy.lift (pyFormatFlt "f".toList g.eig_fit)
    print ("In ACM_Adapt, the scaling factor for relative eigenvalues is chosen such that\nthat for the ".toList ++
      pyStr g.eig_L ++ "(".toList ++ pyStr g.eig_idx ++ ") state is ".toList ++ t)

/-- globals.py lines 716-744 `ACM_set_rat_fit`. -/
noncomputable def ACM_set_rat_fit (rat_fit : Option ℝ) (rat_L1 rat_L2 rat_1dx rat_2dx : Option Int) (show_ : Int) :
    GP Unit := do
  let _ ← run (Acm.ACM_set_rat_fit (fun _ => pure ()) rat_fit rat_L1 rat_L2 rat_1dx rat_2dx show_)
  say show_ do
    let g ← glb
    let t ← StPy.lift (ratFitText g)
    print ("In ACM_Adapt, the scaling factor for \"".toList ++ g.rat_desg.toList ++ "\" is chosen such that\n".toList ++ t)

/-- The text of a tuple of at least two integers. -/
def tupleText (ent : List Int) : List Char := "(".toList ++ ", ".toList.intercalate (ent.map pyStr) ++ ")".toList

/-- globals.py lines 782-784, 919-921: the lines for the designators that are refused. -/
def badLines (what : List Char) (lst : List (List Int)) : List Char :=
  (lst.filter fun ent => decide (ent.length > 5)).flatMap fun ent =>
    "  Bad ".toList ++ what ++ " specification: ".toList ++ tupleText ent ++ ['\n']

/-- globals.py lines 758-762 `ACM_set_rat_lst`. -/
def ACM_set_rat_lst (rat_lst : List (List Int)) : GP Unit := do
  write (badLines "transition rate".toList rat_lst)
  run (Acm.ACM_set_rat_lst rat_lst).void

/-- globals.py lines 779-788 `ACM_add_rat_lst`. -/
def ACM_add_rat_lst (rat_lst : List (List Int)) : GP Unit := do
  write (badLines "transition rate".toList rat_lst)
  run (Acm.ACM_add_rat_lst rat_lst).void

/-- globals.py lines 895-899 `ACM_set_amp_lst`. -/
def ACM_set_amp_lst (amp_lst : List (List Int)) : GP Unit := do
  write (badLines "amplitude".toList amp_lst)
  run (Acm.ACM_set_amp_lst amp_lst).void

/-- globals.py lines 916-925 `ACM_add_amp_lst`. -/
def ACM_add_amp_lst (amp_lst : List (List Int)) : GP Unit := do
  write (badLines "amplitude".toList amp_lst)
  run (Acm.ACM_add_amp_lst amp_lst).void

/-- globals.py lines 856-872: the loop of `ACM_show_lst`. -/
noncomputable def showLines (g : Glb) : List (List Int) → GP Unit
  | [] => pure ()
  | ent :: rest => do
    let t ← StPy.lift (showLstText g ent)
    match t with
    | none => showLines g rest
    | some t => do
      print ("  ".toList ++ t)
      showLines g rest

/-- globals.py lines 843-877 `ACM_show_lst`. -/
noncomputable def ACM_show_lst (lst : List (List Int)) (desg : List Char) (show_ : Int) : GP Unit := do
  let g ← glb
  say show_ (if lst.length > 0 then do
      print ("Following \"".toList ++ desg ++ "\" are set to be displayed:".toList)
      showLines g lst
    else print ("Currently, no \"".toList ++ desg ++ "\" are set to be displayed.".toList))

/-- globals.py lines 880-881 `ACM_show_rat_lst`. -/
noncomputable def ACM_show_rat_lst (show_ : Int) : GP Unit := do
  let g ← glb
  ACM_show_lst g.rat_lst g.rat_desg.toList show_

/-- globals.py lines 983-984 `ACM_show_amp_lst`. -/
noncomputable def ACM_show_amp_lst (show_ : Int) : GP Unit := do
  let g ← glb
  ACM_show_lst g.amp_lst g.amp_desg.toList show_

/-- globals.py lines 1015-1033 `ACM_set_transition`. -/
noncomputable def ACM_set_transition (n : Names) (TR_op : Option OperatorSum) (show_ : Int) : GP Unit := do
  let _ ← run (Acm.ACM_set_transition TR_op show_)
  say show_ do
    let g ← glb
    let rat_AM := Op_AM g.rat_TRop
    write ("In ACM_Scale and ACM_Adapt, transition matrix elements now calculated for the operator:\n".toList ++ g.rat_desg.toList)
    print (n.op g.rat_TRop)
    if rat_AM ≥ 0 then print ("(This has angular momentum ".toList ++ pyStr rat_AM ++ ").\n".toList)
    else print ("(This has indeterminate angular momentum: maximum ".toList ++ pyStr (-rat_AM) ++ ").\n".toList)

/-- globals.py lines 1082-1084, 1136-1138: the announcement of a format.  `print(f, t, '*')` prints the format as it is. -/
noncomputable def preview (g : Glb) (format : List Char) : GP Unit := do
  let t ← StPy.lift (pyFormat g.tran_format.toList
    [.str "L_i".toList, .str "j_i".toList, .str "L_f".toList, .str "j_f".toList])
  write "Each will be output using the format:\n  ".toList
  print (format ++ " ".toList ++ t ++ " *".toList)

/-- globals.py lines 1068-1086 `ACM_set_rat_form`. -/
noncomputable def ACM_set_rat_form (n : Names) (rat_fun : Option MelFun) (rat_format rat_desg : Option String) (show_ : Int) :
    GP Unit := do
  let _ ← run (Acm.ACM_set_rat_form rat_fun rat_format rat_desg show_)
  say show_ do
    let g ← glb
    print ("These are calculated from the (alternative reduced) transition matrix elements\nusing the procedure: \"".toList ++
      n.mel g.rat_fun ++ "\"".toList)
    preview g g.rat_format.toList

/-- globals.py lines 1121-1140 `ACM_set_amp_form`. -/
noncomputable def ACM_set_amp_form (n : Names) (amp_fun : Option MelFun) (amp_format amp_desg : Option String) (show_ : Int) :
    GP Unit := do
  let _ ← run (Acm.ACM_set_amp_form amp_fun amp_format amp_desg show_)
  say show_ do
    let g ← glb
    print ("ACM_Scale and ACM_Adapt now set to display \"".toList ++ g.amp_desg.toList ++ "\" second.".toList)
    print ("These are calculated from the (alternative reduced) transition matrix elements\nusing the procedure: \"".toList ++
      n.mel g.amp_fun ++ "\".".toList)
    preview g g.amp_format.toList

/-- globals.py lines 1157-1166 `ACM_set_lambda_fun`. -/
def ACM_set_lambda_fun (n : Names) (lambda_fun : LambdaFunction) (show_ : Int) : GP Unit := do
  let _ ← run (Acm.ACM_set_lambda_fun lambda_fun show_)
  say show_ do
    let g ← glb
    print ("lambda values calculated from v using the procedure: \"".toList ++ n.lam g.lam_fun ++ "\",".toList)

/-- globals.py lines 1212-1239 `ACM_set_basis_type`. -/
noncomputable def ACM_set_basis_type (n : Names) (choice : Int) (abeta0 : ℝ) (show_ : Int) : GP Unit := do
  StPy.lift (require_nonnegint choice)
  if choice = 0 then do
    say show_ (print "Using the constant lambda basis.".toList)
    ACM_set_lambda_fun n lambda_fix_fun 0
  else if choice = 1 then do
    say show_ (print "Using the harmonic oscillator basis with lambda_v = lambda_0 + v.".toList)
    ACM_set_lambda_fun n lambda_sho_fun 0
  else if choice = 2 then do
    say show_ (print "Using the ACM parity basis.".toList)
    ACM_set_lambda_fun n lambda_acm_fun 0
  else if choice = 3 then do
    say show_ (print ("Using integer Davidson basis for potential with minimum at ".toList ++ n.flt abeta0 ++
      " (dimensionless).".toList))
    ACM_set_lambda_fun n (lambda_davi_fun (abeta0 ^ 4)) 0
  else StPy.lift (throw .valueError)

/-- globals.py lines 1324-1344 `ACM_set_defaults`. -/
noncomputable def ACM_set_defaults (n : Names) (show_ : Int) : GP Unit := do
  ACM_set_output (some 2) (some 7) (some 4) show_
  ACM_set_listln (some 4) (some 4) show_
  ACM_set_datum 1 show_
  ACM_set_basis_type n 2 0 show_
  ACM_set_transition n (some quad_op) show_
  ACM_set_rat_form n (some quad_rat_fun) (some def_rat_format) (some def_rat_desg) show_
  ACM_set_amp_form n (some quad_amp_fun) (some def_amp_format) (some def_amp_desg) show_
  ACM_set_sft_fun n (some pySqrt) show_
  ACM_set_eig_fit (some 6) (some 2) (some 1) show_
  ACM_set_rat_fit (some 100) (some 2) (some 0) (some 1) (some 1) show_
  ACM_set_rat_lst []
  ACM_set_amp_lst []
  ACM_show_rat_lst show_
  ACM_show_amp_lst show_
  ACM_set_scales n (some 1) (some 1) show_
  say show_ (print [])

/-- Execute one call. -/
noncomputable def exec (n : Names) : GCall → GP Unit
  | .scales e r s => ACM_set_scales n e r s
  | .sftFun f s => ACM_set_sft_fun n f s
  | .output a b c s => ACM_set_output a b c s
  | .listln a b s => ACM_set_listln a b s
  | .datum d s => ACM_set_datum d s
  | .eigFit f l i s => ACM_set_eig_fit f l i s
  | .ratFit f a b c d s => ACM_set_rat_fit f a b c d s
  | .setRatLst l => ACM_set_rat_lst l
  | .addRatLst l => ACM_add_rat_lst l
  | .setAmpLst l => ACM_set_amp_lst l
  | .addAmpLst l => ACM_add_amp_lst l
  | .transition o s => ACM_set_transition n o s
  | .ratForm f a b s => ACM_set_rat_form n f a b s
  | .ampForm f a b s => ACM_set_amp_form n f a b s
  | .lambdaFun f s => ACM_set_lambda_fun n f s
  | .basisType c a s => ACM_set_basis_type n c a s
  | .defaults s => ACM_set_defaults n s

/-- The state after a history of calls, each of which may have raised. -/
noncomputable def execAll (n : Names) (cs : List GCall) (s : GOut) : GOut := cs.foldl (fun s c => (exec n c s).2) s

end Acm.Msg
