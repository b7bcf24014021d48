import Verif.Model.FullSpace

/-!
# Model of `src/acmpy/examples`, and of the display procedures as they are called there

The examples of the worksheet: classes with a predecessor, calls of setting procedures, and calculations.

Simplifications.  Coefficients of Hamiltonians are real functions.  The markers, the times and the values printed by
setting procedures are left out.
-/

namespace Acm

/-! ### the display procedures with arguments left out -/

/-- full_space.py lines 470-473 `Show_Eigs`, as called: `imp` are the settings when the module was imported, which
provide the value of `toshow` if it is left out. -/
noncomputable def Show_Eigs_call (imp : Glb) (eigen_vals : List (List ℝ)) (Lvals : List Int) (toshow : Option Int)
    (L_min L_max : Option Int) : FM (Option ℝ) :=
  Show_Eigs eigen_vals Lvals (toshow.getD imp.eig_num) L_min L_max

/-- `Show_Mels(Melements, ...)`; `Melements` is `None` if no matrix elements have been calculated. -/
noncomputable def Show_Mels_opt (A : Option LBlockArray) (mel_lst : List (List Int)) (toshow : Int) (f : MelFun)
    (scale : ℝ) : FM Unit :=
  match A with
  | some A => Show_Mels A mel_lst toshow f scale
  | none => if mel_lst.length = 0 then pure () else StPy.lift (throw .attributeError)

/-- full_space.py lines 1025-1035 `Show_Rats`, as called; `imp` are the settings when the module was imported. -/
noncomputable def Show_Rats_call (imp : Glb) (A : Option LBlockArray) (rat_lst : Option (List (List Int)))
    (toshow : Option Int) : FM Unit := do
  let g ← FM.glb
  Show_Mels_opt A (rat_lst.getD imp.rat_lst) (toshow.getD imp.rat_num) g.rat_fun g.rat_sft

/-- full_space.py lines 1052-1062 `Show_Amps`, as called; `imp` are the settings when the module was imported. -/
noncomputable def Show_Amps_call (imp : Glb) (A : Option LBlockArray) (amp_lst : Option (List (List Int)))
    (toshow : Option Int) : FM Unit := do
  let g ← FM.glb
  Show_Mels_opt A (amp_lst.getD imp.amp_lst) (toshow.getD imp.amp_num) g.amp_fun g.amp_sft

/-! ### examples -/

/-- What the `exec` of an example prints itself. -/
inductive Printed where
  | nothing
  | operator (op : OperatorSum)
  | labels (l : List Label)
  | xlabels (l : List XspaceLabel)
  | number (n : Int)
  | lambdas (l : List Int)
  | scales (x : ℝ × ℝ × ℝ)

/-- examples/example.py lines 5-19: a class, without or with a predecessor. -/
inductive Example where
  | root (set unset : List GCall) (exec : FEnv → FM Printed)
  | next (predecessor : Example) (set unset : List GCall) (exec : FEnv → FM Printed)

/-- Calls of setting procedures, up to the first that raises. -/
noncomputable def callAll (fmt : String → Py Unit) : List GCall → GM Unit
  | [] => pure ()
  | c :: cs => do
    c.exec fmt
    callAll fmt cs

/-- Calls of procedures of globals.py. -/
def FM.liftG {α : Type} (m : GM α) : FM α := fun s =>
  ((m s.glb).1, ⟨(m s.glb).2, s.piMemo, s.pipiMemo, s.piqpiMemo, s.out⟩)

/-- examples/example.py lines 21-26 `prepare`. -/
noncomputable def Example.prepare (fmt : String → Py Unit) : Example → FM Unit
  | .root set unset _ => do
    FM.liftG (callAll fmt set)
    FM.liftG (callAll fmt unset)
  | .next p set unset _ => do
    p.prepare fmt
    FM.liftG (callAll fmt set)
    FM.liftG (callAll fmt unset)

/-- examples/example.py lines 28-44 `run`. -/
noncomputable def Example.run (fmt : String → Py Unit) (env : FEnv) : Example → FM Printed
  | .root set unset exec => do
    FM.liftG (callAll fmt set)
    let x ← exec env
    FM.liftG (callAll fmt unset)
    pure x
  | .next p set unset exec => do
    p.prepare fmt
    FM.liftG (callAll fmt set)
    let x ← exec env
    FM.liftG (callAll fmt unset)
    pure x

/-- examples/example.py lines 17-19: the inherited `exec`. -/
def noExec (_env : FEnv) : FM Printed := pure .nothing

/-- An `exec` that calls `ACM_Scale` only. -/
noncomputable def execScale (ham : OperatorSum) (a : XArgs) (env : FEnv) : FM Printed := do
  let _ ← ACM_Scale env ham a
  pure .nothing

/-- An `exec` that calls `ACM_Adapt` only. -/
noncomputable def execAdapt (ham : OperatorSum) (a : XArgs) (env : FEnv) : FM Printed := do
  let _ ← ACM_Adapt env ham a
  pure .nothing

/-! ### section 1 -/

/-- examples/section_1.py lines 8-16 `Example_1_2`. -/
noncomputable def Example_1_2 : Example := .root
  [.defaults 0, .output (some 2) (some 8) (some 5) 1, .datum 1 1, .listln (some 6) (some 4) 1,
    .eigFit (some 6) (some 2) (some 1) 1, .ratFit (some 100) (some 2) (some 0) (some 1) (some 1) 1] [] noExec

/-! ### section 2 -/

/-- examples/section_2.py lines 25-32 `make_RWC_ham`. -/
noncomputable def make_RWC_ham (B c1 c2 chi kappa : Coeff) : OperatorSum :=
  let x1 : Coeff := -(1 / 2) / B
  let x3 : Coeff := B * c1 / 2
  let x4 : Coeff := B * c2 / 2
  let x6 : Coeff := -chi
  let x10 : Coeff := kappa
  ACM_Hamiltonian x1 0 x3 x4 0 x6 0 0 0 x10

/-- examples/section_2.py lines 16-22 `make_RWC_ham_fig5a`. -/
noncomputable def ham_fig5a : OperatorSum := make_RWC_ham (kC 20) (kC (1 - 2 * (3 / 2))) (kC (3 / 2)) (kC 2) (kC 0)

/-- The arguments `math.sqrt(cls.B), 2.5, 0, nu_max, 0, v_max, 0, L_max`. -/
noncomputable def exArgs (B : ℝ) (nu_max v_max L_max : Int) : XArgs :=
  ⟨Real.sqrt B, 5 / 2, 0, nu_max, 0, v_max, 0, L_max⟩

/-- examples/section_2.py lines 40-45. -/
noncomputable def Example_2_2_a : Example := .next Example_1_2 [] [] (execScale ham_fig5a (exArgs 20 5 18 6))
/-- examples/section_2.py lines 48-53. -/
noncomputable def Example_2_2_b : Example := .next Example_2_2_a [] [] (execScale ham_fig5a (exArgs 20 10 18 6))
/-- examples/section_2.py lines 56-61. -/
noncomputable def Example_2_2_c : Example := .next Example_2_2_b [] [] (execScale ham_fig5a (exArgs 20 15 18 6))
/-- examples/section_2.py lines 64-69. -/
noncomputable def Example_2_2_d : Example := .next Example_2_2_c [] [] (execScale ham_fig5a (exArgs 20 10 6 6))

/-- examples/section_2.py lines 72-82. -/
noncomputable def Example_2_3_a : Example := .next Example_2_2_d
  [.setRatLst [[2, 0, 1, 1], [4, 2, 1, 1], [6, 4, 1, 1], [8, 6, 1, 1]], .setAmpLst [[2, 2, 1, 1]]] []
  (execScale ham_fig5a (exArgs 20 10 18 6))

/-- examples/section_2.py lines 85-95. -/
noncomputable def Example_2_3_b : Example := .next Example_2_3_a
  [.addRatLst [[2, 2, 1, 1], [4, 4, 1, 1], [6, 6, 1, 1], [8, 8, 1, 1]], .addAmpLst [[2, 2, 2, 2]]] []
  (execScale ham_fig5a (exArgs 20 10 18 6))

/-- examples/section_2.py lines 98-108. -/
noncomputable def Example_2_3_c : Example := .next Example_2_3_b
  [.setRatLst [[2, 0, 1, 1, 2], [3, 2, 1, 2, 1]], .setAmpLst [[6, 6, 1, 1, -1]]] []
  (execScale ham_fig5a (exArgs 20 10 18 6))

/-- examples/section_2.py lines 111-122. -/
noncomputable def Example_2_4_a : Example := .next Example_2_3_c
  [.scales (some 0.018) (some 0.0015) 1,
    .setRatLst [[2, 0, 1, 1, 2], [3, 2, 1, 2, 2], [4, 3, 2, 1, 2]], .setAmpLst [[2, 2, 1, 1], [2, 2, 2, 2]]] []
  (execScale ham_fig5a (exArgs 20 10 18 6))

/-- examples/section_2.py lines 125-131. -/
noncomputable def Example_2_4_b : Example := .next Example_2_4_a [] [] fun env => do
  let _ ← ACM_Adapt env ham_fig5a (exArgs 20 10 18 6)
  let x ← FM.liftG (ACM_show_scales 1)
  pure (.scales x)

/-- examples/section_2.py lines 134-144. -/
noncomputable def Example_2_4_c : Example := .next Example_2_4_b
  [.eigFit (some 100) (some 0) (some 2) 1, .ratFit (some 100) (some 2) (some 2) (some 2) (some 1) 1] []
  (execAdapt ham_fig5a (exArgs 20 10 18 6))

/-- examples/section_2.py lines 147-161. -/
noncomputable def Example_2_4_d : Example := .next Example_2_4_c
  [.eigFit (some 6) (some 2) (some 1) 1, .ratFit (some 100) (some 2) (some 0) (some 1) (some 1) 1,
    .setRatLst [[2, 0, 1, 1, 2], [3, 2, 1, 2, 2], [4, 3, 2, 1, 2], [4, 2, 2, 2, 2], [2, 2, 2, 1, 2]],
    .addRatLst [[2, 0, 3, 2], [4, 2, 4, 3], [6, 4, 4, 4], [5, 4, 2, 3], [6, 5, 3, 2]],
    .addRatLst [[2, 0, 2, 1], [0, 2, 2, 2], [0, 2, 2, 1], [4, 2, 3, 2]],
    .addRatLst [[2, 0, 4, 3], [4, 2, 5, 4], [0, 2, 3, 1], [2, 0, 4, 1], [4, 4, 5, 1]]] []
  (execAdapt ham_fig5a (exArgs 20 10 12 12))

/-- examples/section_2.py lines 164-174. -/
noncomputable def Example_2_5_a : Example := .next Example_2_4_d
  [.setRatLst [[2, 0], [2, 2]], .setAmpLst []] [] (execAdapt ham_fig5a (exArgs 20 10 18 6))

/-- examples/section_2.py lines 177-186. -/
noncomputable def Example_2_5_b : Example := .next Example_2_5_a
  [.setRatLst [[2], [2, 0, 1]]] [] (execAdapt ham_fig5a (exArgs 20 10 18 6))

/-- examples/section_2.py lines 189-202. -/
noncomputable def Example_2_5_c : Example := .next Example_2_5_b
  [.listln (some 3) (some 6) 1] [.listln (some 6) (some 4) 1] (execAdapt ham_fig5a (exArgs 20 10 18 6))

/-! ### section 3 -/

/-- examples/section_3.py lines 17-23 `make_RWC_ham_fig4c`. -/
noncomputable def ham_fig4c : OperatorSum := make_RWC_ham (kC 40) (kC (1 - 2 * 1)) (kC 1) (kC 0.5) (kC 0)

/-- examples/section_3.py lines 31-42. -/
noncomputable def Example_3_2_a : Example := .next Example_1_2
  [.listln (some 4) none 1, .setRatLst [], .setAmpLst []] [] (execAdapt ham_fig4c (exArgs 40 5 12 7))
/-- examples/section_3.py lines 45-50. -/
noncomputable def Example_3_2_b : Example := .next Example_3_2_a [] [] (execAdapt ham_fig4c (exArgs 40 10 12 7))
/-- examples/section_3.py lines 53-58. -/
noncomputable def Example_3_2_c : Example := .next Example_3_2_b [] [] (execAdapt ham_fig4c (exArgs 40 15 12 7))

/-- examples/section_3.py lines 61-79. -/
noncomputable def Example_3_3_a : Example := .next Example_3_2_c
  [.setRatLst [[2, 0, 1, 1, 2]], .setAmpLst [[2, 2, 1, 1]]] [] fun env => do
  let EML ← ACM_Adapt env ham_fig4c (exArgs 40 15 12 12)
  let _ ← Show_Eigs_call Glb.init (EML.1.map LEig.vals) (EML.1.map LEig.L) (some 6) (some 6) none
  let _ ← Show_Eigs_call Glb.init (EML.1.map LEig.vals) (EML.1.map LEig.L) (some 6) (some 0) (some 2)
  Show_Rats_call Glb.init EML.2 (some [[4, 2, 2, 2, 2], [2, 2, 2, 1], [3, 2, 1, 2], [5, 3, 1, 1, 2]]) none
  Show_Rats_call Glb.init EML.2
    (some [[4, 4, 3, 2], [5, 4, 2, 3], [7, 5, 2, 2], [4, 3, 3, 1], [6, 4, 3, 3], [8, 6, 3, 3]]) none
  Show_Rats_call Glb.init EML.2 (some [[6, 6, 4, 3], [6, 6, 5, 3], [6, 5, 4, 2], [6, 5, 5, 2]]) none
  Show_Rats_call Glb.init EML.2 (some [[0, 2, 3, 1], [0, 2, 4, 1]]) none
  Show_Amps_call Glb.init EML.2 (some [[2, 2]]) (some 6)
  pure .nothing

/-- examples/section_3.py lines 81-86. -/
noncomputable def Example_3_4_a : Example := .next Example_3_3_a [] [] fun _ => do
  let l ← StPy.lift (lbsSO5r3_rngVvarL 0 12 0 (some 7))
  pure (.labels l)
/-- examples/section_3.py lines 89-94. -/
noncomputable def Example_3_4_b : Example := .next Example_3_4_a [] [] fun _ => do
  let n ← StPy.lift (dimSO5r3_rngVvarL 0 12 0 (some 7))
  pure (.number n)
/-- examples/section_3.py lines 97-102. -/
noncomputable def Example_3_4_c : Example := .next Example_3_4_b [] [] fun _ => do
  let l ← StPy.lift (lbsXspace 0 3 0 12 0 (some 7))
  pure (.xlabels l)
/-- examples/section_3.py lines 105-110. -/
noncomputable def Example_3_4_d : Example := .next Example_3_4_c [] [] fun _ => do
  let n ← StPy.lift (dimXspace 0 3 0 12 0 (some 7))
  pure (.number n)

/-! ### section 4 -/

/-- examples/section_4.py lines 16-22 `Example_4_1_ham.ham`. -/
noncomputable def ham_4_1 : OperatorSum := make_RWC_ham (kC 50) (kC (1 - 2 * 2)) (kC 2) (kC 1.5) (kC 1)

/-- examples/section_4.py lines 25-30. -/
noncomputable def Example_4_1_a : Example := .next Example_1_2 [] [] fun _ => pure (.operator ham_4_1)

/-- examples/section_4.py lines 33-41. -/
noncomputable def Example_4_2_a : Example := .next Example_4_1_a
  [.listln (some 4) (some 3) 1,
    .setRatLst [[2, 2, 2, 1], [4, 4, 2, 1], [4, 4, 3, 2], [4, 4, 4, 3], [6, 6, 2, 1], [6, 6, 3, 2], [6, 6, 4, 3]],
    .setAmpLst [[2, 2, 1, 1]]] [] noExec

/-- examples/section_4.py lines 44-49. -/
noncomputable def Example_4_3_a : Example := .next Example_4_2_a [] [] (execAdapt ham_4_1 (exArgs 50 11 21 8))
/-- examples/section_4.py lines 52-57. -/
noncomputable def Example_4_3_b : Example := .next Example_4_3_a [] [] (execAdapt ham_4_1 (exArgs 50 13 21 8))
/-- examples/section_4.py lines 60-65. -/
noncomputable def Example_4_3_c : Example := .next Example_4_3_b [] [] (execAdapt ham_4_1 (exArgs 50 15 21 8))
/-- examples/section_4.py lines 68-73. -/
noncomputable def Example_4_3_d : Example := .next Example_4_3_c [] [] (execAdapt ham_4_1 (exArgs 50 17 21 8))
/-- examples/section_4.py lines 76-81. -/
noncomputable def Example_4_3_e : Example := .next Example_4_3_d [] [] (execAdapt ham_4_1 (exArgs 50 19 21 8))
/-- examples/section_4.py lines 84-89. -/
noncomputable def Example_4_3_f : Example := .next Example_4_3_e [] [] (execAdapt ham_4_1 (exArgs 50 21 21 8))

/-- The arguments `cls.alam[0], cls.alam[1], 0, nu_max, 0, 21, 0, 8`; lines 92-95: `alam` is what `RWC_alam` returned
when the module was imported. -/
noncomputable def alamArgs (alam : ℝ × ℝ) (nu_max : Int) : XArgs := ⟨alam.1, alam.2, 0, nu_max, 0, 21, 0, 8⟩

/-- examples/section_4.py lines 98-103. -/
noncomputable def Example_4_4_a (alam : ℝ × ℝ) : Example :=
  .next Example_4_3_f [] [] (execAdapt ham_4_1 (alamArgs alam 3))
/-- examples/section_4.py lines 106-111. -/
noncomputable def Example_4_4_b (alam : ℝ × ℝ) : Example :=
  .next (Example_4_4_a alam) [] [] (execAdapt ham_4_1 (alamArgs alam 5))
/-- examples/section_4.py lines 114-119. -/
noncomputable def Example_4_4_c (alam : ℝ × ℝ) : Example :=
  .next (Example_4_4_b alam) [] [] (execAdapt ham_4_1 (alamArgs alam 7))
/-- examples/section_4.py lines 122-127. -/
noncomputable def Example_4_4_d (alam : ℝ × ℝ) : Example :=
  .next (Example_4_4_c alam) [] [] (execAdapt ham_4_1 (alamArgs alam 9))
/-- examples/section_4.py lines 130-135. -/
noncomputable def Example_4_4_e (alam : ℝ × ℝ) : Example :=
  .next (Example_4_4_d alam) [] [] (execAdapt ham_4_1 (alamArgs alam 11))
/-- examples/section_4.py lines 138-143. -/
noncomputable def Example_4_4_f (alam : ℝ × ℝ) : Example :=
  .next (Example_4_4_e alam) [] [] (execAdapt ham_4_1 (alamArgs alam 13))

/-- `print(ACM_show_lambda_fun())`. -/
noncomputable def execLambda (_env : FEnv) : FM Printed := do
  let l ← FM.liftG (ACM_show_lambda_fun 0 10)
  pure (.lambdas l)

/-- examples/section_4.py lines 146-151. -/
noncomputable def Example_4_5_a (alam : ℝ × ℝ) : Example := .next (Example_4_4_f alam) [] [] execLambda

/-- examples/section_4.py lines 154-163. -/
noncomputable def Example_4_5_b (alam : ℝ × ℝ) : Example :=
  .next (Example_4_5_a alam) [.basisType 1 0 1] [] execLambda

/-- examples/section_4.py lines 166-179. -/
noncomputable def Example_4_5_c (alam : ℝ × ℝ) : Example := .next (Example_4_5_b alam)
  [.setRatLst [[2, 0, 1, 1, 2], [2, 2, 2, 1], [4, 4, 2, 1], [4, 4, 3, 2], [4, 4, 4, 3], [6, 6, 2, 1], [6, 6, 3, 2],
    [6, 6, 4, 3]]] [] noExec

/-- examples/section_4.py lines 182-187. -/
noncomputable def Example_4_5_d_050508 (alam : ℝ × ℝ) : Example :=
  .next (Example_4_5_c alam) [] [] (execAdapt ham_4_1 (exArgs 50 5 5 8))

/-- examples/section_4.py lines 190-195. -/
noncomputable def Example_4_5_d (alam : ℝ × ℝ) : Example :=
  .next (Example_4_5_c alam) [] [] (execAdapt ham_4_1 (exArgs 50 5 5 8))

/-- The examples of the four sections. -/
noncomputable def allExamples (alam : ℝ × ℝ) : List Example :=
  [Example_1_2, Example_2_2_a, Example_2_2_b, Example_2_2_c, Example_2_2_d, Example_2_3_a, Example_2_3_b,
    Example_2_3_c, Example_2_4_a, Example_2_4_b, Example_2_4_c, Example_2_4_d, Example_2_5_a, Example_2_5_b,
    Example_2_5_c, Example_3_2_a, Example_3_2_b, Example_3_2_c, Example_3_3_a, Example_3_4_a, Example_3_4_b,
    Example_3_4_c, Example_3_4_d, Example_4_1_a, Example_4_2_a, Example_4_3_a, Example_4_3_b, Example_4_3_c,
    Example_4_3_d, Example_4_3_e, Example_4_3_f, Example_4_4_a alam, Example_4_4_b alam, Example_4_4_c alam,
    Example_4_4_d alam, Example_4_4_e alam, Example_4_4_f alam, Example_4_5_a alam, Example_4_5_b alam,
    Example_4_5_c alam, Example_4_5_d_050508 alam, Example_4_5_d alam]

end Acm
