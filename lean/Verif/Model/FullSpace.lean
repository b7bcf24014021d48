import Verif.Model.FullOps

/-!
# Model of `src/acmpy/full_space.py`

Diagonalisation, block matrices, the displaying procedures and `ACM_Scale`, `ACM_Adapt`.

Simplifications.  What is printed is recorded as a list of values (`Shown`); the rendering of a
line as text (format strings, widths, precisions) is in `Verif/Model/Text.lean`.  Divisions by a scaling factor
are divisions of reals (NumPy gives `inf` or `nan` for a factor 0).  `np.linalg.inv` and
`np.linalg.eigh` do not raise.  The checks of `ndim` and `dtype` are dropped.
-/

namespace Acm

/-- A printed line. -/
inductive Shown where
  | eigHead (low : Option ℝ) (sft : ℝ)
  | eigs (L : Int) (vals : List ℝ)
  | melHead (scale : ℝ)
  | bad (ent : List Int)
  | mel (L1 n1 L2 n2 : Int) (x : ℝ)
  | row (L1 L2 n2 : Int) (xs : List ℝ)

/-- The state of the process: the globals, the memo tables of full_operators.py, what has been
printed. -/
structure FState where
  glb : Glb
  piMemo : XArgs → Option Arr
  pipiMemo : Int → XArgs → Option Arr
  piqpiMemo : XArgs → Option Arr
  out : List Shown

/-- Code that can raise, with effects on the state of the process. -/
abbrev FM (α : Type) := StPy FState α

/-- What comes from outside the modules: Clebsch-Gordan coefficients, NumPy's linear algebra and
the content of uninitialised memory (`np.empty`). -/
structure FEnv where
  x : XEnv
  junk : ℕ → ℕ → ℝ

/-- The part of the state that the representations depend on. -/
def FState.xs (s : FState) : XState := ⟨s.glb.lam_fun, s.piMemo, s.pipiMemo, s.piqpiMemo⟩

/-- `g.glb_nu_lap = 0`. -/
def Glb.resetLap (g : Glb) : Glb := { g with nu_lap := 0 }

/-- The state after a representation has been computed: memo tables, and full_operators.py line
624.  Simplification: `glb_nu_lap` is set even if line 624 is not reached; nothing sets it to
anything else than 0. -/
def FState.afterX (s : FState) (x : XState) : FState :=
  ⟨s.glb.resetLap, x.piMemo, x.pipiMemo, x.piqpiMemo, s.out⟩

/-- Compute a representation. -/
def FM.liftX {α : Type} (m : StPy XState α) : FM α := fun s => ((m s.xs).1, s.afterX (m s.xs).2)

/-- Read the globals. -/
def FM.glb : FM Glb := fun s => (.ok s.glb, s)

/-- Assign to globals. -/
def FM.setGlb (f : Glb → Glb) : FM Unit := fun s =>
  (.ok (), ⟨f s.glb, s.piMemo, s.pipiMemo, s.piqpiMemo, s.out⟩)

/-- `print`. -/
def FM.print (l : Shown) : FM Unit := fun s =>
  (.ok (), ⟨s.glb, s.piMemo, s.pipiMemo, s.piqpiMemo, s.out ++ [l]⟩)

/-- full_space.py lines 136-138: the loop over neighbours. -/
def validate_Lvals_loop : List Int → Py Unit
  | L :: M :: rest => if L ≥ M then throw .valueError else validate_Lvals_loop (M :: rest)
  | _ => pure ()

/-- full_space.py lines 128-138 `validate_Lvals`. -/
def validate_Lvals (Lvals : List Int) : Py Unit := do
  if Lvals.length = 0 then throw .valueError
  else do
    let _ ← Lvals.mapM require_nonnegint
    validate_Lvals_loop Lvals

/-! ### DigXspace -/

/-- `Eigenfiddle` with the eigenvalues as a list. -/
noncomputable def Eigenlist (la : LinAlg) (M : Arr) : Py (List ℝ × Arr) := do
  let (vals, P) ← Eigenfiddle la M
  pure ((List.range M.rows).map vals, P)

/-- One L value with its eigenvalues and eigenvectors. -/
structure LEig where
  L : Int
  vals : List ℝ
  basis : Arr

/-- The arguments for one L value, `RepXspace(ham_op, anorm, ..., LL)`. -/
def XArgs.at (a : XArgs) (LL : Int) : XArgs :=
  ⟨a.anorm, a.lambda_base, a.nu_min, a.nu_max, a.v_min, a.v_max, LL, LL⟩

/-- full_space.py lines 168-177: the loop over L for a tame Hamiltonian. -/
noncomputable def digTame (env : XEnv) (ham_op : OperatorSum) (a : XArgs) : List Int → FM (List LEig)
  | [] => pure []
  | LL :: Ls => do
    let sph_dim ← StPy.lift (dimSO5r3_rngV a.v_min a.v_max LL)
    if sph_dim > 0 then do
      let L_matrix ← FM.liftX (RepXspace env ham_op (a.at LL))
      let r ← StPy.lift (Eigenlist env.la L_matrix)
      let rest ← digTame env ham_op a Ls
      pure (⟨LL, r.1, r.2⟩ :: rest)
    else digTame env ham_op a Ls

/-- full_space.py lines 183-195: the loop over L otherwise. -/
noncomputable def digUntame (la : LinAlg) (a : XArgs) (rep_matrix : Arr) (rad_dim : Int) :
    List Int → Int → Py (List LEig)
  | [], _ => pure []
  | LL :: Ls, Lstart => do
    let sph_dim ← dimSO5r3_rngV a.v_min a.v_max LL
    let Lstop := Lstart + rad_dim * sph_dim
    if sph_dim > 0 then do
      let L_matrix := rep_matrix.slice (Lstart - 1) Lstop (Lstart - 1) Lstop
      let r ← Eigenlist la L_matrix
      let rest ← digUntame la a rep_matrix rad_dim Ls Lstop
      pure (⟨LL, r.1, r.2⟩ :: rest)
    else digUntame la a rep_matrix rad_dim Ls Lstart

/-- full_space.py lines 141-197 `DigXspace`, with `L_max` explicit.  The lists `eigen_vals`,
`eigen_bases`, `Lvals` are the columns of the result; `Xparams` are the arguments. -/
noncomputable def DigXspace (env : XEnv) (ham_op : OperatorSum) (a : XArgs) : FM (List LEig) := do
  StPy.lift a.check
  if Op_Tame ham_op then digTame env ham_op a (pyRange a.L_min (a.L_max + 1))
  else do
    let rep_matrix ← FM.liftX (RepXspace env ham_op a)
    StPy.lift (digUntame env.la a rep_matrix (dimRadial a.nu_min a.nu_max)
      (pyRange a.L_min (a.L_max + 1)) 1)

/-! ### block matrices -/

/-- full_space.py lines 266-292: the attributes of `LBlockFullSpace`.  A dict is a list of pairs, in
which the last value for a key counts. -/
structure LBlockFullSpace where
  nu_min : Int
  nu_max : Int
  v_min : Int
  v_max : Int
  Lvals : List Int
  Lblocks : List (Int × Int × Int)

/-- full_space.py lines 294-296 `dimL`. -/
def LBlock_dimL (nu_min nu_max v_min v_max : Int) (Lvals : List Int) (L : Int) : Py Int :=
  if L ∈ Lvals then dimXspace nu_min nu_max v_min v_max L none else pure 0

/-- `np.cumsum`, from `acc` on. -/
def cumsumFrom (acc : Int) : List Int → List Int
  | [] => []
  | x :: xs => (acc + x) :: cumsumFrom (acc + x) xs

/-- full_space.py lines 302-308 `blocks`. -/
def LBlock_blocks (nu_min nu_max v_min v_max : Int) (Lvals : List Int) : Py (List (Int × Int × Int)) := do
  let dims ← Lvals.mapM (LBlock_dimL nu_min nu_max v_min v_max Lvals)
  let ends := cumsumFrom 0 dims
  let starts := [0] ++ ends.dropLast
  pure (Lvals.zip (starts.zip ends))

/-- full_space.py lines 279-292 `LBlockFullSpace.__init__`. -/
def LBlockFullSpace.new (nu_min nu_max v_min v_max : Int) (Lvals : List Int) : Py LBlockFullSpace := do
  require_nonnegint_range nu_min nu_max
  require_nonnegint_range v_min v_max
  let bs ← LBlock_blocks nu_min nu_max v_min v_max Lvals
  pure ⟨nu_min, nu_max, v_min, v_max, Lvals, bs⟩

/-- full_space.py lines 298-300 `dim`. -/
def LBlockFullSpace.dim (s : LBlockFullSpace) : Py Int := do
  let ds ← s.Lvals.mapM (LBlock_dimL s.nu_min s.nu_max s.v_min s.v_max s.Lvals)
  pure ds.sum

/-- full_space.py lines 310-315 `get_block_for_L`. -/
def LBlockFullSpace.get_block_for_L (s : LBlockFullSpace) (L : Int) : Py (Int × Int) :=
  match s.Lblocks.reverse.lookup L with
  | some b => pure b
  | none => throw .valueError

/-- full_space.py lines 318-341: `LBlockNDFloatArray`. -/
structure LBlockArray where
  mat : Arr
  full_space : LBlockFullSpace

/-- full_space.py lines 327-341 `LBlockNDFloatArray.__init__`. -/
def LBlockArray.new (mat : Arr) (full_space : LBlockFullSpace) : Py LBlockArray :=
  if mat.rows ≠ mat.cols then throw .valueError else pure ⟨mat, full_space⟩

/-- full_space.py lines 343-347 `get_block`. -/
noncomputable def LBlockArray.get_block (A : LBlockArray) (L_row L_col : Int) : Py Arr := do
  let r ← A.full_space.get_block_for_L L_row
  let c ← A.full_space.get_block_for_L L_col
  pure (A.mat.slice r.1 r.2 c.1 c.2)

/-- full_space.py lines 349-353 `set_block`. -/
noncomputable def LBlockArray.set_block (A : LBlockArray) (L_row L_col : Int) (mat : Arr) : Py LBlockArray := do
  let r ← A.full_space.get_block_for_L L_row
  let c ← A.full_space.get_block_for_L L_col
  let M ← A.mat.setBlock r.1 r.2 c.1 c.2 mat
  pure ⟨M, A.full_space⟩

/-- `A @ B`. -/
noncomputable def Arr.matmul (A B : Arr) : Py Arr :=
  if A.cols = B.rows then pure (A.mul B) else throw .valueError

/-- full_space.py line 373. -/
noncomputable def ampSet (tran result : LBlockArray) (L_row L_col : Int) (P_inv P : Arr) : Py LBlockArray := do
  let T ← tran.get_block L_row L_col
  let X ← P_inv.matmul T
  let Y ← X.matmul P
  result.set_block L_row L_col Y

/-- full_space.py lines 372-373: the inner loop. -/
noncomputable def ampInner (tran : LBlockArray) (L_row : Int) (P_inv : Arr) :
    List (Arr × Int) → LBlockArray → Py LBlockArray
  | [], result => pure result
  | (P, L_col) :: rest, result => do
    let result ← ampSet tran result L_row L_col P_inv P
    ampInner tran L_row P_inv rest result

/-- full_space.py lines 371-373: the outer loop. -/
noncomputable def ampOuter (tran : LBlockArray) (cols : List (Arr × Int)) :
    List (Arr × Int) → LBlockArray → Py LBlockArray
  | [], result => pure result
  | (P_inv, L_row) :: rest, result => do
    let result ← ampInner tran L_row P_inv cols result
    ampOuter tran cols rest result

/-- full_space.py lines 368-375: the part of `AmpXspeig` after the transition matrix. -/
noncomputable def ampBlocks (env : FEnv) (tran_mat : Arr) (eigen_bases : List Arr)
    (full_space : LBlockFullSpace) (Lvals : List Int) : Py LBlockArray := do
  let tran ← LBlockArray.new tran_mat full_space
  let result ← LBlockArray.new ⟨tran_mat.rows, tran_mat.cols, env.junk⟩ full_space
  let eigen_invs := eigen_bases.map env.x.la.inv
  ampOuter tran (eigen_bases.zip Lvals) (eigen_invs.zip Lvals) result

/-- full_space.py lines 356-375 `AmpXspeig`; `a` gives `Xparams` (its `L_min`, `L_max` are not
used). -/
noncomputable def AmpXspeig (env : FEnv) (tran_op : OperatorSum) (eigen_bases : List Arr) (a : XArgs)
    (Lvals : List Int) : FM LBlockArray := do
  StPy.lift (validate_Lvals Lvals)
  let full_space ← StPy.lift (LBlockFullSpace.new a.nu_min a.nu_max a.v_min a.v_max Lvals)
  let L_min ← StPy.lift (pyGet Lvals 0)
  let L_max ← StPy.lift (pyGet Lvals (-1))
  let tran_mat ← FM.liftX (RepXspace env.x tran_op
    ⟨a.anorm, a.lambda_base, a.nu_min, a.nu_max, a.v_min, a.v_max, L_min, L_max⟩)
  StPy.lift (ampBlocks env tran_mat eigen_bases full_space Lvals)

/-! ### displaying -/

/-- `min(xs)` of a list of floats. -/
noncomputable def pyMin : List ℝ → Py ℝ
  | [] => throw .valueError
  | x :: xs => pure (xs.foldl min x)

/-- full_space.py lines 522-523 `min_head`. -/
noncomputable def min_head (alist : List (List ℝ)) : Py ℝ := pyMin (alist.filterMap List.head?)

/-- full_space.py line 399. -/
def L_MAX_DEFAULT : Int := 1000000

/-- full_space.py lines 479-486: the bounds `(L_min, L_max, L_top)`. -/
def eigBounds (L_min L_max : Option Int) : Int × Int × Int :=
  match L_min, L_max with
  | some l, none => (l, L_MAX_DEFAULT, l)
  | l, m => (l.getD 0, m.getD L_MAX_DEFAULT, m.getD L_MAX_DEFAULT)

/-- full_space.py lines 507-512: the loop that prints the eigenvalues. -/
noncomputable def showEigsLoop (low sft : ℝ) (L_min L_top toshow : Int) : List (Int × List ℝ) → FM Unit
  | [] => pure ()
  | (L, vals) :: rest => do
    if L_min ≤ L ∧ L ≤ L_top then do
      FM.print (.eigs L ((vals.take toshow.toNat).map fun val => (val - low) / sft))
      showEigsLoop low sft L_min L_top toshow rest
    else showEigsLoop low sft L_min L_top toshow rest

/-- full_space.py lines 493-514: the printing part of `Show_Eigs`. -/
noncomputable def showEigsBody (eigen_vals : List (List ℝ)) (Lvals : List Int) (toshow L_min L_top : Int) :
    FM (Option ℝ) := do
  let g ← FM.glb
  if g.eig_rel then do
    let low ← StPy.lift (min_head eigen_vals)
    FM.print (.eigHead (some low) g.eig_sft)
    showEigsLoop low g.eig_sft L_min L_top toshow (Lvals.zip eigen_vals)
    pure (some low)
  else do
    FM.print (.eigHead none g.eig_sft)
    showEigsLoop 0 g.eig_sft L_min L_top toshow (Lvals.zip eigen_vals)
    pure (some 0)

/-- full_space.py lines 470-514 `Show_Eigs` (with `toshow` explicit). -/
noncomputable def Show_Eigs (eigen_vals : List (List ℝ)) (Lvals : List Int) (toshow : Int)
    (L_min L_max : Option Int) : FM (Option ℝ) := do
  StPy.lift (require_nonnegint toshow)
  if toshow = 0 ∨ eigen_vals.length = 0 then pure none
  else do
    let b := eigBounds L_min L_max
    StPy.lift (require_nonnegint_range b.1 b.2.1)
    if Lvals.any fun L => decide (b.1 ≤ L ∧ L ≤ b.2.2) then
      showEigsBody eigen_vals Lvals toshow b.1 b.2.2
    else pure none

/-- `M[i, j]`: a negative index counts from the end. -/
noncomputable def Arr.get (M : Arr) (i j : Int) : Py ℝ :=
  let i' := if i < 0 then i + M.rows else i
  let j' := if j < 0 then j + M.cols else j
  if 0 ≤ i' ∧ i' < M.rows ∧ 0 ≤ j' ∧ j' < M.cols then pure (M.e i'.toNat j'.toNat)
  else throw .indexError

/-- `mel_fun(L1, L2, TR_matrix[n2 - 1, n1 - 1]) / scale`. -/
noncomputable def melValue (f : MelFun) (scale : ℝ) (TR : Arr) (L1 L2 n1 n2 : Int) : FM ℝ := do
  let g ← FM.glb
  let x ← StPy.lift (TR.get (n2 - 1) (n1 - 1))
  let y ← StPy.lift (f g.rat_TRopAM L1 L2 x)
  pure (y / scale)

/-- full_space.py lines 975-976: the items of a row. -/
noncomputable def rowValues (f : MelFun) (scale : ℝ) (TR : Arr) (L1 L2 n2 : Int) : List Int → FM (List ℝ)
  | [] => pure []
  | n1 :: rest => do
    let x ← melValue f scale TR L1 L2 n1 n2
    let xs ← rowValues f scale TR L1 L2 n2 rest
    pure (x :: xs)

/-- full_space.py lines 970-979. -/
noncomputable def showRowBlock (f : MelFun) (scale : ℝ) (TR : Arr) (L1 L2 n2 toshow : Int) : FM Int :=
  if n2 > TR.rows ∨ TR.cols = 0 then pure 0
  else do
    let mels ← rowValues f scale TR L1 L2 n2 (pyRange 1 (min (TR.cols : Int) toshow + 1))
    FM.print (.row L1 L2 n2 mels)
    pure 1

/-- full_space.py lines 954-979 `Show_Mels_Row`. -/
noncomputable def Show_Mels_Row (A : LBlockArray) (L1 L2 n2 toshow : Int) (f : MelFun) (scale : ℝ) :
    FM Int :=
  if L1 ∉ A.full_space.Lvals ∨ L2 ∉ A.full_space.Lvals then pure 0
  else do
    let TR ← StPy.lift (A.get_block L2 L1)
    showRowBlock f scale TR L1 L2 n2 toshow

/-- full_space.py lines 884-886, 907-909: rows until there are no more. -/
noncomputable def showRowsLoop (A : LBlockArray) (L1 L2 toshow : Int) (f : MelFun) (scale : ℝ) :
    List Int → FM Unit
  | [] => pure ()
  | n2 :: rest => do
    let r ← Show_Mels_Row A L1 L2 n2 toshow f scale
    if r ≤ 0 then pure () else showRowsLoop A L1 L2 toshow f scale rest

/-- full_space.py lines 906-909: the loop over `L1`. -/
noncomputable def showRowsL1 (A : LBlockArray) (L2 toshow : Int) (f : MelFun) (scale : ℝ) :
    List Int → FM Unit
  | [] => pure ()
  | L1 :: rest => do
    showRowsLoop A L1 L2 toshow f scale (pyRange 1 (toshow + 1))
    showRowsL1 A L2 toshow f scale rest

/-- full_space.py lines 902-909 `Show_Mels_Rows`. -/
noncomputable def Show_Mels_Rows (A : LBlockArray) (L2 toshow : Int) (f : MelFun) (scale : ℝ) : FM Unit := do
  let g ← FM.glb
  showRowsL1 A L2 toshow f scale (pyRange (max 0 (L2 - g.rat_TRopAM)) (L2 + g.rat_TRopAM + 1))

/-- full_space.py lines 896-899: the loop over all `L2`. -/
noncomputable def showAllRows (A : LBlockArray) (toshow : Int) (f : MelFun) (scale : ℝ) : List Int → FM Unit
  | [] => pure ()
  | L2 :: rest => do
    Show_Mels_Rows A L2 toshow f scale
    showAllRows A toshow f scale rest

/-- full_space.py lines 839-841, 869-872: print one element if it exists. -/
noncomputable def showOne (A : LBlockArray) (L1 L2 n1 n2 : Int) (f : MelFun) (scale : ℝ) : FM Unit :=
  if L1 ∈ A.full_space.Lvals ∧ L2 ∈ A.full_space.Lvals then do
    let TR ← StPy.lift (A.get_block L2 L1)
    if (0 < n1 ∧ n1 ≤ TR.cols) ∧ (0 < n2 ∧ n2 ≤ TR.rows) then do
      let mel ← melValue f scale TR L1 L2 n1 n2
      FM.print (.mel L1 n1 L2 n2 mel)
    else pure ()
  else pure ()

/-- full_space.py lines 863-876: `k` passes of the loop.  `n1 > 0` and `n2 > 0` hold there. -/
noncomputable def showSeries (A : LBlockArray) (n1 n2 Lmod : Int) (f : MelFun) (scale : ℝ) :
    ℕ → Int → Int → FM Unit
  | 0, _, _ => pure ()
  | k + 1, L1, L2 => do
    showOne A L1 L2 n1 n2 f scale
    showSeries A n1 n2 Lmod f scale k (L1 + Lmod) (L2 + Lmod)

/-- full_space.py lines 852-861: `(Lcount, Lmod, L1, L2)`. -/
def seriesPlan (Lvals : List Int) (L1 L2 Lmod : Int) : Py (Int × Int × Int × Int) :=
  if Lmod > 0 then do
    let top ← pyGet Lvals (-1)
    let c ← iquo (top - max L1 L2) Lmod
    pure (c, Lmod, L1, L2)
  else if Lmod < 0 then do
    let c ← iquo (min L1 L2) (-Lmod)
    pure (c, -Lmod, L1 - c * (-Lmod), L2 - c * (-Lmod))
  else pure (0, Lmod, L1, L2)

/-- full_space.py lines 843-876: a designator of five integers. -/
noncomputable def showFive (A : LBlockArray) (L1 L2 n1 n2 Lmod : Int) (f : MelFun) (scale : ℝ) : FM Unit :=
  if n1 ≤ 0 ∨ n2 ≤ 0 then pure ()
  else do
    let p ← StPy.lift (seriesPlan A.full_space.Lvals L1 L2 Lmod)
    showSeries A n1 n2 p.2.1 f scale (p.1 + 1).toNat p.2.2.1 p.2.2.2

/-- full_space.py lines 803-899: one designator. -/
noncomputable def showDesignator (A : LBlockArray) (toshow : Int) (f : MelFun) (scale : ℝ) :
    List Int → FM Unit
  | [] => showAllRows A toshow f scale A.full_space.Lvals
  | [L2] => if L2 < 0 then pure () else Show_Mels_Rows A L2 toshow f scale
  | [L1, L2] => if L1 < 0 ∨ L2 < 0 then pure ()
      else showRowsLoop A L1 L2 toshow f scale (pyRange 1 (toshow + 1))
  | [L1, L2, n2] => if L1 < 0 ∨ L2 < 0 then pure () else do
      let _ ← Show_Mels_Row A L1 L2 n2 toshow f scale
      pure ()
  | [L1, L2, n1, n2] => if L1 < 0 ∨ L2 < 0 then pure () else showOne A L1 L2 n1 n2 f scale
  | [L1, L2, n1, n2, Lmod] => if L1 < 0 ∨ L2 < 0 then pure () else showFive A L1 L2 n1 n2 Lmod f scale
  | ent => FM.print (.bad ent)

/-- full_space.py lines 803-899: the loop over the designators. -/
noncomputable def showDesignators (A : LBlockArray) (toshow : Int) (f : MelFun) (scale : ℝ) :
    List (List Int) → FM Unit
  | [] => pure ()
  | ent :: rest => do
    showDesignator A toshow f scale ent
    showDesignators A toshow f scale rest

/-- full_space.py lines 770-899 `Show_Mels`. -/
noncomputable def Show_Mels (A : LBlockArray) (mel_lst : List (List Int)) (toshow : Int) (f : MelFun)
    (scale : ℝ) : FM Unit :=
  if mel_lst.length = 0 then pure ()
  else if A.mat.rows = 0 then StPy.lift (throw .valueError)
  else do
    FM.print (.melHead scale)
    showDesignators A toshow f scale mel_lst

/-! ### ACM_Scale, ACM_Adapt -/

/-- full_space.py lines 1280-1282, 1285-1287, 1289-1291: is the reference state in range? -/
def refCheck (a : XArgs) (L idx : Int) : Py Unit :=
  if L < a.L_min ∨ L > a.L_max then throw .valueError
  else do
    let d ← dimXspace a.nu_min a.nu_max a.v_min a.v_max L none
    if idx > d then throw .valueError else pure ()

/-- full_space.py lines 1279-1291. -/
def refChecks (fit_eig fit_rat : Int) (a : XArgs) (g : Glb) : Py Unit := do
  if fit_eig > 0 ∧ g.eig_num > 0 then refCheck a g.eig_L g.eig_idx else pure ()
  if fit_rat > 0 ∧ g.rat_lst.length > 0 then do
    refCheck a g.rat_L1 g.rat_1dx
    refCheck a g.rat_L2 g.rat_2dx
  else pure ()

/-- full_space.py line 1304. -/
noncomputable def eigenLow (g : Glb) (eigen_vals : List (List ℝ)) : Py ℝ :=
  if g.eig_rel then min_head eigen_vals else pure 0

/-- `eigen_vals[Lvals.index(L)]`, with the check of lines 1306-1308. -/
def eigenAt (r : List LEig) (L : Int) : Py (List ℝ) :=
  match r.find? fun x => x.L = L with
  | some x => pure x.vals
  | none => throw .valueError

open Classical in
/-- full_space.py lines 1302-1312: the scale of the energies. -/
noncomputable def fitEig (r : List LEig) : FM Unit := do
  let g ← FM.glb
  let low ← StPy.lift (eigenLow g (r.map LEig.vals))
  let vals ← StPy.lift (eigenAt r g.eig_L)
  let E ← StPy.lift (pyGet vals (g.eig_idx - 1))
  FM.setGlb fun g => { g with eig_sft := (E - low) / g.eig_fit }
  if (E - low) / g.eig_fit = 0 then StPy.lift (throw .valueError) else pure ()

/-- full_space.py lines 1300-1314. -/
noncomputable def scaleEig (fit_eig : Int) (r : List LEig) : FM Unit := do
  let g ← FM.glb
  if g.eig_num > 0 then do
    if fit_eig > 0 then do
      fitEig r
      let _ ← Show_Eigs (r.map LEig.vals) (r.map LEig.L) g.eig_num none none
      pure ()
    else do
      let _ ← Show_Eigs (r.map LEig.vals) (r.map LEig.L) g.eig_num none none
      pure ()
  else pure ()

open Classical in
/-- full_space.py lines 1324-1343: the scales of the rates and the amplitudes. -/
noncomputable def fitRat (trans : LBlockArray) (Lvals : List Int) : FM Unit := do
  let g ← FM.glb
  if g.rat_L1 ∉ Lvals then StPy.lift (throw .valueError)
  else if g.rat_L2 ∉ Lvals then StPy.lift (throw .valueError)
  else do
    let block ← StPy.lift (trans.get_block g.rat_L2 g.rat_L1)
    let mel ← StPy.lift (block.get (g.rat_2dx - 1) (g.rat_1dx - 1))
    let x ← StPy.lift (g.rat_fun g.rat_TRopAM g.rat_L1 g.rat_L2 mel)
    FM.setGlb fun g => { g with rat_sft := |x| / g.rat_fit }
    if |x| / g.rat_fit = 0 then StPy.lift (throw .valueError)
    else do
      let y ← StPy.lift (g.amp_sft_fun (|x| / g.rat_fit))
      FM.setGlb fun g => { g with amp_sft := y }

/-- full_space.py lines 1025-1035 `Show_Rats`, 1052-1062 `Show_Amps`. -/
noncomputable def showRatsAmps (trans : LBlockArray) : FM Unit := do
  let g ← FM.glb
  Show_Mels trans g.rat_lst g.rat_num g.rat_fun g.rat_sft
  let g ← FM.glb
  Show_Mels trans g.amp_lst g.amp_num g.amp_fun g.amp_sft

/-- full_space.py lines 1322-1346. -/
noncomputable def scaleTrans (env : FEnv) (fit_rat : Int) (a : XArgs) (r : List LEig) : FM LBlockArray := do
  let g ← FM.glb
  let trans ← AmpXspeig env g.rat_TRop (r.map LEig.basis) a (r.map LEig.L)
  if fit_rat > 0 then do
    fitRat trans (r.map LEig.L)
    showRatsAmps trans
    pure trans
  else do
    showRatsAmps trans
    pure trans

/-- full_space.py lines 1316-1352. -/
noncomputable def scaleRest (env : FEnv) (fit_rat : Int) (a : XArgs) (r : List LEig) :
    FM (List LEig × Option LBlockArray) := do
  let g ← FM.glb
  if g.rat_lst.length > 0 ∨ g.amp_lst.length > 0 then do
    let trans ← scaleTrans env fit_rat a r
    pure (r, some trans)
  else pure (r, none)

/-- full_space.py lines 1264-1352 `ACM_ScaleOrAdapt`, with `L_max` explicit (the result is
`eigen_vals` and `Lvals` as columns, and `trans`). -/
noncomputable def ACM_ScaleOrAdapt (env : FEnv) (fit_eig fit_rat : Int) (ham_op : OperatorSum) (a : XArgs) :
    FM (List LEig × Option LBlockArray) := do
  StPy.lift (require_nonnegint fit_eig)
  StPy.lift (require_nonnegint fit_rat)
  StPy.lift a.check
  let g ← FM.glb
  StPy.lift (refChecks fit_eig fit_rat a g)
  let r ← DigXspace env.x ham_op a
  scaleEig fit_eig r
  scaleRest env fit_rat a r

/-- full_space.py lines 1372-1379 `ACM_Scale`. -/
noncomputable def ACM_Scale (env : FEnv) (ham_op : OperatorSum) (a : XArgs) :
    FM (List LEig × Option LBlockArray) := ACM_ScaleOrAdapt env 0 0 ham_op a

/-- full_space.py lines 1398-1405 `ACM_Adapt`. -/
noncomputable def ACM_Adapt (env : FEnv) (ham_op : OperatorSum) (a : XArgs) :
    FM (List LEig × Option LBlockArray) := ACM_ScaleOrAdapt env 1 1 ham_op a

end Acm
