import Verif.Model.SO5Red
import Verif.Model.Radial
import Verif.Model.Globals

/-!
# Model of `src/acmpy/full_operators.py`

Representations of operators on the (truncated) full Hilbert space: the product of the radial and
the spherical space.

Simplifications.  The Clebsch-Gordan coefficients `CG_SO5r3` are a function `CG` (their values do
not depend on the history of calls: C54).  The memo tables (`functools.cache`) are modelled
for `RepXspace_Pi`, `RepXspace_PiPi` and `RepXspace_PiqPi`, which read the global
`glb_lam_fun`; those of the radial and spherical functions, whose results depend on their
arguments only, are dropped.  `L_max` is always explicit (`None` means `L_min`).
-/

namespace Acm

/-- radial_bases.py lines 38-39 `dimRadial`. -/
def dimRadial (nu_min nu_max : Int) : Int := if nu_max ≥ nu_min then nu_max - nu_min + 1 else 0

/-- radial_bases.py lines 49-50 `lbsRadial`. -/
def lbsRadial (nu_min nu_max : Int) : List Int := pyRange nu_min (nu_max + 1)

/-- full_operators.py lines 46-55 `dimXspace`. -/
def dimXspace (nu_min nu_max v_min v_max L_min : Int) (L_max : Option Int) : Py Int := do
  require_nonnegint_range nu_min nu_max
  let L_max := L_max.getD L_min
  require_nonnegint_range L_min L_max
  let d ← dimSO5r3_rngVvarL v_min v_max L_min (some L_max)
  pure (dimRadial nu_min nu_max * d)

/-- full_operators.py line 77 `XspaceLabel`: (nu, v, alpha, L). -/
abbrev XspaceLabel := Int × Int × Int × Int

/-- full_operators.py lines 80-93 `lbsXspace`. -/
def lbsXspace (nu_min nu_max v_min v_max L_min : Int) (L_max : Option Int) :
    Py (List XspaceLabel) := do
  require_nonnegint_range nu_min nu_max
  require_nonnegint_range v_min v_max
  let L_max := L_max.getD L_min
  require_nonnegint_range L_min L_max
  let rad_labels := lbsRadial nu_min nu_max
  let sph_labels ← lbsSO5r3_rngVvarL v_min v_max L_min (some L_max)
  pure (sph_labels.flatMap fun s => rad_labels.map fun nu => (nu, s))

/-- What the functions below get from outside the module: the Clebsch-Gordan coefficients and
NumPy's linear algebra. -/
structure XEnv where
  CG : CGFun
  la : LinAlg

/-- The arguments common to the functions below (also the key of their memo tables). -/
structure XArgs where
  anorm : ℝ
  lambda_base : ℝ
  nu_min : Int
  nu_max : Int
  v_min : Int
  v_max : Int
  L_min : Int
  L_max : Int

/-- The three range checks at the start of each function below. -/
def XArgs.check (a : XArgs) : Py Unit := do
  require_nonnegint_range a.nu_min a.nu_max
  require_nonnegint_range a.v_min a.v_max
  require_nonnegint_range a.L_min a.L_max

/-- `M[r0:r1, c0:c1] = B`.  Simplification: NumPy also accepts shapes that broadcast. -/
noncomputable def Arr.setBlock (M : Arr) (r0 r1 c0 c1 : Int) (B : Arr) : Py Arr :=
  let a := sliceBound M.rows r0
  let b := sliceBound M.rows r1
  let c := sliceBound M.cols c0
  let d := sliceBound M.cols c1
  if B.rows = b - a ∧ B.cols = d - c then
    pure ⟨M.rows, M.cols, fun i j =>
      if (a ≤ i ∧ i < b) ∧ (c ≤ j ∧ j < d) then B.e (i - a) (j - c) else M.e i j⟩
  else throw .valueError

/-- `-M`. -/
def Arr.neg (M : Arr) : Arr := ⟨M.rows, M.cols, fun i j => -M.e i j⟩

/-- What the body of the loops below does for a pair of spherical states: `body i j init fin
lambda_init` is the block for the final label `fin` (number `i`) and the initial label `init`
(number `j`); `none` means `continue`. -/
abbrev BlockFun := ℕ → ℕ → Label → Label → Int → Py (Option Arr)

/-- One pass of the inner loop: write the block `blk` for final state `i` and initial state `j`
(unless skipped), and then apply `post` to the whole matrix. -/
noncomputable def fillWrite (rad_dim : Int) (post : Arr → Arr) (M : Arr) (i j : ℕ) (blk : Option Arr) :
    Py Arr :=
  match blk with
  | none => pure M
  | some B => do
    let M ← M.setBlock (i * rad_dim) (i * rad_dim + rad_dim) (j * rad_dim) (j * rad_dim + rad_dim) B
    pure (post M)

/-- The inner loop, over the remaining final states. -/
noncomputable def fillInner (rad_dim : Int) (sph_labels : List Label) (body : BlockFun)
    (post : Arr → Arr) (j : ℕ) (init : Label) (lambda_disp_init : Int) : List ℕ → Arr → Py Arr
  | [], M => pure M
  | i :: is, M => do
    let fin ← pyGet sph_labels i
    let blk ← body i j init fin lambda_disp_init
    let M ← fillWrite rad_dim post M i j blk
    fillInner rad_dim sph_labels body post j init lambda_disp_init is M

/-- The outer loop, over the remaining initial states. -/
noncomputable def fillOuter (lam : LambdaFunction) (rad_dim sph_dim : Int) (sph_labels : List Label)
    (body : BlockFun) (post : Arr → Arr) : List ℕ → Arr → Py Arr
  | [], M => pure M
  | j :: js, M => do
    let init ← pyGet sph_labels j
    let lambda_disp_init ← lam init.1
    let M ← fillInner rad_dim sph_labels body post j init lambda_disp_init
      (List.range sph_dim.toNat) M
    fillOuter lam rad_dim sph_dim sph_labels body post js M

/-- The double loop `for j2 in range(1, sph_dim + 1): ... for i2 in range(1, sph_dim + 1): ...`
that fills `direct_Mat` block by block, starting from zeros, as in full_operators.py lines
632-655, 779-826, 982-1050, 1228-1324 (with `i = i2 - 1`, `j = j2 - 1`).  `post` is what happens
to the whole matrix after a block has been written. -/
noncomputable def fillBlocks (lam : LambdaFunction) (rad_dim sph_dim : Int) (sph_labels : List Label)
    (body : BlockFun) (post : Arr → Arr) : Py Arr :=
  fillOuter lam rad_dim sph_dim sph_labels body post (List.range sph_dim.toNat)
    (Arr.zeros (sph_dim * rad_dim).toNat (sph_dim * rad_dim).toNat)

/-- The spherical symbols of a product as the items of `RepSO5r3_Prod`. -/
def sphItems (sph_ops : List OpSym) : List YSym := sph_ops.map .sym

open Classical in
/-- full_operators.py lines 642-653: the block of `RepXspace_Twin`. -/
noncomputable def twinBlock (env : XEnv) (lam : LambdaFunction) (rad_ops : List RadSym) (sph_Mat : Arr)
    (a : XArgs) (i j : Nat) (_init fin : Label) (lambda_disp_init : Int) : Py (Option Arr) := do
  let lambda_disp_fin ← lam fin.1
  let sph_ME := sph_Mat.e i j
  if sph_ME = 0 then pure none
  else do
    let rad_Mat ← RepRadialProd env.la a.anorm rad_ops (a.lambda_base + lambda_disp_init)
      (lambda_disp_fin - lambda_disp_init) a.nu_min a.nu_max 0
    pure (some (rad_Mat.smul sph_ME))

/-- full_operators.py lines 612-655 `RepXspace_Twin` (line 624 also sets `glb_nu_lap` to 0, which
nothing else reads). -/
noncomputable def RepXspace_Twin (env : XEnv) (lam : LambdaFunction) (rad_ops : List RadSym)
    (sph_ops : List OpSym) (a : XArgs) : Py Arr := do
  a.check
  let sph_dim ← dimSO5r3_rngVvarL a.v_min a.v_max a.L_min (some a.L_max)
  let sph_labels ← lbsSO5r3_rngVvarL a.v_min a.v_max a.L_min (some a.L_max)
  let sph_Mat ← RepSO5r3_Prod_wrk env.CG (sphItems sph_ops) a.v_min a.v_max a.L_min a.L_max
  let sph_Mat := sph_Mat.smul (Convert_red ^ (NumSO5r3_Prod (sphItems sph_ops)).toNat)
  fillBlocks lam (dimRadial a.nu_min a.nu_max) sph_dim sph_labels
    (twinBlock env lam rad_ops sph_Mat a) id

/-- `RepRadial_LC_rem` at the `lambda` of the initial state, with the shift to the final one. -/
noncomputable def xLC (env : XEnv) (a : XArgs) (lc : List (ℝ × List RadSym))
    (lambda_disp_init lambda_disp_fin : Int) (nu_lap : Int) : Py Arr :=
  RepRadial_LC env.la lc a.anorm (a.lambda_base + lambda_disp_init)
    (lambda_disp_fin - lambda_disp_init) a.nu_min a.nu_max nu_lap

/-- full_operators.py lines 793-824: the block of `RepXspace_Pi`. -/
noncomputable def piBlock (env : XEnv) (lam : LambdaFunction) (a : XArgs) (_i _j : Nat)
    (init fin : Label) (lambda_disp_init : Int) : Py (Option Arr) := do
  let (v_init, _, L_init) := init
  let (v_fin, _, L_fin) := fin
  if L_fin - L_init > 2 ∨ L_fin - L_init < -2 then pure none
  else do
    let v_chg := v_fin - v_init
    let lambda_disp_fin ← lam v_fin
    if v_chg = 1 then do
      let rad_Mat ← xLC env a [(1, [.Db]), (-v_init - 2, [.bm])] lambda_disp_init lambda_disp_fin 0
      let q ← Qred_p1 v_init
      let CG2 ← env.CG init (1, 1, 2) fin
      pure (some ((rad_Mat.smul q).smul CG2))
    else if v_chg = -1 then do
      let rad_Mat ← xLC env a [(1, [.Db]), (v_init + 1, [.bm])] lambda_disp_init lambda_disp_fin 0
      let q ← Qred_m1 v_init
      let CG2 ← env.CG init (1, 1, 2) fin
      pure (some ((rad_Mat.smul q).smul CG2))
    else pure none

/-- full_operators.py lines 769-826 `RepXspace_Pi`, without its memo table. -/
noncomputable def RepXspace_Pi (env : XEnv) (lam : LambdaFunction) (a : XArgs) : Py Arr := do
  a.check
  let sph_dim ← dimSO5r3_rngVvarL a.v_min a.v_max a.L_min (some a.L_max)
  let sph_labels ← lbsSO5r3_rngVvarL a.v_min a.v_max a.L_min (some a.L_max)
  pyAssert (sph_dim = sph_labels.length)
  fillBlocks lam (dimRadial a.nu_min a.nu_max) sph_dim sph_labels (piBlock env lam a) id

/-- full_operators.py lines 996-1045: the block of `RepXspace_PiPi`. -/
noncomputable def pipiBlock (env : XEnv) (lam : LambdaFunction) (PiPi_L : Int) (a : XArgs)
    (_i _j : Nat) (init fin : Label) (lambda_disp_init : Int) : Py (Option Arr) := do
  let (v_init, _, L_init) := init
  let (v_fin, _, L_fin) := fin
  if L_fin - L_init > PiPi_L ∨ L_fin - L_init < -PiPi_L then pure none
  else do
    let v_chg := v_fin - v_init
    let lambda_disp_fin ← lam v_fin
    if v_chg = 2 then do
      let rad_Mat ← xLC env a [(1, [.D2b]), ((v_init + 2) * (v_init + 4), [.bm2]),
        (-2 * v_init - 5, [.bm2, .bDb])] lambda_disp_init lambda_disp_fin 0
      let q ← QxQred_p2 v_init
      let CG2 ← env.CG init (2, 1, PiPi_L) fin
      pure (some ((rad_Mat.smul (-q)).smul CG2))
    else if v_chg = -2 then do
      let rad_Mat ← xLC env a [(1, [.D2b]), ((v_init - 1) * (v_init + 1), [.bm2]),
        (2 * v_init + 1, [.bm2, .bDb])] lambda_disp_init lambda_disp_fin 0
      let q ← QxQred_m2 v_init
      let CG2 ← env.CG init (2, 1, PiPi_L) fin
      pure (some ((rad_Mat.smul (-q)).smul CG2))
    else if v_chg = 0 then do
      let rad_Mat ← xLC env a [(1, [.D2b]), (-(v_init + 1) * (v_init + 2), [.bm2])]
        lambda_disp_init lambda_disp_fin 0
      let q ← QxQred_0 v_init
      let CG2 ← env.CG init (2, 1, PiPi_L) fin
      pure (some ((rad_Mat.smul (-q)).smul CG2))
    else pure none

/-- full_operators.py lines 970-1050 `RepXspace_PiPi`, without its memo table.  Lines 1047-1048
change the sign of the whole matrix after each block. -/
noncomputable def RepXspace_PiPi (env : XEnv) (lam : LambdaFunction) (PiPi_L : Int) (a : XArgs) :
    Py Arr := do
  require_nonnegint PiPi_L
  a.check
  let sph_dim ← dimSO5r3_rngVvarL a.v_min a.v_max a.L_min (some a.L_max)
  let sph_labels ← lbsSO5r3_rngVvarL a.v_min a.v_max a.L_min (some a.L_max)
  fillBlocks lam (dimRadial a.nu_min a.nu_max) sph_dim sph_labels (pipiBlock env lam PiPi_L a)
    fun M => if PiPi_L = 2 then M.neg else M

/-- full_operators.py lines 1378-1380: one term of the sum in `QixQxQred`. -/
noncomputable def QixQxQred_term (CG : CGFun) (v_i v_f v_int L_i : Int) (m : Label) : Py ℝ := do
  let c1 ← CG (v_int, m.2.1, m.2.2) (1, 1, 2) (v_f, 1, L_i)
  let c2 ← CG (v_i, 1, L_i) (2, 1, 2) (v_int, m.2.1, m.2.2)
  let d ← dimSO3 m.2.2
  pure (c1 * c2 * Real.sqrt d * (-1 : ℝ) ^ m.2.2.toNat)

open Classical in
/-- full_operators.py lines 1368-1381 `QixQxQred`.  Simplification: a division by a vanishing
coefficient gives SymPy's `zoo`, on which the callers' `float()` raises `TypeError`; the model
raises already here. -/
noncomputable def QixQxQred (CG : CGFun) (v_i v_f v_int : Int) : Py ℝ := do
  require_nonnegint v_i
  require_nonnegint v_f
  require_nonnegint v_int
  let L_i := 2 * min v_i v_f
  let mediates ← lbsSO5r3_rngL v_int (L_i - 2) (L_i + 2)
  let r1 ← ME_SO5red v_f 1 v_int
  let r2 ← ME_SO5red v_int 2 v_i
  let ts ← mediates.mapM (QixQxQred_term CG v_i v_f v_int L_i)
  let c ← CG (v_i, 1, L_i) (3, 1, 0) (v_f, 1, L_i)
  let d ← dimSO3 L_i
  if c = 0 then throw .typeError
  else pure (-r1 * r2 * Real.sqrt (2 / 7) / 15 * ts.sum / c / Real.sqrt (5 * d))

/-- full_operators.py lines 1279-1295: the radial matrix for `v_chg == 1`.  Line 1283 reads
`S.one`, which SymPy does not define (`S.One` is meant): `AttributeError`. -/
noncomputable def piqpiUp (_env : XEnv) (_a : XArgs) : Py Arr := throw .attributeError

/-- full_operators.py lines 1297-1313: the radial matrix for `v_chg == -1`. -/
noncomputable def piqpiDown (env : XEnv) (a : XArgs) (v_init v_fin lambda_disp_init lambda_disp_fin : Int) :
    Py Arr := do
  let rad_Mat ← xLC env a [(1, [.b, .D2b]), (-(v_init + 1) * (v_init + 2), [.bm])]
    lambda_disp_init lambda_disp_fin 0
  let rad_Mat2 ← xLC env a [(1, [.Db]), (v_init + 1, [.bm])] lambda_disp_init lambda_disp_fin 0
  let c ← QxQxQred_m1 v_init
  let q ← QixQxQred env.CG v_init v_fin (v_fin - 1)
  pure ((rad_Mat.smul c).add (rad_Mat2.smul (-(2 * v_init) * q)))

/-- full_operators.py lines 1242-1322: the block of `RepXspace_PiqPi`. -/
noncomputable def piqpiBlock (env : XEnv) (lam : LambdaFunction) (a : XArgs) (_i _j : Nat)
    (init fin : Label) (lambda_disp_init : Int) : Py (Option Arr) := do
  let (v_init, _, L_init) := init
  let (v_fin, _, L_fin) := fin
  if L_fin ≠ L_init then pure none
  else do
    let v_chg := v_fin - v_init
    let lambda_disp_fin ← lam v_fin
    if v_chg = 3 then do
      let rad_Mat ← xLC env a [(1, [.b, .D2b]), ((v_init + 2) * (v_init + 4), [.bm]),
        (-2 * v_init - 5, [.Db])] lambda_disp_init lambda_disp_fin 1
      let c ← QxQxQred_p3 v_init
      let CG2 ← env.CG init (3, 1, 0) fin
      pure (some ((rad_Mat.smul c).smul CG2))
    else if v_chg = -3 then do
      let rad_Mat ← xLC env a [(1, [.b, .D2b]), ((v_init - 1) * (v_init + 1), [.bm]),
        (2 * v_init + 1, [.Db])] lambda_disp_init lambda_disp_fin 1
      let c ← QxQxQred_m3 v_init
      let CG2 ← env.CG init (3, 1, 0) fin
      pure (some ((rad_Mat.smul c).smul CG2))
    else if v_chg = 1 then do
      let rad_Mat ← piqpiUp env a
      let CG2 ← env.CG init (3, 1, 0) fin
      pure (some (rad_Mat.smul CG2))
    else if v_chg = -1 then do
      let rad_Mat ← piqpiDown env a v_init v_fin lambda_disp_init lambda_disp_fin
      let CG2 ← env.CG init (3, 1, 0) fin
      pure (some (rad_Mat.smul CG2))
    else pure none

/-- full_operators.py lines 1218-1324 `RepXspace_PiqPi`, without its memo table. -/
noncomputable def RepXspace_PiqPi (env : XEnv) (lam : LambdaFunction) (a : XArgs) : Py Arr := do
  a.check
  let sph_dim ← dimSO5r3_rngVvarL a.v_min a.v_max a.L_min (some a.L_max)
  let sph_labels ← lbsSO5r3_rngVvarL a.v_min a.v_max a.L_min (some a.L_max)
  fillBlocks lam (dimRadial a.nu_min a.nu_max) sph_dim sph_labels (piqpiBlock env lam a) id

/-! ### products of operators -/

/-- What `RepXspace_Prod` needs: the representations of segments of a product (with effects
on a state `σ`, the memo tables), and the product and the unit of matrices. -/
structure XAlg (σ M : Type) where
  twin : List RadSym → List OpSym → StPy σ M
  pi : StPy σ M
  pipi : Int → StPy σ M
  piqpi : StPy σ M
  eye : StPy σ M
  mul : M → M → M

/-- The local variables of `RepXspace_Prod`, lines 414-417 (`up_running > 0` exactly if `run_Mat`
is not `None`). -/
structure ProdState (M : Type) where
  run_Mat : Option M
  nu_ops : List RadSym
  sph_ops : List OpSym

/-- full_operators.py lines 435-441, 467-473, 482-488: multiply `run_Mat` by a new factor. -/
def runMul {σ M : Type} (A : XAlg σ M) (run : Option M) (x : M) : M :=
  match run with
  | some r => A.mul r x
  | none => x

/-- full_operators.py lines 427-441. -/
def prodFlush {σ M : Type} (A : XAlg σ M) (s : ProdState M) : StPy σ (ProdState M) :=
  if s.nu_ops ≠ [] ∨ s.sph_ops ≠ [] then do
    let x ← A.twin s.nu_ops s.sph_ops
    pure ⟨some (runMul A s.run_Mat x), [], []⟩
  else pure s

/-- full_operators.py lines 443-464: the matrix of a whole-space operator. -/
def prodWhole {σ M : Type} (A : XAlg σ M) (this_op : OpSym) : StPy σ M :=
  match this_op with
  | .PiqPi => A.piqpi
  | .PiPi2 => A.pipi 2
  | .PiPi4 => A.pipi 4
  | .Pi => A.pi
  | _ => StPy.lift (throw .valueError)

/-- The symbols in `Radial_Operators` (radial_space.py lines 51-55). -/
def OpSym.radial? : OpSym → Option RadSym
  | .rad .other => none
  | .rad r => some r
  | _ => none

/-- The symbols in `Spherical_Operators` (spherical_space.py line 125). -/
def OpSym.isSpherical : OpSym → Bool
  | .harm _ => true
  | .sqLdim => true
  | .sqLdiv => true
  | _ => false

/-- full_operators.py lines 420-473: one pass of the loop. -/
def prodStep {σ M : Type} (A : XAlg σ M) (s : ProdState M) (this_op : OpSym) : StPy σ (ProdState M) :=
  match this_op.radial? with
  | some r => pure ⟨s.run_Mat, s.nu_ops ++ [r], s.sph_ops⟩
  | none =>
    if this_op.isSpherical then pure ⟨s.run_Mat, s.nu_ops, s.sph_ops ++ [this_op]⟩
    else do
      let s ← prodFlush A s
      let x ← prodWhole A this_op
      pure ⟨some (runMul A s.run_Mat x), s.nu_ops, s.sph_ops⟩

/-- full_operators.py lines 414-473: the loop. -/
def prodLoop {σ M : Type} (A : XAlg σ M) : List OpSym → ProdState M → StPy σ (ProdState M)
  | [], s => pure s
  | op :: ops, s => do
    let s ← prodStep A s op
    prodLoop A ops s

/-- full_operators.py lines 414-497: `RepXspace_Prod` after the checks.  The test of line 475
compares tuples with lists, so it is always true; lines 490-494 are never reached. -/
def xProd {σ M : Type} (A : XAlg σ M) (x_ops : List OpSym) : StPy σ M := do
  let s ← prodLoop A x_ops ⟨none, [], []⟩
  let x ← A.twin s.nu_ops s.sph_ops
  pure (runMul A s.run_Mat x)

/-! ### the memo tables -/

/-- The state that representations depend on: the global `glb_lam_fun` and the memo tables
(`functools.cache`) of `RepXspace_Pi`, `RepXspace_PiPi` and `RepXspace_PiqPi`. -/
structure XState where
  lam_fun : LambdaFunction
  piMemo : XArgs → Option Arr
  pipiMemo : Int → XArgs → Option Arr
  piqpiMemo : XArgs → Option Arr

/-- After import. -/
noncomputable def XState.start (lam : LambdaFunction) : XState :=
  ⟨lam, fun _ => none, fun _ _ => none, fun _ => none⟩

/-- `functools.cache`: look up the key; otherwise compute and, unless that raises, store. -/
noncomputable def memo (get : XState → Option Arr) (put : Arr → XState → XState) (f : LambdaFunction → Py Arr) :
    StPy XState Arr := fun s =>
  match get s with
  | some x => (.ok x, s)
  | none =>
    match f s.lam_fun with
    | .ok x => (.ok x, put x s)
    | .error e => (.error e, s)

open Classical in
/-- Store a result in the memo table of `RepXspace_Pi`. -/
noncomputable def putPi (a : XArgs) (x : Arr) (s : XState) : XState :=
  ⟨s.lam_fun, Function.update s.piMemo a (some x), s.pipiMemo, s.piqpiMemo⟩

open Classical in
/-- Store a result in the memo table of `RepXspace_PiPi`. -/
noncomputable def putPiPi (PiPi_L : Int) (a : XArgs) (x : Arr) (s : XState) : XState :=
  ⟨s.lam_fun, s.piMemo, Function.update s.pipiMemo PiPi_L
    (Function.update (s.pipiMemo PiPi_L) a (some x)), s.piqpiMemo⟩

open Classical in
/-- Store a result in the memo table of `RepXspace_PiqPi`. -/
noncomputable def putPiqPi (a : XArgs) (x : Arr) (s : XState) : XState :=
  ⟨s.lam_fun, s.piMemo, s.pipiMemo, Function.update s.piqpiMemo a (some x)⟩

/-- `RepXspace_Pi` as called. -/
noncomputable def RepXspace_Pi_memo (env : XEnv) (a : XArgs) : StPy XState Arr :=
  memo (fun s => s.piMemo a) (putPi a) fun lam => RepXspace_Pi env lam a

/-- `RepXspace_PiPi` as called. -/
noncomputable def RepXspace_PiPi_memo (env : XEnv) (PiPi_L : Int) (a : XArgs) : StPy XState Arr :=
  memo (fun s => s.pipiMemo PiPi_L a) (putPiPi PiPi_L a) fun lam => RepXspace_PiPi env lam PiPi_L a

/-- `RepXspace_PiqPi` as called. -/
noncomputable def RepXspace_PiqPi_memo (env : XEnv) (a : XArgs) : StPy XState Arr :=
  memo (fun s => s.piqpiMemo a) (putPiqPi a) fun lam => RepXspace_PiqPi env lam a

/-- The representations on the space given by `a`. -/
noncomputable def xMat (env : XEnv) (a : XArgs) : XAlg XState Arr where
  twin rs ss := fun s => (RepXspace_Twin env s.lam_fun rs ss a, s)
  pi := RepXspace_Pi_memo env a
  pipi L := RepXspace_PiPi_memo env L a
  piqpi := RepXspace_PiqPi_memo env a
  eye := StPy.lift (do
    let d ← dimXspace a.nu_min a.nu_max a.v_min a.v_max a.L_min (some a.L_max)
    pure (Arr.eye d.toNat))
  mul := Arr.mul

/-- full_operators.py lines 402-497 `RepXspace_Prod`. -/
noncomputable def RepXspace_Prod (env : XEnv) (x_ops : List OpSym) (a : XArgs) : StPy XState Arr := do
  StPy.lift a.check
  xProd (xMat env a) x_ops

/-- `np.array(cs) * M`: broadcasting over the rows, column `j` is multiplied by `cs[j]`. -/
noncomputable def Arr.scaleCols (cs : List ℝ) (M : Arr) : Arr :=
  Arr.of M.rows M.cols fun i j => cs.getD j 0 * M.e i j

open Classical in
/-- full_operators.py lines 269-288 `RepXspace_Term`. -/
noncomputable def RepXspace_Term (env : XEnv) (op_term : Coeff × OperatorProduct)
    (Xlabels : List XspaceLabel) (a : XArgs) : StPy XState Arr := do
  let Rmat ← RepXspace_Prod env op_term.2 a
  if ∃ c : ℝ, op_term.1 = fun _ => c then pure (Rmat.smul (op_term.1 (0, 0, 0, 0)))
  else pure (Rmat.scaleCols (Xlabels.map op_term.1))

/-- full_operators.py lines 249-250: the loop over the remaining terms. -/
noncomputable def xSum (env : XEnv) (Xlabels : List XspaceLabel) (a : XArgs) :
    OperatorSum → Arr → StPy XState Arr
  | [], Rmat => pure Rmat
  | t :: ts, Rmat => do
    let x ← RepXspace_Term env t Xlabels a
    xSum env Xlabels a ts (Rmat.add x)

/-- full_operators.py lines 243-250. -/
noncomputable def xSumAll (env : XEnv) (x_oplc : OperatorSum) (a : XArgs) : StPy XState Arr :=
  match x_oplc with
  | [] => StPy.lift (do
    let d ← dimXspace a.nu_min a.nu_max a.v_min a.v_max a.L_min (some a.L_max)
    pure (Arr.zeros d.toNat d.toNat))
  | t :: ts => do
    let Xlabels ← StPy.lift (lbsXspace a.nu_min a.nu_max a.v_min a.v_max a.L_min (some a.L_max))
    let Rmat ← RepXspace_Term env t Xlabels a
    xSum env Xlabels a ts Rmat

/-- full_operators.py lines 252-264: `cache_clear` of all memo tables. -/
noncomputable def clearMemo : StPy XState Unit := fun s => (.ok (), XState.start s.lam_fun)

/-- full_operators.py lines 230-266 `RepXspace`. -/
noncomputable def RepXspace (env : XEnv) (x_oplc : OperatorSum) (a : XArgs) : StPy XState Arr := do
  StPy.lift a.check
  let Rmat ← xSumAll env x_oplc a
  clearMemo
  pure Rmat

end Acm
