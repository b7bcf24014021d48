import Verif.Model.RadialWords
import Verif.Model.NumPy
import Mathlib.Analysis.SpecialFunctions.Gamma.Basic
import Mathlib.Analysis.Real.Sqrt

/-!
# Model of the radial matrix elements and matrices

`src/acmpy/radial_space.py`, `src/acmpy/radial_operators.py`, `src/acmpy/radial_bases.py` and
`src/acmpy/eigenvalues.py`.

Simplifications: floats are real numbers; labels `Nu` (documented as non-negative integers)
are natural numbers; `scipy.special.poch` is the quotient of Gamma functions that it is
documented to compute; a square root of a negative number raises `ValueError` (`math.sqrt`
does; SymPy's `sqrt`, used in `ME_Radial_bm_pl`, `ME_Radial_bm_ml` and `ME_Radial_Db_pl`,
would return an imaginary number, but only for `lambdaa <= 0`); division by zero is 0 (it does
not occur for `lambdaa > 0`).  The numbers that SymPy's `sqrt` returns are SymPy numbers, so
these three functions make NumPy arrays of Python objects; the `dtype` of an array is
followed where the code depends on it, in the `+=` of `RepRadial_LC`.
-/

namespace Acm

/-- `math.sqrt`. -/
noncomputable def pySqrt (x : ℝ) : Py ℝ := if x < 0 then throw .valueError else pure (Real.sqrt x)

/-- `scipy.special.poch(z, m)`: `Gamma(z + m) / Gamma(z)`. -/
noncomputable def poch (z m : ℝ) : ℝ := Real.Gamma (z + m) / Real.Gamma z

/-- `(-1) ** (mu_f - mu_i)`. -/
noncomputable def altSign (mu_f mu_i : ℕ) : ℝ := (-1) ^ ((mu_f : ℤ) - (mu_i : ℤ))

/-- `x.is_integer()`. -/
def isInteger (x : ℝ) : Prop := ∃ n : ℤ, x = n

open Classical in
/-- radial_space.py lines 127-128 `ME_Radial_S0`. -/
noncomputable def ME_Radial_S0 (lambdaa : ℝ) (mu_f mu_i : ℕ) : Py ℝ :=
  pure (if mu_f = mu_i then lambdaa / 2 + mu_i else 0)

/-- radial_space.py lines 138-139 `ME_Radial_Sp`. -/
noncomputable def ME_Radial_Sp (lambdaa : ℝ) (mu_f mu_i : ℕ) : Py ℝ :=
  if mu_f = mu_i + 1 then pySqrt ((lambdaa + mu_i) * (mu_i + 1)) else pure 0

/-- radial_space.py lines 149-150 `ME_Radial_Sm`. -/
noncomputable def ME_Radial_Sm (lambdaa : ℝ) (mu_f mu_i : ℕ) : Py ℝ :=
  if (mu_f : ℤ) = mu_i - 1 then pySqrt ((lambdaa + mu_i - 1) * mu_i) else pure 0

/-- radial_operators.py lines 45-53 `ME_Radial_b2`. -/
noncomputable def ME_Radial_b2 (lambdaa : ℝ) (mu_f mu_i : ℕ) : Py ℝ :=
  if (mu_f : ℤ) = mu_i - 1 then pySqrt ((lambdaa + mu_i - 1) * mu_i)
  else if mu_f = mu_i then pure (lambdaa + 2 * mu_i)
  else if mu_f = mu_i + 1 then pySqrt ((lambdaa + mu_i) * (mu_i + 1))
  else pure 0

open Classical in
/-- radial_space.py lines 187-196 `ME_Radial_pt`. -/
noncomputable def ME_Radial_pt (lambdaa : ℝ) (mu_f mu_i : ℕ) : Py ℝ :=
  if lambdaa = 1 then throw .valueError
  else do
    let poch_i := poch (mu_i + 1) (lambdaa - 1)
    let poch_f := poch (mu_f + 1) (lambdaa - 1)
    let s ← pySqrt (poch_i / poch_f)
    pure (altSign mu_f mu_i * s / (lambdaa - 1))

open Classical in
/-- radial_space.py lines 171-179 `ME_Radial_bm2`. -/
noncomputable def ME_Radial_bm2 (lambdaa : ℝ) (mu_f mu_i : ℕ) : Py ℝ :=
  if lambdaa = -1 then throw .valueError
  else if isInteger lambdaa ∧ (lambdaa ≤ -(mu_i : ℝ) ∨ lambdaa ≤ -(mu_f : ℝ)) then
    throw .valueError
  else
    let mu_1 := max mu_f mu_i
    let mu_2 := min mu_f mu_i
    ME_Radial_pt lambdaa mu_1 mu_2

/-- radial_space.py lines 220-233 `ME_Radial_D2b`. -/
noncomputable def ME_Radial_D2b (lambdaa : ℝ) (mu_f mu_i : ℕ) : Py ℝ := do
  let stuff ←
    (if (mu_f : ℤ) = mu_i - 1 then pySqrt ((lambdaa + mu_i - 1) * mu_i)
    else if mu_f = mu_i then pure (-lambdaa - 2 * mu_i)
    else if mu_f = mu_i + 1 then pySqrt ((lambdaa + mu_i) * (mu_i + 1))
    else pure 0 : Py ℝ)
  let mu_1 := max mu_f mu_i
  let mu_2 := min mu_f mu_i
  let pt ← ME_Radial_pt lambdaa mu_1 mu_2
  pure (stuff + (lambdaa - 1.5) * (lambdaa - 0.5) * pt)

/-- radial_space.py lines 250-258 `ME_Radial_bDb`. -/
noncomputable def ME_Radial_bDb (lambdaa : ℝ) (mu_f mu_i : ℕ) : Py ℝ :=
  if (mu_f : ℤ) = mu_i - 1 then pySqrt ((lambdaa + mu_i - 1) * mu_i)
  else if mu_f = mu_i then pure (-0.5)
  else if mu_f = mu_i + 1 then do
    let s ← pySqrt ((lambdaa + mu_i) * (mu_i + 1))
    pure (-s)
  else pure 0

/-- radial_space.py lines 273-279 `ME_Radial_b_pl`. -/
noncomputable def ME_Radial_b_pl (lambdaa : ℝ) (mu_f mu_i : ℕ) : Py ℝ :=
  if (mu_f : ℤ) = mu_i - 1 then pySqrt mu_i
  else if mu_f = mu_i then pySqrt (lambdaa + mu_i)
  else pure 0

open Classical in
/-- radial_space.py lines 297-306 `ME_Radial_bm_pl`. -/
noncomputable def ME_Radial_bm_pl (lambdaa : ℝ) (mu_f mu_i : ℕ) : Py ℝ :=
  if isInteger lambdaa ∧ lambdaa ≤ -(mu_i : ℝ) then throw .valueError
  else if mu_f < mu_i then pure 0
  else do
    let poch_i := poch (mu_i + 1) (lambdaa - 1)
    let poch_f := poch (mu_f + 1) lambdaa
    let s ← pySqrt (poch_i / poch_f)
    pure (altSign mu_f mu_i * s)

/-- radial_space.py lines 329-344 `ME_Radial_Db_pl`. -/
noncomputable def ME_Radial_Db_pl (lambdaa : ℝ) (mu_f mu_i : ℕ) : Py ℝ := do
  let res ←
    (if (mu_f : ℤ) = mu_i - 1 then pySqrt mu_i
    else if mu_f = mu_i then do
      let s ← pySqrt (lambdaa + mu_i)
      pure (-s)
    else pure 0 : Py ℝ)
  if mu_f ≥ mu_i then do
    let poch_i := poch (mu_i + 1) (lambdaa - 1)
    let poch_f := poch (mu_f + 1) lambdaa
    let s ← pySqrt (poch_i / poch_f)
    pure (res + altSign mu_f mu_i * (lambdaa - 0.5) * s)
  else pure res

/-- radial_space.py lines 359-365 `ME_Radial_b_ml`. -/
noncomputable def ME_Radial_b_ml (lambdaa : ℝ) (mu_f mu_i : ℕ) : Py ℝ :=
  if mu_f = mu_i + 1 then pySqrt mu_f
  else if mu_f = mu_i then pySqrt (lambdaa + mu_i - 1)
  else pure 0

open Classical in
/-- radial_space.py lines 383-392 `ME_Radial_bm_ml`. -/
noncomputable def ME_Radial_bm_ml (lambdaa : ℝ) (mu_f mu_i : ℕ) : Py ℝ :=
  if isInteger lambdaa ∧ lambdaa ≤ -(mu_i : ℝ) then throw .valueError
  else if mu_f > mu_i then pure 0
  else do
    let poch_f := poch (mu_f + 1) (lambdaa - 2)
    let poch_i := poch (mu_i + 1) (lambdaa - 1)
    let s ← pySqrt (poch_f / poch_i)
    pure (altSign mu_f mu_i * s)

/-- radial_space.py lines 414-429 `ME_Radial_Db_ml`. -/
noncomputable def ME_Radial_Db_ml (lambdaa : ℝ) (mu_f mu_i : ℕ) : Py ℝ := do
  let res ←
    (if mu_f = mu_i + 1 then do
      let s ← pySqrt mu_f
      pure (-s)
    else if mu_f = mu_i then pySqrt (lambdaa + mu_i - 1)
    else pure 0 : Py ℝ)
  if mu_f ≤ mu_i then do
    let poch_f := poch (mu_f + 1) (lambdaa - 2)
    let poch_i := poch (mu_i + 1) (lambdaa - 1)
    let s ← pySqrt (poch_f / poch_i)
    pure (res + altSign mu_f mu_i * (1.5 - lambdaa) * s)
  else pure res

/-- SymPy's `RisingFactorial(x, n)`: `x (x+1) ... (x+n-1)`. -/
noncomputable def RisingFactorial (x : ℝ) (n : ℕ) : ℝ := ∏ i ∈ Finset.range n, (x + i)

/-- radial_space.py lines 539-558 `MF_Radial_id_pl`: the polynomial, evaluated at `lambdaa`
(`simplify` does not change the value).  The upper binomial argument `r + mu - nu + j - 1` is
non-negative in the range of the sum. -/
noncomputable def MF_Radial_id_pl (lambdaa : ℝ) (mu nu r : ℕ) : ℝ :=
  if r = 0 then (if mu = nu then 1 else 0)
  else if nu > mu + r then 0
  else
    (∑ j ∈ Finset.Ico (nu - mu) (r + 1), (-1 : ℝ) ^ j * (r.choose j : ℝ)
        * ((r + mu + j - 1 - nu).choose (r - 1) : ℝ)
        * RisingFactorial (lambdaa + mu + r + j) (r - j)
        * RisingFactorial (mu + 1) j)
      * (-1 : ℝ) ^ (mu + nu)

/-- radial_space.py lines 516-518 `MF_Radial_id_poly`, evaluated at `lamvar = lambdaa`. -/
noncomputable def MF_Radial_id_poly (lambdaa : ℝ) (mu nu r : ℕ) : Py ℝ := do
  pyAssert (nu ≤ mu + r)
  pure (MF_Radial_id_pl lambdaa mu nu r)

open Classical in
/-- radial_space.py lines 450-461 `ME_Radial_id_pl`. -/
noncomputable def ME_Radial_id_pl (lambdaa : ℝ) (mu_f mu_i r : ℕ) : Py ℝ :=
  if isInteger lambdaa ∧ lambdaa ≤ -(mu_i : ℝ) then throw .valueError
  else if mu_i ≤ mu_f + r then do
    let res ← MF_Radial_id_poly lambdaa mu_f mu_i r
    let poch_i := poch (mu_i + 1) (lambdaa - 1)
    let poch_f := poch (mu_f + 1) (lambdaa + 2 * r - 1)
    let s ← pySqrt (poch_i / poch_f)
    pure (res * s)
  else pure 0

open Classical in
/-- radial_space.py lines 482-493 `ME_Radial_id_ml`. -/
noncomputable def ME_Radial_id_ml (lambdaa : ℝ) (mu_f mu_i r : ℕ) : Py ℝ :=
  if isInteger lambdaa ∧ lambdaa ≤ -(mu_f : ℝ) + 2 * r then throw .valueError
  else if mu_f ≤ mu_i + r then do
    let res ← MF_Radial_id_poly (lambdaa - 2 * r) mu_i mu_f r
    let poch_f := poch (mu_f + 1) (lambdaa - 1 - 2 * r)
    let poch_i := poch (mu_i + 1) (lambdaa - 1)
    let s ← pySqrt (poch_f / poch_i)
    pure (res * s)
  else pure 0

/-- The matrix-element function that a name stands for. -/
noncomputable def RadME.fn : RadME → ℝ → ℕ → ℕ → Py ℝ
  | .Sm => ME_Radial_Sm
  | .S0 => ME_Radial_S0
  | .Sp => ME_Radial_Sp
  | .b2 => ME_Radial_b2
  | .bm2 => ME_Radial_bm2
  | .D2b => ME_Radial_D2b
  | .bDb => ME_Radial_bDb
  | .b_pl => ME_Radial_b_pl
  | .bm_pl => ME_Radial_bm_pl
  | .Db_pl => ME_Radial_Db_pl
  | .b_ml => ME_Radial_b_ml
  | .bm_ml => ME_Radial_bm_ml
  | .Db_ml => ME_Radial_Db_ml

/-- radial_space.py lines 714-724 `RepRadial` (`nu_min >= 0`). -/
noncomputable def RepRadial (ME : ℝ → ℕ → ℕ → Py ℝ) (lambdaa : ℝ) (nu_min nu_max : Int) : Py Arr :=
  let n := (nu_max - nu_min + 1).toNat
  Arr.ofM n n fun i j => ME lambdaa (nu_min.toNat + i) (nu_min.toNat + j)

/-- radial_space.py lines 741-750 `RepRadial_param`. -/
noncomputable def RepRadial_param (ME : ℝ → ℕ → ℕ → ℕ → Py ℝ) (lambdaa : ℝ) (nu_min nu_max : Int)
    (param : ℕ) : Py Arr :=
  let n := (nu_max - nu_min + 1).toNat
  Arr.ofM n n fun i j => ME lambdaa (nu_min.toNat + i) (nu_min.toNat + j) param

/-- The linear algebra routines of NumPy that the model takes as parameters:
`np.linalg.eigh` (eigenvalues as a vector, eigenvectors as columns) and `np.linalg.inv`. -/
structure LinAlg where
  eigh : Arr → (ℕ → ℝ) × Arr
  inv : Arr → Arr

/-- eigenvalues.py lines 66-77 `Eigenfiddle`. -/
noncomputable def Eigenfiddle (la : LinAlg) (Hmatrix : Arr) : Py ((ℕ → ℝ) × Arr) :=
  if Hmatrix.rows ≠ Hmatrix.cols then throw .valueError
  else
    let H := Arr.of Hmatrix.rows Hmatrix.cols fun i j => (Hmatrix.e i j + Hmatrix.T.e i j) / 2
    pure (la.eigh H)

open Classical in
/-- radial_space.py lines 795-803 `Matrix_sqrt`. -/
noncomputable def Matrix_sqrt (la : LinAlg) (Amatrix : Arr) : Py Arr := do
  let (eigen_vals, P) ← Eigenfiddle la Amatrix
  if ¬ ∀ i < Amatrix.rows, eigen_vals i ≥ 0 then throw .valueError
  else pure ((P.mul (Arr.diag Amatrix.rows fun i => Real.sqrt (eigen_vals i))).mul (la.inv P))

open Classical in
/-- radial_space.py lines 825-833 `Matrix_sqrtInv`. -/
noncomputable def Matrix_sqrtInv (la : LinAlg) (Amatrix : Arr) : Py Arr := do
  let (eigen_vals, P) ← Eigenfiddle la Amatrix
  if ¬ ∀ i < Amatrix.rows, eigen_vals i > 0 then throw .valueError
  else pure ((P.mul (Arr.diag Amatrix.rows fun i => 1 / Real.sqrt (eigen_vals i))).mul (la.inv P))

/-- radial_space.py lines 753-763 `RepRadial_b2_sqrt`, with the checks of `RadialBasis`
(radial_bases.py lines 15-22) and `TruncatedRadialSpace` (lines 53-61) and the matrix of
`RadialOperator_b2` (radial_operators.py lines 24-28, 56-60). -/
noncomputable def RepRadial_b2_sqrt (la : LinAlg) (lambdaa : ℝ) (nu_min nu_max : Int) : Py Arr := do
  if lambdaa ≤ 0 then throw .valueError
  else do
    require_nonnegint_range nu_min nu_max
    let Mat ← RepRadial ME_Radial_b2 lambdaa nu_min nu_max
    Matrix_sqrt la Mat

/-- radial_space.py lines 766-772 `RepRadial_b2_sqrtInv`. -/
noncomputable def RepRadial_b2_sqrtInv (la : LinAlg) (lambdaa : ℝ) (nu_min nu_max : Int) : Py Arr := do
  let Mat ← RepRadial ME_Radial_b2 lambdaa nu_min nu_max
  Matrix_sqrtInv la Mat

/-- The real matrices on `nu_min..nu_max`, for a given `anorm`. -/
noncomputable def radMat (la : LinAlg) (anorm : ℝ) (nu_min nu_max : Int) : RadAlg ℝ Arr where
  rep m lam := RepRadial m.fn lam nu_min nu_max
  id_pl lam r := RepRadial_param ME_Radial_id_pl lam nu_min nu_max r.toNat
  id_ml lam r := RepRadial_param ME_Radial_id_ml lam nu_min nu_max r.toNat
  b2_sqrt lam := RepRadial_b2_sqrt la lam nu_min nu_max
  b2_sqrtInv lam := RepRadial_b2_sqrtInv la lam nu_min nu_max
  mul := Arr.mul
  scale k A := Arr.smul (anorm ^ k) A
  eye := Arr.eye (nu_max - nu_min + 1).toNat

/-- radial_space.py lines 1616-1663 `RepRadial_Prod`, with real matrices. -/
noncomputable def RepRadialProd (la : LinAlg) (anorm : ℝ) (rbs_op : List RadSym) (lambdaa : ℝ)
    (lambda_var nu_min nu_max nu_lap : Int) : Py Arr :=
  RepRadial_Prod (radMat la anorm) (fun A a b => A.slice a b a b) rbs_op lambdaa lambda_var
    nu_min nu_max nu_lap

/-- The `dtype` of a NumPy array of numbers: machine floats, or Python objects. -/
inductive Dtype where
  | float64 | object
  deriving DecidableEq, Repr

/-- The `dtype` of `A @ B` (for arrays of objects NumPy multiplies the objects). -/
def Dtype.matmul : Dtype → Dtype → Dtype
  | .float64, .float64 => .float64
  | _, _ => .object

/-- The `dtype` of the array that `RepRadial(ME, ...)` makes with `np.array` of the values: the
functions at radial_space.py lines 297-306, 329-344 and 383-392 call SymPy's `sqrt` (imported at
line 10), the others `math.sqrt`. -/
def RadME.dtype : RadME → Dtype
  | .bm_pl => .object
  | .Db_pl => .object
  | .bm_ml => .object
  | _ => .float64

/-- The `dtype`s of the matrices on `nu_min..nu_max` (`np.array` of no values is an array of
floats).  The values of `ME_Radial_id_pl` and `ME_Radial_id_ml` are products of `float(...)` and
`math.sqrt(...)`; `np.linalg.eigh` and `np.linalg.inv` return floats; multiplication by the
float `anorm` keeps the `dtype`. -/
def radDtype (nu_min nu_max : Int) : RadAlg ℝ Dtype where
  rep m _ := pure (if nu_max < nu_min then .float64 else m.dtype)
  id_pl _ _ := pure .float64
  id_ml _ _ := pure .float64
  b2_sqrt _ := pure .float64
  b2_sqrtInv _ := pure .float64
  mul := Dtype.matmul
  scale _ d := d
  eye := .float64

/-- radial_space.py lines 1616-1663: the `dtype` of the result of `RepRadial_Prod` (a slice has the
`dtype` of the array). -/
noncomputable def RepRadialProd_dtype (rbs_op : List RadSym) (lambdaa : ℝ)
    (lambda_var nu_min nu_max nu_lap : Int) : Py Dtype :=
  RepRadial_Prod radDtype (fun d _ _ => d) rbs_op lambdaa lambda_var nu_min nu_max nu_lap

/-- `M += X` for arrays of the given `dtype`s: NumPy does not convert the objects of the sum to
floats (`UFuncTypeError`, a `TypeError`: "Cannot cast ufunc 'add' output from dtype('O') to
dtype('float64') with casting rule 'same_kind'"). -/
def iaddCheck : Dtype → Dtype → Py Unit
  | .float64, .object => throw .typeError
  | _, _ => pure ()

/-- `float(coeff)` times a representation, summed: the loop of radial_space.py lines
2121-2122.  `d` is the `dtype` of `M`, which the loop does not change. -/
noncomputable def RepRadial_LC_loop (la : LinAlg) (anorm lambdaa : ℝ)
    (lambda_var nu_min nu_max nu_lap : Int) (d : Dtype) : List (ℝ × List RadSym) → Arr → Py Arr
  | [], M => pure M
  | (coeff, op) :: rest, M => do
    let P ← RepRadialProd la anorm op lambdaa lambda_var nu_min nu_max nu_lap
    let dP ← RepRadialProd_dtype op lambdaa lambda_var nu_min nu_max nu_lap
    iaddCheck d dP
    RepRadial_LC_loop la anorm lambdaa lambda_var nu_min nu_max nu_lap d rest (M.add (P.smul coeff))

/-- radial_space.py lines 2106-2124 `RepRadial_LC_common` = `RepRadial_LC` =
`RepRadial_LC_rem`. -/
noncomputable def RepRadial_LC (la : LinAlg) (rlc_op : List (ℝ × List RadSym)) (anorm lambdaa : ℝ)
    (lambda_var nu_min nu_max nu_lap : Int) : Py Arr :=
  match rlc_op with
  | [] =>
    let dim := (nu_max - nu_min + 1).toNat
    pure (Arr.zeros dim dim)
  | (coeff, op) :: rest => do
    let P ← RepRadialProd la anorm op lambdaa lambda_var nu_min nu_max nu_lap
    let d ← RepRadialProd_dtype op lambdaa lambda_var nu_min nu_max nu_lap
    RepRadial_LC_loop la anorm lambdaa lambda_var nu_min nu_max nu_lap d rest (P.smul coeff)

end Acm
