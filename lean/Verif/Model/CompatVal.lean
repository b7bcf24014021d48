import Verif.Model.Compat
import Verif.Model.NumPy

/-!
# Model of `src/acmpy/compat.py`, continued

The validators applied to Python values of any type, the comparisons of lists and the conversions between
lists, SymPy matrices and arrays.  Floats are real numbers.
-/

namespace Acm

/-- A Python value, as far as the validators distinguish values: `bool` is a subclass of `int`, and `True < 0`,
`True == 0` compare as the integer 1. -/
inductive PyVal where
  | int (n : Int)
  | bool (b : Bool)
  | float (x : ℝ)
  | str (s : String)
  | none

/-- The integer that an instance of `int` is. -/
def PyVal.toInt? : PyVal → Option Int
  | .int n => some n
  | .bool b => some (if b then 1 else 0)
  | _ => Option.none

/-- compat.py lines 31-34 `require_int`. -/
def require_intV (value : PyVal) : Py Unit :=
  match value.toInt? with
  | some _ => pure ()
  | Option.none => throw .typeError

/-- `value < 0`, after `require_int` has succeeded (unreachable otherwise). -/
def PyVal.ltZero (value : PyVal) : Bool := match value.toInt? with | some n => decide (n < 0) | Option.none => false

/-- compat.py lines 37-41 `require_nonnegint`. -/
def require_nonnegintV (value : PyVal) : Py Unit := do
  require_intV value
  if value.ltZero then throw .valueError else pure ()

/-- compat.py lines 44-53 `require_nonnegint_range`. -/
def require_nonnegint_rangeV (value_min value_max : PyVal) : Py Unit := do
  require_nonnegintV value_min
  require_nonnegintV value_max
  if value_min.toInt?.getD 0 > value_max.toInt?.getD 0 then throw .valueError else pure ()

/-- compat.py lines 56-60 `require_posint`. -/
def require_posintV (value : PyVal) : Py Unit := do
  require_nonnegintV value
  if value.toInt?.getD 0 = 0 then throw .valueError else pure ()

/-- compat.py lines 63-67 `is_even`. -/
def is_evenV (n : PyVal) : Py Bool := do
  require_intV n
  pure (Int.fmod (n.toInt?.getD 0) 2 == 0)

/-- compat.py lines 70-74 `is_odd`. -/
def is_oddV (n : PyVal) : Py Bool := do
  require_intV n
  pure (Int.fmod (n.toInt?.getD 0) 2 == 1)

/-- compat.py lines 77-82 `iquo`. -/
def iquoV (m n : PyVal) : Py Int := do
  require_nonnegintV m
  require_posintV n
  pure (Int.fdiv (m.toInt?.getD 0) (n.toInt?.getD 0))

/-- compat.py lines 85-90 `irem`. -/
def iremV (m n : PyVal) : Py Int := do
  require_nonnegintV m
  require_posintV n
  pure (Int.fmod (m.toInt?.getD 0) (n.toInt?.getD 0))

/-! ### Comparisons -/

/-- `math.isclose(a, b, abs_tol=abs_tol)` with the default `rel_tol=1e-09`: Python raises `ValueError` for a
negative tolerance. -/
noncomputable def isclose (a b abs_tol : ℝ) : Py Bool :=
  open Classical in
  if abs_tol < 0 then throw .valueError
  else pure (decide (|a - b| ≤ max (1e-9 * max |a| |b|) abs_tol))

/-- compat.py lines 113-115 `is_zeros`: `all` of a generator stops at the first `False`. -/
noncomputable def is_zeros (abs_tol : ℝ) : List ℝ → Py Bool
  | [] => pure true
  | z :: zs => do
    let c ← isclose z 0 abs_tol
    if c then is_zeros abs_tol zs else pure false

/-- compat.py lines 118-122 `is_close`. -/
noncomputable def is_close (xs ys : List ℝ) (abs_tol : ℝ) : Py Bool :=
  if xs.length ≠ ys.length then pure false
  else is_zeros abs_tol (List.zipWith (fun x y => x - y) xs ys)

/-- compat.py lines 125-127 `is_sorted`: `vals[:-1]` and `vals[1:]`. -/
noncomputable def is_sorted (vals : List ℝ) : Bool :=
  open Classical in
  (vals.dropLast.zip vals.tail).all fun p => decide (p.1 ≤ p.2)

/-! ### Conversions -/

/-- compat.py lines 166-168 `ndarray_to_list` of a two-dimensional array: `vals.flat` is in row-major order. -/
def ndarray_to_list (vals : Arr) : List ℝ :=
  (List.range vals.rows).flatMap fun i => (List.range vals.cols).map fun j => vals.e i j

/-- compat.py lines 130-132 `is_nd_zeros`. -/
noncomputable def is_nd_zeros (zs : Arr) (abs_tol : ℝ) : Py Bool := is_zeros abs_tol (ndarray_to_list zs)

/-- A SymPy matrix: shape and elements in row-major order (iteration over a SymPy matrix yields them in this order). -/
structure SymMat where
  rows : ℕ
  cols : ℕ
  flat : List ℝ

/-- compat.py lines 171-173 `Matrix_to_ndarray`: `np.array(...).reshape(r, c)`; element `(i, j)` of the reshaped array is
element `i * c + j`. -/
noncomputable def Matrix_to_ndarray (M : SymMat) : Arr := Arr.of M.rows M.cols fun i j => M.flat.getD (i * M.cols + j) 0

/-- compat.py lines 176-178 `ndarray_to_Matrix`. -/
def ndarray_to_Matrix (M : Arr) : SymMat :=
  ⟨M.rows, M.cols, (List.range M.rows).flatMap fun i => (List.range M.cols).map fun j => M.e i j⟩

end Acm
