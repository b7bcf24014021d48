import Verif.Model.Operators
import Verif.Model.NumPy
import Mathlib.Data.Nat.Factorial.Basic
import Mathlib.Data.Nat.Cast.Order.Field

/-!
# Model of the spherical matrix elements of `src/acmpy/internal_operators.py`

SO(5)-reduced matrix elements, the diagonal operators and products of spherical operators
(lines 95-509).  SymPy expressions are real numbers.  The SO(5) > SO(3) Clebsch-Gordan
coefficients, which the code reads from data files, are a parameter `CG`.

Simplifications: `functools.cache` of `RepSO5_Y_rem` and `RepSO5r3_Prod_rem` is dropped (their
results depend on their arguments and the data files only); `RepSO5_sqLdiv` returns a SymPy
matrix instead of an array (line 345): only its entries are modelled.
-/

namespace Acm

/-- `sqrt(Rational(p, q))` of SymPy.  Simplification: for a negative quotient SymPy returns an
imaginary number, on which the callers' `float()` raises `TypeError`; the model raises
already here.  The denominators of the code are odd, hence not 0. -/
noncomputable def symSqrt (p q : Int) : Py ℝ :=
  if (p : ℝ) / q < 0 then throw .typeError else pure (Real.sqrt ((p : ℝ) / q))

/-- `factorial(n)` of a non-negative integer. -/
def fact (n : Int) : ℝ := (n.toNat.factorial : ℝ)

/-- internal_operators.py lines 95-110 `ME_SO5red`. -/
noncomputable def ME_SO5red (u w v : Int) : Py ℝ := do
  require_nonnegint u
  require_nonnegint w
  require_nonnegint v
  if u + v < w ∨ u + w < v ∨ v + w < u ∨ is_odd (u + v + w) then pure 0
  else
    let sigma := v + w + u
    let halfsigma := sigma / 2
    pure (fact (halfsigma + 1) /
      (fact (halfsigma - u) * fact (halfsigma - v) * fact (halfsigma - w)) *
      Real.sqrt ((2 * v + 3) * (2 * w + 3) * (sigma + 4) / (u + 2) / (u + 1) *
        fact (sigma - 2 * u + 1) * fact (sigma - 2 * w + 1) *
        fact (sigma - 2 * v + 1) / fact (sigma + 3)))

/-- internal_operators.py lines 127-132 `Qred_p1`. -/
noncomputable def Qred_p1 (v : Int) : Py ℝ := do
  require_nonnegint v
  symSqrt (v + 1) (2 * v + 5)

/-- internal_operators.py lines 136-141 `Qred_m1`. -/
noncomputable def Qred_m1 (v : Int) : Py ℝ := do
  require_nonnegint v
  symSqrt (v + 2) (2 * v + 1)

/-- internal_operators.py lines 147-152 `QxQred_p2`. -/
noncomputable def QxQred_p2 (v : Int) : Py ℝ := do
  require_nonnegint v
  symSqrt ((v + 1) * (v + 2)) ((2 * v + 5) * (2 * v + 7))

/-- internal_operators.py lines 156-161 `QxQred_0`. -/
noncomputable def QxQred_0 (v : Int) : Py ℝ := do
  require_nonnegint v
  symSqrt (6 * v * (v + 3)) (5 * (2 * v + 1) * (2 * v + 5))

/-- internal_operators.py lines 165-170 `QxQred_m2`. -/
noncomputable def QxQred_m2 (v : Int) : Py ℝ := do
  require_nonnegint v
  symSqrt ((v + 1) * (v + 2)) ((2 * v + 1) * (2 * v - 1))

/-- internal_operators.py lines 177-182 `QxQxQred_p3`. -/
noncomputable def QxQxQred_p3 (v : Int) : Py ℝ := do
  require_nonnegint v
  symSqrt ((v + 1) * (v + 2) * (v + 3)) ((2 * v + 5) * (2 * v + 7) * (2 * v + 9))

/-- internal_operators.py lines 186-191 `QxQxQred_p1`. -/
noncomputable def QxQxQred_p1 (v : Int) : Py ℝ := do
  require_nonnegint v
  let r ← symSqrt (v * (v + 1) * (v + 4)) (7 * (2 * v + 1) * (2 * v + 5) * (2 * v + 7))
  pure (3 * r)

/-- internal_operators.py lines 195-200 `QxQxQred_m1`. -/
noncomputable def QxQxQred_m1 (v : Int) : Py ℝ := do
  require_nonnegint v
  let r ← symSqrt ((v - 1) * (v + 2) * (v + 3)) (7 * (2 * v - 1) * (2 * v + 1) * (2 * v + 5))
  pure (3 * r)

/-- internal_operators.py lines 204-209 `QxQxQred_m3` (line 207 has `v * 2`; modelled as it
is). -/
noncomputable def QxQxQred_m3 (v : Int) : Py ℝ := do
  require_nonnegint v
  symSqrt (v * (v + 1) * (v * 2)) ((2 * v - 3) * (2 * v - 1) * (2 * v + 1))

/-- The type of `CG_SO5r3(v1, a1, L1, v2, a2, L2, v3, a3, L3)`. -/
abbrev CGFun := Label → Label → Label → Py ℝ

/-- internal_operators.py lines 233-236 `ME_SO5r3`: final label, label of the harmonic, initial
label. -/
noncomputable def ME_SO5r3 (CG : CGFun) (f y i : Label) : Py ℝ := do
  let c ← CG i y f
  let r ← ME_SO5red f.1 y.1 i.1
  pure (c * r)

/-- internal_operators.py lines 275-282 `RepSO5_Y_rem`; also lines 300-307 `RepSO5_Y_alg`,
which returns the same entries as a SymPy matrix. -/
noncomputable def RepSO5_Y_rem (CG : CGFun) (y : Label) (v_min v_max L_min L_max : Int) : Py Arr := do
  let states ← lbsSO5r3_rngVvarL v_min v_max L_min (some L_max)
  let rows ← states.mapM fun i => states.mapM fun j => ME_SO5r3 CG i y j
  pure (Arr.ofLists rows)

/-- internal_operators.py lines 322-326 `RepSO5_sqLdim`: Python parses `-1 ** L * x` as
`-(1 ** L) * x`. -/
noncomputable def RepSO5_sqLdim (v_min v_max L_min L_max : Int) : Py Arr := do
  let states ← lbsSO5r3_rngVvarL v_min v_max L_min (some L_max)
  let d ← states.mapM fun s => do
    let n ← dimSO3 s.2.2
    pure (-((1 : ℝ) ^ s.2.2.toNat) * Real.sqrt n)
  pure (Arr.diag d.length fun i => d.getD i 0)

/-- internal_operators.py lines 341-345 `RepSO5_sqLdiv`. -/
noncomputable def RepSO5_sqLdiv (v_min v_max L_min L_max : Int) : Py Arr := do
  let states ← lbsSO5r3_rngVvarL v_min v_max L_min (some L_max)
  let d ← states.mapM fun s => do
    let n ← dimSO3 s.2.2
    pure ((-1 : ℝ) ^ s.2.2.toNat / Real.sqrt n)
  pure (Arr.diag d.length fun i => d.getD i 0)

/-- internal_operators.py lines 494-503: the matrix of one item of a product. -/
noncomputable def RepSO5r3_item (CG : CGFun) (v_min v_max L_min L_max : Int) : YSym → Py Arr
  | .triple t => RepSO5_Y_rem CG t v_min v_max L_min L_max
  | .sym (.harm h) => RepSO5_Y_rem CG h.table v_min v_max L_min L_max
  | .sym .sqLdim => RepSO5_sqLdim v_min v_max L_min L_max
  | .sym .sqLdiv => RepSO5_sqLdiv v_min v_max L_min L_max
  | .sym _ => throw .valueError

/-- internal_operators.py lines 491-506: the loop of `RepSO5r3_Prod_wrk`. -/
noncomputable def RepSO5r3_loop (CG : CGFun) (v_min v_max L_min L_max : Int) :
    List YSym → Option Arr → Py (Option Arr)
  | [], Mat_product => pure Mat_product
  | y :: ys, Mat_product => do
    let M ← RepSO5r3_item CG v_min v_max L_min L_max y
    RepSO5r3_loop CG v_min v_max L_min L_max ys
      (match Mat_product with | none => some M | some P => some (P.mul M))

/-- internal_operators.py lines 482-509 `RepSO5r3_Prod_wrk`; `RepSO5r3_Prod` (lines 391-397) and
`RepSO5r3_Prod_rem` (lines 410-414) return its result. -/
noncomputable def RepSO5r3_Prod_wrk (CG : CGFun) (ys_op : List YSym) (v_min v_max L_min L_max : Int) :
    Py Arr := do
  if ys_op.length = 0 then
    let n ← dimSO5r3_rngVvarL v_min v_max L_min (some L_max)
    pure (Arr.eye n.toNat)
  else
    let r ← RepSO5r3_loop CG v_min v_max L_min L_max ys_op none
    match r with
    | none => throw .assertionError
    | some P => pure P

end Acm
