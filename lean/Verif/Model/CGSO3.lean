import Verif.Model.Compat
import Mathlib.Analysis.Real.Sqrt
import Mathlib.Data.Nat.Factorial.Basic

/-!
# Model of the SO(3) Clebsch-Gordan coefficients of `src/acmpy/so5_so3_cg.py` (lines 397-455)

Arguments are rationals (`S(...)` of the code turns `int` and `Rational` arguments into SymPy
rationals); values are reals.  `simplify` does not change a value and is dropped.

Simplifications: SymPy returns `zoo` for the factorial of a negative integer, a Gamma value for
the factorial of a fraction and a complex number for a fractional power of -1; here
each of these raises, so that a successful result shows that none of them was met.
-/

namespace Acm

/-- `q.is_integer` of a SymPy rational. -/
def ratIsInteger (q : ℚ) : Bool := q.den == 1

/-- `S.NegativeOne ** q`; raises for a fractional exponent (SymPy: a complex number). -/
noncomputable def negOnePow (q : ℚ) : Py ℝ :=
  if ratIsInteger q then pure ((-1 : ℝ) ^ q.num) else throw .typeError

/-- `factorial(q)`; raises unless `q` is a non-negative integer (SymPy: `zoo` or a Gamma value). -/
noncomputable def symFact (q : ℚ) : Py ℝ :=
  if ratIsInteger q && decide (0 ≤ q.num) then pure (q.num.toNat.factorial : ℝ)
  else throw .valueError

/-- `range` argument: `q.__index__()`; a fraction raises `TypeError`. -/
def symIndex (q : ℚ) : Py Int :=
  if ratIsInteger q then pure q.num else throw .typeError

/-- so5_so3_cg.py lines 448-454: one term of the sum of `Wigner_3j`. -/
noncomputable def Wigner_3j_term (j1 j2 j3 m1 m3 : ℚ) (s : Int) : Py ℝ := do
  let sg ← negOnePow s
  let f1 ← symFact (j1 + m1 + s)
  let f2 ← symFact (j2 + j3 - m1 - s)
  let g1 ← symFact s
  let g2 ← symFact (j1 - m1 - s)
  let g3 ← symFact (j2 - j3 + m1 + s)
  let g4 ← symFact (j3 + m3 - s)
  pure (sg * f1 * f2 / (g1 * g2 * g3 * g4))

/-- so5_so3_cg.py lines 433-455 `Wigner_3j`. -/
noncomputable def Wigner_3j (j1 j2 j3 m1 m2 m3 : ℚ) : Py ℝ := do
  let sg ← negOnePow (2 * j1 - j2 + m2)
  let f1 ← symFact (j1 + j2 - j3)
  let f2 ← symFact (j1 - m1)
  let f3 ← symFact (j2 - m2)
  let f4 ← symFact (j3 - m3)
  let f5 ← symFact (j3 + m3)
  let g1 ← symFact (j1 + j2 + j3 + 1)
  let g2 ← symFact (j1 - j2 + j3)
  let g3 ← symFact (-j1 + j2 + j3)
  let g4 ← symFact (j1 + m1)
  let g5 ← symFact (j2 + m2)
  let lo ← symIndex (max 0 (j3 - j2 - m1))
  let hi ← symIndex (min (j3 + m3) (j1 - m1) + 1)
  let ts ← (pyRange lo hi).mapM (Wigner_3j_term j1 j2 j3 m1 m3)
  pure (sg * Real.sqrt (f1 * f2 * f3 * f4 * f5 / (g1 * g2 * g3 * g4 * g5)) * ts.sum)

/-- so5_so3_cg.py lines 397-422 `CG_SO3`. -/
noncomputable def CG_SO3 (j1 m1 j2 m2 j3 m3 : ℚ) : Py ℝ :=
  if ¬ (ratIsInteger (2 * j1) && ratIsInteger (2 * m1) && ratIsInteger (2 * j2) && ratIsInteger (2 * m2) &&
      ratIsInteger (2 * j3) && ratIsInteger (2 * m3)) then throw .valueError
  else if |m1| > j1 ∨ |m2| > j2 ∨ |m3| > j3 then pure 0
  else if ¬ (ratIsInteger (j1 + m1) && ratIsInteger (j2 + m2) && ratIsInteger (j3 + m3)) then pure 0
  else if m1 + m2 ≠ m3 then pure 0
  else if j3 < |j1 - j2| ∨ j3 > j1 + j2 then pure 0
  else do
    let sg ← negOnePow (j1 - j2 + m3)
    let w ← Wigner_3j j1 j2 j3 m1 m2 (-m3)
    pure (sg * (w * Real.sqrt (2 * j3 + 1)))

end Acm
