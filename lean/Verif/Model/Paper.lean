import Mathlib.Analysis.SpecialFunctions.Pow.Real

/-!
# Model of src/acmpy/papers/wr2015.py

The formulas of the paper [WR2015].  Simplifications: SymPy expressions are real numbers, the equations `Eq_61`, ... (the
formulas applied to symbols) are left out, a division by zero gives 0 (SymPy: `zoo`), and so does the root of a negative
number.
-/

namespace Acm

/-- papers/wr2015.py lines 16-19 `lambdav_61`. -/
noncomputable def lambdav_61 (lambda0 : ℝ) (v : Int) : ℝ := lambda0 + v

/-- papers/wr2015.py lines 25-28 `lambdav_62`. -/
noncomputable def lambdav_62 (lambda0 : ℝ) (v : Int) : ℝ := lambda0 + (v % 2 : Int)

/-- papers/wr2015.py lines 34-35 `lambdav_63`. -/
noncomputable def lambdav_63 (lambda0 : ℝ) (_v : Int) : ℝ := lambda0

/-- papers/wr2015.py lines 41-44 `lambda0_B11`. -/
noncomputable def lambda0_B11 (a beta0 : ℝ) : ℝ := 1 + Real.sqrt (9 / 4 + (a * beta0) ^ 4)

open Classical in
/-- papers/wr2015.py lines 50-53 `beta0_B15`: a `Piecewise` takes the first piece whose condition is true. -/
noncomputable def beta0_B15 (c1 c2 : ℝ) : ℝ := if c1 < 0 then Real.sqrt (-c1 / (2 * c2)) else 0

/-- papers/wr2015.py lines 59-64 `E_B16`. -/
noncomputable def E_B16 (a lambda0 B c1 c2 : ℝ) : ℝ :=
  a ^ 2 / (2 * B) * (1 + 9 / (4 * (lambda0 - 1))) + B / (2 * a ^ 2) * c1 * lambda0
    + B / (2 * a ^ 4) * c2 * lambda0 * (lambda0 + 1)

end Acm
