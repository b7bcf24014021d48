import Verif.Model.FullOps

/-!
# Model of the four special cases of `QixQxQred` (`src/acmpy/full_operators.py` lines 1418-1534)

As for `QixQxQred`, a division by a vanishing Clebsch-Gordan coefficient gives SymPy's `zoo`, on which `float()`
raises `TypeError`; the model raises already here.
-/

namespace Acm

open Classical in
/-- full_operators.py lines 1418-1430 `QpxQxQred_p1`. -/
noncomputable def QpxQxQred_p1 (CG : CGFun) (v : Int) : Py ℝ := do
  require_nonnegint v
  let L1 := 2 * v
  let mediates ← lbsSO5r3_rngL v (L1 - 2) L1
  let q1 ← Qred_p1 v
  let q2 ← QxQred_0 v
  let ts ← mediates.mapM fun m => do
    let c1 ← CG (v, m.2.1, m.2.2) (1, 1, 2) (v + 1, 1, L1)
    let c2 ← CG (v, 1, L1) (2, 1, 2) (v, m.2.1, m.2.2)
    let d ← dimSO3 m.2.2
    pure (c1 * c2 * Real.sqrt d * (-1 : ℝ) ^ m.2.2.toNat)
  let c ← CG (v, 1, L1) (3, 1, 0) (v + 1, 1, L1)
  let d ← dimSO3 L1
  if c = 0 then throw .typeError
  else pure (q1 * q2 * ts.sum / c / Real.sqrt (5 * d))

open Classical in
/-- full_operators.py lines 1454-1466 `QmxQxQred_p1`. -/
noncomputable def QmxQxQred_p1 (CG : CGFun) (v : Int) : Py ℝ := do
  require_nonnegint v
  let L1 := 2 * v
  let mediates ← lbsSO5r3_rngL (v + 2) (L1 - 2) (L1 + 2)
  let q1 ← Qred_m1 (v + 2)
  let q2 ← QxQred_p2 v
  let ts ← mediates.mapM fun m => do
    let c1 ← CG (v + 2, m.2.1, m.2.2) (1, 1, 2) (v + 1, 1, L1)
    let c2 ← CG (v, 1, L1) (2, 1, 2) (v + 2, m.2.1, m.2.2)
    let d ← dimSO3 m.2.2
    pure (c1 * c2 * Real.sqrt d * (-1 : ℝ) ^ m.2.2.toNat)
  let c ← CG (v, 1, L1) (3, 1, 0) (v + 1, 1, L1)
  let d ← dimSO3 L1
  if c = 0 then throw .typeError
  else pure (q1 * q2 * ts.sum / c / Real.sqrt (5 * d))

open Classical in
/-- full_operators.py lines 1488-1498 `QpxQxQred_m1`.  Line 1498 divides by `sqrt(dimSO3(L1 - 2))` where the Maple
code has `sqrt(5*dimSO3(L1))`; modelled as it is. -/
noncomputable def QpxQxQred_m1 (CG : CGFun) (v : Int) : Py ℝ := do
  require_posint v
  let L1 := 2 * v - 2
  let q1 ← Qred_p1 (v - 2)
  let q2 ← QxQred_m2 v
  let c1 ← CG (v - 2, 1, L1 - 2) (1, 1, 2) (v - 1, 1, L1)
  let c2 ← CG (v, 1, L1) (2, 1, 2) (v - 2, 1, L1 - 2)
  let d ← dimSO3 (L1 - 2)
  let c ← CG (v, 1, L1) (3, 1, 0) (v - 1, 1, L1)
  let d2 ← dimSO3 (L1 - 2)
  if c = 0 then throw .typeError
  else pure (q1 * q2 * c1 * c2 * Real.sqrt d / c / Real.sqrt d2)

open Classical in
/-- full_operators.py lines 1522-1534 `QmxQxQred_m1`. -/
noncomputable def QmxQxQred_m1 (CG : CGFun) (v : Int) : Py ℝ := do
  require_posint v
  let L1 := 2 * v - 2
  let mediates ← lbsSO5r3_rngL v (L1 - 2) (L1 + 2)
  let q1 ← Qred_m1 v
  let q2 ← QxQred_0 v
  let ts ← mediates.mapM fun m => do
    let c1 ← CG (v, m.2.1, m.2.2) (1, 1, 2) (v - 1, 1, L1)
    let c2 ← CG (v, 1, L1) (2, 1, 2) (v, m.2.1, m.2.2)
    let d ← dimSO3 m.2.2
    pure (c1 * c2 * Real.sqrt d * (-1 : ℝ) ^ m.2.2.toNat)
  let c ← CG (v, 1, L1) (3, 1, 0) (v - 1, 1, L1)
  let d ← dimSO3 L1
  if c = 0 then throw .typeError
  else pure (q1 * q2 * ts.sum / c / Real.sqrt (5 * d))

end Acm
