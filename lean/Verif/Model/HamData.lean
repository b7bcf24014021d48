import Verif.Model.Globals
import Mathlib.Analysis.SpecialFunctions.Pow.Real

/-!
# hamiltonian_data.py

The functions that find parameters of the basis that suit a Hamiltonian.  (`RWC_Ham` is in `Model/Operators`.)
Floats and SymPy expressions are real numbers; expressions in the symbol `A` are functions of `A`.  Python
raises `ZeroDivisionError` (or gives a SymPy infinity) for a division by zero that is not caught explicitly below;
here the quotient is 0.
-/

namespace Acm

/-- hamiltonian_data.py lines 107-109 `beta_dav`.  Simplification: for `c1 < 0` and `c2 < 0` SymPy gives an imaginary
number; here the root is 0. -/
noncomputable def beta_dav (c1 c2 : ℝ) : ℝ := if c1 ≥ 0 then 0 else Real.sqrt (-c1 / (c2 * 2))

/-- hamiltonian_data.py lines 93-95 `lam_dav`. -/
noncomputable def lam_dav (a beta0 : ℝ) (v : Int) : ℝ := 1 + Real.sqrt (((v : ℝ) + 1.5) ^ 2 + (a * beta0) ^ 4)

/-- hamiltonian_data.py lines 82-84 `RWC_dav`. -/
noncomputable def RWC_dav (c1 c2 anorm : ℝ) (v : Int) : ℝ := lam_dav anorm (beta_dav c1 c2) v

open Classical in
/-- hamiltonian_data.py lines 50-60 `RWC_expt`. -/
noncomputable def RWC_expt (B c1 c2 kappa anorm lambda0 : ℝ) : Py ℝ :=
  if anorm = 0 then throw .valueError
  else if lambda0 = 1 then throw .valueError
  else if B = 0 then throw .zeroDivisionError
  else
    let aa := anorm ^ 2
    pure (aa * (4 + 9 / (lambda0 - 1)) / 8 / B + B * lambda0 * c1 / 2 / aa
      + B * lambda0 * (lambda0 + 1) * c2 / 2 / aa ^ 2 + kappa / 3)

/-- hamiltonian_data.py lines 71-73 `RWC_expt_link`. -/
noncomputable def RWC_expt_link (B c1 c2 kappa anorm : ℝ) : Py ℝ :=
  RWC_expt B c1 c2 kappa anorm (RWC_dav c1 c2 anorm 0)

/-- hamiltonian_data.py lines 159-160 `vshftf`. -/
def vshftf (v : Int) : Int := (2 * v + 3) ^ 2

/-- hamiltonian_data.py lines 163-165 `muf`. -/
noncomputable def muf (A c1 c2 : ℝ) (v : Int) : ℝ := Real.sqrt ((vshftf v : ℝ) + (A * c1 / c2) ^ 2)

/-- hamiltonian_data.py lines 168-169 `RWC1`. -/
noncomputable def RWC1 (A B c1 c2 : ℝ) (v : Int) : ℝ := A ^ 3 - B ^ 2 * c1 * A - (2 * (v : ℝ) + 7) * B ^ 2 * c2

/-- hamiltonian_data.py lines 172-178 `RWC2`. -/
noncomputable def RWC2 (A mu B c1 c2 : ℝ) (v : Int) : ℝ :=
  (c1 / c2) ^ 2 * (-(vshftf v : ℝ) * A ^ 5 / mu ^ 2 + A ^ 3 * B ^ 2 * c1 + A ^ 2 * B ^ 2 * c2 * (mu + 3))
    + A ^ 3 * (2 * mu + (vshftf v : ℝ)) - B ^ 2 * mu * (mu + 2) * (A * c1 + c2 * (mu + 4))

/-- hamiltonian_data.py lines 209-214: `F2`. -/
noncomputable def F2 (B c1 c2 : ℝ) (v : Int) (A : ℝ) : ℝ := RWC2 A (muf A c1 c2 v) B c1 c2 v

/-- The solvers used: `solveset(F, A, domain=Reals)` gives a list of numbers,
`root_scalar(F, bracket=(lo, hi))` gives a root or reports that it has not converged. -/
structure Solver where
  solveset : (ℝ → ℝ) → List ℝ
  root_scalar : (ℝ → ℝ) → ℝ → ℝ → Option ℝ

/-- hamiltonian_data.py lines 311-323 `RWC_alam_clam`.  The assertion that the set is finite is part of
the type of `solveset`. -/
noncomputable def RWC_alam_clam (sv : Solver) (B c1 c2 : ℝ) (v : Int) : Py (ℝ × ℝ) := do
  let A0_pos := open Classical in (sv.solveset fun A => RWC1 A B c1 c2 v).filter fun A0 => A0 > 0
  let aa0 ← pyGet A0_pos 0
  pure (Real.sqrt aa0, 2.5)

open Classical in
/-- hamiltonian_data.py lines 224-226: at most `fuel` tests of the condition of the loop; `none` if it is still
running then. -/
noncomputable def bracketLoop (F : ℝ → ℝ) : ℕ → ℝ → Option ℝ
  | 0, _ => none
  | fuel + 1, A_pos => if F A_pos ≤ 0 then bracketLoop F fuel (A_pos * 2) else some A_pos

open Classical in
/-- hamiltonian_data.py lines 209-235: the part of `RWC_alam` for `c1 < 0 < c2`; the exception
`RwcOptimizationError` is represented by `ValueError`. -/
noncomputable def RWC_alam_neg (sv : Solver) (fuel : ℕ) (B c1 c2 : ℝ) (v : Int) : Option (Py (ℝ × ℝ)) :=
  if ¬ F2 B c1 c2 v 0 < 0 then some (throw .assertionError)
  else
    match bracketLoop (F2 B c1 c2 v) fuel 1 with
    | none => none
    | some A_pos =>
      match sv.root_scalar (F2 B c1 c2 v) 0 A_pos with
      | none => some (throw .valueError)
      | some aa0 => some (pure (Real.sqrt aa0, 1 + muf aa0 c1 c2 v / 2))

open Classical in
/-- hamiltonian_data.py lines 199-235 `RWC_alam`, with a bound on the number of passes of the loop; `none` if it is
still running then. -/
noncomputable def RWC_alam (sv : Solver) (fuel : ℕ) (B c1 c2 : ℝ) (v : Int) : Option (Py (ℝ × ℝ)) :=
  if v < 0 then some (throw .valueError)
  else if c1 ≥ 0 then some (RWC_alam_clam sv B c1 c2 v)
  else if c2 ≤ 0 then some (throw .valueError)
  else RWC_alam_neg sv fuel B c1 c2 v

/-- hamiltonian_data.py lines 257-265 `RWC_alam36`. -/
noncomputable def RWC_alam36 (B c1 c2 : ℝ) : Py (ℝ × ℝ) :=
  open Classical in
  if c1 < 0 then do
    let a ← pySqrt (-B ^ 2 * c1 / 2)
    let a ← pySqrt a
    pure (a, 1 + Real.sqrt (36 + B ^ 2 * c1 ^ 4 / c2 ^ 2) / 4)
  else do
    let a ← pySqrt (B * c1 / 4)
    let a ← pySqrt a
    pure (a, 2.5)

open Classical in
/-- hamiltonian_data.py lines 281-286 `A0_case1`. -/
noncomputable def A0_case1 (B c1 : ℝ) : Py ℝ :=
  if B ≤ 0 then throw .valueError
  else if c1 ≤ 0 then throw .valueError
  else pure (B * Real.sqrt c1)

open Classical in
/-- hamiltonian_data.py lines 289-296 `A0_case2_approx`. -/
noncomputable def A0_case2_approx (B c2 : ℝ) (v : Int) : Py ℝ :=
  if B ≤ 0 then throw .valueError
  else if c2 ≤ 0 then throw .valueError
  else if v < 0 then throw .valueError
  else pure ((c2 * B ^ 2 * (2 * (v : ℝ) + 7)) ^ ((1 : ℝ) / 3))

open Classical in
/-- hamiltonian_data.py lines 299-308 `A0_case3_approx`. -/
noncomputable def A0_case3_approx (B c1 c2 : ℝ) (v : Int) : Py ℝ :=
  if B ≤ 0 then throw .valueError
  else if c1 ≥ 0 then throw .valueError
  else if c2 ≤ 0 then throw .valueError
  else if v < 0 then throw .valueError
  else pure (Real.sqrt (B * c2) *
    ((2 * (v : ℝ) + 3) * (2 * (v : ℝ) + 5) * (2 * (v : ℝ) + 7) / (-2 * c1)) ^ ((1 : ℝ) / 4))

open Classical in
/-- hamiltonian_data.py lines 369-380 `RWC_alam_fun`. -/
noncomputable def RWC_alam_fun (sv : Solver) (fuel : ℕ) (B c1 c2 : ℝ) : Option (Py (ℝ × ℝ × LambdaFunction)) :=
  match RWC_alam sv fuel B c1 c2 0 with
  | none => none
  | some (.error e) => some (.error e)
  | some (.ok (a0, lam)) =>
    if c1 ≥ 0 then some (pure (a0, lam, lambda_sho_fun))
    else some (pure (a0, lam, lambda_davi_fun ((a0 ^ 2 * c1 / (c2 * 2)) ^ 2)))

end Acm
