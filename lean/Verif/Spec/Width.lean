import Verif.Spec.RadialWords
import Verif.Model.NumPy
import Verif.Model.Operators

/-!
# The width of the basis as a unit of length

`anorm` is the inverse of the unit in which beta is measured: a factor beta contributes the power -1 of it, a factor d/dbeta, a
momentum and a factor 1/beta the power 1.
-/

namespace Acm.Spec

/-- The power of `anorm` that belongs to a symbol: the momentum is a derivative, its squares have two of them, and
[pi x q x pi] two and a coordinate; the harmonics and the SU(1,1) generators have none. -/
def widthPower : OpSym → Int
  | .rad r => symExpo r
  | .Pi => 1
  | .PiPi2 => 2
  | .PiPi4 => 2
  | .PiqPi => 1
  | _ => 0

/-- The operator in other units: every term is multiplied by the power of `c` that belongs to it. -/
noncomputable def inUnits (c : ℝ) (ts : OperatorSum) : OperatorSum :=
  ts.map fun t => (fun x => c ^ (t.2.map widthPower).sum * t.1 x, t.2)

/-- All elements times a number. -/
def times (c : ℝ) (A : Arr) : Arr := ⟨A.rows, A.cols, fun i j => c * A.e i j⟩

end Acm.Spec
