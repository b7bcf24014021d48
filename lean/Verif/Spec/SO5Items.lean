import Verif.Model.SO5Red
import Verif.Model.Harmonics
import Verif.Spec.Harmonics
import Mathlib.Data.Matrix.Diagonal

/-!
# Independent specification: the matrices of the spherical operators

Rows and columns are numbered by the position of a state in a list of labels.
-/

namespace Acm.Spec

/-- The matrix of the harmonic with label `y`: between the initial state in column `j` and the final
state in row `i` it has the Clebsch-Gordan coefficient times the reduced matrix element. -/
def HarmonicMatrix (CG : CGFun) (states : List Label) (y : Label)
    (M : Matrix (Fin states.length) (Fin states.length) ℝ) : Prop :=
  ∀ i j, ∃ c r, CG states[j] y states[i] = .ok c ∧ ME_SO5red states[i].1 y.1 states[j].1 = .ok r ∧
    M i j = c * r

/-- The matrix of one item of a product of spherical operators: a harmonic given by its label, a harmonic
given by its symbol (whose name ends with the digits of its label), or one of the two diagonal operators.
The sign of `SpDiag_sqLdim` is the one that the code gives it (see C66).  No other symbol has a matrix. -/
def ItemMatrix (CG : CGFun) (states : List Label) :
    YSym → Matrix (Fin states.length) (Fin states.length) ℝ → Prop
  | .triple y, M => HarmonicMatrix CG states y M
  | .sym (.harm h), M => ∃ y, IsHarmonicName h.name y ∧ HarmonicMatrix CG states y M
  | .sym .sqLdim, M => M = Matrix.diagonal fun i => -Real.sqrt (2 * states[i].2.2 + 1)
  | .sym .sqLdiv, M => M = Matrix.diagonal fun i =>
      (-1) ^ states[i].2.2.toNat / Real.sqrt (2 * states[i].2.2 + 1)
  | .sym _, _ => False

end Acm.Spec
