import Verif.Spec.Operators
import Verif.Spec.FullOps

/-!
# Specification of property C102: which labels an operator can connect
-/

namespace Acm.Spec

/-- The largest change of seniority that a symbol can cause: a harmonic its own seniority, the momentum
one, two momenta two, and two momenta with a coordinate three.  The others change nothing. -/
def symSen : OpSym → ℕ
  | .harm h => h.table.1.toNat
  | .Pi => 1
  | .PiPi2 => 2
  | .PiPi4 => 2
  | .PiqPi => 3
  | _ => 0

/-- The largest change of seniority that a product can cause; the change that it does cause has the same parity. -/
def termSen (w : OperatorProduct) : ℕ := (w.map symSen).sum

/-- An element of the matrix `M` of rows and columns `xs` vanishes unless the labels of its row and its column are related. -/
def Connects (R : XspaceLabel → XspaceLabel → Prop) (xs : List XspaceLabel) (M : Arr) : Prop :=
  ∀ p q f i, xs[p]? = some f → xs[q]? = some i → ¬ R f i → M.e p q = 0

end Acm.Spec
