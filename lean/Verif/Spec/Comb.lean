import Verif.Spec.Operators
import Verif.Model.FullSpace

/-!
# Specification of properties C112 and C113: linear combinations of Hamiltonians
-/

namespace Acm.Spec

/-- The coefficient of the product `w` in an operator, as a function of the quantum numbers: a product may occur in several terms. -/
noncomputable def coef (op : OperatorSum) (w : OperatorProduct) (x : Int × Int × Int × Int) : ℝ :=
  ((op.filter fun t => t.2 = w).map fun t => t.1 x).sum

/-- `op` is `s op1 + t op2`: this is so for the coefficients of all products, and it has no products that are in neither. -/
def IsComb (s t : ℝ) (op1 op2 op : OperatorSum) : Prop :=
  (∀ w x, coef op w x = s * coef op1 w x + t * coef op2 w x) ∧ ∀ p ∈ op, ∃ q ∈ op1 ++ op2, q.2 = p.2

end Acm.Spec
