import Verif.Model.FullOps

/-!
# Specification of property C108: operators which are functions of the quantum numbers
-/

namespace Acm.Spec

/-- An operator without any factor but the coefficients. -/
def Diagonal (op : OperatorSum) : Prop := ∀ t ∈ op, t.2 = []

/-- Its value for a state: the coefficients added up. -/
noncomputable def valueAt (op : OperatorSum) (x : XspaceLabel) : ℝ := (op.map fun t => t.1 x).sum

end Acm.Spec
