import Verif.Spec.Selection
import Verif.Model.FullSpace

/-!
# Specification of property C111: inversion of the coordinates

The inversion changes the sign of the five coordinates `q`, and of the momenta; in terms of beta and gamma it is the addition of pi/3 to
gamma, which exchanges prolate and oblate shapes.  A harmonic with seniority `v` gets the sign `(-1)^v`, as does a basis state.
-/

namespace Acm.Spec

/-- The operator after inversion: a term that changes the parity of the seniority changes its sign. -/
noncomputable def inverted (op : OperatorSum) : OperatorSum := op.map fun t => (fun x => (-1) ^ termSen t.2 * t.1 x, t.2)

/-- The operator changes its sign. -/
def OddOp (op : OperatorSum) : Prop := ∀ t ∈ op, termSen t.2 % 2 = 1

/-- The operator stays the same. -/
def EvenOpSum (op : OperatorSum) : Prop := ∀ t ∈ op, termSen t.2 % 2 = 0

/-- The sign that a basis state gets. -/
def invSign (x : XspaceLabel) : ℝ := if x.2.1 % 2 = 0 then 1 else -1

end Acm.Spec
