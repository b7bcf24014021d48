import Verif.Model.FullSpace

/-!
# Specification of property C128: sums over intermediate states
-/

namespace Acm.Spec

/-- The product of two operators: every term of the first times every term of the second. -/
noncomputable def opTimes (A B : OperatorSum) : OperatorSum := A.flatMap fun t => B.map fun u => (t.1 * u.1, t.2 ++ u.2)

/-- Sums of numbers times radial operators times harmonics. -/
def Ordinary (op : OperatorSum) : Prop :=
  ∀ t ∈ op, ∃ (c : ℝ) (rs : List RadSym) (hs : List SpHarm), RadSym.other ∉ rs ∧ t = (fun _ => c, rs.map .rad ++ hs.map .harm)

/-- Sums of harmonics, with any coefficients. -/
def Angular (op : OperatorSum) : Prop := ∀ t ∈ op, ∃ hs : List SpHarm, t.2 = hs.map .harm

/-- The element between state number `f` of angular momentum `Lf` and state number `i` of angular momentum `Li`. -/
noncomputable def element (R : LBlockArray) (Lf : Int) (f : ℕ) (Li : Int) (i : ℕ) : ℝ :=
  match R.get_block Lf Li with
  | .ok G => G.e f i
  | .error _ => 0

end Acm.Spec
