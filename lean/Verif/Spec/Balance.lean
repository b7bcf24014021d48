import Verif.Spec.Symmetric

/-!
# Specification of property C106: transitions in the two directions
-/

namespace Acm.Spec

/-- The transition operators of the theorem, of angular momentum even or odd as `l` is: sums of constants times radial operators with
exact self-adjoint matrices times one harmonic of odd seniority. -/
def OddTensor (lb : ℝ) (ls : Int → Int) (a : XArgs) (l : Int) (op : OperatorSum) : Prop :=
  ∀ t ∈ op, ∃ (c : ℝ) (rs : List RadSym) (y : SpHarm), t = (fun _ => c, rs.map .rad ++ [.harm y]) ∧ RadSym.other ∉ rs ∧
    y.table.1 % 2 = 1 ∧ (y.table.2.2 - l) % 2 = 0 ∧
    ∀ v v', a.v_min ≤ v → v ≤ a.v_max → a.v_min ≤ v' → v' ≤ a.v_max → |v' - v| ≤ y.table.1 → (v' - v) % 2 = 1 →
      GoodRadial lb (ls v) (ls v') rs

/-- The reduced elements `x` for `Li → Lf` and `x'` for `Lf → Li` of a tensor operator of angular momentum `l` that is its own adjoint:
`<f||T||i>` is `sqrt(2 Lf + 1)` times `x`. -/
def Reciprocal (l Lf Li : Int) (x x' : ℝ) : Prop :=
  x * Real.sqrt (2 * Lf + 1) = (-1) ^ (Lf + l - Li) * (x' * Real.sqrt (2 * Li + 1))

end Acm.Spec
