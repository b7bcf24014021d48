import Verif.Spec.Spherical
import Mathlib.Data.Real.Basic
import Mathlib.Algebra.Ring.Parity

/-!
# Independent specification: SO(5) > SO(3) Clebsch-Gordan coefficients
-/

namespace Acm.Spec

/-- The triangle condition. -/
def Triangle (x y z : ℕ) : Prop := x ≤ y + z ∧ y ≤ z + x ∧ z ≤ x + y

/-- `(v, a, L)` labels a state of the irrep of seniority `v`. -/
def IsState (v a L : ℕ) : Prop := 1 ≤ a ∧ a ≤ branching v L

/-- The selection rules for `(v1,a1,L1; v2,a2,L2 || v3,a3,L3)`. -/
def CG5Rules (v1 a1 L1 v2 a2 L2 v3 a3 L3 : ℕ) : Prop :=
  Triangle v1 v2 v3 ∧ Triangle L1 L2 L3 ∧ Even (v1 + v2 + v3) ∧
    IsState v1 a1 L1 ∧ IsState v2 a2 L2 ∧ IsState v3 a3 L3

/-- The documented order of the lines of a data file (so5_so3_cg.py lines 109-110): of the labels
`(a1, L1, a3, L3)`, `L1` varies slowest, then `a1`, then `L3`, with `a3` quickest. -/
def CGLineLT (x y : Int × Int × Int × Int) : Prop :=
  x.2.1 < y.2.1 ∨ (x.2.1 = y.2.1 ∧ (x.1 < y.1 ∨ (x.1 = y.1 ∧
    (x.2.2.2 < y.2.2.2 ∨ (x.2.2.2 = y.2.2.2 ∧ x.2.2.1 < y.2.2.1)))))

/-- `(a1, L1, a3, L3)` is a label of the data file of `v1`, `L2`, `v3`. -/
def IsCGLine (v1 L2 v3 : ℕ) (x : Int × Int × Int × Int) : Prop :=
  ∃ a1 L1 a3 L3 : ℕ, x = ((a1 : Int), (L1 : Int), (a3 : Int), (L3 : Int)) ∧
    IsState v1 a1 L1 ∧ IsState v3 a3 L3 ∧ Triangle L1 L2 L3

/-- `labels` is the list of labels of the data file of `v1`, `L2`, `v3` in the documented order. -/
def CGLines (v1 L2 v3 : ℕ) (labels : List (Int × Int × Int × Int)) : Prop :=
  (∀ x, x ∈ labels ↔ IsCGLine v1 L2 v3 x) ∧ labels.Pairwise CGLineLT

end Acm.Spec
