import Mathlib.Data.Finset.Card
import Mathlib.Order.Interval.Finset.Nat
import Mathlib.Algebra.BigOperators.Group.Finset.Basic

/-!
# Independent specification: SO(5) > SO(3) branching

The SO(3) content of the SO(5) irrep of seniority `v` (Rowe & Wood): for every
`K = v, v-3, v-6, ... ≥ 0` the angular momenta `K, K+1, ..., 2K-2, 2K`.
-/

namespace Acm.Spec

/-- `K` contributes one copy of angular momentum `L` to the irrep of seniority `v`. -/
def Contributes (v L K : ℕ) : Prop :=
  K ≤ v ∧ K % 3 = v % 3 ∧ K ≤ L ∧ L ≤ 2 * K ∧ L + 1 ≠ 2 * K

instance (v L K : ℕ) : Decidable (Contributes v L K) := by
  unfold Contributes; infer_instance

/-- The multiplicity of `L` in the irrep of seniority `v`. -/
def branching (v L : ℕ) : ℕ := ((Finset.range (v + 1)).filter (Contributes v L)).card

end Acm.Spec

namespace Acm.Spec

/-- The documented layout order of basis labels `(v, alpha, L)`: `L` varies slowest,
then the seniority `v`, then the multiplicity label `alpha` (fastest). -/
def LayoutLT (x y : Int × Int × Int) : Prop :=
  x.2.2 < y.2.2 ∨ (x.2.2 = y.2.2 ∧ (x.1 < y.1 ∨ (x.1 = y.1 ∧ x.2.1 < y.2.1)))

/-- `(v, a, L)` labels a state of the space with seniorities `v_min..v_max` and angular
momenta `L_min..L_max`. -/
def IsLabel (v_min v_max L_min L_max : ℕ) (x : Int × Int × Int) : Prop :=
  ∃ v a L : ℕ, x = (((v : Int), (a : Int), (L : Int)) : Int × Int × Int) ∧
    v_min ≤ v ∧ v ≤ v_max ∧ L_min ≤ L ∧ L ≤ L_max ∧ 1 ≤ a ∧ a ≤ branching v L

/-- The dimension of that space. -/
def spaceDim (v_min v_max L_min L_max : ℕ) : ℕ :=
  ∑ v ∈ Finset.Ico v_min (v_max + 1), ∑ L ∈ Finset.Ico L_min (L_max + 1), branching v L

end Acm.Spec
