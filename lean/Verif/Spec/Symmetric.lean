import Verif.Model.CGSO5
import Verif.Model.FullOps
import Verif.Spec.RadialElement

/-!
# Specification of property C97: symmetric matrices
-/

namespace Acm.Spec

/-- The Clebsch-Gordan coefficients as the program finds them in the files (by C54 they do not depend on what was loaded
before). -/
noncomputable def fileCG (fs : FileSys) (dir : Option (List Char)) : CGFun := fun x1 x2 x3 =>
  (CG_SO5r3 fs x1 x2 x3 (CGState.start dir)).1

/-- `M` has the same element at (p, q) and at (q, p), for all p and q below n. -/
def SymmetricOn (n : ℕ) (M : Arr) : Prop := ∀ p < n, ∀ q < n, M.e p q = M.e q p

/-- The single radial operators that are their own adjoints (`none` is the identity). -/
def SelfAdjoint (r : Option RadSym) : Prop := r ∈ [none, some .b, some .bm, some .b2, some .bm2, some .D2b, some .S0]

/-- The radial operators have matrices for the change of `lambda` from `lb + l` to `lb + l'` that are exact: a single
self-adjoint operator with a closed form, or the square of `beta^2` without a change of `lambda`. -/
def GoodRadial (lb : ℝ) (l l' : Int) (rs : List RadSym) : Prop :=
  (∃ r, rs = opList r ∧ SelfAdjoint r ∧ (∃ prim, closedForm r (l' - l) = some prim) ∧
    ¬ ((r = some .bm2 ∨ r = some .D2b) ∧ lb + l = 1)) ∨ (rs = [.b2, .b2] ∧ l' = l)

/-- The Hamiltonians of the theorem: radial operators as above times a power of cos(3 gamma) (the harmonic `y310`), with
coefficients that take the same value in the row and in the column of every element that may differ from zero: any function
of the seniority and of L if there is no harmonic, and a constant otherwise. -/
def BalancedHam (lb : ℝ) (ls : Int → Int) (a : XArgs) (ham : OperatorSum) : Prop :=
  ∀ t ∈ ham, ∃ rs n, t.2 = rs.map .rad ++ List.replicate n (.harm .y310) ∧ RadSym.other ∉ rs ∧
    (∀ x y, n ≠ 0 ∨ x.2 = y.2 → t.1 x = t.1 y) ∧
    ∀ v v', a.v_min ≤ v → v ≤ a.v_max → a.v_min ≤ v' → v' ≤ a.v_max → (v' - v - 3 * n) % 2 = 0 → (n = 0 → v' = v) →
      GoodRadial lb (ls v) (ls v') rs

end Acm.Spec
