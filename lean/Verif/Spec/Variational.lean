import Verif.Spec.RadialElement
import Verif.Model.FullSpace

/-!
# Specification vocabulary for the comparison of truncated spaces
-/

namespace Acm.Spec

/-- `b` is the space `a` or a larger one, in the same basis. -/
def Contains (b a : XArgs) : Prop :=
  (b.anorm = a.anorm ∧ b.lambda_base = a.lambda_base) ∧ (b.nu_min ≤ a.nu_min ∧ a.nu_max ≤ b.nu_max) ∧
    (b.v_min ≤ a.v_min ∧ a.v_max ≤ b.v_max) ∧ (b.L_min ≤ a.L_min ∧ a.L_max ≤ b.L_max)

/-- The product of at most one radial operator and some harmonics. -/
def oneRadial (r : Option RadSym) (hs : List SpHarm) : OperatorProduct := (opList r).map .rad ++ hs.map .harm

/-- The seniorities that a product of harmonics may connect, by parity (`v` initial, `v'` final). -/
def MayCouple (hs : List SpHarm) (v v' : Int) : Prop :=
  if hs = [] then v' = v else (v' - v - (hs.map fun h => h.table.1).sum) % 2 = 0

/-- The Hamiltonians for which the matrices on nested spaces are nested: every product consists of at most one radial
operator, with a closed form for all changes of `lambda` that its harmonics may cause, and of at most one harmonic, or of any
number of harmonics when only the range of `nu` is enlarged.  `lb + ls v` is the `lambda` of the states of seniority `v`. -/
def Nestable (lb : ℝ) (ls : Int → Int) (a b : XArgs) (ham : OperatorSum) : Prop :=
  ∀ t ∈ ham, ∃ r hs, t.2 = oneRadial r hs ∧ r ≠ some .other ∧
    (hs.length ≤ 1 ∨ a.v_min = b.v_min ∧ a.v_max = b.v_max) ∧
    ∀ v v', b.v_min ≤ v → v ≤ b.v_max → b.v_min ≤ v' → v' ≤ b.v_max → MayCouple hs v v' →
      (∃ prim, closedForm r (ls v' - ls v) = some prim) ∧ ¬ ((r = some .bm2 ∨ r = some .D2b) ∧ lb + ls v = 1)

/-- Every level of `r` is also in `r'`, with the same L, the same place and an energy that is not higher. -/
def EnergiesDrop (r r' : List LEig) : Prop :=
  ∀ x ∈ r, ∃ y ∈ r', y.L = x.L ∧ ∀ k (h : k < x.vals.length), ∃ h' : k < y.vals.length, y.vals[k] ≤ x.vals[k]

end Acm.Spec
