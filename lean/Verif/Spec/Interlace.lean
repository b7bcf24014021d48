import Verif.Model.FullSpace

/-!
# Specification of property C129: interlacing levels
-/

namespace Acm.Spec

/-- Every list of levels in `r` interlaces with that of the same L in `r'`: if the second has `d` levels more, each level of the first lies
between the level of the second with the same place and the one `d` places higher. -/
def Interlaced (r r' : List LEig) : Prop :=
  ∀ x ∈ r, ∃ y ∈ r', y.L = x.L ∧ ∃ d : ℕ, y.vals.length = x.vals.length + d ∧
    ∀ k e, x.vals[k]? = some e → ∃ lo hi, y.vals[k]? = some lo ∧ y.vals[k + d]? = some hi ∧ lo ≤ e ∧ e ≤ hi

end Acm.Spec
