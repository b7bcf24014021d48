import Verif.Model.Keys

/-!
# Specification of property C127: what a dict has to do
-/

namespace Acm.Spec

/-- Every entry of the dict with the hash value is inspected, and nothing that is not in the dict. -/
def DictOk {κ β : Type} (I : DictImpl κ β) : Prop :=
  ∀ h d, (∀ e ∈ I.probe h d, e ∈ d) ∧ ∀ e ∈ d, e.hash = h → e ∈ I.probe h d

/-- How often a function that remembers its results has to be computed for `k` in a series of calls: once if it returns, each time if it
raises. -/
def computations {κ β : Type} [DecidableEq κ] (f : κ → Py β) (ks : List κ) (k : κ) : ℕ :=
  match f k with
  | .ok _ => min 1 (ks.count k)
  | .error _ => ks.count k

end Acm.Spec
