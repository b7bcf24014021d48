import Verif.Model.FullSpace

/-!
# Specification vocabulary for the arguments of Show_Eigs and the reference states of ACM_Adapt
-/

namespace Acm.Spec

/-- The angular momenta that a call of `Show_Eigs` asks for: with no bound all, with a lower bound alone just that one,
otherwise those between the bounds. -/
def Asked : Option Int → Option Int → Int → Prop
  | none, none, _ => True
  | some l, none, L => L = l
  | none, some m, L => L ≤ m
  | some l, some m, L => l ≤ L ∧ L ≤ m

instance (l m : Option Int) (L : Int) : Decidable (Asked l m L) := by
  cases l <;> cases m <;> unfold Asked <;> infer_instance

/-- The bounds are sensible: not negative, and in order. -/
def BoundsOk (l m : Option Int) : Prop :=
  (∀ x ∈ l, 0 ≤ x) ∧ (∀ y ∈ m, 0 ≤ y) ∧ ∀ x ∈ l, ∀ y ∈ m, x ≤ y

/-- The state `idx` (counted from 1) of angular momentum `L` is in the space: the space has at least `idx` basis states
of angular momentum `L`, listed without repetition by their labels. -/
def HasState (a : XArgs) (L idx : Int) : Prop :=
  (a.L_min ≤ L ∧ L ≤ a.L_max) ∧ ∃ xs : List XspaceLabel,
    lbsXspace a.nu_min a.nu_max a.v_min a.v_max L (some L) = .ok xs ∧ idx ≤ xs.length

end Acm.Spec
