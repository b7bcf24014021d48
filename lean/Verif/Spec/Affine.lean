import Verif.Spec.Routine

/-!
# Specification of property C107: units and zero of the energy
-/

namespace Acm.Spec

/-- `c` times an operator. -/
noncomputable def ctimes (c : ℝ) (op : OperatorSum) : OperatorSum := op.map fun t => (fun x => c * t.1 x, t.2)

/-- An operator plus the constant `d`. -/
def plus (op : OperatorSum) (d : ℝ) : OperatorSum := op ++ [(fun _ => d, [])]

/-- All energies changed by `f`. -/
def relevel (f : ℝ → ℝ) (xs : List (Int × List ℝ)) : List (Int × List ℝ) := xs.map fun x => (x.1, x.2.map f)

/-- The lines of energies among what has been printed. -/
def energyLines (out : List Shown) : List (Int × List ℝ) :=
  out.filterMap fun | .eigs L xs => some (L, xs) | _ => none

/-- All that has been printed but the headings, which contain the scaling factors. -/
def valueLines (out : List Shown) : List Shown := out.filter fun | .eigHead _ _ => false | .melHead _ => false | _ => true

end Acm.Spec
