import Verif.Spec.RadialWords
import Mathlib.Data.Real.Basic

/-!
# Independent specification: arrays of SymPy numbers in products of radial operators
-/

namespace Acm.Spec

/-- The elements of this elementary matrix are SymPy numbers: `1/beta` with a change of `lambda`, and `d/dbeta`
with an increase of `lambda`. -/
def Prim.symbolic : Prim → Bool
  | .me .bm_pl => true
  | .me .bm_ml => true
  | .me .Db_pl => true
  | _ => false

/-- The matrix of a product of radial operators, from `lam` to `lam + lambda_var`, is made with such an elementary
matrix. -/
def Symbolic (w : List RadSym) (lam : ℝ) (lambda_var : Int) : Prop :=
  ∃ p, RepRadial_Prod (fun _ _ => formal ℝ) (fun x _ _ => x) w lam lambda_var 0 0 0 = .ok p ∧
    ∃ f ∈ p.factors, Prim.symbolic f.1 = true

/-- In a linear combination, the first product is made with SymPy numbers or no other is. -/
def Addable (rlc : List (ℝ × List RadSym)) (lam : ℝ) (lambda_var : Int) : Prop :=
  ∀ t rest, rlc = t :: rest → Symbolic t.2 lam lambda_var ∨ ∀ u ∈ rest, ¬ Symbolic u.2 lam lambda_var

end Acm.Spec
