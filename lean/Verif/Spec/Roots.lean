import Verif.Spec.RadialWords
import Verif.Model.FullOps

/-!
# Independent specification: the square roots in a product of radial matrices
-/

namespace Acm.Spec

/-- The elementary matrix has no closed form: it is the square root of the matrix of `beta^2` or of its
inverse. -/
def Prim.isRoot : Prim → Bool
  | .sqrtB2 => true
  | .sqrtInvB2 => true
  | _ => false

/-- The number of square roots in a formal product. -/
def roots {F : Type} (p : FormalProd F) : Nat := p.factors.countP fun f => f.1.isRoot

/-- The operator changes sign under `beta → -beta`. -/
def RadSym.isOdd : RadSym → Bool
  | .b => true
  | .bm => true
  | .Db => true
  | _ => false

/-- The symbol is odd in `beta`, or a spherical harmonic of odd seniority. -/
def isOddSym : OpSym → Bool
  | .rad r => RadSym.isOdd r
  | .harm .y112 => true
  | .harm .y310 => true
  | .harm .y313 => true
  | .harm .y314 => true
  | .harm .y316 => true
  | .harm .y512 => true
  | .harm .y514 => true
  | .harm .y515 => true
  | .harm .y516 => true
  | .harm .y517 => true
  | .harm .y518 => true
  | .harm .y51A => true
  | _ => false

/-- The symbol acts on one of the two spaces only. -/
def isLocalSym : OpSym → Bool
  | .rad r => decide (r ≠ .other)
  | .harm _ => true
  | .sqLdim => true
  | .sqLdiv => true
  | _ => false

/-- In every run of symbols between the momentum operators of a product, the number of odd symbols is
even. -/
def EvenRuns (t : List OpSym) : Prop :=
  t.countP isOddSym % 2 = 0 ∧
    ∀ pre s post, t = pre ++ s :: post → isLocalSym s = false → pre.countP isOddSym % 2 = 0

/-- The shifts of lambda have the parity of the seniority. -/
def ParityBasis (lam : LambdaFunction) : Prop := ∀ v k, lam v = .ok k → (k - v) % 2 = 0

end Acm.Spec
