import Verif.Model.RadialWords
import Mathlib.Algebra.Group.Units.Basic
import Mathlib.Algebra.BigOperators.Group.List.Basic

/-!
# Specification vocabulary for radial operator products

What the radial symbols and the elementary matrices *mean*, independently of the code that
multiplies them: an interpretation sends `beta` to an invertible element `b`, `d/dbeta` to
an element `D`, and the SU(1,1) generators to arbitrary elements of a monoid `W`.
-/

namespace Acm.Spec

/-- The elementary matrices that the product code can request. -/
inductive Prim where
  | me (m : RadME)
  | idPl (r : Int)
  | idMl (r : Int)
  | sqrtB2
  | sqrtInvB2
  deriving DecidableEq, Repr

/-- By how much an elementary matrix, requested at `lambda`, changes `lambda`
(documented in the headers of radial_space.py lines 104-500). -/
def Prim.shift : Prim → Int
  | .me .b_pl => 1
  | .me .bm_pl => 1
  | .me .Db_pl => 1
  | .me .b_ml => -1
  | .me .bm_ml => -1
  | .me .Db_ml => -1
  | .idPl r => 2 * r
  | .idMl r => -2 * r
  | _ => 0

/-- An interpretation of the radial operators in a monoid. -/
structure Interp (W : Type) [Monoid W] where
  b : Wˣ
  D : W
  sm : W
  s0 : W
  sp : W

variable {W : Type} [Monoid W]

/-- The operator that an elementary matrix stands for. -/
def Prim.word (I : Interp W) : Prim → W
  | .me .Sm => I.sm
  | .me .S0 => I.s0
  | .me .Sp => I.sp
  | .me .b2 => I.b * I.b
  | .me .bm2 => ↑(I.b⁻¹) * ↑(I.b⁻¹)
  | .me .D2b => I.D * I.D
  | .me .bDb => I.b * I.D
  | .me .b_pl => I.b
  | .me .b_ml => I.b
  | .me .bm_pl => ↑(I.b⁻¹)
  | .me .bm_ml => ↑(I.b⁻¹)
  | .me .Db_pl => I.D
  | .me .Db_ml => I.D
  | .idPl _ => 1
  | .idMl _ => 1
  | .sqrtB2 => I.b
  | .sqrtInvB2 => ↑(I.b⁻¹)

/-- A formal product: elementary matrices with the `lambda` at which each was requested,
leftmost first, times a power of `anorm`. -/
structure FormalProd (F : Type) where
  factors : List (Prim × F)
  expo : Int
  deriving DecidableEq

/-- The operator word denoted by a list of factors. -/
def wordOf {F : Type} (I : Interp W) (fs : List (Prim × F)) : W :=
  (fs.map fun f => f.1.word I).prod

/-- The factors chain: the rightmost is requested at `a`, each next one at the `lambda`
reached by its right neighbour, and the leftmost one ends at `c`. -/
def Chain {F : Type} [Field F] : List (Prim × F) → F → F → Prop
  | [], a, c => c = a
  | f :: fs, a, c => Chain fs a f.2 ∧ c = f.2 + (f.1.shift : F)

/-- The radial algebra of formal products: it records what is requested and multiplied. -/
def formal (F : Type) : RadAlg F (FormalProd F) where
  rep m lam := pure ⟨[(.me m, lam)], 0⟩
  id_pl lam r := pure ⟨[(.idPl r, lam)], 0⟩
  id_ml lam r := pure ⟨[(.idMl r, lam)], 0⟩
  b2_sqrt lam := pure ⟨[(.sqrtB2, lam)], 0⟩
  b2_sqrtInv lam := pure ⟨[(.sqrtInvB2, lam)], 0⟩
  mul x y := ⟨x.factors ++ y.factors, x.expo + y.expo⟩
  scale k x := ⟨x.factors, x.expo + k⟩
  eye := ⟨[], 0⟩

/-- `y` is the matrix obtained by evaluating a formal product with the primitives, the
products and the scalings of `A`. -/
inductive Denotes {F M : Type} (A : RadAlg F M) : FormalProd F → M → Prop
  | rep {m lam y} : A.rep m lam = .ok y → Denotes A ⟨[(.me m, lam)], 0⟩ y
  | id_pl {lam r y} : A.id_pl lam r = .ok y → Denotes A ⟨[(.idPl r, lam)], 0⟩ y
  | id_ml {lam r y} : A.id_ml lam r = .ok y → Denotes A ⟨[(.idMl r, lam)], 0⟩ y
  | b2_sqrt {lam y} : A.b2_sqrt lam = .ok y → Denotes A ⟨[(.sqrtB2, lam)], 0⟩ y
  | b2_sqrtInv {lam y} : A.b2_sqrtInv lam = .ok y → Denotes A ⟨[(.sqrtInvB2, lam)], 0⟩ y
  | mul {p q y z} : Denotes A p y → Denotes A q z →
      Denotes A ⟨p.factors ++ q.factors, p.expo + q.expo⟩ (A.mul y z)
  | scale {p y} (k : Int) : Denotes A p y → Denotes A ⟨p.factors, p.expo + k⟩ (A.scale k y)
  | eye : Denotes A ⟨[], 0⟩ A.eye

/-- The elementary matrix of a factor exists. -/
def FactorOk {F M : Type} (A : RadAlg F M) : Prim × F → Prop
  | (.me m, l) => ∃ y, A.rep m l = .ok y
  | (.idPl r, l) => ∃ y, A.id_pl l r = .ok y
  | (.idMl r, l) => ∃ y, A.id_ml l r = .ok y
  | (.sqrtB2, l) => ∃ y, A.b2_sqrt l = .ok y
  | (.sqrtInvB2, l) => ∃ y, A.b2_sqrtInv l = .ok y

/-- A factor that should give no trouble: both values of `lambda` are positive, and `1/beta^2` and
`d^2/dbeta^2`, which have a pole there, are not requested at `lambda = 1`. -/
def RegularFactor {F : Type} [Field F] [LinearOrder F] (f : Prim × F) : Prop :=
  0 < f.2 ∧ 0 < f.2 + (f.1.shift : F) ∧ (f.1 = .me .bm2 ∨ f.1 = .me .D2b → f.2 ≠ 1)

/-- The operator denoted by a radial symbol. -/
def symWord (I : Interp W) : RadSym → W
  | .Sm => I.sm
  | .S0 => I.s0
  | .Sp => I.sp
  | .b2 => I.b * I.b
  | .bm2 => ↑(I.b⁻¹) * ↑(I.b⁻¹)
  | .D2b => I.D * I.D
  | .bDb => I.b * I.D
  | .b => I.b
  | .bm => ↑(I.b⁻¹)
  | .Db => I.D
  | .other => 1

/-- The power of `anorm` that belongs to a radial symbol: `beta` is measured in units of
`1/anorm`; the SU(1,1) generators carry none. -/
def symExpo : RadSym → Int
  | .b => -1
  | .b2 => -2
  | .bm => 1
  | .bm2 => 2
  | .Db => 1
  | .D2b => 2
  | _ => 0

/-- The monomial `beta^K (d/dbeta)^T`. -/
def monomial (I : Interp W) (K T : Int) : W := ↑(I.b ^ K) * I.D ^ T.toNat

/-- The operator denoted by a parsed operator. -/
def opWord (I : Interp W) : KTSOp → W
  | .KT K T => monomial I K T
  | .S s => if s = -1 then I.sm else if s = 0 then I.s0 else I.sp

/-- The power of `anorm` that belongs to a parsed operator. -/
def opExpo : KTSOp → Int
  | .KT K T => T - K
  | .S _ => 0

/-- The class invariant of `KTOp` and `SOp` objects: the constructors (radial_space.py
lines 1358-1363, 1381-1385) reject a negative `T` and an `S` outside `-1, 0, 1`. -/
def ValidOp : KTSOp → Prop
  | .KT _ T => 0 ≤ T
  | .S s => s = -1 ∨ s = 0 ∨ s = 1

/-- The number of unit lambda steps an operator can absorb: one per `beta^±1` or
`d/dbeta`. -/
def degree : KTSOp → Int
  | .KT K T => |K| + T
  | .S _ => 0

/-- The lambda shift can be handed out without giving an odd rest to an even product: there
is an odd monomial, or the parity of the shift is that of the product, or the shift is at
least the total degree. -/
def ParityFits (ops : List KTSOp) (lambda_var : Int) : Prop :=
  (∃ op ∈ ops, degree op % 2 = 1) ∨ (lambda_var - (ops.map degree).sum) % 2 = 0 ∨
    (ops.map degree).sum ≤ |lambda_var|

/-- How many monomials of a product have an odd degree. -/
def oddMonomials (ops : List KTSOp) : Int := (ops.map fun op => degree op % 2).sum

/-- The shifts at which a product can be formed from `lambda`.

If the parity can be met: shifts that are not negative, or whose size is at least the number of
odd monomials; for smaller ones, half of the odd monomials and of the shift first lower
`lambda` before the rest raises it again, and `lambda` must exceed that.

If not (an even product, an odd shift smaller than its degree): the shift ends inside some
monomial; either that is the rightmost operator, or the operator to its right takes
a step back: it must be a monomial, and if the step lowers `lambda` then `lambda > 1`. -/
def Reachable {F : Type} [Field F] [LinearOrder F] (ops : List KTSOp) (lambda : F)
    (lambda_var : Int) : Prop :=
  (ParityFits ops lambda_var ∧ (0 ≤ lambda_var ∨ oddMonomials ops ≤ |lambda_var| ∨
    (((oddMonomials ops + |lambda_var|) / 2 : Int) : F) < lambda)) ∨
  (¬ ParityFits ops lambda_var ∧ ∃ pre op post, ops = pre ++ op :: post ∧
    (pre.map degree).sum < |lambda_var| ∧ |lambda_var| < (pre.map degree).sum + degree op ∧
    (post = [] ∨ ∃ K T, post.head? = some (.KT K T) ∧ (lambda_var < 0 ∨ 1 < lambda)))

/-- Every SU(1,1) generator in the list has shift 0. -/
def GeneratorsUnshifted (ops : List KTSOp) (shifts : List Int) : Prop :=
  ∀ (i : Nat) (s : Int), ops[i]? = some (.S s) → shifts[i]? = some 0

end Acm.Spec
