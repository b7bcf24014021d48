import Verif.Model.Operators
import Verif.Spec.RadialWords
import Mathlib.Algebra.Algebra.Pi

/-!
# Specification vocabulary for operator sums

What an operator sum *means*: an interpretation sends every symbol to an element of an
arbitrary real algebra and every coefficient (a function of the labels) to an element of that
algebra, compatibly with sums and products of coefficients.
-/

namespace Acm.Spec

/-- An interpretation of operator symbols and coefficients in a real algebra.  `coef f` is the
operator that multiplies the state with labels `x` by `f x`. -/
structure OpInterp (R : Type) [Ring R] [Algebra ℝ R] where
  rad : Interp R
  harm : SpHarm → R
  sqLdim : R
  sqLdiv : R
  Pi : R
  PiPi2 : R
  PiPi4 : R
  PiqPi : R
  unknown : ℕ → R
  coef : Coeff →ₐ[ℝ] R

variable {R : Type} [Ring R] [Algebra ℝ R]

/-- The operator denoted by a symbol. -/
def OpInterp.sym (I : OpInterp R) : OpSym → R
  | .rad r => symWord I.rad r
  | .harm h => I.harm h
  | .sqLdim => I.sqLdim
  | .sqLdiv => I.sqLdiv
  | .Pi => I.Pi
  | .PiPi2 => I.PiPi2
  | .PiPi4 => I.PiPi4
  | .PiqPi => I.PiqPi
  | .unknown n => I.unknown n

/-- The operator denoted by an operator sum: the coefficient of a term is evaluated on the
initial state, then the factors act from right to left
(internal_operators.py lines 549-580, full_operators.py lines 230-288). -/
def OpInterp.denote (I : OpInterp R) (op : OperatorSum) : R :=
  (op.map fun t => (t.2.map I.sym).prod * I.coef t.1).sum

/-- beta. -/
def OpInterp.b (I : OpInterp R) : R := I.rad.b

/-- 1/beta. -/
def OpInterp.binv (I : OpInterp R) : R := ↑(I.rad.b⁻¹)

/-- The radial part of the Laplacian after the change of measure, plus the centrifugal term:
d^2/dbeta^2 - (2 + v(v+3))/beta^2. -/
def OpInterp.laplacian (I : OpInterp R) : R :=
  I.rad.D * I.rad.D - I.binv * I.binv * I.coef fun x => 2 + x.2.1 * (x.2.1 + 3)

/-- cos(3 gamma) = (4 pi / 3) Y_310. -/
noncomputable def OpInterp.cos3g (I : OpInterp R) : R := (4 * Real.pi / 3) • I.harm .y310

/-- The polynomial sum_n cos(3 gamma)^n c_n. -/
noncomputable def OpInterp.cosPoly (I : OpInterp R) (cs : List Coeff) : R :=
  (cs.zipIdx.map fun p => I.cos3g ^ p.2 * I.coef p.1).sum

/-- The angular momentum that a symbol carries: a harmonic that of its label, the momentum
tensors their rank, scalars 0. -/
def symAM : OpSym → ℕ
  | .harm h => h.table.2.2.toNat
  | .Pi => 2
  | .PiPi2 => 2
  | .PiPi4 => 4
  | _ => 0

/-- The (maximal) angular momentum of a product. -/
def termAM (w : OperatorProduct) : ℕ := (w.map symAM).sum

/-- The parity that a symbol carries: odd powers of beta and d/dbeta, harmonics of odd
seniority and the momentum are odd (internal_operators.py lines 988-1019; the compound
[pi q pi] is not listed there and counts as even). -/
def symParity : OpSym → ℕ
  | .rad .b => 1
  | .rad .bm => 1
  | .rad .Db => 1
  | .harm h => h.table.1.toNat % 2
  | .Pi => 1
  | _ => 0

/-- The parity of a product: 0 or 1. -/
def termParity (w : OperatorProduct) : ℕ := (w.map symParity).sum % 2

/-- An item of a spherical product that is a harmonic. -/
def IsHarm : YSym → Bool
  | .triple _ => true
  | .sym (.harm _) => true
  | _ => false

end Acm.Spec
