import Verif.Model.FullOps
import Mathlib.Algebra.MvPolynomial.PDeriv
import Mathlib.RingTheory.MvPolynomial.Homogeneous
import Mathlib.Analysis.SpecialFunctions.Pow.Deriv
import Mathlib.Analysis.Complex.Basic

/-!
# Specification vocabulary for the momentum operators

Position and momentum on the five-dimensional space of quadrupole deformations, independently of any
coupling coefficient: `q` is multiplication by a coordinate, `pi` (over `-i hbar`) is differentiation.
A tensor of the largest SO(5) type in a product of such operators is obtained from the components along a
vector `z` with `z.z = 0`, which kills all traces; so all statements are for an arbitrary such `z`.

A state is `r^(2k) h(x)` with a harmonic polynomial `h`, homogeneous of degree `v`: the seniority is `v` and
the radial function is `beta^(2k + v)`.  The radial wave functions of the code contain a further factor `beta^2`
(the measure is `d beta` instead of `beta^4 d beta`), so that there the radial function is `beta^s` with
`s = v + 2 + 2k`.
-/

namespace Acm.Spec.Momentum

open MvPolynomial

/-- Functions of the five coordinates. -/
abbrev P := MvPolynomial (Fin 5) ℂ

/-- `z.z = 0`. -/
def Null (z : Fin 5 → ℂ) : Prop := ∑ i, z i ^ 2 = 0

/-- Multiplication by `z.x`. -/
noncomputable def q (z : Fin 5 → ℂ) : P →ₗ[ℂ] P := LinearMap.mulLeft ℂ (∑ i, C (z i) * X i)

/-- The derivative along `z`. -/
noncomputable def pi (z : Fin 5 → ℂ) : P →ₗ[ℂ] P := ∑ i, z i • (pderiv (R := ℂ) i).toLinearMap

/-- Multiplication by `r^2 = x.x`. -/
noncomputable def R : P →ₗ[ℂ] P := LinearMap.mulLeft ℂ (∑ i, X i ^ 2)

/-- The Laplace operator. -/
noncomputable def lap (p : P) : P := ∑ i, pderiv i (pderiv i p)

/-- Harmonic polynomials, homogeneous of degree `v`: the states of seniority `v`. -/
structure Harmonic (v : ℕ) (h : P) : Prop where
  lap_eq : lap h = 0
  hom : h.IsHomogeneous v

/-- The part of `(z.x) h` with seniority `v + 1`, for `h` of seniority `v`. -/
noncomputable def U (z : Fin 5 → ℂ) (v : ℤ) : P →ₗ[ℂ] P := q z - (2 * v + 3 : ℂ)⁻¹ • (R ∘ₗ pi z)

/-- The part of `(z.x) h / r^2` with seniority `v - 1`, for `h` of seniority `v`. -/
noncomputable def D (z : Fin 5 → ℂ) (v : ℤ) : P →ₗ[ℂ] P := (2 * v + 3 : ℂ)⁻¹ • pi z

/-! ## Radial operators -/

/-- What a radial symbol does to a function of `beta`.  The SU(1,1) generators, which depend on the basis, do
not occur below. -/
noncomputable def act : RadSym → (ℝ → ℝ) → ℝ → ℝ
  | .b, f => fun x => x * f x
  | .bm, f => fun x => f x / x
  | .b2, f => fun x => x ^ 2 * f x
  | .bm2, f => fun x => f x / x ^ 2
  | .Db, f => deriv f
  | .D2b, f => deriv (deriv f)
  | .bDb, f => fun x => x * deriv f x
  | _, _ => fun _ => 0

/-- A product of symbols: the rightmost acts first. -/
noncomputable def wordAct (w : List RadSym) (f : ℝ → ℝ) : ℝ → ℝ := w.foldr act f

/-- A linear combination. -/
noncomputable def lcAct (lc : List (ℝ × List RadSym)) (f : ℝ → ℝ) (x : ℝ) : ℝ :=
  (lc.map fun t => t.1 * wordAct t.2 f x).sum

/-- The linear combination `lc` maps `beta^s` to `g(s) beta^(s + d)`, for every exponent. -/
def Denotes (lc : List (ℝ × List RadSym)) (g : ℝ → ℝ) (d : ℝ) : Prop :=
  ∀ s x : ℝ, 0 < x → lcAct lc (fun y => y ^ s) x = g s * x ^ (s + d)

/-- A block of a matrix on the full space which is a product of a radial matrix (of `lc`, between the `lambda`s that
belong to the two seniorities), an SO(5)-reduced matrix element `red` and a Clebsch-Gordan coefficient for the
tensor `T`. -/
noncomputable def factorBlock (env : XEnv) (lam : LambdaFunction) (a : XArgs) (lc : List (ℝ × List RadSym)) (lap : Int)
    (sign : ℝ) (red : Py ℝ) (T init fin : Label) (l : Int) : Py (Option Arr) := do
  let l' ← lam fin.1
  let M ← RepRadial_LC env.la lc a.anorm (a.lambda_base + l) (l' - l) a.nu_min a.nu_max lap
  let m ← red
  let c ← env.CG init T fin
  pure (some ((M.smul (sign * m)).smul c))

end Acm.Spec.Momentum
