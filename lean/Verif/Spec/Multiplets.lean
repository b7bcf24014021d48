import Verif.Model.FullSpace
import Mathlib.LinearAlgebra.Matrix.Charpoly.Basic

/-!
# Specification of property C130: levels of Hamiltonians that do not depend on the angles
-/

namespace Acm.Spec

/-- Sums of radial operators, with coefficients that depend on `nu` and on the seniority only. -/
def GammaFree (op : OperatorSum) : Prop :=
  ∀ t ∈ op, (∃ rs : List RadSym, RadSym.other ∉ rs ∧ t.2 = rs.map .rad) ∧ ∃ c : Int → Int → ℝ, ∀ nu v al L, t.1 (nu, v, al, L) = c nu v

/-- The radial matrix for seniority `v`: `Ps` are the matrices of the products of radial operators, one for each term. -/
noncomputable def radialMat (op : OperatorSum) (Ps : List Arr) (nu_min v : Int) (n : ℕ) : Matrix (Fin n) (Fin n) ℝ :=
  Matrix.of fun i j => (List.zipWith (fun t P => t.1 (nu_min + (j : ℕ), v, 1, 0) * P.e i j) op Ps).sum

/-- The matrix of the products of radial operators in the terms of `op`, for a value of `lambda`. -/
def RadialTerms (la : LinAlg) (op : OperatorSum) (anorm lambda : ℝ) (nu_min nu_max : Int) (Ps : List Arr) : Prop :=
  List.Forall₂ (fun t P => ∃ rs : List RadSym, t.2 = rs.map .rad ∧ RepRadialProd la anorm rs lambda 0 nu_min nu_max 0 = .ok P) op Ps

open Polynomial in
/-- The numbers in `es` are the eigenvalues of the symmetric part of `A`, with multiplicities, in ascending order. -/
def IsLevels {n : ℕ} (A : Matrix (Fin n) (Fin n) ℝ) (es : List ℝ) : Prop :=
  ((1 / 2 : ℝ) • (A + A.transpose)).charpoly = (es.map fun x => X - C x).prod ∧ es.Pairwise (· ≤ ·)

end Acm.Spec
