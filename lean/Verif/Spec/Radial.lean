import Verif.Model.Radial
import Verif.Spec.RadialWords
import Mathlib.Topology.Algebra.InfiniteSum.Basic
import Mathlib.Topology.Instances.Real.Lemmas
import Mathlib.LinearAlgebra.Matrix.PosDef
import Mathlib.Algebra.Order.Star.Real
import Mathlib.Data.Matrix.Diagonal

/-!
# Specification vocabulary for radial matrix elements

Operators on the radial Hilbert space are infinite matrices `ℕ → ℕ → ℝ` (final label, initial
label); products are (convergent) sums over all intermediate labels.
-/

namespace Acm.Spec

/-- The function `ME` never raises and computes the matrix elements `f`. -/
def Entries (ME : ℕ → ℕ → Py ℝ) (f : ℕ → ℕ → ℝ) : Prop := ∀ i j, ME i j = .ok (f i j)

/-- `C` is the operator product of `A` and `B`: for all `i, j` the sum over all `k` of
`A i k * B k j` converges to `C i j`. -/
def OpProd (A B C : ℕ → ℕ → ℝ) : Prop := ∀ i j, HasSum (fun k => A i k * B k j) (C i j)

/-- `C` is the commutator of `A` and `B`. -/
def Commutator (A B C : ℕ → ℕ → ℝ) : Prop :=
  ∃ AB BA, OpProd A B AB ∧ OpProd B A BA ∧ ∀ i j, C i j = AB i j - BA i j

/-- The identity operator. -/
def opId (i j : ℕ) : ℝ := if i = j then 1 else 0

/-- Symmetric matrix elements. -/
def Symm (A : ℕ → ℕ → ℝ) : Prop := ∀ i j, A i j = A j i

/-- `B` is the transpose of `A`. -/
def Transposed (A B : ℕ → ℕ → ℝ) : Prop := ∀ i j, B i j = A j i

/-! ## Matrices -/

/-- The array has shape `n x n` (and no entries outside its shape). -/
def Square (n : ℕ) (A : Arr) : Prop :=
  A.rows = n ∧ A.cols = n ∧ ∀ i j, ¬ (i < n ∧ j < n) → A.e i j = 0

/-- An array as a Mathlib matrix. -/
def mat (n : ℕ) (A : Arr) : Matrix (Fin n) (Fin n) ℝ := Matrix.of fun i j => A.e i j

/-- What NumPy documents about `np.linalg.eigh` and `np.linalg.inv`: for a symmetric matrix
`eigh` returns ascending eigenvalues and a matrix of orthonormal eigenvectors (columns); for
an invertible matrix `inv` returns the inverse. -/
structure LinAlgOk (la : LinAlg) : Prop where
  eigh_shape : ∀ (n : ℕ) (A : Arr), A.rows = n → A.cols = n →
    (la.eigh A).2.rows = n ∧ (la.eigh A).2.cols = n
  eigh_orthonormal : ∀ (n : ℕ) (A : Arr), A.rows = n → A.cols = n → (mat n A).IsSymm →
    (mat n (la.eigh A).2).transpose * mat n (la.eigh A).2 = 1
  eigh_eigen : ∀ (n : ℕ) (A : Arr), A.rows = n → A.cols = n → (mat n A).IsSymm →
    mat n A * mat n (la.eigh A).2
      = mat n (la.eigh A).2 * Matrix.diagonal fun i : Fin n => (la.eigh A).1 i
  eigh_sorted : ∀ (n : ℕ) (A : Arr), A.rows = n → A.cols = n → (mat n A).IsSymm →
    ∀ i j, i ≤ j → j < n → (la.eigh A).1 i ≤ (la.eigh A).1 j
  inv_shape : ∀ (n : ℕ) (A : Arr), A.rows = n → A.cols = n →
    (la.inv A).rows = n ∧ (la.inv A).cols = n
  inv_inverse : ∀ (n : ℕ) (A : Arr), A.rows = n → A.cols = n → IsUnit (mat n A) →
    mat n A * mat n (la.inv A) = 1

/-! ## Products of operators -/

/-- `P` is the product of the listed operators (leftmost first), without truncation. -/
inductive IsProd : List (ℕ → ℕ → ℝ) → (ℕ → ℕ → ℝ) → Prop
  | nil : IsProd [] opId
  | cons {f fs Q P} : IsProd fs Q → OpProd f Q P → IsProd (f :: fs) P

/-- The product of the listed operators when all intermediate labels are restricted to
`lo..hi`. -/
noncomputable def windowProd (lo hi : ℕ) : List (ℕ → ℕ → ℝ) → ℕ → ℕ → ℝ
  | [] => opId
  | f :: fs => fun i j => ∑ k ∈ Finset.Icc lo hi, f i k * windowProd lo hi fs k j

/-- The operator connects labels at most one apart. -/
def Banded (f : ℕ → ℕ → ℝ) : Prop := ∀ i j, i + 1 < j ∨ j + 1 < i → f i j = 0

/-- `g` gives the elements, between labels in `lo..hi`, of an elementary matrix requested at
`lambda`: matrix elements of the `ME_Radial_...` functions, or entries of the square root
of the truncated matrix of beta^2. -/
def PrimElement (la : LinAlg) (lo hi : ℕ) : Prim × ℝ → (ℕ → ℕ → ℝ) → Prop
  | (.me m, lam), g => ∀ i ∈ Finset.Icc lo hi, ∀ j ∈ Finset.Icc lo hi, m.fn lam i j = .ok (g i j)
  | (.idPl r, lam), g => ∀ i ∈ Finset.Icc lo hi, ∀ j ∈ Finset.Icc lo hi,
      ME_Radial_id_pl lam i j r.toNat = .ok (g i j)
  | (.idMl r, lam), g => ∀ i ∈ Finset.Icc lo hi, ∀ j ∈ Finset.Icc lo hi,
      ME_Radial_id_ml lam i j r.toNat = .ok (g i j)
  | (.sqrtB2, lam), g => ∃ A, RepRadial_b2_sqrt la lam lo hi = .ok A ∧
      ∀ i j, i + lo ≤ hi → j + lo ≤ hi → A.e i j = g (lo + i) (lo + j)
  | (.sqrtInvB2, lam), g => ∃ A, RepRadial_b2_sqrtInv la lam lo hi = .ok A ∧
      ∀ i j, i + lo ≤ hi → j + lo ≤ hi → A.e i j = g (lo + i) (lo + j)

/-- The matrix-element function documented for a symbol that stands for an operator of bounded
bandwidth and no shift of `lambda`. -/
def bandedME : RadSym → Option RadME
  | .Sm => some .Sm
  | .S0 => some .S0
  | .Sp => some .Sp
  | .b2 => some .b2
  | .bDb => some .bDb
  | _ => none

end Acm.Spec
