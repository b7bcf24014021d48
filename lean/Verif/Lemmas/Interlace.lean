import Mathlib.LinearAlgebra.Matrix.DotProduct
import Mathlib.LinearAlgebra.Matrix.ToLin
import Mathlib.LinearAlgebra.Matrix.NonsingularInverse
import Mathlib.LinearAlgebra.Dimension.Constructions
import Mathlib.LinearAlgebra.FiniteDimensional.Lemmas
import Mathlib.Data.Real.Basic
import Mathlib.Tactic

/-!
# The eigenvalues of a principal submatrix
-/

namespace Acm

open Matrix

theorem quad_diag {m n : ℕ} {A : Matrix (Fin m) (Fin m) ℝ} {Q : Matrix (Fin m) (Fin n) ℝ} {α : Fin n → ℝ}
    (h : Q.transpose * A * Q = diagonal α) (x : Fin n → ℝ) : (Q *ᵥ x) ⬝ᵥ (A *ᵥ (Q *ᵥ x)) = ∑ i, α i * x i ^ 2 := by
  have : (Q *ᵥ x) ⬝ᵥ (A *ᵥ (Q *ᵥ x)) = x ⬝ᵥ ((Q.transpose * A * Q) *ᵥ x) := by
    rw [← mulVec_mulVec, ← mulVec_mulVec, dotProduct_mulVec x, vecMul_transpose]
  rw [this, h, dotProduct]
  exact Finset.sum_congr rfl fun i _ => by rw [mulVec_diagonal]; ring

/-- The eigenvalues of a compression, in ascending order, are at least those of the whole matrix. -/
theorem compression_le {m n : ℕ} {B R : Matrix (Fin m) (Fin m) ℝ} {W : Matrix (Fin m) (Fin n) ℝ} {α β : ℕ → ℝ}
    (hW : W.transpose * W = 1) (hWB : W.transpose * B * W = diagonal fun i : Fin n => α i)
    (hR : R.transpose * R = 1) (hRB : R.transpose * B * R = diagonal fun i : Fin m => β i)
    (hα : ∀ i j, i ≤ j → j < n → α i ≤ α j) (hβ : ∀ i j, i ≤ j → j < m → β i ≤ β j) {k : ℕ} (hk : k < n) :
    k < m ∧ β k ≤ α k := by
  -- vectors spanned by the first k+1 columns of W
  let inc : (Fin (k + 1) → ℝ) →ₗ[ℝ] (Fin n → ℝ) :=
    { toFun := fun x i => if h : i.1 < k + 1 then x ⟨i.1, h⟩ else 0
      map_add' := fun x y => by funext i; simp only [Pi.add_apply]; split_ifs <;> simp
      map_smul' := fun c x => by funext i; simp only [Pi.smul_apply, smul_eq_mul, RingHom.id_apply]; split_ifs <;> simp }
  have hnorm : ∀ x : Fin n → ℝ, (W *ᵥ x) ⬝ᵥ (W *ᵥ x) = ∑ i, x i ^ 2 := fun x => by
    have := quad_diag (A := 1) (Q := W) (α := 1) (by rw [Matrix.mul_one, hW]; exact diagonal_one.symm) x
    rw [one_mulVec] at this
    rw [this]
    simp
  have hnormR : ∀ x : Fin m → ℝ, (R *ᵥ x) ⬝ᵥ (R *ᵥ x) = ∑ i, x i ^ 2 := fun x => by
    have := quad_diag (A := 1) (Q := R) (α := 1) (by rw [Matrix.mul_one, hR]; exact diagonal_one.symm) x
    rw [one_mulVec] at this
    rw [this]
    simp
  let T : (Fin (k + 1) → ℝ) →ₗ[ℝ] (Fin (min k m) → ℝ) :=
    { toFun := fun x i => (R.transpose *ᵥ (W *ᵥ inc x)) ⟨i.1, lt_of_lt_of_le i.2 (min_le_right _ _)⟩
      map_add' := fun x y => by funext i; simp [mulVec_add]
      map_smul' := fun c x => by funext i; simp [mulVec_smul] }
  have hker : LinearMap.ker T ≠ ⊥ := by
    apply LinearMap.ker_ne_bot_of_finrank_lt
    simp only [Module.finrank_fin_fun]
    exact lt_of_le_of_lt (min_le_left _ _) (Nat.lt_succ_self _)
  obtain ⟨x, hx, hx0⟩ := (Submodule.ne_bot_iff _).1 hker
  set u := inc x with hu
  set z := R.transpose *ᵥ (W *ᵥ u) with hz
  have hRR : R * R.transpose = 1 := mul_eq_one_comm.1 hR
  have hRz : R *ᵥ z = W *ᵥ u := by rw [hz, mulVec_mulVec, hRR, one_mulVec]
  have hTz : ∀ i : Fin m, i.1 < k → z i = 0 := by
    intro i hi
    have := congrFun (LinearMap.mem_ker.1 hx) ⟨i.1, lt_min hi i.2⟩
    exact this
  have hsum : ∑ i, z i ^ 2 = ∑ i, u i ^ 2 := by rw [← hnorm, ← hnormR, hRz]
  have hpos : 0 < ∑ i, u i ^ 2 := by
    obtain ⟨j, hj⟩ := Function.ne_iff.1 hx0
    refine Finset.sum_pos' (fun i _ => sq_nonneg _) ⟨⟨j.1, by omega⟩, Finset.mem_univ _, ?_⟩
    have : u ⟨j.1, by omega⟩ = x j := dif_pos j.2
    rw [this]
    exact sq_pos_of_ne_zero hj
  have hkm : k < m := by
    by_contra hkm
    have : ∑ i, z i ^ 2 = 0 := Finset.sum_eq_zero fun i _ => by rw [hTz i (by omega)]; ring
    rw [hsum] at this
    exact hpos.ne' this
  refine ⟨hkm, ?_⟩
  have h1 := quad_diag hWB u
  have h2 := quad_diag hRB z
  rw [hRz, h1] at h2
  have h3 : ∑ i : Fin n, α i * u i ^ 2 ≤ α k * ∑ i, u i ^ 2 := by
    rw [Finset.mul_sum]
    refine Finset.sum_le_sum fun i _ => ?_
    by_cases hi : i.1 < k + 1
    · exact mul_le_mul_of_nonneg_right (hα _ _ (by omega) hk) (sq_nonneg _)
    · have : u i = 0 := dif_neg hi
      rw [this]; simp
  have h4 : β k * ∑ i, z i ^ 2 ≤ ∑ i : Fin m, β i * z i ^ 2 := by
    rw [Finset.mul_sum]
    refine Finset.sum_le_sum fun i _ => ?_
    by_cases hi : i.1 < k
    · rw [hTz i hi]; simp
    · exact mul_le_mul_of_nonneg_right (hβ _ _ (by omega) i.2) (sq_nonneg _)
  rw [hsum] at h4
  exact le_of_mul_le_mul_right (by linarith) hpos

/-- The eigenvalues of a principal submatrix, in ascending order, are at least those of the whole matrix. -/
theorem submatrix_le {m n : ℕ} {A Q : Matrix (Fin n) (Fin n) ℝ} {B R : Matrix (Fin m) (Fin m) ℝ} {α β : ℕ → ℝ}
    (ι : Fin n → Fin m) (hι : Function.Injective ι) (hA : A = B.submatrix ι ι)
    (hQ : Q.transpose * Q = 1) (hQA : Q.transpose * A * Q = diagonal fun i : Fin n => α i)
    (hR : R.transpose * R = 1) (hRB : R.transpose * B * R = diagonal fun i : Fin m => β i)
    (hα : ∀ i j, i ≤ j → j < n → α i ≤ α j) (hβ : ∀ i j, i ≤ j → j < m → β i ≤ β j) {k : ℕ} (hk : k < n) :
    k < m ∧ β k ≤ α k := by
  let E : Matrix (Fin m) (Fin n) ℝ := Matrix.of fun j i => if j = ι i then 1 else 0
  have hE : E.transpose * E = 1 := by
    ext i j
    simp only [mul_apply, transpose_apply, E, of_apply, one_apply, ite_mul, one_mul, zero_mul, Finset.sum_ite_eq',
      Finset.mem_univ, if_true]
    simp only [hι.eq_iff]
  have hEB : E.transpose * B * E = A := by
    ext i j
    simp only [hA, submatrix_apply, mul_apply, transpose_apply, E, of_apply, ite_mul, one_mul, zero_mul, mul_ite, mul_one,
      mul_zero, Finset.sum_ite_eq', Finset.mem_univ, if_true]
  refine compression_le (W := E * Q) (B := B) ?_ ?_ hR hRB hα hβ hk
  · rw [transpose_mul, Matrix.mul_assoc, ← Matrix.mul_assoc _ E, hE, Matrix.one_mul, hQ]
  · rw [transpose_mul, show Q.transpose * E.transpose * B * (E * Q) = Q.transpose * (E.transpose * B * E) * Q by
      simp only [Matrix.mul_assoc], hEB, hQA]

end Acm
