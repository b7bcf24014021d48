import Verif.Props.GroundLimit

/-!
# All energies of the oscillator converge to the exact ones (C134)
-/

namespace Acm.Props

open Acm Acm.Spec Matrix

/-- The numbers `v 0 ≤ v 1 ≤ ...` are the eigenvalues of the symmetric matrix. -/
def Diag {n : ℕ} (A : Matrix (Fin n) (Fin n) ℝ) (v : ℕ → ℝ) : Prop :=
  ∃ P : Matrix (Fin n) (Fin n) ℝ, P.transpose * P = 1 ∧ P.transpose * A * P = Matrix.diagonal (fun i : Fin n => v i) ∧
    ∀ i j, i ≤ j → j < n → v i ≤ v j

theorem diag_exists {la : LinAlg} (hla : LinAlgOk la) {n : ℕ} {A : Matrix (Fin n) (Fin n) ℝ} (hA : A.transpose = A) :
    ∃ v, Diag A v := by
  let B : Arr := ⟨n, n, fun i j => if h : i < n ∧ j < n then A ⟨i, h.1⟩ ⟨j, h.2⟩ else 0⟩
  have hB : mat n B = A := by
    ext i j
    simp [mat, B]
  obtain ⟨w, P, _, _, _, g2, g3, g4⟩ := C70_eigen la hla n B rfl rfl
  rw [hB, hA, ← two_smul ℝ A, smul_smul] at g3
  norm_num at g3
  exact ⟨w, _, g2, g3, g4⟩

theorem norm_orth {n : ℕ} {R : Matrix (Fin n) (Fin n) ℝ} (hR : R.transpose * R = 1) (x : Fin n → ℝ) :
    (R *ᵥ x) ⬝ᵥ (R *ᵥ x) = ∑ i, x i ^ 2 := by
  have := quad_diag (A := 1) (Q := R) (α := 1) (by rw [Matrix.mul_one, hR]; exact diagonal_one.symm) x
  rw [one_mulVec] at this
  rw [this]
  simp

theorem gram_norm {n : ℕ} (A : Matrix (Fin n) (Fin n) ℝ) (x : Fin n → ℝ) : x ⬝ᵥ ((A.transpose * A) *ᵥ x) = (A *ᵥ x) ⬝ᵥ (A *ᵥ x) := by
  rw [← mulVec_mulVec, dotProduct_mulVec x, vecMul_transpose]

/-- Two products of a matrix with its transpose, when the other order is changed in one place. -/
theorem susy_step {n : ℕ} {A C : Matrix (Fin n) (Fin n) ℝ} {μ γ : ℕ → ℝ} (hG : Diag (A.transpose * A) μ) (hC : Diag C γ)
    (hμ : ∀ i < n, 0 < μ i) (p : Fin n) (hp : ∀ y : Fin n → ℝ, y p = 0 → y ⬝ᵥ (C *ᵥ y) = (A.transpose *ᵥ y) ⬝ᵥ (A.transpose *ᵥ y))
    {k : ℕ} (hk : k + 1 < n) : γ k ≤ μ (k + 1) := by
  obtain ⟨R, hR, hRG, hmu⟩ := hG
  obtain ⟨W, hW, hWC, hga⟩ := hC
  let inc : (Fin (k + 2) → ℝ) →ₗ[ℝ] (Fin n → ℝ) :=
    { toFun := fun x i => if h : i.1 < k + 2 then x ⟨i.1, h⟩ else 0
      map_add' := fun x y => by funext i; simp only [Pi.add_apply]; split_ifs <;> simp
      map_smul' := fun c x => by funext i; simp only [Pi.smul_apply, smul_eq_mul, RingHom.id_apply]; split_ifs <;> simp }
  let T : (Fin (k + 2) → ℝ) →ₗ[ℝ] (Fin (k + 1) → ℝ) :=
    { toFun := fun x i => if i.1 < k then (W.transpose *ᵥ (A *ᵥ (R *ᵥ inc x))) ⟨i.1, by omega⟩ else (A *ᵥ (R *ᵥ inc x)) p
      map_add' := fun x y => by funext i; simp only [map_add, mulVec_add, Pi.add_apply]; split_ifs <;> rfl
      map_smul' := fun c x => by funext i; simp only [map_smul, mulVec_smul, Pi.smul_apply, RingHom.id_apply]; split_ifs <;> rfl }
  have hker : LinearMap.ker T ≠ ⊥ := by
    apply LinearMap.ker_ne_bot_of_finrank_lt
    simp only [Module.finrank_fin_fun]
    exact Nat.lt_succ_self _
  obtain ⟨x, hx, hx0⟩ := (Submodule.ne_bot_iff _).1 hker
  set u := inc x with hu
  set y := A *ᵥ (R *ᵥ u) with hy
  set z := W.transpose *ᵥ y with hz
  have hWz : W *ᵥ z = y := by rw [hz, mulVec_mulVec, mul_eq_one_comm.1 hW, one_mulVec]
  have hyp : y p = 0 := by
    have := congrFun (LinearMap.mem_ker.1 hx) ⟨k, Nat.lt_succ_self k⟩
    exact (if_neg (lt_irrefl k)).symm.trans this
  have hTz : ∀ i : Fin n, i.1 < k → z i = 0 := by
    intro i hi
    have := congrFun (LinearMap.mem_ker.1 hx) ⟨i.1, by omega⟩
    exact (if_pos hi).symm.trans this
  have q1 : y ⬝ᵥ (C *ᵥ y) = ∑ i : Fin n, γ i * z i ^ 2 := by rw [← hWz]; exact quad_diag hWC z
  have q2 : y ⬝ᵥ y = ∑ i, z i ^ 2 := by rw [← hWz]; exact norm_orth hW z
  have q3 : y ⬝ᵥ y = ∑ i : Fin n, μ i * u i ^ 2 := by rw [hy, ← gram_norm]; exact quad_diag hRG u
  have hGR : A.transpose * A * R = R * Matrix.diagonal (fun i : Fin n => μ i) := by
    rw [← hRG, ← Matrix.mul_assoc, ← Matrix.mul_assoc, mul_eq_one_comm.1 hR, Matrix.one_mul]
  have q4 : (A.transpose *ᵥ y) ⬝ᵥ (A.transpose *ᵥ y) = ∑ i : Fin n, (μ i * u i) ^ 2 := by
    have : A.transpose *ᵥ y = R *ᵥ fun i => μ i * u i := by
      rw [hy, mulVec_mulVec, mulVec_mulVec, hGR, ← mulVec_mulVec]
      congr 1
      funext i
      rw [mulVec_diagonal]
    rw [this]
    exact norm_orth hR _
  have h1 : γ k * ∑ i, z i ^ 2 ≤ ∑ i : Fin n, γ i * z i ^ 2 := by
    rw [Finset.mul_sum]
    refine Finset.sum_le_sum fun i _ => ?_
    by_cases hi : i.1 < k
    · rw [hTz i hi]; simp
    · exact mul_le_mul_of_nonneg_right (hga _ _ (by omega) i.2) (sq_nonneg _)
  have h2 : ∑ i : Fin n, (μ i * u i) ^ 2 ≤ μ (k + 1) * ∑ i : Fin n, μ i * u i ^ 2 := by
    rw [Finset.mul_sum]
    refine Finset.sum_le_sum fun i _ => ?_
    by_cases hi : i.1 < k + 2
    · have := hmu i.1 (k + 1) (by omega) hk
      have h5 : 0 ≤ μ i * u i ^ 2 := mul_nonneg (hμ i i.2).le (sq_nonneg _)
      have := mul_le_mul_of_nonneg_right this h5
      nlinarith
    · have : u i = 0 := dif_neg hi
      rw [this]; simp
  have hpos : 0 < ∑ i : Fin n, μ i * u i ^ 2 := by
    obtain ⟨j, hj⟩ := Function.ne_iff.1 hx0
    refine Finset.sum_pos' (fun i _ => mul_nonneg (hμ i i.2).le (sq_nonneg _)) ⟨⟨j.1, by omega⟩, Finset.mem_univ _, ?_⟩
    have : u ⟨j.1, by omega⟩ = x j := dif_pos j.2
    rw [this]
    exact mul_pos (hμ j.1 (by omega)) (sq_pos_of_ne_zero hj)
  rw [← q1, hp y hyp, q4, ← q2, q3] at h1
  exact le_of_mul_le_mul_right (h1.trans h2) hpos

/-- The factor of the radial Hamiltonian. -/
noncomputable def oscA (lam P Q : ℝ) (k i : ℕ) : ℝ :=
  if k = i then (Q - P) * √(lam + i) else if i = k + 1 then (Q + P) * √(k + 1) else 0

theorem oscA_diag (lam P Q : ℝ) (i : ℕ) : oscA lam P Q i i = (Q - P) * √(lam + i) := if_pos rfl

theorem oscA_next (lam P Q : ℝ) (k : ℕ) : oscA lam P Q k (k + 1) = (Q + P) * √(k + 1) := by
  rw [oscA, if_neg (by omega), if_pos rfl]

theorem oscA_zero (lam P Q : ℝ) {k i : ℕ} (h1 : k ≠ i) (h2 : i ≠ k + 1) : oscA lam P Q k i = 0 := by
  rw [oscA, if_neg h1, if_neg h2]

theorem oscA_col (lam P Q : ℝ) (g : ℕ → ℝ) {n i : ℕ} (hi : i < n) : ∑ k ∈ Finset.range n, oscA lam P Q k i * g k =
    (Q - P) * √(lam + i) * g i + if i = 0 then 0 else (Q + P) * √i * g (i - 1) := by
  by_cases h : i = 0
  · subst h
    rw [Finset.sum_eq_single 0 (fun k _ hk => by rw [oscA_zero _ _ _ hk (by omega), zero_mul]) (fun hh => absurd (Finset.mem_range.2 hi) hh),
      oscA_diag, if_pos rfl, add_zero]
  · obtain ⟨m, rfl⟩ := Nat.exists_eq_succ_of_ne_zero h
    rw [← Finset.sum_subset (s₁ := {m + 1, m}) (by
        intro k hk
        simp only [Finset.mem_insert, Finset.mem_singleton] at hk
        exact Finset.mem_range.2 (by omega))
      (fun k _ hk => by
        simp only [Finset.mem_insert, Finset.mem_singleton, not_or] at hk
        rw [oscA_zero _ _ _ hk.1 (fun e => hk.2 (by omega)), zero_mul]),
      Finset.sum_pair (by omega), oscA_diag, oscA_next, if_neg h]
    simp

theorem oscA_row (lam P Q : ℝ) (g : ℕ → ℝ) {n k : ℕ} (hk : k < n) : ∑ i ∈ Finset.range n, oscA lam P Q k i * g i =
    (Q - P) * √(lam + k) * g k + if k + 1 < n then (Q + P) * √(k + 1) * g (k + 1) else 0 := by
  by_cases h : k + 1 < n
  · rw [← Finset.sum_subset (s₁ := {k, k + 1}) (by
        intro i hi
        simp only [Finset.mem_insert, Finset.mem_singleton] at hi
        exact Finset.mem_range.2 (by omega))
      (fun i _ hi => by
        simp only [Finset.mem_insert, Finset.mem_singleton, not_or] at hi
        rw [oscA_zero _ _ _ (fun e => hi.1 e.symm) hi.2, zero_mul]),
      Finset.sum_pair (by omega), oscA_diag, oscA_next, if_pos h]
  · rw [Finset.sum_eq_single k (fun i hi hne => by rw [oscA_zero _ _ _ (Ne.symm hne) (by have := Finset.mem_range.1 hi; omega), zero_mul])
      (fun hh => absurd (Finset.mem_range.2 hk) hh), oscA_diag, if_neg h, add_zero]

theorem osc_cases {F : ℕ → ℕ → Prop} (hs : ∀ i j, F i j → F j i) (h1 : ∀ i, F i i) (h2 : ∀ i, F i (i + 1)) (h3 : ∀ i j, i + 1 < j → F i j)
    (i j : ℕ) : F i j := by
  have key : ∀ i j, i ≤ j → F i j := fun i j hij => by
    by_cases e : i = j
    · subst e; exact h1 i
    · by_cases e2 : j = i + 1
      · subst e2; exact h2 i
      · exact h3 i j (by omega)
  rcases le_total i j with h | h
  · exact key i j h
  · exact hs _ _ (key j i h)

theorem osc_gram {lam : ℝ} (h : 0 < lam) (P Q : ℝ) (n : ℕ) : ∀ i j, i < n → j < n →
    ∑ k ∈ Finset.range n, oscA lam P Q k i * oscA lam P Q k j = oscMat lam P Q i j - 2 * P * Q * lam * if i = j then 1 else 0 := by
  refine osc_cases (fun i j hij h1 h2 => ?_) (fun i h1 _ => ?_) (fun i h1 h2 => ?_) (fun i j hij h1 h2 => ?_)
  · have e1 : (if j = i then (1 : ℝ) else 0) = if i = j then 1 else 0 := if_congr eq_comm rfl rfl
    rw [oscMat_symm, e1, ← hij h2 h1]
    exact Finset.sum_congr rfl fun k _ => by ring
  · rw [oscA_col _ _ _ _ h1, oscA_diag, oscMat_diag, if_pos rfl]
    have e1 : √(lam + i) ^ 2 = lam + i := Real.sq_sqrt (by positivity)
    by_cases h0 : i = 0
    · subst h0
      rw [if_pos rfl]
      linear_combination (Q - P) ^ 2 * e1
    · obtain ⟨m, rfl⟩ := Nat.exists_eq_succ_of_ne_zero h0
      have e2 : √((m + 1 : ℕ) : ℝ) ^ 2 = ((m + 1 : ℕ) : ℝ) := Real.sq_sqrt (by positivity)
      rw [if_neg h0, Nat.succ_sub_one, oscA_next]
      push_cast at e1 e2 ⊢
      linear_combination (Q - P) ^ 2 * e1 + (Q + P) ^ 2 * e2
  · rw [oscA_col _ _ _ _ h1, oscA_next, oscMat_next, if_neg (show ¬ i = i + 1 by omega), Real.sqrt_mul (by positivity)]
    have : (if i = 0 then 0 else (Q + P) * √i * oscA lam P Q (i - 1) (i + 1)) = 0 := by
      split_ifs with h0
      · rfl
      · rw [oscA_zero _ _ _ (by omega) (by omega), mul_zero]
    rw [this]
    ring
  · rw [oscA_col _ _ _ _ h1, oscMat_far _ _ _ hij, if_neg (show ¬ i = j by omega), oscA_zero _ _ _ (by omega) (by omega)]
    have : (if i = 0 then 0 else (Q + P) * √i * oscA lam P Q (i - 1) j) = 0 := by
      split_ifs with h0
      · rfl
      · rw [oscA_zero _ _ _ (by omega) (by omega), mul_zero]
    rw [this]
    ring

theorem osc_gram' {lam : ℝ} (h : 0 < lam) (P Q : ℝ) (n : ℕ) : ∀ i j, i < n → j < n →
    ∑ k ∈ Finset.range n, oscA lam P Q i k * oscA lam P Q j k = oscMat (lam + 1) P Q i j + 2 * P * Q * (1 - lam) * (if i = j then 1 else 0)
      - if i = j ∧ i + 1 = n then (Q + P) ^ 2 * n else 0 := by
  refine osc_cases (fun i j hij h1 h2 => ?_) (fun i h1 _ => ?_) (fun i h1 h2 => ?_) (fun i j hij h1 h2 => ?_)
  · have e1 : (if j = i then (1 : ℝ) else 0) = if i = j then 1 else 0 := if_congr eq_comm rfl rfl
    have e2 : (if j = i ∧ j + 1 = n then (Q + P) ^ 2 * (n : ℝ) else 0) = if i = j ∧ i + 1 = n then (Q + P) ^ 2 * (n : ℝ) else 0 :=
      if_congr ⟨fun ⟨a, b⟩ => ⟨a.symm, a ▸ b⟩, fun ⟨a, b⟩ => ⟨a.symm, a ▸ b⟩⟩ rfl rfl
    rw [oscMat_symm, e1, e2, ← hij h2 h1]
    exact Finset.sum_congr rfl fun k _ => by ring
  · rw [oscA_row _ _ _ _ h1, oscA_diag, oscA_next, oscMat_diag, if_pos rfl]
    have e1 : √(lam + i) ^ 2 = lam + i := Real.sq_sqrt (by positivity)
    have e2 : √((i : ℝ) + 1) ^ 2 = (i : ℝ) + 1 := Real.sq_sqrt (by positivity)
    by_cases hn : i + 1 < n
    · rw [if_pos hn, if_neg (by omega)]
      linear_combination (Q - P) ^ 2 * e1 + (Q + P) ^ 2 * e2
    · have : n = i + 1 := by omega
      subst this
      rw [if_neg hn, if_pos ⟨rfl, rfl⟩]
      push_cast
      linear_combination (Q - P) ^ 2 * e1
  · rw [oscA_row _ _ _ _ h1, if_pos h2, oscA_diag, oscA_zero _ _ _ (by omega) (by omega), oscMat_next, if_neg (show ¬ i = i + 1 by omega), if_neg (show ¬ (i = i + 1 ∧ i + 1 = n) by omega),
      Real.sqrt_mul (by positivity), show lam + ((i + 1 : ℕ) : ℝ) = lam + 1 + i by push_cast; ring]
    ring
  · rw [oscA_row _ _ _ _ h1, oscMat_far _ _ _ hij, if_neg (show ¬ i = j by omega), oscA_zero _ _ _ (by omega) (by omega), if_neg (show ¬ (i = j ∧ i + 1 = n) by omega),
      oscA_zero _ _ _ (by omega) (by omega)]
    simp

/-- The truncated matrices. -/
noncomputable def oscTrunc (lam P Q : ℝ) (n : ℕ) : Matrix (Fin n) (Fin n) ℝ := Matrix.of fun i j => oscMat lam P Q i j

noncomputable def oscB (lam P Q : ℝ) (n : ℕ) : Matrix (Fin n) (Fin n) ℝ := Matrix.of fun i j => oscA lam P Q i j

theorem oscTrunc_symm (lam P Q : ℝ) (n : ℕ) : (oscTrunc lam P Q n).transpose = oscTrunc lam P Q n := by
  ext i j
  exact oscMat_symm _ _ _ _ _

theorem osc_factor {lam : ℝ} (h : 0 < lam) (P Q : ℝ) (n : ℕ) :
    (oscB lam P Q n).transpose * oscB lam P Q n = oscTrunc lam P Q n + (-(2 * P * Q * lam)) • (1 : Matrix (Fin n) (Fin n) ℝ) := by
  ext i j
  have := osc_gram h P Q n i j i.2 j.2
  rw [Finset.sum_range] at this
  simp only [Matrix.mul_apply, Matrix.transpose_apply, oscB, oscTrunc, Matrix.of_apply, Matrix.add_apply, Matrix.smul_apply, smul_eq_mul,
    Matrix.one_apply, this, Fin.ext_iff]
  ring

theorem osc_factor' {lam : ℝ} (h : 0 < lam) (P Q : ℝ) (n : ℕ) :
    oscTrunc (lam + 1) P Q n + (2 * P * Q * (1 - lam)) • (1 : Matrix (Fin n) (Fin n) ℝ) =
      oscB lam P Q n * (oscB lam P Q n).transpose + Matrix.diagonal fun i : Fin n => if i.1 + 1 = n then (Q + P) ^ 2 * (n : ℝ) else 0 := by
  ext i j
  have := osc_gram' h P Q n i j i.2 j.2
  rw [Finset.sum_range] at this
  simp only [Matrix.mul_apply, Matrix.transpose_apply, oscB, oscTrunc, Matrix.of_apply, Matrix.add_apply, Matrix.smul_apply, smul_eq_mul,
    Matrix.one_apply, this, Fin.ext_iff, Matrix.diagonal_apply]
  by_cases h1 : i.1 = j.1 <;> by_cases h2 : i.1 + 1 = n <;> simp [h1, h2]

theorem Diag.shift {n : ℕ} {A : Matrix (Fin n) (Fin n) ℝ} {v : ℕ → ℝ} (h : Diag A v) (c : ℝ) :
    Diag (A + c • (1 : Matrix (Fin n) (Fin n) ℝ)) fun i => v i + c := by
  obtain ⟨P, h1, h2, h3⟩ := h
  refine ⟨P, h1, ?_, fun i j hij hj => by have := h3 i j hij hj; simpa using this⟩
  rw [Matrix.mul_add, Matrix.add_mul, h2, Matrix.mul_smul, Matrix.smul_mul, Matrix.mul_one, h1]
  ext i j
  by_cases e : i = j
  · subst e; simp
  · simp [e]

theorem oscB_inj {lam P Q : ℝ} (h : 0 < lam) (hPQ : P ≠ Q) (n : ℕ) {x : Fin n → ℝ} (hx : oscB lam P Q n *ᵥ x = 0) : x = 0 := by
  refine Matrix.eq_zero_of_mulVec_eq_zero ?_ hx
  rw [Matrix.det_of_isUpperTriangular]
  · refine Finset.prod_ne_zero_iff.2 fun i _ => ?_
    rw [oscB, Matrix.of_apply, oscA_diag]
    have : 0 < √(lam + (i : ℕ)) := Real.sqrt_pos.2 (by positivity)
    exact mul_ne_zero (sub_ne_zero.2 hPQ.symm) this.ne'
  · intro i j hij
    have hij : j.1 < i.1 := hij
    exact oscA_zero _ _ _ (by omega) (by omega)

theorem gram_pos {n : ℕ} {A : Matrix (Fin n) (Fin n) ℝ} {μ : ℕ → ℝ} (h : Diag (A.transpose * A) μ) {i : ℕ} (hi : i < n) :
    0 ≤ μ i ∧ ((∀ x, A *ᵥ x = 0 → x = 0) → 0 < μ i) := by
  obtain ⟨R, h1, h2, _⟩ := h
  have q := quad_diag h2 (Pi.single ⟨i, hi⟩ 1)
  have e1 : ∑ j : Fin n, μ j * (Pi.single (⟨i, hi⟩ : Fin n) (1 : ℝ) : Fin n → ℝ) j ^ 2 = μ i := by
    rw [Finset.sum_eq_single ⟨i, hi⟩]
    · simp
    · intro j _ hj
      rw [Pi.single_eq_of_ne hj]
      ring
    · simp
  rw [e1, gram_norm] at q
  have hnn : 0 ≤ (A *ᵥ (R *ᵥ Pi.single ⟨i, hi⟩ 1)) ⬝ᵥ (A *ᵥ (R *ᵥ Pi.single ⟨i, hi⟩ 1)) := Finset.sum_nonneg fun j _ => mul_self_nonneg _
  refine ⟨q ▸ hnn, fun hA => lt_of_le_of_ne (q ▸ hnn) fun h0 => ?_⟩
  rw [← h0, dotProduct_self_eq_zero] at q
  have q2 := congrArg (fun y => R.transpose *ᵥ y) (hA _ q)
  simp only [mulVec_mulVec, h1, one_mulVec, mulVec_zero] at q2
  have := congrFun q2 ⟨i, hi⟩
  simp at this

/-- No level of the truncated oscillator is below the exact one. -/
theorem osc_lower {la : LinAlg} (hla : LinAlgOk la) {P Q : ℝ} : ∀ (k : ℕ) {lam : ℝ} (_ : 0 < lam) {n : ℕ} {v : ℕ → ℝ}
    (_ : Diag (oscTrunc lam P Q n) v) (_ : k < n), 2 * P * Q * (lam + 2 * k) ≤ v k := by
  intro k
  induction k with
  | zero =>
    intro lam h n v hv hk
    have := hv.shift (-(2 * P * Q * lam))
    rw [← osc_factor h] at this
    have := (gram_pos this hk).1
    push_cast
    linarith
  | succ k ih =>
    intro lam h n v hv hk
    by_cases hPQ : P = Q
    · subst hPQ
      obtain ⟨R, h1, h2, h3⟩ := hv
      have hd : oscTrunc lam P P n = Matrix.diagonal fun i : Fin n => 2 * P * P * (lam + 2 * (i : ℕ)) := by
        ext i j
        rw [Matrix.diagonal_apply]
        by_cases e : i = j
        · subst e
          rw [if_pos rfl, oscTrunc, Matrix.of_apply, oscMat_diag]
          ring
        · rw [if_neg e, oscTrunc, Matrix.of_apply, oscMat, vS0, if_neg fun e' => e (Fin.ext e')]
          ring
      exact (compression_le (R := 1) (β := fun i => 2 * P * P * (lam + 2 * (i : ℝ))) h1 h2 (by simp) (by rw [hd]; simp) h3
        (fun i j hij _ => by
          have : (i : ℝ) ≤ j := by exact_mod_cast hij
          nlinarith [mul_self_nonneg P]) hk).2
    · have hG := hv.shift (-(2 * P * Q * lam))
      rw [← osc_factor h] at hG
      obtain ⟨γ, hγ⟩ := diag_exists hla (oscTrunc_symm (lam + 1) P Q n)
      have hC := hγ.shift (2 * P * Q * (1 - lam))
      have step := susy_step hG hC (fun i hi => (gram_pos hG hi).2 fun x hx => oscB_inj h hPQ n hx) ⟨n - 1, by omega⟩ (fun y hy => by
        rw [osc_factor' h, Matrix.add_mulVec, dotProduct_add]
        have e1 : y ⬝ᵥ (Matrix.diagonal (fun i : Fin n => if i.1 + 1 = n then (Q + P) ^ 2 * (n : ℝ) else 0) *ᵥ y) = 0 := by
          refine Finset.sum_eq_zero fun i _ => ?_
          rw [mulVec_diagonal]
          by_cases hi : i.1 + 1 = n
          · have : i = ⟨n - 1, by omega⟩ := Fin.ext (by show i.1 = n - 1; omega)
            rw [this, hy]
            ring
          · rw [if_neg hi]
            ring
        rw [e1, add_zero]
        have := gram_norm (oscB lam P Q n).transpose y
        rwa [Matrix.transpose_transpose] at this) hk
      have := ih (lam := lam + 1) (by linarith) hγ (by omega)
      push_cast
      linarith

/-- The factor on sequences, and its transpose. -/
noncomputable def sA (lam P Q : ℝ) (χ : ℕ → ℝ) (i : ℕ) : ℝ := (Q - P) * √(lam + i) * χ i + (Q + P) * √(i + 1) * χ (i + 1)

noncomputable def sAd (lam P Q : ℝ) (χ : ℕ → ℝ) (i : ℕ) : ℝ :=
  (Q - P) * √(lam + i) * χ i + if i = 0 then 0 else (Q + P) * √i * χ (i - 1)

theorem sAd_zero (lam P Q : ℝ) (χ : ℕ → ℝ) : sAd lam P Q χ 0 = (Q - P) * √lam * χ 0 := by simp [sAd]

theorem sAd_succ (lam P Q : ℝ) (χ : ℕ → ℝ) (i : ℕ) :
    sAd lam P Q χ (i + 1) = (Q - P) * √(lam + 1 + i) * χ (i + 1) + (Q + P) * √(i + 1) * χ i := by
  rw [sAd, if_neg (Nat.succ_ne_zero i), Nat.add_sub_cancel]
  push_cast
  rw [show lam + ((i : ℝ) + 1) = lam + 1 + i by ring]

theorem susy_seq {lam : ℝ} (h : 0 < lam) (P Q : ℝ) (χ : ℕ → ℝ) (i : ℕ) :
    sA lam P Q (sAd lam P Q χ) i = sAd (lam + 1) P Q (sA (lam + 1) P Q χ) i + 4 * P * Q * χ i := by
  have e0 : ∀ i : ℕ, √((i : ℝ) + 1) ^ 2 = (i : ℝ) + 1 := fun i => Real.sq_sqrt (by positivity)
  have e1 : ∀ i : ℕ, √(lam + i) ^ 2 = lam + i := fun i => Real.sq_sqrt (by positivity)
  have e2 : ∀ i : ℕ, √(lam + 1 + i) ^ 2 = lam + 1 + i := fun i => Real.sq_sqrt (by positivity)
  cases i with
  | zero =>
    have f1 := e1 0
    have f2 := e2 0
    have f0 := e0 0
    rw [sA, sAd_succ, sAd_zero, sAd_zero, sA]
    push_cast at f0 f1 f2 ⊢
    simp only [add_zero] at f1 f2 ⊢
    linear_combination (Q - P) ^ 2 * χ 0 * f1 - (Q - P) ^ 2 * χ 0 * f2 + (Q + P) ^ 2 * χ 0 * f0
  | succ i =>
    have f0 := e0 i
    have f0' := e0 (i + 1)
    have f2 := e2 i
    have f2' := e2 (i + 1)
    rw [sA, sAd_succ, sAd_succ, sAd_succ, sA, sA]
    push_cast at f0 f0' f2 f2' ⊢
    rw [show lam + ((i : ℝ) + 1) = lam + 1 + i by ring, show lam + 1 + 1 + (i : ℝ) = lam + 1 + (i + 1) by ring]
    linear_combination (Q - P) ^ 2 * χ (i + 1) * f2 + (Q + P) ^ 2 * χ (i + 1) * f0' - (Q - P) ^ 2 * χ (i + 1) * f2' - (Q + P) ^ 2 * χ (i + 1) * f0

/-- The expansions of the exact states. -/
noncomputable def psi (P Q : ℝ) : ℕ → ℝ → ℕ → ℝ
  | 0, lam => gw lam ((P - Q) / (P + Q))
  | k + 1, lam => sAd lam P Q (psi P Q k (lam + 1))

theorem psi_eigen {P Q : ℝ} (hP : 0 < P) (hQ : 0 < Q) : ∀ (k : ℕ) {lam : ℝ} (_ : 0 < lam) (i : ℕ),
    sAd lam P Q (sA lam P Q (psi P Q k lam)) i = 4 * P * Q * k * psi P Q k lam i := by
  intro k
  induction k with
  | zero =>
    intro lam h i
    have h0 : sA lam P Q (psi P Q 0 lam) = fun _ => 0 := by
      funext i
      show (Q - P) * √(lam + i) * gw lam _ i + (Q + P) * √(i + 1) * gw lam _ (i + 1) = 0
      have hPQ : P + Q ≠ 0 := by positivity
      have h1 : √((i : ℝ) + 1) * √((lam + i) / (i + 1)) = √(lam + i) := by
        rw [← Real.sqrt_mul (by positivity)]
        congr 1
        field_simp
      have h2 : (P - Q) / (P + Q) * (Q + P) = P - Q := by rw [add_comm Q P]; exact div_mul_cancel₀ _ hPQ
      rw [gw]
      linear_combination gw lam ((P - Q) / (P + Q)) i * √((i : ℝ) + 1) * √((lam + i) / (i + 1)) * h2 + gw lam ((P - Q) / (P + Q)) i * (P - Q) * h1
    rw [h0]
    simp [sAd]
  | succ k ih =>
    intro lam h i
    have h1 : sA lam P Q (psi P Q (k + 1) lam) = fun i => 4 * P * Q * (k + 1) * psi P Q k (lam + 1) i := by
      funext i
      show sA lam P Q (sAd lam P Q (psi P Q k (lam + 1))) i = _
      rw [susy_seq h, ih (by linarith)]
      ring
    rw [h1]
    show _ = 4 * P * Q * ((k + 1 : ℕ) : ℝ) * sAd lam P Q (psi P Q k (lam + 1)) i
    unfold sAd
    push_cast
    split_ifs <;> ring

theorem psi_ne {P Q : ℝ} (hP : 0 < P) (hQ : 0 < Q) : ∀ (k : ℕ) {lam : ℝ} (_ : 0 < lam), ∃ i, psi P Q k lam i ≠ 0 := by
  intro k
  induction k with
  | zero => exact fun _ => ⟨0, one_ne_zero⟩
  | succ k ih =>
    intro lam h
    by_contra hcon
    push Not at hcon
    obtain ⟨i, hi⟩ := ih (lam := lam + 1) (by linarith)
    have h1 := susy_seq h P Q (psi P Q k (lam + 1)) i
    rw [psi_eigen hP hQ k (by linarith), show sAd lam P Q (psi P Q k (lam + 1)) = fun _ => 0 from funext hcon] at h1
    have h2 : 4 * P * Q * ((k : ℝ) + 1) * psi P Q k (lam + 1) i = 0 := by
      simp only [sA, mul_zero, add_zero] at h1
      linarith
    exact hi ((mul_eq_zero.1 h2).resolve_left (by positivity))

/-- Exponential decay. -/
def Dec (ρ : ℝ) (χ : ℕ → ℝ) : Prop := ∃ (C : ℝ) (m : ℕ), 0 ≤ C ∧ ∀ n : ℕ, |χ n| ≤ C * (n + 1) ^ m * ρ ^ n

theorem gw_scale (lam t ρ : ℝ) (n : ℕ) : gw lam (t * ρ) n = ρ ^ n * gw lam t n := by
  induction n with
  | zero => simp [gw]
  | succ n ih => rw [gw, gw, ih]; ring

theorem gw_dec {lam t ρ : ℝ} (h : 0 < lam) (hρ : 0 < ρ) (ht : |t| < ρ) : Dec ρ (gw lam t) := by
  have hs : (t / ρ) ^ 2 < 1 := by
    rw [div_pow, div_lt_one (by positivity)]
    exact sq_lt_sq' (by linarith [(abs_lt.1 ht).1]) (abs_lt.1 ht).2
  obtain ⟨B, hB⟩ := (gw_tail h hs).bddAbove_range
  refine ⟨√(B / lam), 0, Real.sqrt_nonneg _, fun n => ?_⟩
  have h1 : (lam + n) * gw lam (t / ρ) n ^ 2 ≤ B := hB ⟨n, rfl⟩
  have h2 : gw lam (t / ρ) n ^ 2 ≤ B / lam := by
    rw [le_div_iff₀ h]
    have : 0 ≤ (n : ℝ) * gw lam (t / ρ) n ^ 2 := by positivity
    nlinarith
  have h3 := gw_scale lam (t / ρ) ρ n
  rw [div_mul_cancel₀ _ hρ.ne'] at h3
  rw [h3, abs_mul, abs_of_nonneg (by positivity : 0 ≤ ρ ^ n), pow_zero, mul_one, mul_comm]
  exact mul_le_mul_of_nonneg_right (Real.abs_le_sqrt h2) (by positivity)

theorem sAd_dec {lam P Q ρ : ℝ} (h : 0 < lam) (hρ : 0 < ρ) {χ : ℕ → ℝ} (hχ : Dec ρ χ) : Dec ρ (sAd lam P Q χ) := by
  obtain ⟨C, m, hC, hd⟩ := hχ
  refine ⟨|Q - P| * (lam + 1) * C + |Q + P| * (C / ρ), m + 1, by positivity, fun n => ?_⟩
  have s1 : √(lam + n) ≤ (lam + 1) * (n + 1) := by
    rw [Real.sqrt_le_left (by positivity)]
    have : (0 : ℝ) ≤ n := by positivity
    nlinarith [mul_nonneg h.le this, mul_nonneg (mul_nonneg h.le h.le) this, sq_nonneg lam, mul_nonneg (mul_nonneg h.le this) this, mul_nonneg this this, mul_nonneg (mul_nonneg (mul_nonneg h.le h.le) this) this]
  have t1 : |(Q - P) * √(lam + n) * χ n| ≤ |Q - P| * (lam + 1) * C * (n + 1) ^ (m + 1) * ρ ^ n := by
    rw [abs_mul, abs_mul, abs_of_nonneg (Real.sqrt_nonneg _)]
    calc |Q - P| * √(lam + n) * |χ n| ≤ |Q - P| * ((lam + 1) * (n + 1)) * (C * (n + 1) ^ m * ρ ^ n) := by
          apply mul_le_mul (mul_le_mul_of_nonneg_left s1 (abs_nonneg _)) (hd n) (abs_nonneg _) (by positivity)
      _ = _ := by ring
  have t2 : |if n = 0 then 0 else (Q + P) * √n * χ (n - 1)| ≤ |Q + P| * (C / ρ) * (n + 1) ^ (m + 1) * ρ ^ n := by
    split_ifs with h0
    · rw [abs_zero]; positivity
    · obtain ⟨i, rfl⟩ := Nat.exists_eq_succ_of_ne_zero h0
      rw [Nat.succ_sub_one, abs_mul, abs_mul, abs_of_nonneg (Real.sqrt_nonneg _)]
      have s2 : √((i + 1 : ℕ) : ℝ) ≤ (i + 1 : ℕ) + 1 := by
        rw [Real.sqrt_le_left (by positivity)]
        nlinarith [(by positivity : (0 : ℝ) ≤ ((i + 1 : ℕ) : ℝ))]
      have s3 : ((i : ℝ) + 1) ^ m ≤ (((i + 1 : ℕ) : ℝ) + 1) ^ m := pow_le_pow_left₀ (by positivity) (by push_cast; linarith) m
      calc |Q + P| * √((i + 1 : ℕ) : ℝ) * |χ i| ≤ |Q + P| * ((i + 1 : ℕ) + 1) * (C * (((i + 1 : ℕ) : ℝ) + 1) ^ m * ρ ^ i) := by
            apply mul_le_mul (mul_le_mul_of_nonneg_left s2 (abs_nonneg _)) ((hd i).trans ?_) (abs_nonneg _) (by positivity)
            exact mul_le_mul_of_nonneg_right (mul_le_mul_of_nonneg_left s3 hC) (by positivity)
        _ = _ := by
            rw [Nat.succ_eq_add_one, pow_succ ρ i]
            field_simp
            ring
  calc |sAd lam P Q χ n| ≤ _ := abs_add_le _ _
    _ ≤ _ := add_le_add t1 t2
    _ = _ := by ring

theorem psi_dec {P Q ρ : ℝ} (hρ : 0 < ρ) (ht : |(P - Q) / (P + Q)| < ρ) : ∀ (k : ℕ) {lam : ℝ} (_ : 0 < lam), Dec ρ (psi P Q k lam) := by
  intro k
  induction k with
  | zero => exact fun h => gw_dec h hρ ht
  | succ k ih => exact fun h => sAd_dec h hρ (ih (by linarith))

theorem dec_tendsto {ρ : ℝ} (hρ : 0 < ρ) (h1 : ρ < 1) {χ : ℕ → ℝ} (h : Dec ρ χ) :
    Filter.Tendsto (fun n : ℕ => ((n : ℝ) + 1) * χ n) Filter.atTop (nhds 0) := by
  obtain ⟨C, m, hC, hd⟩ := h
  have key := ((tendsto_pow_const_mul_const_pow_of_abs_lt_one (m + 1) (r := ρ) (by rw [abs_of_pos hρ]; exact h1)).comp
    (Filter.tendsto_add_atTop_nat 1)).const_mul (C / ρ)
  rw [mul_zero] at key
  refine squeeze_zero_norm (fun n => ?_) key
  rw [Real.norm_eq_abs, abs_mul, abs_of_nonneg (by positivity : (0 : ℝ) ≤ (n : ℝ) + 1)]
  refine (mul_le_mul_of_nonneg_left (hd n) (by positivity)).trans_eq ?_
  simp only [Function.comp]
  push_cast
  rw [pow_succ ρ n]
  field_simp
  ring

/-- The truncated matrix on the truncated sequence. -/
theorem osc_row {lam : ℝ} (h : 0 < lam) (P Q : ℝ) (χ : ℕ → ℝ) {n i : ℕ} (hi : i < n) :
    ∑ j ∈ Finset.range n, oscMat lam P Q i j * χ j = sAd lam P Q (sA lam P Q χ) i + 2 * P * Q * lam * χ i
      - if i + 1 = n then (Q ^ 2 - P ^ 2) * (√(lam + i) * √(i + 1)) * χ n else 0 := by
  have e1 : ∑ j ∈ Finset.range n, oscMat lam P Q i j * χ j =
      ∑ k ∈ Finset.range n, oscA lam P Q k i * (∑ j ∈ Finset.range n, oscA lam P Q k j * χ j) + 2 * P * Q * lam * χ i := by
    have e2 : ∑ j ∈ Finset.range n, oscMat lam P Q i j * χ j =
        ∑ j ∈ Finset.range n, ((∑ k ∈ Finset.range n, oscA lam P Q k i * oscA lam P Q k j) * χ j + 2 * P * Q * lam * if i = j then χ j else 0) :=
      Finset.sum_congr rfl fun j hj => by
        rw [osc_gram h P Q n i j hi (Finset.mem_range.1 hj)]
        split_ifs <;> ring
    rw [e2, Finset.sum_add_distrib, ← Finset.mul_sum, Finset.sum_ite_eq, if_pos (Finset.mem_range.2 hi)]
    congr 1
    simp only [Finset.sum_mul, Finset.mul_sum]
    rw [Finset.sum_comm]
    exact Finset.sum_congr rfl fun k _ => Finset.sum_congr rfl fun j _ => by ring
  rw [e1, oscA_col _ _ _ _ hi, oscA_row _ _ _ _ hi]
  have e3 : (if i = 0 then 0 else (Q + P) * √i * ∑ j ∈ Finset.range n, oscA lam P Q (i - 1) j * χ j) =
      if i = 0 then 0 else (Q + P) * √i * sA lam P Q χ (i - 1) := by
    split_ifs with h0
    · rfl
    · rw [oscA_row _ _ _ _ (by omega), if_pos (by omega)]
      rfl
  rw [e3]
  have es : sA lam P Q χ i = (Q - P) * √(lam + i) * χ i + (Q + P) * √(i + 1) * χ (i + 1) := rfl
  unfold sAd
  by_cases hn : i + 1 = n
  · rw [if_neg (by omega), if_pos hn, es, ← hn]
    ring
  · rw [if_pos (by omega), if_neg hn, es]
    ring

/-- An approximate eigenvector is near an eigenvalue. -/
theorem near_eigen {n : ℕ} {A : Matrix (Fin n) (Fin n) ℝ} {v : ℕ → ℝ} (hv : Diag A v) {z w : Fin n → ℝ} {E : ℝ}
    (hz : ∀ i, (A *ᵥ z) i = E * z i - w i) (h0 : 0 < ∑ i, z i ^ 2) : ∃ i < n, (v i - E) ^ 2 * ∑ i, z i ^ 2 ≤ ∑ i, w i ^ 2 := by
  obtain ⟨R, h1, h2, _⟩ := hv
  set x := R.transpose *ᵥ z with hx
  have hRR := mul_eq_one_comm.1 h1
  have hRx : R *ᵥ x = z := by rw [hx, mulVec_mulVec, hRR, one_mulVec]
  have hsum : ∑ i, z i ^ 2 = ∑ i, x i ^ 2 := by
    rw [← norm_orth h1 x, hRx]
    exact Finset.sum_congr rfl fun i _ => by ring
  have hAR : A * R = R * Matrix.diagonal (fun i : Fin n => v i) := by
    rw [← h2, ← Matrix.mul_assoc, ← Matrix.mul_assoc, hRR, Matrix.one_mul]
  have hw : R *ᵥ (fun i : Fin n => (E - v i) * x i) = w := by
    have e1 : R *ᵥ (fun i : Fin n => v i * x i) = A *ᵥ z := by
      rw [← hRx, mulVec_mulVec, hAR, ← mulVec_mulVec]
      congr 1
      funext i
      rw [mulVec_diagonal]
    have e2 : (fun i : Fin n => (E - v i) * x i) = E • x - fun i : Fin n => v i * x i := by
      funext i
      simp only [Pi.sub_apply, Pi.smul_apply, smul_eq_mul]
      ring
    rw [e2, mulVec_sub, mulVec_smul, hRx, e1]
    funext i
    rw [Pi.sub_apply, hz i, Pi.smul_apply, smul_eq_mul]
    ring
  have hwsum : ∑ i, w i ^ 2 = ∑ i : Fin n, (v i - E) ^ 2 * x i ^ 2 := by
    have := norm_orth h1 fun i : Fin n => (E - v i) * x i
    rw [hw] at this
    rw [show ∑ i, w i ^ 2 = w ⬝ᵥ w from Finset.sum_congr rfl fun i _ => by ring, this]
    exact Finset.sum_congr rfl fun i _ => by ring
  by_contra hcon
  push Not at hcon
  have h5 : ∑ i : Fin n, (∑ i, w i ^ 2) * x i ^ 2 < ∑ i : Fin n, (v i - E) ^ 2 * (∑ i, z i ^ 2) * x i ^ 2 := by
    have hex : ∃ i ∈ Finset.univ, 0 < x i ^ 2 := by
      by_contra hc
      push Not at hc
      exact absurd (hsum ▸ h0) (not_lt.2 (Finset.sum_nonpos fun i hi => hc i hi))
    obtain ⟨i, hi, hxi⟩ := hex
    exact Finset.sum_lt_sum (fun i _ => mul_le_mul_of_nonneg_right (hcon i i.2).le (sq_nonneg _)) ⟨i, hi, mul_lt_mul_of_pos_right (hcon i i.2) hxi⟩
  rw [← Finset.mul_sum, ← hsum, hwsum] at h5
  have h6 : ∑ i : Fin n, (v i - E) ^ 2 * (∑ i, z i ^ 2) * x i ^ 2 = (∑ i : Fin n, (v i - E) ^ 2 * x i ^ 2) * ∑ i, z i ^ 2 := by
    rw [Finset.sum_mul]
    exact Finset.sum_congr rfl fun i _ => by ring
  rw [h6] at h5
  exact lt_irrefl _ h5

/-- Near every exact level there is one of the truncated oscillator. -/
theorem osc_near {lam P Q : ℝ} (h : 0 < lam) (hP : 0 < P) (hQ : 0 < Q) (k : ℕ) {η : ℝ} (hη : 0 < η) :
    ∀ᶠ n : ℕ in Filter.atTop, ∀ v, Diag (oscTrunc lam P Q n) v → ∃ i < n, |v i - 2 * P * Q * (lam + 2 * k)| < η := by
  have ht : |(P - Q) / (P + Q)| < 1 := by
    rw [abs_div, abs_of_pos (by positivity : 0 < P + Q), div_lt_one (by positivity), abs_lt]
    constructor <;> linarith
  obtain ⟨ρ, r1, r2⟩ := exists_between ht
  have hρ : 0 < ρ := lt_of_le_of_lt (abs_nonneg _) r1
  set χ := psi P Q k lam with hχ
  obtain ⟨i0, hi0⟩ := psi_ne hP hQ k h
  have hb : 0 < χ i0 ^ 2 := sq_pos_of_ne_zero hi0
  have lim := ((dec_tendsto hρ r2 (psi_dec hρ r1 k h)).pow 2).const_mul ((Q ^ 2 - P ^ 2) ^ 2 * (lam + 1))
  rw [zero_pow two_ne_zero, mul_zero] at lim
  filter_upwards [lim.eventually_lt_const (show 0 < η ^ 2 * χ i0 ^ 2 by positivity), Filter.eventually_gt_atTop i0] with n h1 h2 v hv
  let w : Fin n → ℝ := fun i => if i.1 + 1 = n then (Q ^ 2 - P ^ 2) * (√(lam + (i : ℕ)) * √((i : ℕ) + 1)) * χ n else 0
  have hz : ∀ i : Fin n, (oscTrunc lam P Q n *ᵥ fun j : Fin n => χ j) i = 2 * P * Q * (lam + 2 * k) * χ i - w i := fun i => by
    have := osc_row h P Q χ i.2
    rw [psi_eigen hP hQ k h, Finset.sum_range] at this
    refine Eq.trans this ?_
    simp only [w]
    ring
  have hzn : χ i0 ^ 2 ≤ ∑ i : Fin n, χ i ^ 2 :=
    Finset.single_le_sum (f := fun i : Fin n => χ i ^ 2) (fun _ _ => sq_nonneg _) (Finset.mem_univ ⟨i0, h2⟩)
  have hwn : ∑ i, w i ^ 2 ≤ (Q ^ 2 - P ^ 2) ^ 2 * (lam + 1) * (((n : ℝ) + 1) * χ n) ^ 2 := by
    obtain ⟨m, rfl⟩ : ∃ m, n = m + 1 := ⟨n - 1, by omega⟩
    rw [Finset.sum_eq_single (Fin.last m)]
    · simp only [w, Fin.val_last, if_true]
      rw [mul_pow, mul_pow, mul_pow, Real.sq_sqrt (by positivity), Real.sq_sqrt (by positivity)]
      have h3 : (lam + m) * ((m : ℝ) + 1) ≤ (lam + 1) * (((m + 1 : ℕ) : ℝ) + 1) ^ 2 := by
        have : (0 : ℝ) ≤ m := by positivity
        push_cast
        nlinarith [mul_nonneg h.le this, mul_nonneg (mul_nonneg h.le this) this]
      calc (Q ^ 2 - P ^ 2) ^ 2 * ((lam + m) * ((m : ℝ) + 1)) * χ (m + 1) ^ 2
          ≤ (Q ^ 2 - P ^ 2) ^ 2 * ((lam + 1) * (((m + 1 : ℕ) : ℝ) + 1) ^ 2) * χ (m + 1) ^ 2 :=
            mul_le_mul_of_nonneg_right (mul_le_mul_of_nonneg_left h3 (sq_nonneg _)) (sq_nonneg _)
        _ = _ := by ring
    · intro i _ hi
      have : i.1 ≠ m := fun e => hi (Fin.ext e)
      simp only [w]
      rw [if_neg (by omega)]
      ring
    · simp
  obtain ⟨i, hi, hle⟩ := near_eigen hv hz (lt_of_lt_of_le hb hzn)
  refine ⟨i, hi, ?_⟩
  have h4 : (v i - 2 * P * Q * (lam + 2 * k)) ^ 2 < η ^ 2 := by
    by_contra hc
    push Not at hc
    have : η ^ 2 * χ i0 ^ 2 ≤ (v i - 2 * P * Q * (lam + 2 * k)) ^ 2 * ∑ i : Fin n, χ i ^ 2 :=
      mul_le_mul hc hzn hb.le (sq_nonneg _)
    linarith
  exact abs_lt_of_sq_lt_sq h4 hη.le

/-- The levels of the truncated oscillator converge to the exact ones. -/
theorem osc_upper {lam P Q : ℝ} (h : 0 < lam) (hP : 0 < P) (hQ : 0 < Q) (k : ℕ) {ε : ℝ} (hε : 0 < ε) :
    ∀ᶠ n : ℕ in Filter.atTop, ∀ v, Diag (oscTrunc lam P Q n) v → ∀ j ≤ k, v j < 2 * P * Q * (lam + 2 * j) + ε := by
  have hη : 0 < min ε (2 * P * Q) := lt_min hε (by positivity)
  have hall : ∀ᶠ n : ℕ in Filter.atTop, ∀ j ∈ Finset.range (k + 1), ∀ v, Diag (oscTrunc lam P Q n) v →
      ∃ i < n, |v i - 2 * P * Q * (lam + 2 * j)| < min ε (2 * P * Q) := by
    rw [Filter.eventually_all_finset]
    exact fun j _ => osc_near h hP hQ j hη
  filter_upwards [hall] with n hn v hv j hj
  have hv' := hv
  obtain ⟨_, _, _, hmono⟩ := hv'
  have key : ∀ j ≤ k, ∃ i < n, j ≤ i ∧ |v i - 2 * P * Q * (lam + 2 * j)| < min ε (2 * P * Q) := by
    intro j
    induction j with
    | zero =>
      intro _
      obtain ⟨i, h1, h2⟩ := hn 0 (Finset.mem_range.2 (by omega)) v hv
      exact ⟨i, h1, Nat.zero_le _, h2⟩
    | succ j ih =>
      intro hj
      obtain ⟨i, h1, h2, h3⟩ := ih (by omega)
      obtain ⟨i', h1', h2'⟩ := hn (j + 1) (Finset.mem_range.2 (by omega)) v hv
      refine ⟨i', h1', ?_, h2'⟩
      by_contra hc
      have hle := hmono i' i (by omega) h1
      have a1 := (abs_lt.1 h3).2
      have a2 := (abs_lt.1 h2').1
      have a3 := min_le_right ε (2 * P * Q)
      push_cast at a2
      linarith
  obtain ⟨i, h1, h2, h3⟩ := key j hj
  have a1 := (abs_lt.1 h3).2
  have a3 := min_le_left ε (2 * P * Q)
  have := hmono j i h2 h1
  linarith

end Acm.Props
