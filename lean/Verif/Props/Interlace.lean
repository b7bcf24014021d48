import Verif.Props.Variational
import Verif.Spec.Interlace

/-!
# Property C129: the levels in a space and in a larger one interlace
-/

namespace Acm.Props

open Acm Acm.Spec

/-- Numbering from above: the matrix with its columns in the opposite order. -/
theorem flip_diag {n : ℕ} {A P : Matrix (Fin n) (Fin n) ℝ} {v : ℕ → ℝ} (h1 : P.transpose * P = 1)
    (h2 : P.transpose * A * P = Matrix.diagonal fun i : Fin n => v i) :
    (P.submatrix id Fin.rev).transpose * P.submatrix id Fin.rev = 1 ∧
    (P.submatrix id Fin.rev).transpose * (-A) * P.submatrix id Fin.rev = Matrix.diagonal fun i : Fin n => -v (n - 1 - i) := by
  have e : ∀ X : Matrix (Fin n) (Fin n) ℝ, (P.submatrix id Fin.rev).transpose * X * P.submatrix id Fin.rev =
      (P.transpose * X * P).submatrix Fin.rev Fin.rev := fun X => by
    ext i j
    simp only [Matrix.mul_apply, Matrix.submatrix_apply, Matrix.transpose_apply, id_eq]
  constructor
  · have := e 1
    rw [Matrix.mul_one, Matrix.mul_one, h1] at this
    rw [this, Matrix.submatrix_one _ Fin.rev_injective]
  · rw [e, Matrix.mul_neg, Matrix.neg_mul, h2]
    ext i j
    rw [Matrix.submatrix_apply, Matrix.neg_apply, Matrix.diagonal_apply, Matrix.diagonal_apply]
    by_cases h : i = j
    · subst h
      rw [if_pos rfl, if_pos rfl, Fin.val_rev]
      congr 2
      omega
    · rw [if_neg fun hh => h (Fin.rev_injective hh), if_neg h, neg_zero]

theorem submatrix_ge {m n : ℕ} {A Q : Matrix (Fin n) (Fin n) ℝ} {B R : Matrix (Fin m) (Fin m) ℝ} {α β : ℕ → ℝ}
    (ι : Fin n → Fin m) (hι : Function.Injective ι) (hA : A = B.submatrix ι ι)
    (hQ : Q.transpose * Q = 1) (hQA : Q.transpose * A * Q = Matrix.diagonal fun i : Fin n => α i)
    (hR : R.transpose * R = 1) (hRB : R.transpose * B * R = Matrix.diagonal fun i : Fin m => β i)
    (hα : ∀ i j, i ≤ j → j < n → α i ≤ α j) (hβ : ∀ i j, i ≤ j → j < m → β i ≤ β j) {k : ℕ} (hk : k < n) :
    α k ≤ β (k + (m - n)) := by
  obtain ⟨q1, q2⟩ := flip_diag hQ hQA
  obtain ⟨r1, r2⟩ := flip_diag hR hRB
  obtain ⟨h1, h2⟩ := submatrix_le ι hι (A := -A) (B := -B) (by rw [hA]; rfl) (α := fun i => -α (n - 1 - i)) (β := fun i => -β (m - 1 - i))
    q1 q2 r1 r2 (fun i j hij hj => neg_le_neg (hα _ _ (by omega) (by omega))) (fun i j hij hj => neg_le_neg (hβ _ _ (by omega) (by omega)))
    (k := n - 1 - k) (by omega)
  have h3 := neg_le_neg_iff.1 h2
  have hle : n ≤ m := by simpa using Fintype.card_le_of_injective ι hι
  rwa [show n - 1 - (n - 1 - k) = k by omega, show m - 1 - (n - 1 - k) = k + (m - n) by omega] at h3

/-- C129: the levels in a space and in a larger one interlace.  If the second space has `d` states more with the angular momentum L, each
level of the first lies between the level of the second with the same place and the one `d` places higher. -/
theorem C129_interlace {a b : XArgs} (ha : LegalRanges a) (hb : LegalRanges b) (hc : Contains b a) (hn : a.anorm ≠ 0)
    {env : XEnv} (hla : LinAlgOk env.la) {ham : OperatorSum} {s s' : FState} (hs : MemoOk env s.xs) (hs' : MemoOk env s'.xs)
    {ls : Int → Int} (hl : ∀ v, b.v_min ≤ v → v ≤ b.v_max → s.glb.lam_fun v = .ok (ls v))
    (hll : s'.glb.lam_fun = s.glb.lam_fun)
    (hpos : ∀ v, b.v_min ≤ v → v ≤ b.v_max → 0 < a.lambda_base + ls v) (hham : Nestable a.lambda_base ls a b ham)
    {r r' : List LEig} {t t' : FState} (hr : DigXspace env ham a s = (.ok r, t)) (hr' : DigXspace env ham b s' = (.ok r', t')) :
    Interlaced r r' := by
  intro x hx
  obtain ⟨y, hy, hyL, n, m, ι, A, P, B, Q, v, w, h1, h2, h3, h4, h5, h6, h7, h8, e, f⟩ := nested_levels ha hb hc hn hla hs hs' hl hll hpos hham hr hr' x hx
  have hle : n ≤ m := by simpa using Fintype.card_le_of_injective ι h1
  refine ⟨y, hy, hyL, m - n, by rw [e, f]; simp; omega, fun k g hg => ?_⟩
  obtain ⟨hk, rfl⟩ := List.getElem?_eq_some_iff.1 hg
  have hk' : k < n := by rwa [e, List.length_map, List.length_range] at hk
  have gw : ∀ {i : ℕ}, i < m → y.vals[i]? = some (w i) := fun hi => by
    rw [f, List.getElem?_map, List.getElem?_range hi]
    rfl
  refine ⟨w k, w (k + (m - n)), gw (by omega), gw (by omega), ?_, ?_⟩ <;> simp only [e, List.getElem_map, List.getElem_range]
  · exact (submatrix_le ι h1 h2 h3 h4 h5 h6 h7 h8 hk').2
  · exact submatrix_ge ι h1 h2 h3 h4 h5 h6 h7 h8 hk'

/-- C129 for the Hamiltonians of `ACM_Hamiltonian` (laplacian, constant, powers of beta, cos(3 gamma) and its square) in the
basis of `lambda_acm_fun`; with a term in the square of cos(3 gamma) only the range of nu is enlarged. -/
theorem C129_acm {a b : XArgs} (ha : LegalRanges a) (hb : LegalRanges b) (hc : Contains b a) (hn : a.anorm ≠ 0)
    (h1 : 0 < a.lambda_base) (h2 : a.lambda_base ≠ 1) {env : XEnv} (hla : LinAlgOk env.la)
    (c11 c20 c21 c23 c30 c33 c40 c41 c43 : Coeff)
    (hv : (c40 = 0 ∧ c41 = 0 ∧ c43 = 0) ∨ a.v_min = b.v_min ∧ a.v_max = b.v_max)
    {s s' : FState} (hs : MemoOk env s.xs) (hs' : MemoOk env s'.xs) (hl : s.glb.lam_fun = lambda_acm_fun)
    (hl' : s'.glb.lam_fun = lambda_acm_fun) {r r' : List LEig} {t t' : FState}
    (hr : DigXspace env (ACM_Hamiltonian (c11 := c11) (c20 := c20) (c21 := c21) (c23 := c23) (c30 := c30) (c33 := c33)
      (c40 := c40) (c41 := c41) (c43 := c43)) a s = (.ok r, t))
    (hr' : DigXspace env (ACM_Hamiltonian (c11 := c11) (c20 := c20) (c21 := c21) (c23 := c23) (c30 := c30) (c33 := c33)
      (c40 := c40) (c41 := c41) (c43 := c43)) b s' = (.ok r', t')) : Interlaced r r' := by
  refine C129_interlace ha hb hc hn hla hs hs' (ls := fun v => v % 2)
    (fun v hv _ => by rw [hl]; exact acm_lambda (hb.2.1.1.trans hv)) (by rw [hl, hl']) (fun v hv _ => ?_)
    (acm_nestable h1 h2 _ _ _ _ _ _ _ _ _ hv) hr hr'
  have : (0 : ℝ) ≤ ((v % 2 : Int) : ℝ) := by exact_mod_cast Int.emod_nonneg v (by decide)
  linarith

/-- The hypotheses of C129 are met, with any coefficients of the laplacian, the constant, beta^2 and 1/beta^2; here 5 states are added for each
pair of seniority and angular momentum. -/
example {env : XEnv} (hla : LinAlgOk env.la) (c11 c20 c21 c23 : Coeff) : ∃ (a b : XArgs) (s : FState) (r r' : List LEig)
    (t t' : FState), LegalRanges a ∧ LegalRanges b ∧ Contains b a ∧ a.nu_max + 5 = b.nu_max ∧ a.v_max = b.v_max ∧ a.anorm ≠ 0 ∧
      0 < a.lambda_base ∧ a.lambda_base ≠ 1 ∧ MemoOk env s.xs ∧ s.glb.lam_fun = lambda_acm_fun ∧
      DigXspace env (ACM_Hamiltonian (c11 := c11) (c20 := c20) (c21 := c21) (c23 := c23)) a s = (.ok r, t) ∧
      DigXspace env (ACM_Hamiltonian (c11 := c11) (c20 := c20) (c21 := c21) (c23 := c23)) b s = (.ok r', t') := by
  let a : XArgs := ⟨3, 5 / 2, 0, 4, 0, 6, 0, 4⟩
  let b : XArgs := ⟨3, 5 / 2, 0, 9, 0, 6, 0, 4⟩
  let s : FState := ⟨{ Glb.init with lam_fun := lambda_acm_fun }, fun _ => none, fun _ _ => none, fun _ => none, []⟩
  have hm : MemoOk env s.xs := memoOk_start env lambda_acm_fun
  have key : ∀ v : Int, 0 < (5 / 2 : ℝ) + ((v % 2 : Int) : ℝ) ∧ (5 / 2 : ℝ) + ((v % 2 : Int) : ℝ) ≠ 1 := by
    intro v
    have : (0 : ℝ) ≤ ((v % 2 : Int) : ℝ) := by exact_mod_cast Int.emod_nonneg v (by decide)
    exact ⟨by linarith, by intro hh; linarith⟩
  have la : LegalRanges a := by simp [LegalRanges, a]
  have lb : LegalRanges b := by simp [LegalRanges, b]
  obtain ⟨r, t, h1⟩ := radHam_dig la hla (by norm_num [a]) hm (fun v hv _ => acm_lambda hv) (fun v _ _ => (key v).1)
    (fun v _ _ => (key v).2) c11 c20 c21 0 c23
  obtain ⟨r', t', h2⟩ := radHam_dig lb hla (by norm_num [b]) hm (fun v hv _ => acm_lambda hv) (fun v _ _ => (key v).1)
    (fun v _ _ => (key v).2) c11 c20 c21 0 c23
  exact ⟨a, b, s, r, r', t, t', la, lb, by simp [Contains, a, b], by simp [a, b], rfl, by norm_num [a],
    by norm_num [a], by norm_num [a], hm, rfl, h1, h2⟩

end Acm.Props
