import Verif.Props.Comb

/-!
# C114: energies and diagonal elements
-/

namespace Acm.Props

open Acm.Spec

theorem ky_fan {n : ℕ} {v : ℕ → ℝ} {H P : Matrix (Fin n) (Fin n) ℝ} (hP : P.transpose * P = 1)
    (hd : P.transpose * H * P = Matrix.diagonal fun i : Fin n => v i) (hv : ∀ i j, i ≤ j → j < n → v i ≤ v j) (S : Finset (Fin n)) :
    ∑ i ∈ Finset.range S.card, v i ≤ ∑ p ∈ S, H p p := by
  have hP' := mul_eq_one_comm.1 hP
  have hH : H = P * (Matrix.diagonal fun i : Fin n => v i) * P.transpose := by
    rw [← hd, show P * (P.transpose * H * P) * P.transpose = (P * P.transpose) * H * (P * P.transpose) by
      simp only [Matrix.mul_assoc], hP', Matrix.one_mul, Matrix.mul_one]
  have hpp : ∀ p, H p p = ∑ i : Fin n, v i * P p i ^ 2 := fun p => by
    rw [hH, Matrix.mul_apply]
    refine Finset.sum_congr rfl fun i _ => ?_
    rw [Matrix.mul_diagonal, Matrix.transpose_apply]
    ring
  let w : Fin n → ℝ := fun i => ∑ p ∈ S, P p i ^ 2
  have row : ∀ p, ∑ i, P p i ^ 2 = 1 := fun p => by
    have := congrFun (congrFun hP' p) p
    rw [Matrix.mul_apply, Matrix.one_apply_eq] at this
    rw [← this]
    exact Finset.sum_congr rfl fun i _ => by rw [Matrix.transpose_apply, sq]
  have col : ∀ i, ∑ p, P p i ^ 2 = 1 := fun i => by
    have := congrFun (congrFun hP i) i
    rw [Matrix.mul_apply, Matrix.one_apply_eq] at this
    rw [← this]
    exact Finset.sum_congr rfl fun p _ => by rw [Matrix.transpose_apply, sq]
  have w0 : ∀ i, 0 ≤ w i := fun i => Finset.sum_nonneg fun p _ => sq_nonneg _
  have w1 : ∀ i, w i ≤ 1 := fun i => by
    rw [← col i]
    exact Finset.sum_le_sum_of_subset_of_nonneg (Finset.subset_univ S) fun p _ _ => sq_nonneg _
  have ws : ∑ i, w i = S.card := by
    rw [Finset.sum_comm]
    simp only [row, Finset.sum_const, nsmul_eq_mul, mul_one]
  have hk : S.card ≤ n := by simpa using Finset.card_le_univ S
  have hsum : ∑ p ∈ S, H p p = ∑ i : Fin n, v i * w i := by
    simp only [hpp]
    rw [Finset.sum_comm]
    exact Finset.sum_congr rfl fun i _ => by rw [Finset.mul_sum]
  have hr : ∀ f : ℕ → ℝ, ∑ i ∈ Finset.range S.card, f i = ∑ i : Fin n, if (i : ℕ) < S.card then f i else 0 := fun f => by
    rw [Fin.sum_univ_eq_sum_range (fun i => if i < S.card then f i else 0) n, ← Finset.sum_filter]
    congr 1
    ext i
    simp only [Finset.mem_range, Finset.mem_filter]
    omega
  rcases Nat.eq_zero_or_pos S.card with h0 | h0
  · rw [Finset.card_eq_zero.1 h0]
    simp
  rw [hsum, hr]
  set t := v (S.card - 1) with ht
  have hc : (S.card : ℝ) = ∑ i : Fin n, if (i : ℕ) < S.card then 1 else 0 := by
    rw [← hr fun _ => 1]
    simp
  have key : ∀ i : Fin n, (if (i : ℕ) < S.card then v i else 0) + t * (w i - if (i : ℕ) < S.card then 1 else 0) ≤ v i * w i := fun i => by
    split_ifs with hi
    · have := hv i (S.card - 1) (by omega) (by omega)
      nlinarith [w1 i]
    · have := hv (S.card - 1) i (by omega) i.2
      nlinarith [w0 i]
  have := Finset.sum_le_sum fun i (_ : i ∈ (Finset.univ : Finset (Fin n))) => key i
  rw [Finset.sum_add_distrib, ← Finset.mul_sum, Finset.sum_sub_distrib, ws, ← hc, sub_self, mul_zero, add_zero] at this
  exact this

theorem take_sum {n : ℕ} (v : ℕ → ℝ) {k : ℕ} (hk : k ≤ n) : (((List.range n).map v).take k).sum = ∑ i ∈ Finset.range k, v i := by
  rw [← List.map_take, List.take_range, min_eq_left hk]
  induction k with
  | zero => rfl
  | succ k ih => rw [List.range_succ, List.map_append, List.sum_append, ih (by omega), Finset.sum_range_succ]; simp

/-- C114: `k` diagonal elements of the matrix of the Hamiltonian for one angular momentum add up to at least the `k` lowest
energies, and to at most the `k` highest ones. -/
theorem C114_diagonal {env : XEnv} (hla : LinAlgOk env.la) {ham : OperatorSum} (ht : Op_Tame ham = true) {a : XArgs} {s s1 : FState}
    (hs : MemoOk env s.xs) {r : List LEig} (hr : DigXspace env ham a s = (.ok r, s1)) {x : LEig} (hx : x ∈ r) :
    ∃ M, (RepXspace env ham (a.at x.L) s.xs).1 = .ok M ∧ M.rows = x.vals.length ∧ M.cols = x.vals.length ∧
      ∀ S : Finset ℕ, (∀ p ∈ S, p < x.vals.length) →
        (x.vals.take S.card).sum ≤ ∑ p ∈ S, M.e p p ∧ ∑ p ∈ S, M.e p p ≤ (x.vals.drop (x.vals.length - S.card)).sum := by
  obtain ⟨M, v, P, e1, hsq, hv, p1, p2, p3⟩ := level_matrix hla ht hs hr hx
  obtain ⟨M', e1', _, _, htr, _⟩ := C112_energies hla ht hs hr hx
  rw [e1] at e1'
  injection e1' with e1'
  subst e1'
  have hn : x.vals.length = (a.at x.L).dim := by rw [hv]; simp
  refine ⟨M, e1, by rw [hsq.1, hn], by rw [hsq.2.1, hn], fun S hS => ?_⟩
  have low : ∀ S : Finset ℕ, (∀ p ∈ S, p < x.vals.length) → (x.vals.take S.card).sum ≤ ∑ p ∈ S, M.e p p := by
    intro S hS
    rw [hn] at hS
    have hf : (S.attachFin hS).card = S.card := Finset.card_attachFin S hS
    have hk := ky_fan p1 p2 p3 (S.attachFin hS)
    have hle : S.card ≤ (a.at x.L).dim := by
      rw [← hf]
      simpa using Finset.card_le_univ (S.attachFin hS)
    rw [hf] at hk
    rw [hv, take_sum v hle]
    refine hk.trans (le_of_eq ?_)
    have : S = (S.attachFin hS).map Fin.valEmbedding := by
      ext i
      simp only [Finset.mem_map, Finset.mem_attachFin, Fin.valEmbedding_apply]
      exact ⟨fun h => ⟨⟨i, hS i h⟩, h, rfl⟩, by rintro ⟨p, hp, rfl⟩; exact hp⟩
    conv_rhs => rw [this, Finset.sum_map]
    refine Finset.sum_congr rfl fun p _ => ?_
    simp only [Matrix.smul_apply, Matrix.add_apply, Matrix.transpose_apply, mat, Matrix.of_apply, smul_eq_mul, Fin.valEmbedding_apply]
    ring
  refine ⟨low S hS, ?_⟩
  have hsub : S ⊆ Finset.range x.vals.length := fun p hp => Finset.mem_range.2 (hS p hp)
  have hc := low (Finset.range x.vals.length \ S) fun p hp => Finset.mem_range.1 (Finset.mem_sdiff.1 hp).1
  rw [Finset.card_sdiff_of_subset hsub, Finset.card_range] at hc
  have h1 := Finset.sum_sdiff (f := fun p => M.e p p) hsub
  have h2 := List.sum_take_add_sum_drop x.vals (x.vals.length - S.card)
  linarith

/-- C114: every diagonal element lies between the lowest and the highest energy. -/
theorem C114_between {env : XEnv} (hla : LinAlgOk env.la) {ham : OperatorSum} (ht : Op_Tame ham = true) {a : XArgs} {s s1 : FState}
    (hs : MemoOk env s.xs) {r : List LEig} (hr : DigXspace env ham a s = (.ok r, s1)) {x : LEig} (hx : x ∈ r) {M : Arr}
    (hM : (RepXspace env ham (a.at x.L) s.xs).1 = .ok M) {lo hi : ℝ} (hlo : x.vals.head? = some lo) (hhi : x.vals.getLast? = some hi)
    {p : ℕ} (hp : p < M.rows) : lo ≤ M.e p p ∧ M.e p p ≤ hi := by
  obtain ⟨M', hM', h1, _, h⟩ := C114_diagonal hla ht hs hr hx
  rw [hM] at hM'
  injection hM' with hM'
  subst hM'
  obtain ⟨k1, k2⟩ := h {p} fun q hq => by
    rw [Finset.mem_singleton.1 hq, ← h1]
    exact hp
  rw [Finset.card_singleton, Finset.sum_singleton] at k1 k2
  obtain ⟨ys, hys⟩ := List.head?_eq_some_iff.1 hlo
  obtain ⟨zs, hzs⟩ := List.getLast?_eq_some_iff.1 hhi
  constructor
  · rw [hys] at k1
    simpa using k1
  · rw [hzs] at k2
    simpa using k2

/-- The hypotheses are met: a calculation with an operator whose matrix is not diagonal. -/
example {la : LinAlg} (hla : LinAlgOk la) : ∃ (A : OperatorSum) (a : XArgs) (s s1 : FState) (M : Arr) (r : List LEig) (x : LEig),
    Op_Tame A = true ∧ MemoOk ⟨fileCG onesFS none, la⟩ s.xs ∧ (RepXspace ⟨fileCG onesFS none, la⟩ A a s.xs).1 = .ok M ∧ M.e 1 0 ≠ 0 ∧
    DigXspace ⟨fileCG onesFS none, la⟩ A a s = (.ok r, s1) ∧ x ∈ r := by
  obtain ⟨A, _, _, a, s, sA, _, _, M, rA, _, _, x, _, _, _, _, h1, _, _, _, h2, h3, h4, h5, _, _, h6, _⟩ := comb_meets hla 2
  exact ⟨A, a, s, sA, M, rA, x, h1, h2, h3, h4, h5, h6⟩

end Acm.Props
