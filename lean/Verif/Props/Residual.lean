import Verif.Props.Ground
import Verif.Spec.Residual

/-!
# C136: how close the energy of a trial state is to a level
-/

namespace Acm.Props

open Acm.Spec

theorem trial {n : ℕ} {v : ℕ → ℝ} {H P : Matrix (Fin n) (Fin n) ℝ} (hP : P.transpose * P = 1)
    (hd : P.transpose * H * P = Matrix.diagonal fun i : Fin n => v i) (w : Fin n → ℝ) :
    ∑ i, (P.transpose.mulVec w) i ^ 2 = ∑ p, w p ^ 2 ∧
      ∑ i : Fin n, v i * (P.transpose.mulVec w) i ^ 2 = ∑ p, w p * (H.mulVec w) p ∧
      ∀ m : ℝ, ∑ i : Fin n, (v i - m) ^ 2 * (P.transpose.mulVec w) i ^ 2 = ∑ p, ((H.mulVec w) p - m * w p) ^ 2 := by
  have hP' := mul_eq_one_comm.1 hP
  have dot : ∀ f g : Fin n → ℝ, P.transpose.mulVec f ⬝ᵥ P.transpose.mulVec g = f ⬝ᵥ g := fun f g => by
    rw [Matrix.dotProduct_mulVec, Matrix.vecMul_transpose, Matrix.mulVec_mulVec, hP', Matrix.one_mulVec]
  have sq' : ∀ f : Fin n → ℝ, ∑ i, (P.transpose.mulVec f) i ^ 2 = ∑ p, f p ^ 2 := fun f => by
    have := dot f f
    simp only [dotProduct, ← sq] at this
    exact this
  have hH : P.transpose.mulVec (H.mulVec w) = fun i : Fin n => v i * (P.transpose.mulVec w) i := by
    have : P.transpose * H = (Matrix.diagonal fun i : Fin n => v i) * P.transpose := by
      rw [← hd, Matrix.mul_assoc (P.transpose * H), hP', Matrix.mul_one]
    rw [Matrix.mulVec_mulVec, this, ← Matrix.mulVec_mulVec]
    funext i
    rw [Matrix.mulVec_diagonal]
  refine ⟨sq' w, ?_, fun m => ?_⟩
  · have := dot w (H.mulVec w)
    rw [hH] at this
    simp only [dotProduct] at this
    rw [← this]
    exact Finset.sum_congr rfl fun i _ => by ring
  · have := sq' fun p => (H.mulVec w) p - m * w p
    rw [← this, show (fun p => (H.mulVec w) p - m * w p) = H.mulVec w - m • w from rfl, Matrix.mulVec_sub, Matrix.mulVec_smul, hH]
    refine Finset.sum_congr rfl fun i _ => ?_
    rw [Pi.sub_apply, Pi.smul_apply, smul_eq_mul]
    ring

theorem applied_eq {n : ℕ} {M : Arr} (w : ℕ → ℝ) (p : Fin n) :
    (((1 / 2 : ℝ) • (mat n M + (mat n M).transpose)).mulVec fun q : Fin n => w q) p = applied n M w p := by
  unfold applied Matrix.mulVec
  rw [Finset.sum_range]
  refine Finset.sum_congr rfl fun q _ => ?_
  simp only [Matrix.smul_apply, Matrix.add_apply, Matrix.transpose_apply, mat, Matrix.of_apply, smul_eq_mul]
  ring

theorem trial_levels {env : XEnv} (hla : LinAlgOk env.la) {ham : OperatorSum} (ht : Op_Tame ham = true) {a : XArgs} {s s1 : FState}
    (hs : MemoOk env s.xs) {r : List LEig} (hr : DigXspace env ham a s = (.ok r, s1)) {x : LEig} (hx : x ∈ r) :
    ∃ (n : ℕ) (M : Arr) (v : ℕ → ℝ), (RepXspace env ham (a.at x.L) s.xs).1 = .ok M ∧ Square n M ∧ x.vals = (List.range n).map v ∧
      (∀ i j, i ≤ j → j < n → v i ≤ v j) ∧ ∀ w : ℕ → ℝ, ∃ c : Fin n → ℝ, ∑ i, c i ^ 2 = length2 n w ∧
        ∑ i : Fin n, v i * c i ^ 2 = meanOf n M w ∧
        ∀ m : ℝ, ∑ i : Fin n, (v i - m) ^ 2 * c i ^ 2 = length2 n fun p => applied n M w p - m * w p := by
  obtain ⟨M, v, P, e1, hsq, hv, p1, p2, p3⟩ := level_matrix hla ht hs hr hx
  refine ⟨_, M, v, e1, hsq, hv, p3, fun w => ?_⟩
  obtain ⟨c1, c2, c3⟩ := trial p1 p2 fun q => w q
  simp only [applied_eq] at c2 c3
  refine ⟨P.transpose.mulVec fun q => w q, ?_, ?_, fun m => ?_⟩
  · rw [c1, length2, Finset.sum_range]
  · rw [c2, meanOf, Finset.sum_range]
  · rw [c3, length2, Finset.sum_range]

/-- C136: for every state that is not zero and every number `m` there is a level of that angular momentum whose distance from `m` is at
most the length of `H w - m w` divided by the length of `w`, where `H` is the symmetrised matrix of the Hamiltonian. -/
theorem C136_residual {env : XEnv} (hla : LinAlgOk env.la) {ham : OperatorSum} (ht : Op_Tame ham = true) {a : XArgs} {s s1 : FState}
    (hs : MemoOk env s.xs) {r : List LEig} (hr : DigXspace env ham a s = (.ok r, s1)) {x : LEig} (hx : x ∈ r) :
    ∃ M, (RepXspace env ham (a.at x.L) s.xs).1 = .ok M ∧ M.rows = x.vals.length ∧ M.cols = x.vals.length ∧
      ∀ w : ℕ → ℝ, (∃ p < x.vals.length, w p ≠ 0) → ∀ m : ℝ, ∃ e ∈ x.vals,
        (e - m) ^ 2 * length2 x.vals.length w ≤ length2 x.vals.length fun p => applied x.vals.length M w p - m * w p := by
  obtain ⟨n, M, v, e1, hsq, hv, -, h⟩ := trial_levels hla ht hs hr hx
  have hn : x.vals.length = n := by rw [hv]; simp
  refine ⟨M, e1, by rw [hsq.1, hn], by rw [hsq.2.1, hn], fun w hw m => ?_⟩
  rw [hn] at hw ⊢
  obtain ⟨c, c1, -, c3⟩ := h w
  rw [← c3 m, ← c1]
  by_contra hc
  push Not at hc
  have hlt : ∀ i : Fin n, ∑ j : Fin n, (v j - m) ^ 2 * c j ^ 2 < (v i - m) ^ 2 * ∑ j, c j ^ 2 := fun i =>
    hc _ (by rw [hv]; exact List.mem_map_of_mem (List.mem_range.2 i.2))
  have hpos : 0 < ∑ j, c j ^ 2 := by
    obtain ⟨p, hp, h0⟩ := hw
    rw [c1]
    exact Finset.sum_pos' (fun q _ => sq_nonneg _) ⟨p, Finset.mem_range.2 hp, by positivity⟩
  obtain ⟨i, -, hi⟩ := Finset.exists_ne_zero_of_sum_ne_zero hpos.ne'
  have hst := Finset.sum_lt_sum (fun i (_ : i ∈ (Finset.univ : Finset (Fin n))) =>
    mul_le_mul_of_nonneg_right (hlt i).le (sq_nonneg (c i)))
    ⟨i, Finset.mem_univ i, mul_lt_mul_of_pos_right (hlt i) (lt_of_le_of_ne (sq_nonneg _) hi.symm)⟩
  rw [← Finset.mul_sum] at hst
  have e : ∑ i : Fin n, (v i - m) ^ 2 * (∑ j, c j ^ 2) * c i ^ 2 = (∑ i : Fin n, (v i - m) ^ 2 * c i ^ 2) * ∑ j, c j ^ 2 := by
    rw [Finset.sum_mul]
    exact Finset.sum_congr rfl fun i _ => by ring
  rw [e] at hst
  exact lt_irrefl _ hst

/-- C136: near every diagonal element of the matrix of the Hamiltonian there is a level, at most as far as the root of the sum of the
squares of the other elements of that row of the symmetrised matrix. -/
theorem C136_element {env : XEnv} (hla : LinAlgOk env.la) {ham : OperatorSum} (ht : Op_Tame ham = true) {a : XArgs} {s s1 : FState}
    (hs : MemoOk env s.xs) {r : List LEig} (hr : DigXspace env ham a s = (.ok r, s1)) {x : LEig} (hx : x ∈ r) {M : Arr}
    (hM : (RepXspace env ham (a.at x.L) s.xs).1 = .ok M) {p : ℕ} (hp : p < M.rows) :
    ∃ e ∈ x.vals, (e - M.e p p) ^ 2 ≤ ∑ q ∈ (Finset.range M.rows).erase p, ((M.e p q + M.e q p) / 2) ^ 2 := by
  obtain ⟨M', e1, h1, -, h⟩ := C136_residual hla ht hs hr hx
  rw [hM] at e1
  injection e1 with e1
  subst e1
  rw [h1] at hp ⊢
  obtain ⟨e, he, hle⟩ := h (fun q => if q = p then 1 else 0) ⟨p, hp, by simp⟩ (M.e p p)
  refine ⟨e, he, ?_⟩
  have hm := Finset.mem_range.2 hp
  have l1 : length2 x.vals.length (fun q => if q = p then (1 : ℝ) else 0) = 1 := by
    unfold length2
    rw [← Finset.add_sum_erase _ _ hm, Finset.sum_eq_zero fun q hq => by simp [Finset.ne_of_mem_erase hq]]
    simp
  have ap : ∀ q, applied x.vals.length M (fun q => if q = p then (1 : ℝ) else 0) q = (M.e q p + M.e p q) / 2 := fun q => by
    unfold applied
    rw [← Finset.add_sum_erase _ _ hm, Finset.sum_eq_zero fun q hq => by simp [Finset.ne_of_mem_erase hq]]
    simp
  rw [l1, mul_one] at hle
  refine hle.trans (le_of_eq ?_)
  unfold length2
  rw [← Finset.add_sum_erase _ _ hm]
  beta_reduce
  rw [ap, if_pos rfl, mul_one, add_self_div_two, sub_self, zero_pow two_ne_zero, zero_add]
  refine Finset.sum_congr rfl fun q hq => ?_
  rw [ap, if_neg (Finset.ne_of_mem_erase hq), mul_zero, sub_zero, add_comm]

/-- C136: the expectation value `mean` of the energy in a state of length 1 is not below the lowest level of that angular momentum, and
if it is below a number `b` that no other level lies below, it is above the lowest level by at most the square of the spread of the
energy in that state divided by `b - mean` (Temple's inequality). -/
theorem C136_temple {env : XEnv} (hla : LinAlgOk env.la) {ham : OperatorSum} (ht : Op_Tame ham = true) {a : XArgs} {s s1 : FState}
    (hs : MemoOk env s.xs) {r : List LEig} (hr : DigXspace env ham a s = (.ok r, s1)) {x : LEig} (hx : x ∈ r) {M : Arr}
    (hM : (RepXspace env ham (a.at x.L) s.xs).1 = .ok M) {w : ℕ → ℝ} (hw : length2 M.rows w = 1) {lo : ℝ} {rest : List ℝ}
    (hlo : x.vals = lo :: rest) :
    lo ≤ meanOf M.rows M w ∧ ∀ b, (∀ e ∈ rest, b ≤ e) → meanOf M.rows M w < b →
      meanOf M.rows M w - lo ≤
        (length2 M.rows fun p => applied M.rows M w p - meanOf M.rows M w * w p) / (b - meanOf M.rows M w) := by
  obtain ⟨n, M', v, e1, hsq, hv, hmon, h⟩ := trial_levels hla ht hs hr hx
  rw [hM] at e1
  injection e1 with e1
  subst e1
  rw [hsq.1] at hw ⊢
  obtain ⟨c, c1, c2, c3⟩ := h w
  set μ := meanOf n M w with hμ
  have c3 := c3 μ
  generalize length2 n (fun p => applied n M w p - μ * w p) = σ at c3 ⊢
  rw [hw] at c1
  have hn : n = rest.length + 1 := by
    have := congrArg List.length (hv.symm.trans hlo)
    simpa using this
  have h0 : v 0 = lo := by
    have := hv.symm.trans hlo
    rw [hn, List.range_succ_eq_map, List.map_cons] at this
    exact (List.cons.inj this).1
  have hrest : rest = (List.range rest.length).map (fun i => v (i + 1)) := by
    have := hv.symm.trans hlo
    rw [hn, List.range_succ_eq_map, List.map_cons, List.map_map] at this
    exact (List.cons.inj this).2.symm
  constructor
  · have : ∑ i : Fin n, lo * c i ^ 2 ≤ ∑ i : Fin n, v i * c i ^ 2 := Finset.sum_le_sum fun i _ =>
      mul_le_mul_of_nonneg_right (by rw [← h0]; exact hmon _ _ (Nat.zero_le _) i.2) (sq_nonneg _)
    rw [← Finset.mul_sum, c1, c2, mul_one] at this
    exact this
  · intro b hb hlt
    have hpos : ∀ i : Fin n, 0 ≤ (v i - lo) * (v i - b) * c i ^ 2 := fun i => by
      refine mul_nonneg ?_ (sq_nonneg _)
      rcases Nat.eq_zero_or_pos (i : ℕ) with hi | hi
      · rw [hi, h0]; simp
      · refine mul_nonneg (sub_nonneg.2 (by rw [← h0]; exact hmon _ _ (Nat.zero_le _) i.2)) (sub_nonneg.2 (hb _ ?_))
        rw [hrest]
        refine List.mem_map.2 ⟨i - 1, List.mem_range.2 (by have := i.2; omega), ?_⟩
        rw [Nat.sub_add_cancel hi]
    have hsum := Finset.sum_nonneg fun i (_ : i ∈ (Finset.univ : Finset (Fin n))) => hpos i
    have e : ∑ i : Fin n, (v i - lo) * (v i - b) * c i ^ 2 =
        ∑ i : Fin n, (v i - μ) ^ 2 * c i ^ 2 + (2 * μ - lo - b) * (∑ i : Fin n, v i * c i ^ 2) + (lo * b - μ ^ 2) * ∑ i, c i ^ 2 := by
      rw [Finset.mul_sum, Finset.mul_sum, ← Finset.sum_add_distrib, ← Finset.sum_add_distrib]
      exact Finset.sum_congr rfl fun i _ => by ring
    rw [e, c1, c2, c3] at hsum
    rw [le_div_iff₀ (sub_pos.2 hlt)]
    nlinarith

/-- The hypotheses are met: a calculation with an operator whose matrix is not diagonal, and a basis state as the trial state. -/
example {la : LinAlg} (hla : LinAlgOk la) : ∃ (A : OperatorSum) (a : XArgs) (s s1 : FState) (M : Arr) (r : List LEig) (x : LEig),
    Op_Tame A = true ∧ MemoOk ⟨fileCG onesFS none, la⟩ s.xs ∧ (RepXspace ⟨fileCG onesFS none, la⟩ A a s.xs).1 = .ok M ∧ M.e 1 0 ≠ 0 ∧
    DigXspace ⟨fileCG onesFS none, la⟩ A a s = (.ok r, s1) ∧ x ∈ r ∧
    ∀ n, length2 (n + 1) (fun q => if q = 0 then 1 else 0) = 1 := by
  obtain ⟨A, _, _, a, s, sA, _, _, M, rA, _, _, x, _, _, _, _, h1, _, _, _, h2, h3, h4, h5, _, _, h6, _⟩ := comb_meets hla 2
  exact ⟨A, a, s, sA, M, rA, x, h1, h2, h3, h4, h5, h6, fun n => by simp [length2]⟩

end Acm.Props
