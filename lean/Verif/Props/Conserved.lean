import Verif.Props.Perturb
import Verif.Spec.Conserved

/-!
# C138: amplitudes between states of different energy, and quantities that are conserved
-/

namespace Acm.Props

open Acm.Spec

/-- The sum of the squares of the elements does not change under a rotation. -/
theorem rotated_squares {n : ℕ} {P : Matrix (Fin n) (Fin n) ℝ} (hP : P.transpose * P = 1) (K : Matrix (Fin n) (Fin n) ℝ) :
    ∑ i, ∑ j, (P.transpose * K * P) i j ^ 2 = ∑ i, ∑ j, K i j ^ 2 := by
  have tr : ∀ A : Matrix (Fin n) (Fin n) ℝ, ∑ i, ∑ j, A i j ^ 2 = (A * A.transpose).trace := fun A => by
    refine Finset.sum_congr rfl fun i _ => ?_
    rw [Matrix.diag_apply, Matrix.mul_apply]
    exact Finset.sum_congr rfl fun j _ => by rw [Matrix.transpose_apply, sq]
  have hP' := mul_eq_one_comm.1 hP
  have : P.transpose * K * P * (P.transpose * K * P).transpose = P.transpose * (K * K.transpose * P) := by
    simp only [Matrix.transpose_mul, Matrix.transpose_transpose, Matrix.mul_assoc]
    rw [← Matrix.mul_assoc P P.transpose, hP', Matrix.one_mul]
  rw [tr, tr, this, Matrix.trace_mul_comm, Matrix.mul_assoc, hP', Matrix.mul_one]

theorem bracketOf_eq {n : ℕ} (M N : Arr) (p q : Fin n) : bracketOf n M N p q =
    (((1 / 2 : ℝ) • (mat n M + (mat n M).transpose)) * mat n N - mat n N * ((1 / 2 : ℝ) • (mat n M + (mat n M).transpose))) p q := by
  rw [bracketOf, Finset.sum_range, Matrix.sub_apply, Matrix.mul_apply, Matrix.mul_apply, ← Finset.sum_sub_distrib]
  refine Finset.sum_congr rfl fun k _ => ?_
  simp only [Matrix.smul_apply, Matrix.add_apply, Matrix.transpose_apply, mat, Matrix.of_apply, smul_eq_mul]
  ring

/-- The commutator between eigenstates: the amplitude times the difference of the energies. -/
theorem bracket_levels {n : ℕ} {v : ℕ → ℝ} {H N P : Matrix (Fin n) (Fin n) ℝ} (hP : P.transpose * P = 1)
    (hd : P.transpose * H * P = Matrix.diagonal fun i : Fin n => v i) (f i : Fin n) :
    (P.transpose * (H * N - N * H) * P) f i = (v f - v i) * (P.transpose * N * P) f i := by
  have hP' := mul_eq_one_comm.1 hP
  have e : P.transpose * (H * N - N * H) * P = P.transpose * H * P * (P.transpose * N * P) - P.transpose * N * P * (P.transpose * H * P) := by
    rw [Matrix.mul_sub, Matrix.sub_mul]
    congr 1
    · rw [← Matrix.mul_assoc, ← Matrix.mul_assoc, ← Matrix.mul_assoc, Matrix.mul_assoc (P.transpose * H) P, hP', Matrix.mul_one]
    · rw [← Matrix.mul_assoc, ← Matrix.mul_assoc, ← Matrix.mul_assoc, Matrix.mul_assoc (P.transpose * N) P, hP', Matrix.mul_one]
  rw [e, hd, Matrix.sub_apply, Matrix.diagonal_mul, Matrix.mul_diagonal]
  ring

/-- C138: the squares of the amplitudes of a scalar operator between the states of one angular momentum, with the squares of the
differences of the energies as weights, add up to the sum of the squares of the elements of the commutator with the Hamiltonian. -/
theorem C138_weighted {env : FEnv} (hla : LinAlgOk env.x.la) {fs : FileSys} {dir : Option (List Char)} (hcg : env.x.CG = fileCG fs dir)
    {A B : OperatorSum} (hA : Op_Tame A = true) (hB : Op_AM B = 0) {a : XArgs} {s s1 t : FState} (hs : MemoOk env.x s.xs)
    (hm : MemoOk env.x t.xs) (hlam : t.xs.lam_fun = s.xs.lam_fun) {r : List LEig} (hr : DigXspace env.x A a s = (.ok r, s1))
    {R : LBlockArray} (hR : (AmpXspeig env B (r.map LEig.basis) a (r.map LEig.L) t).1 = .ok R) {x : LEig} (hx : x ∈ r) :
    ∃ M N G, (RepXspace env.x A (a.at x.L) s.xs).1 = .ok M ∧ (RepXspace env.x B (a.at x.L) s.xs).1 = .ok N ∧
      R.get_block x.L x.L = .ok G ∧ M.rows = x.vals.length ∧
      ∑ f : Fin x.vals.length, ∑ i : Fin x.vals.length, (x.vals[f] - x.vals[i]) ^ 2 * G.e f i ^ 2 =
        ∑ p ∈ Finset.range M.rows, ∑ q ∈ Finset.range M.rows, bracketOf M.rows M N p q ^ 2 := by
  obtain ⟨M, v, e1, hsq, -, hv, -, -, p1, p2, -⟩ := level_basis hla hA hs hr hx
  obtain ⟨N, G, e2, e3, -, -, hG⟩ := diag_block hla hcg hA hB hs hm hlam hr hR hx
  have hval : ∀ f : Fin x.vals.length, x.vals[f] = v f := fun f => by
    have := List.getElem_of_eq hv f.2
    rw [List.getElem_map, List.getElem_range] at this
    exact this
  refine ⟨M, N, G, e1, e2, e3, hsq.1, ?_⟩
  rw [hsq.1, Finset.sum_range]
  simp only [Finset.sum_range, bracketOf_eq]
  rw [← rotated_squares p1]
  refine Finset.sum_congr rfl fun f _ => Finset.sum_congr rfl fun i _ => ?_
  rw [bracket_levels p1 p2, hG, hval, hval]
  ring

/-- C138: the matrix of a scalar operator commutes with that of the Hamiltonian exactly when its amplitudes between states of different
energy vanish. -/
theorem C138_conserved {env : FEnv} (hla : LinAlgOk env.x.la) {fs : FileSys} {dir : Option (List Char)} (hcg : env.x.CG = fileCG fs dir)
    {A B : OperatorSum} (hA : Op_Tame A = true) (hB : Op_AM B = 0) {a : XArgs} {s s1 t : FState} (hs : MemoOk env.x s.xs)
    (hm : MemoOk env.x t.xs) (hlam : t.xs.lam_fun = s.xs.lam_fun) {r : List LEig} (hr : DigXspace env.x A a s = (.ok r, s1))
    {R : LBlockArray} (hR : (AmpXspeig env B (r.map LEig.basis) a (r.map LEig.L) t).1 = .ok R) {x : LEig} (hx : x ∈ r) :
    ∃ M N G, (RepXspace env.x A (a.at x.L) s.xs).1 = .ok M ∧ (RepXspace env.x B (a.at x.L) s.xs).1 = .ok N ∧
      R.get_block x.L x.L = .ok G ∧ M.rows = x.vals.length ∧
      ((∀ p < M.rows, ∀ q < M.rows, bracketOf M.rows M N p q = 0) ↔
        ∀ f i : Fin x.vals.length, x.vals[f] ≠ x.vals[i] → G.e f i = 0) := by
  obtain ⟨M, N, G, e1, e2, e3, e4, h⟩ := C138_weighted hla hcg hA hB hs hm hlam hr hR hx
  refine ⟨M, N, G, e1, e2, e3, e4, fun h0 f i hfi => ?_, fun h0 p hp q hq => ?_⟩
  · have z : ∑ p ∈ Finset.range M.rows, ∑ q ∈ Finset.range M.rows, bracketOf M.rows M N p q ^ 2 = 0 :=
      Finset.sum_eq_zero fun p hp => Finset.sum_eq_zero fun q hq => by
        rw [h0 p (Finset.mem_range.1 hp) q (Finset.mem_range.1 hq)]; norm_num
    rw [z] at h
    have h1 := (Finset.sum_eq_zero_iff_of_nonneg fun _ _ => Finset.sum_nonneg fun _ _ => by positivity).1 h f (Finset.mem_univ f)
    have h2 := (Finset.sum_eq_zero_iff_of_nonneg fun _ _ => by positivity).1 h1 i (Finset.mem_univ i)
    rcases mul_eq_zero.1 h2 with h3 | h3
    · exact absurd (sub_eq_zero.1 (pow_eq_zero_iff two_ne_zero |>.1 h3)) hfi
    · exact pow_eq_zero_iff two_ne_zero |>.1 h3
  · rw [Finset.sum_eq_zero fun f _ => Finset.sum_eq_zero fun i _ => by
      by_cases hfi : x.vals[f] = x.vals[i]
      · rw [hfi, sub_self]; norm_num
      · rw [h0 f i hfi]; norm_num] at h
    have h1 := (Finset.sum_eq_zero_iff_of_nonneg fun _ _ => Finset.sum_nonneg fun _ _ => sq_nonneg _).1 h.symm p (Finset.mem_range.2 hp)
    exact pow_eq_zero_iff two_ne_zero |>.1 ((Finset.sum_eq_zero_iff_of_nonneg fun _ _ => sq_nonneg _).1 h1 q (Finset.mem_range.2 hq))

/-- A Hamiltonian on two states whose matrix does not commute with the seniority. -/
theorem conserved_meets {la : LinAlg} (hla : LinAlgOk la) : ∃ (s sA : FState) (M N : Arr) (r : List LEig) (R : LBlockArray) (x : LEig),
    Op_Tame (ACM_Hamiltonian (c30 := kC 1)) = true ∧ Op_AM [(SENIORITY, [])] = 0 ∧ MemoOk ⟨fileCG onesFS none, la⟩ s.xs ∧
    DigXspace ⟨fileCG onesFS none, la⟩ (ACM_Hamiltonian (c30 := kC 1)) twoStates s = (.ok r, sA) ∧
    (AmpXspeig ⟨⟨fileCG onesFS none, la⟩, fun _ _ => 0⟩ [(SENIORITY, [])] (r.map LEig.basis) twoStates (r.map LEig.L) s).1 = .ok R ∧
    x ∈ r ∧ x.vals.length = 2 ∧
    (RepXspace ⟨fileCG onesFS none, la⟩ (ACM_Hamiltonian (c30 := kC 1)) (twoStates.at x.L) s.xs).1 = .ok M ∧
    (RepXspace ⟨fileCG onesFS none, la⟩ [(SENIORITY, [])] (twoStates.at x.L) s.xs).1 = .ok N ∧ bracketOf 2 M N 1 0 ≠ 0 := by
  obtain ⟨s, M, rA, sA, hm, hlam, ha, hn, hp, hp1, hM, h10, hr⟩ := twoStates_meets hla
  have ht : Op_Tame (ACM_Hamiltonian (c30 := kC 1)) = true := by
    have h1 : kC 1 ≠ (0 : Coeff) := fun h => by have := congrFun h (0, 0, 0, 0); simp [kC] at this
    have hop : ACM_Hamiltonian (c30 := kC 1) = [(kC 1 * kC Convert_310, [.rad .b, .harm .y310])] := by
      simp [ACM_Hamiltonian, addTerm, h1]
    rw [hop]; rfl
  obtain ⟨N, hN0, -, hNe⟩ := allMat_diag (env := ⟨fileCG onesFS none, la⟩) ha s.glb.lam_fun (ls := fun v => v % 2)
    (fun v h1 _ => by
      rw [hlam]
      obtain ⟨n, rfl⟩ := Int.eq_ofNat_of_zero_le (show 0 ≤ v from h1)
      rw [show lambda_acm_fun (n : Int) = .ok ((n % 2 : ℕ) : Int) from (C48_simple n).2.2.1]
      push_cast
      rfl)
    (fun v h1 _ => by
      have h2 : (0 : ℝ) ≤ ((v % 2 : Int) : ℝ) := by exact_mod_cast Int.emod_nonneg v (by norm_num)
      linarith) (op := [(SENIORITY, [])]) (by simp [Diagonal])
  have hN : (RepXspace ⟨fileCG onesFS none, la⟩ [(SENIORITY, [])] twoStates s.xs).1 = .ok N := (rep_eq ha hm _).trans hN0
  obtain ⟨ho, hd⟩ := C32_partial ht ha hm hr
  have hLs : rA.map LEig.L = [0] := by rw [occupied_eq ha ho]; decide +kernel
  obtain ⟨x, hx, ex⟩ : ∃ x ∈ rA, x.L = 0 := List.mem_map.1 (hLs ▸ List.mem_singleton_self (0 : Int))
  have hat : twoStates.at 0 = twoStates := rfl
  have hb : List.Forall₂ (fun P L => P.cols = P.rows ∧ dimXspace twoStates.nu_min twoStates.nu_max twoStates.v_min twoStates.v_max L none =
      .ok (P.rows : Int)) (rA.map LEig.basis) (rA.map LEig.L) := by
    rw [List.forall₂_map_left_iff, List.forall₂_map_right_iff, List.forall₂_same]
    intro x hx
    obtain ⟨k1, k2, _⟩ := basis_shape hla ht hm hr hx
    exact ⟨by rw [k1, k2], by rw [k1]; exact (hd x hx).1⟩
  obtain ⟨R, hR, _⟩ := C73_blocks (env := ⟨⟨fileCG onesFS none, la⟩, fun _ _ => 0⟩) hla ha ho (l0 := 0) (l1 := 0)
    (by rw [hLs]; rfl) (by rw [hLs]; rfl) hb hm hN
  have hdim : twoStates.dim = 2 := by rw [← length_xlabels]; decide +kernel
  obtain ⟨_, _, _, _, hx2, _⟩ := level_basis hla ht hm hr hx
  rw [ex, hat, hdim] at hx2
  have hsym : M.e 0 1 = M.e 1 0 := by
    have h := C97_acm_partial ha hn hp hp1 onesFS none hla hm hlam 0 0 0 0 0 1 0 0 0 0 0 (M := M) (by
      rw [show kC 0 = (0 : Coeff) from rfl]
      exact hM)
    have hsq := allMat_square ha ((rep_eq ha hm _).symm.trans hM)
    exact h 0 (by rw [hsq.1, hdim]; decide) 1 (by rw [hsq.1, hdim]; decide)
  refine ⟨s, sA, M, N, rA, R, x, ht, rfl, hm, hr, hR, hx, hx2.symm, by rw [ex, hat]; exact hM, by rw [ex, hat]; exact hN, ?_⟩
  have e00 := hNe 0 0 _ (by rw [hdim]; decide) (show twoStates.xlabels[0]? = some (0, 0, 1, 0) by decide +kernel)
  have e10 := hNe 1 0 _ (by rw [hdim]; decide) (show twoStates.xlabels[0]? = some (0, 0, 1, 0) by decide +kernel)
  have e11 := hNe 1 1 _ (by rw [hdim]; decide) (show twoStates.xlabels[1]? = some (0, 3, 1, 0) by decide +kernel)
  simp [valueAt, SENIORITY] at e00 e10 e11
  simp [bracketOf, Finset.sum_range_succ, hsym, e00, e10, e11, h10]

/-- The hypotheses are met: the seniority is not conserved, so that it connects two levels of different energies. -/
example {la : LinAlg} (hla : LinAlgOk la) : ∃ (s sA : FState) (r : List LEig) (R : LBlockArray) (x : LEig) (G : Arr),
    DigXspace ⟨fileCG onesFS none, la⟩ (ACM_Hamiltonian (c30 := kC 1)) twoStates s = (.ok r, sA) ∧
    (AmpXspeig ⟨⟨fileCG onesFS none, la⟩, fun _ _ => 0⟩ [(SENIORITY, [])] (r.map LEig.basis) twoStates (r.map LEig.L) s).1 = .ok R ∧
    x ∈ r ∧ R.get_block x.L x.L = .ok G ∧ ∃ f i : Fin x.vals.length, x.vals[f] ≠ x.vals[i] ∧ G.e f i ≠ 0 := by
  obtain ⟨s, sA, M, N, r, R, x, h1, h2, h3, h4, h5, h6, h7, h8, h9, hb⟩ := conserved_meets hla
  obtain ⟨M', N', G, e1, e2, e3, e4, h⟩ := C138_conserved (env := ⟨⟨fileCG onesFS none, la⟩, fun _ _ => 0⟩) hla rfl h1 h2 h3 h3 rfl h4 h5 h6
  cases e1.symm.trans h8
  cases e2.symm.trans h9
  refine ⟨s, sA, r, R, x, G, h4, h5, h6, e3, ?_⟩
  by_contra hc
  push Not at hc
  have := h.2 hc 1 (by rw [e4, h7]; decide) 0 (by rw [e4, h7]; decide)
  rw [e4, h7] at this
  exact hb this

end Acm.Props
