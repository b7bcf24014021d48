import Verif.Props.Residual
import Verif.Spec.MinMax
import Mathlib.LinearAlgebra.Matrix.Gershgorin

/-!
# C137: where the levels lie
-/

namespace Acm.Props

open Acm.Spec

/-- C137: every level lies near some diagonal element of the matrix of the Hamiltonian, at most as far as the sum of the absolute values
of the other elements of that row of the symmetrised matrix (Gershgorin). -/
theorem C137_rows {env : XEnv} (hla : LinAlgOk env.la) {ham : OperatorSum} (ht : Op_Tame ham = true) {a : XArgs} {s s1 : FState}
    (hs : MemoOk env s.xs) {r : List LEig} (hr : DigXspace env ham a s = (.ok r, s1)) {x : LEig} (hx : x ∈ r) {M : Arr}
    (hM : (RepXspace env ham (a.at x.L) s.xs).1 = .ok M) {e : ℝ} (he : e ∈ x.vals) :
    ∃ p < M.rows, |e - M.e p p| ≤ ∑ q ∈ (Finset.range M.rows).erase p, |(M.e p q + M.e q p) / 2| := by
  obtain ⟨M', v, P, e1, hsq, hv, p1, p2, -⟩ := level_matrix hla ht hs hr hx
  rw [hM] at e1
  injection e1 with e1
  subst e1
  rw [hsq.1]
  generalize (a.at x.L).dim = n at *
  rw [hv] at he
  obtain ⟨k, hk, rfl⟩ := List.mem_map.1 he
  rw [List.mem_range] at hk
  have hP' := mul_eq_one_comm.1 p1
  set H := (1 / 2 : ℝ) • (mat n M + (mat n M).transpose) with hH
  have hHP : H * P = P * Matrix.diagonal fun i : Fin n => v i := by
    rw [← p2, ← Matrix.mul_assoc, ← Matrix.mul_assoc, hP', Matrix.one_mul]
  have hev : Module.End.HasEigenvalue (Matrix.toLin' H) (v k) := by
    refine Module.End.hasEigenvalue_of_hasEigenvector (x := fun p => P p ⟨k, hk⟩) ⟨Module.End.mem_eigenspace_iff.2 ?_, fun h0 => ?_⟩
    · funext p
      have := congrFun (congrFun hHP p) ⟨k, hk⟩
      rw [Matrix.mul_diagonal, Matrix.mul_apply] at this
      rw [Matrix.toLin'_apply, Pi.smul_apply, smul_eq_mul, mul_comm]
      exact this
    · have := congrFun (congrFun p1 ⟨k, hk⟩) ⟨k, hk⟩
      rw [Matrix.mul_apply, Matrix.one_apply_eq] at this
      refine zero_ne_one (α := ℝ) (Eq.trans ?_ this)
      refine (Finset.sum_eq_zero fun q _ => ?_).symm
      rw [show P q ⟨k, hk⟩ = 0 from congrFun h0 q, mul_zero]
  obtain ⟨p, hp⟩ := eigenvalue_mem_ball hev
  refine ⟨p, p.2, ?_⟩
  have hel : ∀ i j : Fin n, H i j = (M.e i j + M.e j i) / 2 := fun i j => by
    simp only [hH, Matrix.smul_apply, Matrix.add_apply, Matrix.transpose_apply, mat, Matrix.of_apply, smul_eq_mul]
    ring
  rw [Metric.mem_closedBall, Real.dist_eq, hel, add_self_div_two] at hp
  refine hp.trans (le_of_eq ?_)
  have hp' := Finset.mem_range.2 p.2
  have l := Finset.add_sum_erase (Finset.range n) (fun q => |(M.e p q + M.e q p) / 2|) hp'
  have l' := Finset.add_sum_erase Finset.univ (fun q : Fin n => ‖H p q‖) (Finset.mem_univ p)
  rw [Finset.sum_range] at l
  simp only [hel, Real.norm_eq_abs] at l' ⊢
  linarith

/-- C137: if the mean value of the energy in every combination of `k + 1` unrelated states is at most `m`, so is level `k`, counted from
0 (upper bounds for excited states). -/
theorem C137_upper {env : XEnv} (hla : LinAlgOk env.la) {ham : OperatorSum} (ht : Op_Tame ham = true) {a : XArgs} {s s1 : FState}
    (hs : MemoOk env s.xs) {r : List LEig} (hr : DigXspace env ham a s = (.ok r, s1)) {x : LEig} (hx : x ∈ r) {M : Arr}
    (hM : (RepXspace env ham (a.at x.L) s.xs).1 = .ok M) {k : ℕ} {w : Fin (k + 1) → ℕ → ℝ} (hw : Unrelated M.rows w) {m : ℝ}
    (hm : ∀ c, meanOf M.rows M (blend w c) ≤ m * length2 M.rows (blend w c)) : ∃ e, x.vals[k]? = some e ∧ e ≤ m := by
  obtain ⟨M', v, P, e1, hsq, hv, p1, p2, p3⟩ := level_matrix hla ht hs hr hx
  rw [hM] at e1
  injection e1 with e1
  subst e1
  rw [hsq.1] at hw hm
  generalize (a.at x.L).dim = n at *
  have hlin : ∀ (c d : Fin (k + 1) → ℝ) (p : ℕ), blend w (c + d) p = blend w c p + blend w d p := fun c d p => by
    simp only [blend, Pi.add_apply, add_mul, Finset.sum_add_distrib]
  have hsm : ∀ (t : ℝ) (c : Fin (k + 1) → ℝ) (p : ℕ), blend w (t • c) p = t * blend w c p := fun t c p => by
    simp only [blend, Pi.smul_apply, smul_eq_mul, Finset.mul_sum, mul_assoc]
  let B : (Fin (k + 1) → ℝ) →ₗ[ℝ] (Fin n → ℝ) :=
    { toFun := fun c p => blend w c p
      map_add' := fun c d => by funext p; exact hlin c d p
      map_smul' := fun t c => by funext p; exact hsm t c p }
  have hB : ∀ c, B c = 0 → c = 0 := fun c hc => hw c fun p hp => congrFun hc ⟨p, hp⟩
  have hk : k < n := by
    by_contra hk
    have : LinearMap.ker B ≠ ⊥ := by
      apply LinearMap.ker_ne_bot_of_finrank_lt
      simp only [Module.finrank_fin_fun]
      omega
    exact this (LinearMap.ker_eq_bot'.2 hB)
  refine ⟨v k, by rw [hv]; simp [hk], ?_⟩
  let T : (Fin (k + 1) → ℝ) →ₗ[ℝ] (Fin k → ℝ) :=
    (LinearMap.funLeft ℝ ℝ fun i : Fin k => (⟨i, i.2.trans hk⟩ : Fin n)) ∘ₗ (Matrix.toLin' P.transpose) ∘ₗ B
  have hT : LinearMap.ker T ≠ ⊥ := by
    apply LinearMap.ker_ne_bot_of_finrank_lt
    simp only [Module.finrank_fin_fun]
    omega
  obtain ⟨c, hc, hc0⟩ := Submodule.exists_mem_ne_zero_of_ne_bot hT
  rw [LinearMap.mem_ker] at hc
  obtain ⟨t1, t2, -⟩ := trial p1 p2 fun q : Fin n => blend w c q
  simp only [applied_eq] at t2
  have m1 : length2 n (blend w c) = ∑ p : Fin n, blend w c p ^ 2 := by rw [length2, Finset.sum_range]
  have m2 : meanOf n M (blend w c) = ∑ p : Fin n, blend w c p * applied n M (blend w c) p := by rw [meanOf, Finset.sum_range]
  have hmc := hm c
  rw [m1, m2, ← t2, ← t1] at hmc
  have hpos : 0 < ∑ i, (P.transpose.mulVec fun q : Fin n => blend w c q) i ^ 2 := by
    rw [t1]
    refine lt_of_le_of_ne (Finset.sum_nonneg fun _ _ => sq_nonneg _) fun h0 => hc0 (hB c ?_)
    funext p
    have := (Finset.sum_eq_zero_iff_of_nonneg fun _ _ => sq_nonneg _).1 h0.symm p (Finset.mem_univ p)
    exact pow_eq_zero_iff two_ne_zero |>.1 this
  have hle : v k * ∑ i, (P.transpose.mulVec fun q : Fin n => blend w c q) i ^ 2 ≤
      ∑ i : Fin n, v i * (P.transpose.mulVec fun q : Fin n => blend w c q) i ^ 2 := by
    rw [Finset.mul_sum]
    refine Finset.sum_le_sum fun i _ => ?_
    by_cases hi : (i : ℕ) < k
    · have : (P.transpose.mulVec fun q : Fin n => blend w c q) i = 0 := congrFun hc ⟨i, hi⟩
      rw [this]
      simp
    · exact mul_le_mul_of_nonneg_right (p3 _ _ (not_lt.1 hi) i.2) (sq_nonneg _)
  exact le_of_mul_le_mul_right (hle.trans hmc) hpos

/-- C137: if it is at least `m` in all these combinations, so is level `k` counted from the highest one. -/
theorem C137_lower {env : XEnv} (hla : LinAlgOk env.la) {ham : OperatorSum} (ht : Op_Tame ham = true) {a : XArgs} {s s1 : FState}
    (hs : MemoOk env s.xs) {r : List LEig} (hr : DigXspace env ham a s = (.ok r, s1)) {x : LEig} (hx : x ∈ r) {M : Arr}
    (hM : (RepXspace env ham (a.at x.L) s.xs).1 = .ok M) {k : ℕ} {w : Fin (k + 1) → ℕ → ℝ} (hw : Unrelated M.rows w) {m : ℝ}
    (hm : ∀ c, m * length2 M.rows (blend w c) ≤ meanOf M.rows M (blend w c)) : ∃ e, x.vals.reverse[k]? = some e ∧ m ≤ e := by
  obtain ⟨M', v, P, e1, hsq, hv, p1, p2, p3⟩ := level_matrix hla ht hs hr hx
  rw [hM] at e1
  injection e1 with e1
  subst e1
  rw [hsq.1] at hw hm
  generalize (a.at x.L).dim = n at *
  have hlin : ∀ (c d : Fin (k + 1) → ℝ) (p : ℕ), blend w (c + d) p = blend w c p + blend w d p := fun c d p => by
    simp only [blend, Pi.add_apply, add_mul, Finset.sum_add_distrib]
  have hsm : ∀ (t : ℝ) (c : Fin (k + 1) → ℝ) (p : ℕ), blend w (t • c) p = t * blend w c p := fun t c p => by
    simp only [blend, Pi.smul_apply, smul_eq_mul, Finset.mul_sum, mul_assoc]
  let B : (Fin (k + 1) → ℝ) →ₗ[ℝ] (Fin n → ℝ) :=
    { toFun := fun c p => blend w c p
      map_add' := fun c d => by funext p; exact hlin c d p
      map_smul' := fun t c => by funext p; exact hsm t c p }
  have hB : ∀ c, B c = 0 → c = 0 := fun c hc => hw c fun p hp => congrFun hc ⟨p, hp⟩
  have hk : k < n := by
    by_contra hk
    have : LinearMap.ker B ≠ ⊥ := by
      apply LinearMap.ker_ne_bot_of_finrank_lt
      simp only [Module.finrank_fin_fun]
      omega
    exact this (LinearMap.ker_eq_bot'.2 hB)
  refine ⟨v (n - 1 - k), by rw [hv, List.getElem?_reverse (by simpa using hk)]; simp [show n - 1 - k < n by omega], ?_⟩
  let T : (Fin (k + 1) → ℝ) →ₗ[ℝ] (Fin k → ℝ) :=
    (LinearMap.funLeft ℝ ℝ fun i : Fin k => (⟨n - 1 - i, by omega⟩ : Fin n)) ∘ₗ (Matrix.toLin' P.transpose) ∘ₗ B
  have hT : LinearMap.ker T ≠ ⊥ := by
    apply LinearMap.ker_ne_bot_of_finrank_lt
    simp only [Module.finrank_fin_fun]
    omega
  obtain ⟨c, hc, hc0⟩ := Submodule.exists_mem_ne_zero_of_ne_bot hT
  rw [LinearMap.mem_ker] at hc
  obtain ⟨t1, t2, -⟩ := trial p1 p2 fun q : Fin n => blend w c q
  simp only [applied_eq] at t2
  have m1 : length2 n (blend w c) = ∑ p : Fin n, blend w c p ^ 2 := by rw [length2, Finset.sum_range]
  have m2 : meanOf n M (blend w c) = ∑ p : Fin n, blend w c p * applied n M (blend w c) p := by rw [meanOf, Finset.sum_range]
  have hmc := hm c
  rw [m1, m2, ← t2, ← t1] at hmc
  have hpos : 0 < ∑ i, (P.transpose.mulVec fun q : Fin n => blend w c q) i ^ 2 := by
    rw [t1]
    refine lt_of_le_of_ne (Finset.sum_nonneg fun _ _ => sq_nonneg _) fun h0 => hc0 (hB c ?_)
    funext p
    have := (Finset.sum_eq_zero_iff_of_nonneg fun _ _ => sq_nonneg _).1 h0.symm p (Finset.mem_univ p)
    exact pow_eq_zero_iff two_ne_zero |>.1 this
  have hle : ∑ i : Fin n, v i * (P.transpose.mulVec fun q : Fin n => blend w c q) i ^ 2 ≤
      v (n - 1 - k) * ∑ i, (P.transpose.mulVec fun q : Fin n => blend w c q) i ^ 2 := by
    rw [Finset.mul_sum]
    refine Finset.sum_le_sum fun i _ => ?_
    by_cases hi : n - 1 - k < (i : ℕ)
    · have h0 : (P.transpose.mulVec fun q : Fin n => blend w c q) ⟨n - 1 - (n - 1 - i), by omega⟩ = 0 :=
        congrFun hc ⟨n - 1 - i, by omega⟩
      have : (⟨n - 1 - (n - 1 - i), by omega⟩ : Fin n) = i := Fin.ext (by show n - 1 - (n - 1 - (i : ℕ)) = i; omega)
      rw [this] at h0
      rw [h0]
      simp
    · exact mul_le_mul_of_nonneg_right (p3 _ _ (not_lt.1 hi) (by omega)) (sq_nonneg _)
  exact le_of_mul_le_mul_right (hmc.trans hle) hpos

/-- C137: and there are such states for which the upper bound is the level itself (Courant and Fischer). -/
theorem C137_attained {env : XEnv} (hla : LinAlgOk env.la) {ham : OperatorSum} (ht : Op_Tame ham = true) {a : XArgs} {s s1 : FState}
    (hs : MemoOk env s.xs) {r : List LEig} (hr : DigXspace env ham a s = (.ok r, s1)) {x : LEig} (hx : x ∈ r) {M : Arr}
    (hM : (RepXspace env ham (a.at x.L) s.xs).1 = .ok M) {k : ℕ} {e : ℝ} (he : x.vals[k]? = some e) :
    ∃ w : Fin (k + 1) → ℕ → ℝ, Unrelated M.rows w ∧
      ∀ c, meanOf M.rows M (blend w c) ≤ e * length2 M.rows (blend w c) := by
  obtain ⟨M', v, P, e1, hsq, hv, p1, p2, p3⟩ := level_matrix hla ht hs hr hx
  rw [hM] at e1
  injection e1 with e1
  subst e1
  rw [hsq.1]
  generalize (a.at x.L).dim = n at *
  obtain ⟨hk, hke⟩ : k < n ∧ v k = e := by
    rw [hv, List.getElem?_map] at he
    by_cases hk : k < n
    · rw [List.getElem?_range hk] at he
      exact ⟨hk, Option.some.inj he⟩
    · rw [List.getElem?_eq_none (by simpa using hk)] at he
      cases he
  have inj : ∀ i : Fin (k + 1), (i : ℕ) < n := fun i => lt_of_lt_of_le i.2 hk
  let w : Fin (k + 1) → ℕ → ℝ := fun i p => if hp : p < n then P ⟨p, hp⟩ ⟨i, inj i⟩ else 0
  have hrot : ∀ (c : Fin (k + 1) → ℝ) (j : Fin n), (P.transpose.mulVec fun q : Fin n => blend w c q) j =
      if hj : (j : ℕ) < k + 1 then c ⟨j, hj⟩ else 0 := fun c j => by
    have : (fun q : Fin n => blend w c q) = fun q => ∑ i, c i * P q ⟨i, inj i⟩ := by
      funext q
      exact Finset.sum_congr rfl fun i _ => by simp [w]
    rw [this, Matrix.mulVec, dotProduct]
    simp only [Matrix.transpose_apply, Finset.mul_sum]
    rw [Finset.sum_comm]
    have hor : ∀ i : Fin (k + 1), ∑ q, P q j * (c i * P q ⟨i, inj i⟩) = c i * (if j = ⟨i, inj i⟩ then 1 else 0) := fun i => by
      have := congrFun (congrFun p1 j) ⟨i, inj i⟩
      rw [Matrix.mul_apply, Matrix.one_apply] at this
      rw [← this, Finset.mul_sum]
      exact Finset.sum_congr rfl fun q _ => by rw [Matrix.transpose_apply]; ring
    rw [Finset.sum_congr rfl fun i _ => hor i]
    split_ifs with hj
    · rw [Finset.sum_eq_single ⟨j, hj⟩]
      · simp
      · intro i _ hi
        rw [if_neg, mul_zero]
        intro h
        exact hi (Fin.ext (congrArg Fin.val h).symm)
      · exact fun h => absurd (Finset.mem_univ _) h
    · refine Finset.sum_eq_zero fun i _ => ?_
      rw [if_neg, mul_zero]
      intro h
      exact hj (by rw [h]; exact i.2)
  refine ⟨w, fun c hc => ?_, fun c => ?_⟩
  · funext i
    have h1 := hrot c ⟨i, inj i⟩
    rw [dif_pos i.2] at h1
    have : (fun q : Fin n => blend w c q) = 0 := funext fun q => hc q q.2
    rw [this, Matrix.mulVec_zero] at h1
    exact h1.symm
  · obtain ⟨t1, t2, -⟩ := trial p1 p2 fun q : Fin n => blend w c q
    simp only [applied_eq] at t2
    rw [length2, Finset.sum_range, meanOf, Finset.sum_range, ← t2, ← t1, Finset.mul_sum]
    refine Finset.sum_le_sum fun j _ => ?_
    by_cases hj : (j : ℕ) < k + 1
    · exact mul_le_mul_of_nonneg_right (hke ▸ p3 _ _ (by omega) hk) (sq_nonneg _)
    · rw [hrot, dif_neg hj]
      simp

/-- The hypotheses are met: a calculation with an operator whose matrix is not diagonal, and one of its energies. -/
example {la : LinAlg} (hla : LinAlgOk la) : ∃ (A : OperatorSum) (a : XArgs) (s s1 : FState) (M : Arr) (r : List LEig) (x : LEig),
    Op_Tame A = true ∧ MemoOk ⟨fileCG onesFS none, la⟩ s.xs ∧ (RepXspace ⟨fileCG onesFS none, la⟩ A a s.xs).1 = .ok M ∧ M.e 1 0 ≠ 0 ∧
    DigXspace ⟨fileCG onesFS none, la⟩ A a s = (.ok r, s1) ∧ x ∈ r := by
  obtain ⟨A, _, _, a, s, sA, _, _, M, rA, _, _, x, _, _, _, _, h1, _, _, _, h2, h3, h4, h5, _, _, h6, _⟩ := comb_meets hla 2
  exact ⟨A, a, s, sA, M, rA, x, h1, h2, h3, h4, h5, h6⟩

/-- The first two basis states of a space of dimension at least 2 are unrelated. -/
example (n : ℕ) (hn : 2 ≤ n) : Unrelated n (fun i p => if p = (i : ℕ) then 1 else 0 : Fin 2 → ℕ → ℝ) := by
  intro c hc
  have h0 := hc 0 (by omega)
  have h1 := hc 1 (by omega)
  simp [blend] at h0 h1
  funext i
  fin_cases i
  · exact h0
  · exact h1

end Acm.Props
