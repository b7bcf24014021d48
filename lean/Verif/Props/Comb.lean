import Verif.Lemmas.Weyl
import Verif.Props.Diagonal
import Verif.Props.Mirror
import Verif.Spec.Comb

/-!
# C112: sum rules, and C113: energies of a sum of Hamiltonians
-/

namespace Acm.Props

open Acm.Spec

/-! ### linear combinations of operators -/

theorem coef_cons (t : Coeff × OperatorProduct) (op : OperatorSum) (w : OperatorProduct) (x : Int × Int × Int × Int) :
    coef (t :: op) w x = (if t.2 = w then t.1 x else 0) + coef op w x := by
  unfold coef
  by_cases h : t.2 = w
  · rw [List.filter_cons_of_pos (by simpa using h), List.map_cons, List.sum_cons, if_pos h]
  · rw [List.filter_cons_of_neg (by simpa using h), if_neg h, zero_add]

theorem coef_append (A B : OperatorSum) (w : OperatorProduct) (x : Int × Int × Int × Int) :
    coef (A ++ B) w x = coef A w x + coef B w x := by
  unfold coef
  rw [List.filter_append, List.map_append, List.sum_append]

theorem coef_times (c : ℝ) (op : OperatorSum) (w : OperatorProduct) (x : Int × Int × Int × Int) :
    coef (ctimes c op) w x = c * coef op w x := by
  induction op with
  | nil => simp [ctimes, coef]
  | cons t op ih =>
    rw [show ctimes c (t :: op) = (fun x => c * t.1 x, t.2) :: ctimes c op from rfl, coef_cons, coef_cons, ih]
    dsimp only
    split_ifs <;> ring

theorem coef_sum (S : Finset OperatorProduct) (g : OperatorProduct → ℝ) (x : Int × Int × Int × Int) :
    ∀ op : OperatorSum, (∀ t ∈ op, t.2 ∈ S) → (op.map fun t => t.1 x * g t.2).sum = ∑ w ∈ S, coef op w x * g w := by
  intro op
  induction op with
  | nil => intro _; simp [coef]
  | cons t op ih =>
    intro h
    rw [List.map_cons, List.sum_cons, ih fun u hu => h u (List.mem_cons_of_mem _ hu)]
    simp only [coef_cons, add_mul, Finset.sum_add_distrib, ite_mul, zero_mul]
    rw [Finset.sum_ite_eq, if_pos (h t List.mem_cons_self)]

theorem zipWith_map_self {α β γ : Type} (f : α → β → γ) (g : α → β) (l : List α) :
    List.zipWith f l (l.map g) = l.map fun x => f x (g x) := by
  induction l with
  | nil => rfl
  | cons x l ih => rw [List.map_cons, List.zipWith_cons_cons, ih, List.map_cons]

/-- C112: the matrix of a linear combination of operators is the linear combination of their matrices. -/
theorem C112_matrix {env : XEnv} {a : XArgs} (h : LegalRanges a) {s : XState} (hs : MemoOk env s) {c d : ℝ} {A B C : OperatorSum}
    (hc : IsComb c d A B C) {MA MB : Arr} (hA : (RepXspace env A a s).1 = .ok MA) (hB : (RepXspace env B a s).1 = .ok MB) :
    ∃ M, (RepXspace env C a s).1 = .ok M ∧ M.rows = MA.rows ∧ M.cols = MA.cols ∧ ∀ p q, M.e p q = c * MA.e p q + d * MB.e p q := by
  have pA := (C30_exists h hs A).1 ⟨_, hA⟩
  have pB := (C30_exists h hs B).1 ⟨_, hB⟩
  have pC : ∀ t ∈ C, ∃ P, (RepXspace_Prod env t.2 a s).1 = .ok P := by
    intro t ht
    obtain ⟨q, hq, e⟩ := hc.2 t ht
    rw [← e]
    rcases List.mem_append.1 hq with h | h
    · exact pA q h
    · exact pB q h
  obtain ⟨M, hM⟩ := (C30_exists h hs C).2 pC
  let g : OperatorProduct → Arr := fun w => match (RepXspace_Prod env w a s).1 with
    | .ok P => P
    | .error _ => Arr.zeros 0 0
  have hg : ∀ op : OperatorSum, (∀ t ∈ op, ∃ P, (RepXspace_Prod env t.2 a s).1 = .ok P) →
      List.Forall₂ (fun t P => (RepXspace_Prod env t.2 a s).1 = .ok P) op (op.map fun t => g t.2) := by
    intro op hp
    rw [List.forall₂_map_right_iff, List.forall₂_same]
    intro t ht
    obtain ⟨P, hP⟩ := hp t ht
    rw [hP]
    refine congrArg Except.ok ?_
    show P = g t.2
    simp only [g, hP]
  have hx := lbsXspace_ok h
  obtain ⟨s1, f1⟩ := C30_sum h hs hA hx (hg A pA)
  obtain ⟨s2, f2⟩ := C30_sum h hs hB hx (hg B pB)
  obtain ⟨s3, f3⟩ := C30_sum h hs hM hx (hg C pC)
  refine ⟨M, hM, by rw [s3.1, s1.1], by rw [s3.2.1, s1.2.1], fun p q => ?_⟩
  by_cases hp : p < a.xlabels.length ∧ q < a.xlabels.length
  · have hq : a.xlabels[q]? = some a.xlabels[q] := List.getElem?_eq_getElem hp.2
    rw [f1 p q _ hp.1 hq, f2 p q _ hp.1 hq, f3 p q _ hp.1 hq, zipWith_map_self, zipWith_map_self, zipWith_map_self]
    set S := ((A ++ B).map Prod.snd).toFinset with hS
    have mem : ∀ t ∈ A ++ B, t.2 ∈ S := fun t ht => by
      rw [hS, List.mem_toFinset]
      exact List.mem_map_of_mem ht
    rw [coef_sum S (fun w => (g w).e p q) _ A fun t ht => mem t (List.mem_append_left _ ht),
      coef_sum S (fun w => (g w).e p q) _ B fun t ht => mem t (List.mem_append_right _ ht),
      coef_sum S (fun w => (g w).e p q) _ C fun t ht => by
        obtain ⟨q, hq, e⟩ := hc.2 t ht
        rw [← e]
        exact mem q hq, Finset.mul_sum, Finset.mul_sum, ← Finset.sum_add_distrib]
    refine Finset.sum_congr rfl fun w _ => ?_
    rw [hc.1]
    ring
  · rw [s1.2.2 p q (by tauto), s2.2.2 p q (by tauto), s3.2.2 p q (by tauto)]
    ring

/-- C112: the terms of two operators with `c` and `d` times their coefficients make such a combination. -/
theorem C112_combination (c d : ℝ) (A B : OperatorSum) : IsComb c d A B (ctimes c A ++ ctimes d B) := by
  refine ⟨fun w x => by rw [coef_append, coef_times, coef_times], fun p hp => ?_⟩
  rcases List.mem_append.1 hp with h | h
  · obtain ⟨q, hq, rfl⟩ := List.mem_map.1 h
    exact ⟨q, List.mem_append_left _ hq, rfl⟩
  · obtain ⟨q, hq, rfl⟩ := List.mem_map.1 h
    exact ⟨q, List.mem_append_right _ hq, rfl⟩

theorem coef_addTerm (op : OperatorSum) (c k : Coeff) (p w : OperatorProduct) (x : Int × Int × Int × Int) :
    coef (addTerm op c (c * k) p) w x = coef op w x + if p = w then c x * k x else 0 := by
  unfold addTerm
  by_cases hc : c = 0
  · rw [if_neg (by simpa using hc), hc]
    simp
  · rw [if_pos hc, coef_append, coef_cons]
    simp [coef]

theorem comb_addTerm {s t : ℝ} {A B C : OperatorSum} (h : IsComb s t A B C) (c d k : Coeff) (p : OperatorProduct) :
    IsComb s t (addTerm A c (c * k) p) (addTerm B d (d * k) p) (addTerm C (kC s * c + kC t * d) ((kC s * c + kC t * d) * k) p) := by
  refine ⟨fun w x => ?_, fun q hq => ?_⟩
  · rw [coef_addTerm, coef_addTerm, coef_addTerm, h.1]
    split_ifs
    · simp only [Pi.add_apply, Pi.mul_apply, kC]
      ring
    · ring
  · have sub : ∀ (op : OperatorSum) (c k : Coeff), ∀ q ∈ op, q ∈ addTerm op c k p := fun op c k q hq => by
      unfold addTerm
      split_ifs
      · exact List.mem_append_left _ hq
      · exact hq
    have old : ∀ q ∈ C, ∃ r ∈ addTerm A c (c * k) p ++ addTerm B d (d * k) p, r.2 = q.2 := fun q hq => by
      obtain ⟨r, hr, e⟩ := h.2 q hq
      refine ⟨r, ?_, e⟩
      rcases List.mem_append.1 hr with hr | hr
      · exact List.mem_append_left _ (sub _ _ _ _ hr)
      · exact List.mem_append_right _ (sub _ _ _ _ hr)
    by_cases h0 : kC s * c + kC t * d = 0
    · unfold addTerm at hq
      rw [if_neg (by simpa using h0)] at hq
      exact old q hq
    · have hq' := hq
      unfold addTerm at hq'
      rw [if_pos h0] at hq'
      rcases List.mem_append.1 hq' with hq' | hq'
      · exact old q hq'
      · rw [List.mem_singleton.1 hq']
        by_cases hc : c = 0
        · have hd : d ≠ 0 := fun hd => h0 (by rw [hc, hd]; simp)
          refine ⟨(d * k, p), List.mem_append_right _ ?_, rfl⟩
          unfold addTerm
          rw [if_pos hd]
          simp
        · refine ⟨(c * k, p), List.mem_append_left _ ?_, rfl⟩
          unfold addTerm
          rw [if_pos hc]
          simp

theorem first_terms (c : Coeff) : (open Classical in if c = 0 then []
      else [(c, [OpSym.rad .D2b]), (-c * (2 + SENIORITY * (SENIORITY + 3)), [.rad .bm2])]) =
    addTerm (addTerm [] c (c * 1) [.rad .D2b]) c (c * (-(2 + SENIORITY * (SENIORITY + 3)))) [.rad .bm2] := by
  unfold addTerm
  by_cases hc : c = 0
  · rw [if_pos hc, if_neg (by simpa using hc), if_neg (by simpa using hc)]
  · rw [if_neg hc, if_pos hc, if_pos hc, mul_one, neg_mul, mul_neg]
    rfl

/-- C112: `ACM_Hamiltonian` depends linearly on its coefficients. -/
theorem C112_hamiltonian (s t : ℝ) (c11 c20 c21 c22 c23 c30 c31 c32 c33 c40 c41 c42 c43 c50 : Coeff)
    (d11 d20 d21 d22 d23 d30 d31 d32 d33 d40 d41 d42 d43 d50 : Coeff) :
    IsComb s t (ACM_Hamiltonian c11 c20 c21 c22 c23 c30 c31 c32 c33 c40 c41 c42 c43 c50)
      (ACM_Hamiltonian d11 d20 d21 d22 d23 d30 d31 d32 d33 d40 d41 d42 d43 d50)
      (ACM_Hamiltonian (kC s * c11 + kC t * d11) (kC s * c20 + kC t * d20) (kC s * c21 + kC t * d21) (kC s * c22 + kC t * d22)
        (kC s * c23 + kC t * d23) (kC s * c30 + kC t * d30) (kC s * c31 + kC t * d31) (kC s * c32 + kC t * d32)
        (kC s * c33 + kC t * d33) (kC s * c40 + kC t * d40) (kC s * c41 + kC t * d41) (kC s * c42 + kC t * d42)
        (kC s * c43 + kC t * d43) (kC s * c50 + kC t * d50)) := by
  have one : ∀ (op : OperatorSum) (c : Coeff) (p : OperatorProduct), addTerm op c c p = addTerm op c (c * 1) p := fun op c p => by
    rw [mul_one]
  unfold ACM_Hamiltonian
  simp only [first_terms, one]
  refine comb_addTerm (comb_addTerm (comb_addTerm (comb_addTerm (comb_addTerm (comb_addTerm (comb_addTerm (comb_addTerm (comb_addTerm
    (comb_addTerm (comb_addTerm (comb_addTerm (comb_addTerm (comb_addTerm (comb_addTerm ?_ _ _ _ _) _ _ _ _) _ _ _ _) _ _ _ _) _ _ _ _)
    _ _ _ _) _ _ _ _) _ _ _ _) _ _ _ _) _ _ _ _) _ _ _ _) _ _ _ _) _ _ _ _) _ _ _ _) _ _ _ _
  exact ⟨fun w x => by simp [coef], fun p hp => absurd hp (by simp)⟩

/-! ### energies -/

/-- What is diagonalised: the levels and eigenvectors of one angular momentum. -/
theorem level_matrix {env : XEnv} (hla : LinAlgOk env.la) {ham : OperatorSum} (ht : Op_Tame ham = true) {a : XArgs} {s s1 : FState}
    (hs : MemoOk env s.xs) {r : List LEig} (hr : DigXspace env ham a s = (.ok r, s1)) {x : LEig} (hx : x ∈ r) :
    ∃ (M : Arr) (v : ℕ → ℝ) (P : Matrix (Fin (a.at x.L).dim) (Fin (a.at x.L).dim) ℝ),
      (RepXspace env ham (a.at x.L) s.xs).1 = .ok M ∧ Square (a.at x.L).dim M ∧ x.vals = (List.range (a.at x.L).dim).map v ∧
      P.transpose * P = 1 ∧ P.transpose * ((1 / 2 : ℝ) • (mat (a.at x.L).dim M + (mat (a.at x.L).dim M).transpose)) * P =
        Matrix.diagonal (fun i : Fin (a.at x.L).dim => v i) ∧ ∀ i j, i ≤ j → j < (a.at x.L).dim → v i ≤ v j := by
  have hleg : LegalRanges a := (dig_eig hs hr).1
  obtain ⟨ho, hd⟩ := C32_partial ht hleg hs hr
  obtain ⟨_, M, v, e1, e2, e3⟩ := hd x hx
  have hL : 0 ≤ x.L := by
    have := ((ho.2 x.L).1 (List.mem_map_of_mem hx)).1
    have := hleg.2.2.1
    omega
  have e0 := e1
  rw [rep_eq (legal_at hleg hL) hs] at e0
  have hsq := allMat_square (legal_at hleg hL) e0
  obtain ⟨v', P, k1, _, _, k4, k5, k6⟩ := C70_eigen env.la hla _ M hsq.1 hsq.2.1
  rw [e2] at k1
  injection k1 with k1
  injection k1 with k1 k2
  subst k1 k2
  exact ⟨M, v, _, e1, hsq, by rw [e3, hsq.1], k4, k5, k6⟩

theorem sum_vals {n : ℕ} {xs : List ℝ} {v : ℕ → ℝ} (h : xs = (List.range n).map v) (f : ℝ → ℝ) :
    (xs.map f).sum = ∑ i : Fin n, f (v i) := by
  have : ∀ n : ℕ, ((List.range n).map (f ∘ v)).sum = ∑ i ∈ Finset.range n, f (v i) := by
    intro n
    induction n with
    | zero => rfl
    | succ n ih => rw [List.range_succ, List.map_append, List.sum_append, ih, Finset.sum_range_succ]; simp
  rw [h, List.map_map, this, Finset.sum_range]

/-- C112: the energies of one angular momentum add up to the trace of the matrix of the Hamiltonian, and their squares to the sum of the
squares of the elements of the symmetrised matrix. -/
theorem C112_energies {env : XEnv} (hla : LinAlgOk env.la) {ham : OperatorSum} (ht : Op_Tame ham = true) {a : XArgs} {s s1 : FState}
    (hs : MemoOk env s.xs) {r : List LEig} (hr : DigXspace env ham a s = (.ok r, s1)) {x : LEig} (hx : x ∈ r) :
    ∃ M, (RepXspace env ham (a.at x.L) s.xs).1 = .ok M ∧ M.rows = x.vals.length ∧ M.cols = x.vals.length ∧
      x.vals.sum = ∑ i ∈ Finset.range x.vals.length, M.e i i ∧
      (x.vals.map (· ^ 2)).sum =
        ∑ i ∈ Finset.range x.vals.length, ∑ j ∈ Finset.range x.vals.length, ((M.e i j + M.e j i) / 2) ^ 2 := by
  obtain ⟨M, v, P, e1, hsq, hv, p1, p2, _⟩ := level_matrix hla ht hs hr hx
  have hn : x.vals.length = (a.at x.L).dim := by rw [hv]; simp
  obtain ⟨t1, t2⟩ := trace_eig p1 p2
  refine ⟨M, e1, by rw [hsq.1, hn], by rw [hsq.2.1, hn], ?_, ?_⟩
  · have := sum_vals hv id
    rw [List.map_id] at this
    rw [this, hn, Finset.sum_range]
    refine t1.trans (Finset.sum_congr rfl fun i _ => ?_)
    simp only [Matrix.smul_apply, Matrix.add_apply, Matrix.transpose_apply, mat, Matrix.of_apply, smul_eq_mul]
    ring
  · rw [sum_vals hv (· ^ 2), hn, Finset.sum_range]
    refine t2.trans (Finset.sum_congr rfl fun i _ => ?_)
    rw [Finset.sum_range]
    refine Finset.sum_congr rfl fun j _ => ?_
    simp only [Matrix.smul_apply, Matrix.add_apply, Matrix.transpose_apply, mat, Matrix.of_apply, smul_eq_mul]
    ring

theorem comb_tame {c d : ℝ} {A B C : OperatorSum} (hc : IsComb c d A B C) (hA : Op_Tame A = true) (hB : Op_Tame B = true) :
    Op_Tame C = true := by
  rw [C63_tame] at hA hB ⊢
  intro t ht
  obtain ⟨q, hq, e⟩ := hc.2 t ht
  rw [← e]
  rcases List.mem_append.1 hq with h | h
  · exact hA q h
  · exact hB q h

theorem digTame_total_occ {env : XEnv} {ts : OperatorSum} {a : XArgs} (h : LegalRanges a) :
    ∀ (Ls : List Int), (∀ L ∈ Ls, 0 ≤ L) → ∀ (s : FState), FOk env s →
      (∀ L ∈ Ls, a.occ L = true → ∃ M, allMat env (a.at L) ts s.glb.lam_fun = .ok M) →
      ∃ r s', digTame env ts a Ls s = (.ok r, s') := by
  intro Ls
  induction Ls with
  | nil => intro _ s _ _; exact ⟨[], s, rfl⟩
  | cons L Ls ih =>
    intro hLs s hs hM
    have hL := hLs L List.mem_cons_self
    have ih := ih fun M hM => hLs M (List.mem_cons_of_mem _ hM)
    rw [digTame, rngV_at h hL, st_lift_ok]
    split_ifs with hpos
    · obtain ⟨s1, e1, hok, hg, _⟩ := liftX_rep (legal_at h hL) hs ts
      obtain ⟨M, hM1⟩ := hM L List.mem_cons_self (by
        unfold XArgs.occ
        simpa using hpos)
      rw [hM1] at e1
      have hsq := allMat_square (legal_at h hL) hM1
      obtain ⟨v, P, _, e2⟩ := Eigenlist_ok env.la hsq.1 hsq.2.1
      obtain ⟨r, s2, e3⟩ := ih s1 hok fun K hK => by
        rw [hg]
        exact hM K (List.mem_cons_of_mem _ hK)
      exact ⟨_, s2, by rw [st_bind_ok e1, e2, st_lift_ok, st_bind_ok e3]; rfl⟩
    · exact ih s hs fun K hK => hM K (List.mem_cons_of_mem _ hK)

/-- C112: if `DigXspace` succeeds for two Hamiltonians, it does for every linear combination, and finds the same angular momenta. -/
theorem C112_exists {env : XEnv} {A B C : OperatorSum} {c d : ℝ} (hc : IsComb c d A B C)
    (hA : Op_Tame A = true) (hB : Op_Tame B = true) {a : XArgs} {s sA sB : FState} (hs : MemoOk env s.xs) {rA rB : List LEig}
    (dA : DigXspace env A a s = (.ok rA, sA)) (dB : DigXspace env B a s = (.ok rB, sB)) :
    ∃ rC sC, DigXspace env C a s = (.ok rC, sC) ∧ rC.map LEig.L = rA.map LEig.L ∧ rB.map LEig.L = rA.map LEig.L := by
  have hleg : LegalRanges a := (dig_eig hs dA).1
  have hC := comb_tame hc hA hB
  obtain ⟨oA, eA⟩ := C32_partial hA hleg hs dA
  obtain ⟨oB, eB⟩ := C32_partial hB hleg hs dB
  obtain ⟨rC, sC, dC⟩ : ∃ rC sC, DigXspace env C a s = (.ok rC, sC) := by
    unfold DigXspace
    rw [check_ok hleg, st_lift_ok, if_pos hC]
    refine digTame_total_occ hleg _ (range_nonneg hleg) s hs fun L hL hocc => ?_
    have h0 := range_nonneg hleg L hL
    have mem : ∀ {r : List LEig}, OccupiedL a (r.map LEig.L) → ∃ x ∈ r, x.L = L := fun {r} ho => by
      have : L ∈ r.map LEig.L := by
        rw [occupied_eq hleg ho]
        exact List.mem_filter.2 ⟨hL, hocc⟩
      exact List.mem_map.1 this
    obtain ⟨x, hx, e1⟩ := mem oA
    obtain ⟨y, hy, e2⟩ := mem oB
    obtain ⟨_, MA, _, kA, _⟩ := eA x hx
    obtain ⟨_, MB, _, kB, _⟩ := eB y hy
    rw [e1] at kA
    rw [e2] at kB
    obtain ⟨M, hM, _⟩ := C112_matrix (legal_at hleg h0) hs hc kA kB
    rw [rep_eq (legal_at hleg h0) hs] at hM
    exact ⟨M, hM⟩
  obtain ⟨oC, _⟩ := C32_partial hC hleg hs dC
  exact ⟨rC, sC, dC, by rw [occupied_eq hleg oC, occupied_eq hleg oA], by rw [occupied_eq hleg oB, occupied_eq hleg oA]⟩

theorem comb_levels {env : XEnv} (hla : LinAlgOk env.la) {A B C : OperatorSum} {c d : ℝ} (hc : IsComb c d A B C)
    (hA : Op_Tame A = true) (hB : Op_Tame B = true) {a : XArgs} {s sA sB sC : FState} (hs : MemoOk env s.xs) {rA rB rC : List LEig}
    (dA : DigXspace env A a s = (.ok rA, sA)) (dB : DigXspace env B a s = (.ok rB, sB)) (dC : DigXspace env C a s = (.ok rC, sC))
    {x y z : LEig} (hx : x ∈ rA) (hy : y ∈ rB) (hz : z ∈ rC) (hxy : y.L = x.L) (hxz : z.L = x.L) :
    ∃ (n : ℕ) (α β γ : ℕ → ℝ) (HA HB PA PB PC : Matrix (Fin n) (Fin n) ℝ), x.vals = (List.range n).map α ∧
      y.vals = (List.range n).map β ∧ z.vals = (List.range n).map γ ∧ PA.transpose * PA = 1 ∧ PB.transpose * PB = 1 ∧
      PC.transpose * PC = 1 ∧ PA.transpose * HA * PA = Matrix.diagonal (fun i : Fin n => α i) ∧
      PB.transpose * HB * PB = Matrix.diagonal (fun i : Fin n => β i) ∧
      PC.transpose * (c • HA + d • HB) * PC = Matrix.diagonal (fun i : Fin n => γ i) ∧ (∀ i j, i ≤ j → j < n → α i ≤ α j) ∧
      (∀ i j, i ≤ j → j < n → β i ≤ β j) ∧ ∀ i j, i ≤ j → j < n → γ i ≤ γ j := by
  have hleg : LegalRanges a := (dig_eig hs dA).1
  have hC := comb_tame hc hA hB
  obtain ⟨oA, _⟩ := C32_partial hA hleg hs dA
  have h0 : 0 ≤ x.L := by
    have := ((oA.2 x.L).1 (List.mem_map_of_mem hx)).1
    have := hleg.2.2.1
    omega
  obtain ⟨MA, α, PA, a1, a2, a3, a4, a5, a6⟩ := level_matrix hla hA hs dA hx
  obtain ⟨MB, β, PB, b1, b2, b3, b4, b5, b6⟩ := level_matrix hla hB hs dB hy
  obtain ⟨MC, γ, PC, c1, c2, c3, c4, c5, c6⟩ := level_matrix hla hC hs dC hz
  obtain ⟨xL, xv, xb⟩ := x
  obtain ⟨yL, yv, yb⟩ := y
  obtain ⟨zL, zv, zb⟩ := z
  dsimp only at *
  subst hxy hxz
  obtain ⟨M, hM, _, _, e⟩ := C112_matrix (legal_at hleg h0) hs hc a1 b1
  rw [c1] at hM
  injection hM with hM
  subst hM
  refine ⟨_, α, β, γ, _, _, PA, PB, PC, a3, b3, c3, a4, b4, c4, a5, b5, ?_, a6, b6, c6⟩
  rw [← c5]
  congr 2
  ext i j
  simp only [Matrix.smul_apply, Matrix.add_apply, Matrix.transpose_apply, mat, Matrix.of_apply, smul_eq_mul, e]
  ring

/-- C112: the sum of the energies of one angular momentum is linear in the Hamiltonian. -/
theorem C112_linear {env : XEnv} (hla : LinAlgOk env.la) {A B C : OperatorSum} {c d : ℝ} (hc : IsComb c d A B C)
    (hA : Op_Tame A = true) (hB : Op_Tame B = true) {a : XArgs} {s sA sB sC : FState} (hs : MemoOk env s.xs) {rA rB rC : List LEig}
    (dA : DigXspace env A a s = (.ok rA, sA)) (dB : DigXspace env B a s = (.ok rB, sB)) (dC : DigXspace env C a s = (.ok rC, sC))
    {x y z : LEig} (hx : x ∈ rA) (hy : y ∈ rB) (hz : z ∈ rC) (hxy : y.L = x.L) (hxz : z.L = x.L) :
    z.vals.sum = c * x.vals.sum + d * y.vals.sum := by
  obtain ⟨n, α, β, γ, HA, HB, PA, PB, PC, e1, e2, e3, p1, p2, p3, q1, q2, q3, _⟩ := comb_levels hla hc hA hB hs dA dB dC hx hy hz hxy hxz
  have k1 := sum_vals e1 id
  have k2 := sum_vals e2 id
  have k3 := sum_vals e3 id
  rw [List.map_id] at k1 k2 k3
  rw [k1, k2, k3]
  simp only [id]
  rw [(trace_eig p1 q1).1, (trace_eig p2 q2).1, (trace_eig p3 q3).1]
  simp only [Matrix.smul_apply, Matrix.add_apply, smul_eq_mul, Finset.sum_add_distrib, Finset.mul_sum]

/-! ### transitions -/

theorem sum_squares {n m : ℕ} {P : Matrix (Fin n) (Fin n) ℝ} {Q : Matrix (Fin m) (Fin m) ℝ} (hP : P.transpose * P = 1)
    (hQ : Q.transpose * Q = 1) (T : Matrix (Fin n) (Fin m) ℝ) :
    ∑ i, ∑ j, (P.transpose * T * Q) i j ^ 2 = ∑ i, ∑ j, T i j ^ 2 := by
  have h1 := sum_trace (P.transpose * T * Q) (fun _ => 1) (fun _ => 1)
  have h2 := sum_trace T (fun _ => 1) (fun _ => 1)
  rw [show (Matrix.diagonal fun _ : Fin n => (1 : ℝ)) = 1 from Matrix.diagonal_one,
    show (Matrix.diagonal fun _ : Fin m => (1 : ℝ)) = 1 from Matrix.diagonal_one] at h1 h2
  simp only [one_mul, Matrix.one_mul, Matrix.mul_one] at h1 h2
  rw [h1, h2, Matrix.transpose_mul, Matrix.transpose_mul, Matrix.transpose_transpose,
    show P.transpose * T * Q * (Q.transpose * (T.transpose * P)) = P.transpose * (T * (Q * Q.transpose) * T.transpose) * P by
      simp only [Matrix.mul_assoc], mul_eq_one_comm.1 hQ, Matrix.mul_one, Matrix.trace_mul_comm, ← Matrix.mul_assoc,
    mul_eq_one_comm.1 hP, Matrix.one_mul]

theorem basis_shape {env : XEnv} (hla : LinAlgOk env.la) {ham : OperatorSum} (ht : Op_Tame ham = true) {a : XArgs} {s s1 : FState}
    (hs : MemoOk env s.xs) {r : List LEig} (hr : DigXspace env ham a s = (.ok r, s1)) {x : LEig} (hx : x ∈ r) :
    x.basis.rows = x.vals.length ∧ x.basis.cols = x.vals.length ∧
      (mat x.vals.length x.basis).transpose * mat x.vals.length x.basis = 1 := by
  have hleg : LegalRanges a := (dig_eig hs hr).1
  obtain ⟨_, hd⟩ := C32_partial ht hleg hs hr
  obtain ⟨_, M, v, _, e2, e3⟩ := hd x hx
  have : Eigenlist env.la M = .ok (x.vals, x.basis) := by
    unfold Eigenlist
    rw [e2, py_bind_ok, e3]
    rfl
  obtain ⟨_, _, _, k1, k2, _, _, k3, _⟩ := twoBases hla hla (x := x) (y := x) ⟨rfl, rfl, M, this, this⟩
  exact ⟨k1, k2, k3⟩

/-- C112: the sum of the squares of all elements of a transition operator between two angular momenta, and the sum of its diagonal
elements, do not depend on the Hamiltonian whose eigenvectors are used. -/
theorem C112_strength {env : FEnv} (hla : LinAlgOk env.x.la) {ham ham' op : OperatorSum} (ht : Op_Tame ham = true)
    (ht' : Op_Tame ham' = true) {a : XArgs} {s s' s1 s1' : FState} (hs : MemoOk env.x s.xs) (hs' : MemoOk env.x s'.xs) {r r' : List LEig}
    (hr : DigXspace env.x ham a s = (.ok r, s1)) (hr' : DigXspace env.x ham' a s' = (.ok r', s1')) {t : FState}
    (hm : MemoOk env.x t.xs) {R : LBlockArray} (hR : (AmpXspeig env op (r.map LEig.basis) a (r.map LEig.L) t).1 = .ok R) :
    ∃ R', (AmpXspeig env op (r'.map LEig.basis) a (r'.map LEig.L) t).1 = .ok R' ∧ R'.full_space = R.full_space ∧
      ∀ x ∈ r, ∀ y ∈ r, ∃ B B', R.get_block x.L y.L = .ok B ∧ R'.get_block x.L y.L = .ok B' ∧
        (B.rows = x.vals.length ∧ B.cols = y.vals.length) ∧ (B'.rows = x.vals.length ∧ B'.cols = y.vals.length) ∧
        ∑ f : Fin x.vals.length, ∑ i : Fin y.vals.length, B.e f i ^ 2 = ∑ f : Fin x.vals.length, ∑ i : Fin y.vals.length, B'.e f i ^ 2 ∧
        (x = y → ∑ f : Fin x.vals.length, B.e f f = ∑ f : Fin x.vals.length, B'.e f f) := by
  obtain ⟨⟨CG, la⟩, j⟩ := env
  have hleg : LegalRanges a := (dig_eig hs hr).1
  obtain ⟨ho, hd⟩ := C32_partial ht hleg hs hr
  obtain ⟨ho', hd'⟩ := C32_partial ht' hleg hs' hr'
  have hLs : r'.map LEig.L = r.map LEig.L := by rw [occupied_eq hleg ho, occupied_eq hleg ho']
  have hne := amp_some hR
  obtain ⟨l0, h0⟩ : ∃ l0, (r.map LEig.L).head? = some l0 := by
    cases hh : r.map LEig.L with
    | nil => exact absurd hh hne
    | cons l ls => exact ⟨l, rfl⟩
  obtain ⟨l1, h1⟩ : ∃ l1, (r.map LEig.L).getLast? = some l1 := ⟨_, List.getLast?_eq_some_getLast hne⟩
  have hR0 := hR
  rw [(amp_eq hleg ho h0 h1 hm _).1] at hR0
  obtain ⟨T, hT, hTR⟩ := py_bind_eq_ok hR0
  clear hTR
  have hT1 : (RepXspace ⟨CG, la⟩ op ⟨a.anorm, a.lambda_base, a.nu_min, a.nu_max, a.v_min, a.v_max, l0, l1⟩ t.xs).1 = .ok T := by
    show (RepXspace ⟨CG, la⟩ op (XArgs.narrow a l0 l1) t.xs).1 = .ok T
    rw [rep_eq (narrow_legal hleg ho h0 h1) hm]
    exact hT
  have hb : List.Forall₂ (fun P L => P.cols = P.rows ∧ dimXspace a.nu_min a.nu_max a.v_min a.v_max L none = .ok (P.rows : Int))
      (r.map LEig.basis) (r.map LEig.L) := by
    rw [List.forall₂_map_left_iff, List.forall₂_map_right_iff, List.forall₂_same]
    intro x hx
    obtain ⟨k1, k2, _⟩ := basis_shape hla ht hs hr hx
    exact ⟨by rw [k1, k2], by rw [k1]; exact (hd x hx).1⟩
  have hb' : List.Forall₂ (fun P L => P.cols = P.rows ∧ dimXspace a.nu_min a.nu_max a.v_min a.v_max L none = .ok (P.rows : Int))
      (r'.map LEig.basis) (r'.map LEig.L) := by
    rw [List.forall₂_map_left_iff, List.forall₂_map_right_iff, List.forall₂_same]
    intro x hx
    obtain ⟨k1, k2, _⟩ := basis_shape hla ht' hs' hr' hx
    exact ⟨by rw [k1, k2], by rw [k1]; exact (hd' x hx).1⟩
  obtain ⟨R1, e1, n1, r1, c1, b1⟩ := C73_blocks (env := ⟨⟨CG, la⟩, j⟩) hla hleg ho h0 h1 hb hm hT1
  obtain ⟨R2, e2, n2, r2, c2, b2⟩ := C73_blocks (env := ⟨⟨CG, la⟩, j⟩) hla hleg ho' (by rw [hLs]; exact h0) (by rw [hLs]; exact h1)
    hb' hm hT1
  rw [hR] at e1
  injection e1 with e1
  subst e1
  have nn : R2.full_space = R.full_space := by
    rw [hLs, n1] at n2
    injection n2 with n2
    exact n2.symm
  refine ⟨R2, e2, nn, fun x hx y hy => ?_⟩
  have find : ∀ z ∈ r, ∃ z' ∈ r', z'.L = z.L := fun z hz => by
    have : z.L ∈ r'.map LEig.L := by
      rw [hLs]
      exact List.mem_map_of_mem hz
    exact List.mem_map.1 this
  obtain ⟨x', hx', lx⟩ := find x hx
  obtain ⟨y', hy', ly⟩ := find y hy
  have dim : ∀ z ∈ r, ∀ z' ∈ r', z'.L = z.L → z'.vals.length = z.vals.length := fun z hz z' hz' e => by
    have k1 := (hd z hz).1
    have k2 := (hd' z' hz').1
    rw [e, k1] at k2
    injection k2 with k2
    omega
  have dx := dim x hx x' hx' lx
  have dy := dim y hy y' hy' ly
  obtain ⟨p1, p2, p3⟩ := basis_shape hla ht hs hr hx
  obtain ⟨q1, q2, q3⟩ := basis_shape hla ht hs hr hy
  obtain ⟨p1', p2', p3'⟩ := basis_shape hla ht' hs' hr' hx'
  obtain ⟨q1', q2', q3'⟩ := basis_shape hla ht' hs' hr' hy'
  rw [dx] at p1' p2' p3'
  rw [dy] at q1' q2' q3'
  have mx' := pair_mem hx'
  have my' := pair_mem hy'
  rw [lx] at mx'
  rw [ly] at my'
  obtain ⟨B, t1, G, g1, g2, g3, g4⟩ := b1 _ _ _ _ (pair_mem hx) (pair_mem hy)
  obtain ⟨B', t2, G', g1', g2', g3', g4'⟩ := b2 _ _ _ _ mx' my'
  have hBc : B.cols = y.vals.length := by
    rw [get_block_cols t1 g1 c1, g3]
    exact q2
  rw [nn, t1] at t2
  injection t2 with t2
  subst t2
  have i1 := hla.inv_shape _ _ p1 p2
  have i1' := hla.inv_shape _ _ p1' p2'
  have en : ∀ (f : Fin x.vals.length) (i : Fin y.vals.length), G.e f i = ((mat x.vals.length x.basis).transpose *
      (Matrix.of fun (i : Fin x.vals.length) (j : Fin y.vals.length) => B.e i j) * mat y.vals.length y.basis) f i := by
    intro f i
    rw [g4 f i (lt_of_lt_of_eq f.2 i1.1.symm) (lt_of_lt_of_eq i.2 q2.symm)]
    exact block_entry hla p1 p2 p3 hBc q2 f i
  have en' : ∀ (f : Fin x.vals.length) (i : Fin y.vals.length), G'.e f i = ((mat x.vals.length x'.basis).transpose *
      (Matrix.of fun (i : Fin x.vals.length) (j : Fin y.vals.length) => B.e i j) * mat y.vals.length y'.basis) f i := by
    intro f i
    rw [g4' f i (lt_of_lt_of_eq f.2 i1'.1.symm) (lt_of_lt_of_eq i.2 q2'.symm)]
    exact block_entry hla p1' p2' p3' hBc q2' f i
  refine ⟨G, G', g1, g1', ⟨g2.trans i1.1, g3.trans q2⟩, ⟨g2'.trans i1'.1, g3'.trans q2'⟩, ?_, fun hxy => ?_⟩
  · simp only [en, en']
    rw [sum_squares p3 q3, sum_squares p3' q3']
  · subst hxy
    have hxy' : x' = y' := by
      have hn : (r'.map LEig.L).Nodup := by
        rw [hLs]
        exact ho.1.imp fun hlt => ne_of_lt hlt
      exact List.inj_on_of_nodup_map hn hx' hy' (by rw [lx, ly])
    subst hxy'
    simp only [en, en']
    have tr : ∀ (P T : Matrix (Fin x.vals.length) (Fin x.vals.length) ℝ), P.transpose * P = 1 →
        ∑ f, (P.transpose * T * P) f f = T.trace := fun P T hP => by
      rw [show ∑ f, (P.transpose * T * P) f f = (P.transpose * T * P).trace from rfl, Matrix.trace_mul_comm, ← Matrix.mul_assoc,
        mul_eq_one_comm.1 hP, Matrix.one_mul]
    rw [tr _ _ p3, tr _ _ p3']

/-! ### the energies of a sum of Hamiltonians -/

theorem get_vals {n : ℕ} {xs : List ℝ} {v : ℕ → ℝ} (h : xs = (List.range n).map v) {i : ℕ} (hi : i < xs.length) : xs[i] = v i := by
  subst h
  simp

/-- C113: Weyl's inequalities.  Level number `i` of one Hamiltonian and level number `j` of another, with nonnegative coefficients, together
are at most level number `i + j` of the combination; and level number `i` of the combination is at most level number `i + j` of the
one together with the level of the other that has `j` levels above it. -/
theorem C113_weyl {env : XEnv} (hla : LinAlgOk env.la) {A B C : OperatorSum} {c d : ℝ} (h0 : 0 ≤ c) (h0' : 0 ≤ d)
    (hc : IsComb c d A B C) (hA : Op_Tame A = true) (hB : Op_Tame B = true) {a : XArgs} {s sA sB sC : FState} (hs : MemoOk env s.xs)
    {rA rB rC : List LEig} (dA : DigXspace env A a s = (.ok rA, sA)) (dB : DigXspace env B a s = (.ok rB, sB))
    (dC : DigXspace env C a s = (.ok rC, sC)) {x y z : LEig} (hx : x ∈ rA) (hy : y ∈ rB) (hz : z ∈ rC) (hxy : y.L = x.L)
    (hxz : z.L = x.L) :
    ∃ (l1 : y.vals.length = x.vals.length) (l2 : z.vals.length = x.vals.length), ∀ i j, ∀ (hij : i + j < x.vals.length),
      c * x.vals[i] + d * y.vals[j] ≤ z.vals[i + j] ∧ z.vals[i] ≤ c * x.vals[i + j] + d * y.vals[x.vals.length - 1 - j] := by
  obtain ⟨n, α, β, γ, HA, HB, PA, PB, PC, e1, e2, e3, p1, p2, p3, q1, q2, q3, s1, s2, s3⟩ :=
    comb_levels hla hc hA hB hs dA dB dC hx hy hz hxy hxz
  have n1 : x.vals.length = n := by rw [e1]; simp
  have n2 : y.vals.length = n := by rw [e2]; simp
  have n3 : z.vals.length = n := by rw [e3]; simp
  refine ⟨by rw [n1, n2], by rw [n1, n3], fun i j hij => ?_⟩
  obtain ⟨u1, u2⟩ := times_eig q1 s1 c h0
  obtain ⟨w1, w2⟩ := times_eig q2 s2 d h0'
  rw [get_vals e1, get_vals e1, get_vals e2, get_vals e2, get_vals e3, get_vals e3, n1]
  rw [n1] at hij
  exact ⟨weyl (α := fun i => c * α i) (β := fun i => d * β i) rfl p1 u1 p2 w1 p3 q3 u2 w2 s3 hij,
    weyl_upper (α := fun i => c * α i) (β := fun i => d * β i) rfl p1 u1 p2 w1 p3 q3 u2 w2 s3 hij⟩

/-- C113: the lowest energy of each angular momentum is a concave function of the Hamiltonian, the highest a convex one. -/
theorem C113_concave {env : XEnv} (hla : LinAlgOk env.la) {A B C : OperatorSum} {c d : ℝ} (h0 : 0 ≤ c) (h0' : 0 ≤ d)
    (hc : IsComb c d A B C) (hA : Op_Tame A = true) (hB : Op_Tame B = true) {a : XArgs} {s sA sB sC : FState} (hs : MemoOk env s.xs)
    {rA rB rC : List LEig} (dA : DigXspace env A a s = (.ok rA, sA)) (dB : DigXspace env B a s = (.ok rB, sB))
    (dC : DigXspace env C a s = (.ok rC, sC)) {x y z : LEig} (hx : x ∈ rA) (hy : y ∈ rB) (hz : z ∈ rC) (hxy : y.L = x.L)
    (hxz : z.L = x.L) {ex ey ez fx fy fz : ℝ} (m1 : x.vals.head? = some ex) (m2 : y.vals.head? = some ey) (m3 : z.vals.head? = some ez)
    (k1 : x.vals.getLast? = some fx) (k2 : y.vals.getLast? = some fy) (k3 : z.vals.getLast? = some fz) :
    c * ex + d * ey ≤ ez ∧ fz ≤ c * fx + d * fy := by
  obtain ⟨l1, l2, w⟩ := C113_weyl hla h0 h0' hc hA hB hs dA dB dC hx hy hz hxy hxz
  have hpos : 0 < x.vals.length := by
    rw [List.length_pos_iff]
    rintro h
    rw [h] at m1
    cases m1
  rw [List.head?_eq_getElem?] at m1 m2 m3
  rw [List.getLast?_eq_getElem?] at k1 k2 k3
  obtain ⟨_, g1⟩ := List.getElem?_eq_some_iff.1 m1
  obtain ⟨_, g2⟩ := List.getElem?_eq_some_iff.1 m2
  obtain ⟨_, g3⟩ := List.getElem?_eq_some_iff.1 m3
  obtain ⟨_, g4⟩ := List.getElem?_eq_some_iff.1 k1
  obtain ⟨_, g5⟩ := List.getElem?_eq_some_iff.1 k2
  obtain ⟨_, g6⟩ := List.getElem?_eq_some_iff.1 k3
  have w1 := (w 0 0 hpos).1
  have w2 := (w (x.vals.length - 1) 0 (by omega)).2
  simp only [add_zero, Nat.sub_zero] at w1 w2
  simp only [l1, l2] at g5 g6
  rw [g1, g2, g3] at w1
  rw [g4, g5, g6] at w2
  exact ⟨w1, w2⟩

/-- C113: adding `d` times an operator to the Hamiltonian moves every level at least by `d` times the lowest and at most by `d` times the
highest of the energies of the operator for that angular momentum (the other way round for negative `d`): an operator without negative
energies raises all levels, and the energies are continuous functions of the coefficients. -/
theorem C113_shift {env : XEnv} (hla : LinAlgOk env.la) {A B C : OperatorSum} {d : ℝ}
    (hc : IsComb 1 d A B C) (hA : Op_Tame A = true) (hB : Op_Tame B = true) {a : XArgs} {s sA sB sC : FState} (hs : MemoOk env s.xs)
    {rA rB rC : List LEig} (dA : DigXspace env A a s = (.ok rA, sA)) (dB : DigXspace env B a s = (.ok rB, sB))
    (dC : DigXspace env C a s = (.ok rC, sC)) {x y z : LEig} (hx : x ∈ rA) (hy : y ∈ rB) (hz : z ∈ rC) (hxy : y.L = x.L)
    (hxz : z.L = x.L) {lo hi : ℝ} (hlo : ∀ e ∈ y.vals, lo ≤ e) (hhi : ∀ e ∈ y.vals, e ≤ hi) :
    ∃ (l : z.vals.length = x.vals.length), ∀ i, ∀ (hij : i < x.vals.length),
      min (d * lo) (d * hi) ≤ z.vals[i] - x.vals[i] ∧ z.vals[i] - x.vals[i] ≤ max (d * lo) (d * hi) := by
  obtain ⟨n, α, β, γ, HA, HB, PA, PB, PC, e1, e2, e3, p1, p2, p3, q1, q2, q3, s1, s2, s3⟩ :=
    comb_levels hla hc hA hB hs dA dB dC hx hy hz hxy hxz
  have n1 : x.vals.length = n := by rw [e1]; simp
  have n3 : z.vals.length = n := by rw [e3]; simp
  refine ⟨by rw [n1, n3], fun i hi' => ?_⟩
  rw [get_vals e1, get_vals e3]
  rw [n1] at hi'
  have bl : ∀ k < n, lo ≤ β k := fun k hk => hlo _ (by rw [e2]; exact List.mem_map_of_mem (List.mem_range.2 hk))
  have bh : ∀ k < n, β k ≤ hi := fun k hk => hhi _ (by rw [e2]; exact List.mem_map_of_mem (List.mem_range.2 hk))
  rw [one_smul] at q3
  rcases le_total 0 d with h0 | h0
  · obtain ⟨w1, w2⟩ := times_eig q2 s2 d h0
    have k1 := weyl (β := fun i => d * β i) rfl p1 q1 p2 w1 p3 q3 s1 w2 s3 (i := i) (j := 0) (by omega)
    have k2 := weyl_upper (β := fun i => d * β i) rfl p1 q1 p2 w1 p3 q3 s1 w2 s3 (i := i) (j := 0) (by omega)
    have u1 := mul_le_mul_of_nonneg_left (bl 0 (by omega)) h0
    have u2 := mul_le_mul_of_nonneg_left (bh (n - 1 - 0) (by omega)) h0
    simp only [add_zero] at k1 k2
    have v1 := min_le_left (d * lo) (d * hi)
    have v2 := le_max_right (d * lo) (d * hi)
    constructor <;> linarith
  · obtain ⟨Q, w0, w1, w2⟩ := neg_eig p2 q2 s2 d h0
    have k1 := weyl (β := fun i => d * β (n - 1 - i)) rfl p1 q1 w0 w1 p3 q3 s1 w2 s3 (i := i) (j := 0) (by omega)
    have k2 := weyl_upper (β := fun i => d * β (n - 1 - i)) rfl p1 q1 w0 w1 p3 q3 s1 w2 s3 (i := i) (j := 0) (by omega)
    have u1 := mul_le_mul_of_nonpos_left (bh (n - 1 - 0) (by omega)) h0
    have u2 := mul_le_mul_of_nonpos_left (bl (n - 1 - (n - 1 - 0)) (by omega)) h0
    simp only [add_zero] at k1 k2
    have v1 := min_le_right (d * lo) (d * hi)
    have v2 := le_max_left (d * lo) (d * hi)
    constructor <;> linarith

/-- An operator with the levels 0 and 3 is added to one that is not diagonal on the same two states. -/
theorem comb_meets {la : LinAlg} (hla : LinAlgOk la) (d : ℝ) : ∃ (A B C : OperatorSum) (a : XArgs) (s sA sB sC : FState) (M : Arr)
    (rA rB rC : List LEig) (x y z : LEig) (R : LBlockArray), IsComb 1 d A B C ∧ Op_Tame A = true ∧ Op_Tame B = true ∧ Op_Tame C = true ∧
    LegalRanges a ∧ MemoOk ⟨fileCG onesFS none, la⟩ s.xs ∧
    (RepXspace ⟨fileCG onesFS none, la⟩ A a s.xs).1 = .ok M ∧ M.e 1 0 ≠ 0 ∧ DigXspace ⟨fileCG onesFS none, la⟩ A a s = (.ok rA, sA) ∧
    DigXspace ⟨fileCG onesFS none, la⟩ B a s = (.ok rB, sB) ∧ DigXspace ⟨fileCG onesFS none, la⟩ C a s = (.ok rC, sC) ∧ x ∈ rA ∧ y ∈ rB ∧
    z ∈ rC ∧ y.L = x.L ∧ z.L = x.L ∧ y.vals.Perm [0, 3] ∧
    (AmpXspeig ⟨⟨fileCG onesFS none, la⟩, fun _ _ => 0⟩ A (rA.map LEig.basis) a (rA.map LEig.L) s).1 = .ok R := by
  obtain ⟨s, M, rA, sA, hm, hlam, ha, hn, hp, _, hM, h10, hr⟩ := twoStates_meets hla
  have hop : ACM_Hamiltonian (c30 := kC 1) = [(kC 1 * kC Convert_310, [.rad .b, .harm .y310])] := by
    have h1 : kC 1 ≠ (0 : Coeff) := fun h => by have := congrFun h (0, 0, 0, 0); simp [kC] at this
    simp [ACM_Hamiltonian, addTerm, h1]
  have ht : Op_Tame (ACM_Hamiltonian (c30 := kC 1)) = true := by rw [hop]; rfl
  have ht' : Op_Tame [(SENIORITY, [])] = true := rfl
  have hlb : twoStates.xlabels = [(0, 0, 1, 0), (0, 3, 1, 0)] := by decide +kernel
  obtain ⟨rB, sB, hr', ho', hB⟩ := C108_energies (env := ⟨fileCG onesFS none, la⟩) hla ha hm (ls := fun v => v % 2)
    (fun v h1 _ => by
      rw [hlam]
      obtain ⟨n, rfl⟩ := Int.eq_ofNat_of_zero_le (show 0 ≤ v from h1)
      rw [show lambda_acm_fun (n : Int) = .ok ((n % 2 : ℕ) : Int) from (C48_simple n).2.2.1]
      push_cast
      rfl)
    (fun v h1 _ => by
      have h2 : (0 : ℝ) ≤ ((v % 2 : Int) : ℝ) := by exact_mod_cast Int.emod_nonneg v (by norm_num)
      linarith) (op := [(SENIORITY, [])]) (by simp [Diagonal])
  have hc := C112_combination 1 d (ACM_Hamiltonian (c30 := kC 1)) [(SENIORITY, [])]
  obtain ⟨rC, sC, hrC, l1, l2⟩ := C112_exists hc ht ht' hm hr hr'
  obtain ⟨ho, hd⟩ := C32_partial ht ha hm hr
  have hLs : rA.map LEig.L = [0] := by rw [occupied_eq ha ho]; decide +kernel
  rw [hLs] at l1 l2
  have one : ∀ {r : List LEig}, r.map LEig.L = [0] → ∃ x ∈ r, x.L = 0 := fun h => by
    have := List.mem_map.1 (h ▸ List.mem_singleton_self (0 : Int))
    exact this
  obtain ⟨x, hx, ex⟩ := one hLs
  obtain ⟨y, hy, ey⟩ := one l2
  obtain ⟨z, hz, ez⟩ := one l1
  have hb : List.Forall₂ (fun P L => P.cols = P.rows ∧ dimXspace twoStates.nu_min twoStates.nu_max twoStates.v_min twoStates.v_max L none =
      .ok (P.rows : Int)) (rA.map LEig.basis) (rA.map LEig.L) := by
    rw [List.forall₂_map_left_iff, List.forall₂_map_right_iff, List.forall₂_same]
    intro x hx
    obtain ⟨k1, k2, _⟩ := basis_shape hla ht hm hr hx
    exact ⟨by rw [k1, k2], by rw [k1]; exact (hd x hx).1⟩
  obtain ⟨R, hR, _⟩ := C73_blocks (env := ⟨⟨fileCG onesFS none, la⟩, fun _ _ => 0⟩) hla ha ho (l0 := 0) (l1 := 0)
    (by rw [hLs]; rfl) (by rw [hLs]; rfl) hb hm hM
  refine ⟨_, _, _, twoStates, s, sA, sB, sC, M, rA, rB, rC, x, y, z, R, hc, ht, ht', comb_tame hc ht ht', ha, hm, hM, h10, hr, hr', hrC,
    hx, hy, hz, by rw [ex, ey], by rw [ex, ez], ?_, hR⟩
  obtain ⟨_, xs, k1, k2⟩ := hB y hy
  have : lbsXspace twoStates.nu_min twoStates.nu_max twoStates.v_min twoStates.v_max y.L none = .ok twoStates.xlabels := by
    rw [ey]
    exact lbsXspace_ok ha
  rw [this, hlb] at k1
  injection k1 with k1
  subst k1
  simpa [valueAt, SENIORITY] using k2

-- C112 and C113: all hypotheses of the theorems on energies and transitions are met.
example {la : LinAlg} (hla : LinAlgOk la) := comb_meets hla 2

-- C112: for this operator the sum of the energies, 6 more than without the added operator.
example {la : LinAlg} (hla : LinAlgOk la) : ∃ (A B C : OperatorSum) (a : XArgs) (s sA sC : FState) (rA rC : List LEig) (x z : LEig),
    IsComb 1 2 A B C ∧ DigXspace ⟨fileCG onesFS none, la⟩ A a s = (.ok rA, sA) ∧ DigXspace ⟨fileCG onesFS none, la⟩ C a s = (.ok rC, sC) ∧
    x ∈ rA ∧ z ∈ rC ∧ z.L = x.L ∧ z.vals.sum = x.vals.sum + 6 := by
  obtain ⟨A, B, C, a, s, sA, sB, sC, M, rA, rB, rC, x, y, z, R, hc, tA, tB, _, _, hm, _, _, dA, dB, dC, hx, hy, hz, ey, ez, hv, _⟩ :=
    comb_meets hla 2
  refine ⟨A, B, C, a, s, sA, sC, rA, rC, x, z, hc, dA, dC, hx, hz, ez, ?_⟩
  rw [C112_linear hla hc tA tB hm dA dB dC hx hy hz ey ez, hv.sum_eq]
  norm_num

-- C113: and no level is lowered, or raised by more than 6.
example {la : LinAlg} (hla : LinAlgOk la) : ∃ (A B C : OperatorSum) (a : XArgs) (s sA sC : FState) (rA rC : List LEig) (x z : LEig),
    IsComb 1 2 A B C ∧ DigXspace ⟨fileCG onesFS none, la⟩ A a s = (.ok rA, sA) ∧ DigXspace ⟨fileCG onesFS none, la⟩ C a s = (.ok rC, sC) ∧
    x ∈ rA ∧ z ∈ rC ∧ z.L = x.L ∧ ∃ (_ : z.vals.length = x.vals.length), ∀ i, ∀ (_ : i < x.vals.length),
      0 ≤ z.vals[i] - x.vals[i] ∧ z.vals[i] - x.vals[i] ≤ 6 := by
  obtain ⟨A, B, C, a, s, sA, sB, sC, M, rA, rB, rC, x, y, z, R, hc, tA, tB, _, _, hm, _, _, dA, dB, dC, hx, hy, hz, ey, ez, hv, _⟩ :=
    comb_meets hla 2
  obtain ⟨l, h⟩ := C113_shift hla hc tA tB hm dA dB dC hx hy hz ey ez (lo := 0) (hi := 3)
    (fun e he => by rw [hv.mem_iff] at he; simp at he; rcases he with rfl | rfl <;> norm_num)
    (fun e he => by rw [hv.mem_iff] at he; simp at he; rcases he with rfl | rfl <;> norm_num)
  refine ⟨A, B, C, a, s, sA, sC, rA, rC, x, z, hc, dA, dC, hx, hz, ez, l, fun i hi => ?_⟩
  have := h i hi
  norm_num at this
  constructor <;> linarith [this.1, this.2]

end Acm.Props
