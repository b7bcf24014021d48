import Verif.Props.Subspace
import Verif.Props.FullAmp
import Verif.Props.Scale
import Verif.Lemmas.RadialHam
import Verif.Spec.Routine

/-!
# C105: what does not depend on the eigenvalue routine

Matrices, energies, and transition rates between levels that are not degenerate are the same for all routines that solve the
eigenvalue problem; the signs of the amplitudes are not.
-/

namespace Acm.Props

open Acm.Spec

/-! ### functions of a matrix -/

section
variable {n : ℕ} {H P Q : Matrix (Fin n) (Fin n) ℝ} {v w : ℕ → ℝ}

theorem eig_same_perm (hP : P.transpose * P = 1) (hPd : P.transpose * H * P = Matrix.diagonal fun i : Fin n => v i)
    (hQ : Q.transpose * Q = 1) (hQd : Q.transpose * H * Q = Matrix.diagonal fun i : Fin n => w i) :
    ((List.range n).map v).Perm ((List.range n).map w) := by
  have hQ' := mul_eq_one_comm.1 hQ
  have hP' := mul_eq_one_comm.1 hP
  refine diag_perm (Q := Q.transpose * P) ?_ ?_
  · rw [Matrix.transpose_mul, Matrix.transpose_transpose]
    calc P.transpose * Q * (Q.transpose * P) = P.transpose * (Q * Q.transpose) * P := by simp only [mul_assoc]
      _ = 1 := by rw [hQ', mul_one, hP]
  · rw [← hQd, ← hPd, Matrix.transpose_mul, Matrix.transpose_transpose]
    calc P.transpose * Q * (Q.transpose * H * Q) * (Q.transpose * P)
        = P.transpose * (Q * Q.transpose) * H * (Q * Q.transpose) * P := by simp only [mul_assoc]
      _ = _ := by rw [hQ', mul_one, mul_one]

theorem eig_same_fun (hP : P.transpose * P = 1) (hPd : P.transpose * H * P = Matrix.diagonal fun i : Fin n => v i)
    (hQ : Q.transpose * Q = 1) (hQd : Q.transpose * H * Q = Matrix.diagonal fun i : Fin n => w i) (g : ℝ → ℝ) :
    P * Matrix.diagonal (fun i : Fin n => g (v i)) * P.transpose =
      Q * Matrix.diagonal (fun i : Fin n => g (w i)) * Q.transpose := by
  have hQ' := mul_eq_one_comm.1 hQ
  have hP' := mul_eq_one_comm.1 hP
  set R := Q.transpose * P with hR
  have hc : Matrix.diagonal (fun i : Fin n => w i) * R = R * Matrix.diagonal fun i : Fin n => v i := by
    rw [← hQd, ← hPd, hR]
    calc Q.transpose * H * Q * (Q.transpose * P) = Q.transpose * H * (Q * Q.transpose) * P := by simp only [mul_assoc]
      _ = Q.transpose * (P * P.transpose) * H * P := by rw [hQ', hP', mul_one, mul_one]
      _ = _ := by simp only [mul_assoc]
  have hg : Matrix.diagonal (fun i : Fin n => g (w i)) * R = R * Matrix.diagonal fun i : Fin n => g (v i) := by
    ext i j
    have := congrFun (congrFun hc i) j
    rw [Matrix.diagonal_mul, Matrix.mul_diagonal] at this ⊢
    by_cases hz : R i j = 0
    · rw [hz, mul_zero, zero_mul]
    · have : w i = v j := mul_right_cancel₀ hz (by rw [this, mul_comm])
      rw [this, mul_comm]
  have hP2 : P = Q * R := by rw [hR, ← mul_assoc, hQ', one_mul]
  calc P * Matrix.diagonal (fun i : Fin n => g (v i)) * P.transpose
      = Q * (R * Matrix.diagonal fun i : Fin n => g (v i)) * P.transpose := by rw [← mul_assoc, ← hP2]
    _ = Q * Matrix.diagonal (fun i : Fin n => g (w i)) * (Q.transpose * (P * P.transpose)) := by
        rw [← hg, hR]; simp only [mul_assoc]
    _ = _ := by rw [hP', mul_one]

end

theorem eig_same_vals {la la' : LinAlg} (h : LinAlgOk la) (h' : LinAlgOk la') {n : ℕ} {A : Arr} (h1 : A.rows = n) (h2 : A.cols = n)
    {v w : ℕ → ℝ} {P Q : Arr} (e : Eigenfiddle la A = .ok (v, P)) (e' : Eigenfiddle la' A = .ok (w, Q)) :
    ∀ i < n, v i = w i := by
  obtain ⟨_, _, k, _, _, o, d, s⟩ := C70_eigen la h n A h1 h2
  obtain ⟨_, _, k', _, _, o', d', s'⟩ := C70_eigen la' h' n A h1 h2
  rw [e] at k
  rw [e'] at k'
  injection k with k
  injection k with k1 k2
  injection k' with k'
  injection k' with k1' k2'
  subst k1 k2 k1' k2'
  have sorted : ∀ u : ℕ → ℝ, (∀ i j, i ≤ j → j < n → u i ≤ u j) → ((List.range n).map u).Pairwise (· ≤ ·) := by
    intro u hu
    rw [List.pairwise_map]
    refine List.Pairwise.imp_of_mem ?_ (List.pairwise_lt_range (n := n))
    intro i j _ hj hij
    exact hu i j hij.le (List.mem_range.1 hj)
  have hp := (eig_same_perm o d o' d').eq_of_pairwise' (sorted v s) (sorted w s')
  intro i hi
  have := congrArg (fun l => l[i]?) hp
  simpa [hi] using this

/-- Two arrays with the same shape and elements. -/
theorem fun_same {la la' : LinAlg} (h : LinAlgOk la) (h' : LinAlgOk la') {n : ℕ} {A : Arr} (h1 : A.rows = n) (h2 : A.cols = n)
    {v w : ℕ → ℝ} {P Q : Arr} (e : Eigenfiddle la A = .ok (v, P)) (e' : Eigenfiddle la' A = .ok (w, Q)) (g : ℝ → ℝ) :
    (P.mul (Arr.diag n fun i => g (v i))).mul (la.inv P) = (Q.mul (Arr.diag n fun i => g (w i))).mul (la'.inv Q) := by
  obtain ⟨_, _, k, p1, p2, o, d, _⟩ := C70_eigen la h n A h1 h2
  obtain ⟨_, _, k', q1, q2, o', d', _⟩ := C70_eigen la' h' n A h1 h2
  rw [e] at k
  rw [e'] at k'
  injection k with k
  injection k with k1 k2
  injection k' with k'
  injection k' with k1' k2'
  subst k1 k2 k1' k2'
  have inv : ∀ {l : LinAlg} {S : Arr}, LinAlgOk l → S.rows = n → S.cols = n → (mat n S).transpose * mat n S = 1 →
      mat n (l.inv S) = (mat n S).transpose := by
    intro l S hl s1 s2 ho
    have := hl.inv_inverse n S s1 s2 (IsUnit.of_mul_eq_one _ (mul_eq_one_comm.1 ho))
    calc mat n (l.inv S) = (mat n S).transpose * mat n S * mat n (l.inv S) := by rw [ho, one_mul]
      _ = (mat n S).transpose := by rw [mul_assoc, this, mul_one]
  have val : ∀ {l : LinAlg} {S : Arr} (hl : LinAlgOk l) (s1 : S.rows = n) (s2 : S.cols = n)
      (ho : (mat n S).transpose * mat n S = 1) (u : ℕ → ℝ), mat n ((S.mul (Arr.diag n u)).mul (l.inv S))
      = mat n S * Matrix.diagonal (fun i : Fin n => u i) * (mat n S).transpose := by
    intro l S hl s1 s2 ho u
    rw [mat_mul (by simp [Arr.mul, Arr.of, s1]) (by simp [Arr.mul, Arr.of, Arr.diag]) (hl.inv_shape n S s1 s2).2,
      mat_mul s1 s2 (by simp [Arr.diag, Arr.of]), mat_diag, inv hl s1 s2 ho]
  refine mat_inj (n := n) (square_mul p1 (h.inv_shape n P p1 p2).2) (square_mul q1 (h'.inv_shape n Q q1 q2).2) ?_
  rw [val h p1 p2 o, val h' q1 q2 o']
  exact eig_same_fun o d o' d' g

/-- C105: the square root of a matrix, or the failure to take it, is the same for all routines. -/
theorem C105_sqrt {la la' : LinAlg} (h : LinAlgOk la) (h' : LinAlgOk la') (A : Arr) :
    Matrix_sqrt la A = Matrix_sqrt la' A ∧ Matrix_sqrtInv la A = Matrix_sqrtInv la' A := by
  by_cases hsq : A.rows = A.cols
  · obtain ⟨v, P, e, _⟩ := C70_eigen la h A.rows A rfl hsq.symm
    obtain ⟨w, Q, e', _⟩ := C70_eigen la' h' A.rows A rfl hsq.symm
    have hvals := eig_same_vals h h' rfl hsq.symm e e'
    have hf := fun g => fun_same h h' rfl hsq.symm e e' g
    constructor
    · unfold Matrix_sqrt
      rw [e, e']
      simp only [py_bind_ok]
      rw [hf Real.sqrt]
      have : (∀ i < A.rows, v i ≥ 0) ↔ ∀ i < A.rows, w i ≥ 0 :=
        forall₂_congr fun i hi => by rw [hvals i hi]
      simp only [this]
    · unfold Matrix_sqrtInv
      rw [e, e']
      simp only [py_bind_ok]
      rw [hf fun x => 1 / Real.sqrt x]
      have : (∀ i < A.rows, v i > 0) ↔ ∀ i < A.rows, w i > 0 :=
        forall₂_congr fun i hi => by rw [hvals i hi]
      simp only [this]
  · have he : ∀ l : LinAlg, Eigenfiddle l A = .error .valueError := fun l => by
      unfold Eigenfiddle; rw [if_pos hsq]; rfl
    unfold Matrix_sqrt Matrix_sqrtInv
    rw [he la, he la']
    exact ⟨rfl, rfl⟩

/-! ### matrices -/

theorem radMat_same {la la' : LinAlg} (h : LinAlgOk la) (h' : LinAlgOk la') : radMat la = radMat la' := by
  funext c lo hi
  unfold radMat RepRadial_b2_sqrt RepRadial_b2_sqrtInv
  simp only [(C105_sqrt h h' _).1, (C105_sqrt h h' _).2]

theorem radProd_same {la la' : LinAlg} (h : LinAlgOk la) (h' : LinAlgOk la') : RepRadialProd la = RepRadialProd la' := by
  unfold RepRadialProd
  rw [radMat_same h h']

theorem radLC_same {la la' : LinAlg} (h : LinAlgOk la) (h' : LinAlgOk la') : RepRadial_LC la = RepRadial_LC la' := by
  have loop : RepRadial_LC_loop la = RepRadial_LC_loop la' := by
    funext c l lv lo hi lap d lc
    induction lc with
    | nil => rfl
    | cons t ts ih =>
      funext M
      unfold RepRadial_LC_loop
      rw [radProd_same h h']
      simp only [ih]
  funext lc c l lv lo hi lap
  unfold RepRadial_LC
  rw [radProd_same h h', loop]

section
variable (CG : CGFun) {la la' : LinAlg} (h : LinAlgOk la) (h' : LinAlgOk la')

include h h'

theorem twin_same : RepXspace_Twin ⟨CG, la⟩ = RepXspace_Twin ⟨CG, la'⟩ := by
  funext lam rs ss a
  unfold RepXspace_Twin
  have : twinBlock ⟨CG, la⟩ = twinBlock ⟨CG, la'⟩ := by
    funext lam rs S a i j f k l
    unfold twinBlock
    simp only [radProd_same h h']
  rw [this]

theorem xLC_same : xLC ⟨CG, la⟩ = xLC ⟨CG, la'⟩ := by
  unfold xLC
  simp only [radLC_same h h']

theorem pi_same : RepXspace_Pi ⟨CG, la⟩ = RepXspace_Pi ⟨CG, la'⟩ := by
  have : piBlock ⟨CG, la⟩ = piBlock ⟨CG, la'⟩ := by
    unfold piBlock
    simp only [xLC_same CG h h']
  unfold RepXspace_Pi
  simp only [this]

theorem pipi_same : RepXspace_PiPi ⟨CG, la⟩ = RepXspace_PiPi ⟨CG, la'⟩ := by
  have : pipiBlock ⟨CG, la⟩ = pipiBlock ⟨CG, la'⟩ := by
    unfold pipiBlock
    simp only [xLC_same CG h h']
  unfold RepXspace_PiPi
  simp only [this]

theorem piqpi_same : RepXspace_PiqPi ⟨CG, la⟩ = RepXspace_PiqPi ⟨CG, la'⟩ := by
  have : piqpiBlock ⟨CG, la⟩ = piqpiBlock ⟨CG, la'⟩ := by
    unfold piqpiBlock piqpiDown
    simp only [xLC_same CG h h']
    rfl
  unfold RepXspace_PiqPi
  simp only [this]

theorem xMat_same : xMat ⟨CG, la⟩ = xMat ⟨CG, la'⟩ := by
  funext a
  unfold xMat RepXspace_Pi_memo RepXspace_PiPi_memo RepXspace_PiqPi_memo
  rw [twin_same CG h h', pi_same CG h h', pipi_same CG h h', piqpi_same CG h h']

theorem term_same : RepXspace_Term ⟨CG, la⟩ = RepXspace_Term ⟨CG, la'⟩ := by
  have : RepXspace_Prod ⟨CG, la⟩ = RepXspace_Prod ⟨CG, la'⟩ := by
    unfold RepXspace_Prod
    rw [xMat_same CG h h']
  unfold RepXspace_Term
  rw [this]

theorem rep_same : RepXspace ⟨CG, la⟩ = RepXspace ⟨CG, la'⟩ := by
  have sum : xSum ⟨CG, la⟩ = xSum ⟨CG, la'⟩ := by
    funext xl a ts
    induction ts with
    | nil => rfl
    | cons t ts ih =>
      funext R
      unfold xSum
      rw [term_same CG h h']
      simp only [ih]
  funext ts a
  unfold RepXspace xSumAll
  rw [term_same CG h h', sum]

theorem memoOk_same {s : XState} (hs : MemoOk ⟨CG, la⟩ s) : MemoOk ⟨CG, la'⟩ s :=
  ⟨by rw [← pi_same CG h h']; exact hs.pi, by rw [← pipi_same CG h h']; exact hs.pipi,
    by rw [← piqpi_same CG h h']; exact hs.piqpi⟩

end

/-- C105: the matrix of an operator, the exception raised instead, and the memo tables afterwards are the same for all routines. -/
theorem C105_rep (CG : CGFun) {la la' : LinAlg} (h : LinAlgOk la) (h' : LinAlgOk la') :
    RepXspace ⟨CG, la⟩ = RepXspace ⟨CG, la'⟩ := rep_same CG h h'

/-! ### energies -/

/-- What two routines give for the same matrix. -/
def SameEig (la la' : LinAlg) (x y : LEig) : Prop :=
  x.L = y.L ∧ x.vals = y.vals ∧ ∃ M, Eigenlist la M = .ok (x.vals, x.basis) ∧ Eigenlist la' M = .ok (y.vals, y.basis)

/-- The same exception, or results related by `R`. -/
def PyRel {α : Type} (R : α → α → Prop) (x y : Py α) : Prop :=
  (∃ e, x = .error e ∧ y = .error e) ∨ ∃ a b, x = .ok a ∧ y = .ok b ∧ R a b

theorem eigenlist_same {la la' : LinAlg} (h : LinAlgOk la) (h' : LinAlgOk la') (M : Arr) :
    (∃ e, Eigenlist la M = .error e ∧ Eigenlist la' M = .error e) ∨
      ∃ vs P Q, Eigenlist la M = .ok (vs, P) ∧ Eigenlist la' M = .ok (vs, Q) := by
  by_cases hsq : M.rows = M.cols
  · obtain ⟨v, P, e1, e2⟩ := Eigenlist_ok la (n := M.rows) rfl hsq.symm
    obtain ⟨w, Q, e1', e2'⟩ := Eigenlist_ok la' (n := M.rows) rfl hsq.symm
    refine .inr ⟨_, P, Q, e2, ?_⟩
    rw [e2']
    have := eig_same_vals h h' rfl hsq.symm e1 e1'
    rw [List.map_congr_left fun i hi => (this i (List.mem_range.1 hi)).symm]
  · refine .inl ⟨.valueError, ?_, ?_⟩ <;>
    · unfold Eigenlist Eigenfiddle
      rw [if_pos hsq]
      rfl

section
variable (CG : CGFun) {la la' : LinAlg} (h : LinAlgOk la) (h' : LinAlgOk la')

include h h'

theorem digTame_same (ham : OperatorSum) (a : XArgs) (Ls : List Int) : ∀ s,
    (digTame ⟨CG, la⟩ ham a Ls s).2 = (digTame ⟨CG, la'⟩ ham a Ls s).2 ∧
      PyRel (List.Forall₂ (SameEig la la')) (digTame ⟨CG, la⟩ ham a Ls s).1 (digTame ⟨CG, la'⟩ ham a Ls s).1 := by
  induction Ls with
  | nil => exact fun s => ⟨rfl, .inr ⟨[], [], rfl, rfl, .nil⟩⟩
  | cons L Ls ih =>
    intro s
    unfold digTame
    rw [C105_rep CG h h']
    cases hd : dimSO5r3_rngV a.v_min a.v_max L with
    | error e =>
      rw [st_lift_error, st_lift_error]
      exact ⟨rfl, .inl ⟨e, rfl, rfl⟩⟩
    | ok d =>
      rw [st_lift_ok, st_lift_ok]
      by_cases hp : d > 0
      · rw [if_pos hp, if_pos hp]
        rcases hx : FM.liftX (RepXspace ⟨CG, la'⟩ ham (a.at L)) s with ⟨e | M, s1⟩
        · rw [st_bind_error hx, st_bind_error hx]
          exact ⟨rfl, .inl ⟨e, rfl, rfl⟩⟩
        · rw [st_bind_ok hx, st_bind_ok hx]
          rcases eigenlist_same h h' M with ⟨e, h1, h2⟩ | ⟨vs, P, Q, h1, h2⟩
          · rw [h1, h2, st_lift_error, st_lift_error]
            exact ⟨rfl, .inl ⟨e, rfl, rfl⟩⟩
          · rw [h1, h2, st_lift_ok, st_lift_ok]
            obtain ⟨i1, i2⟩ := ih s1
            rcases g1 : digTame ⟨CG, la⟩ ham a Ls s1 with ⟨r, t⟩
            rcases g2 : digTame ⟨CG, la'⟩ ham a Ls s1 with ⟨r', t'⟩
            rw [g1, g2] at i1 i2
            rcases i2 with ⟨e, k1, k2⟩ | ⟨u, u', k1, k2, k3⟩
            · dsimp only at k1 k2 i1
              rw [k1] at g1
              rw [k2] at g2
              rw [st_bind_error g1, st_bind_error g2]
              exact ⟨i1, .inl ⟨e, rfl, rfl⟩⟩
            · dsimp only at k1 k2 i1
              rw [k1] at g1
              rw [k2] at g2
              rw [st_bind_ok g1, st_bind_ok g2, st_pure, st_pure]
              exact ⟨i1, .inr ⟨_, _, rfl, rfl, .cons ⟨rfl, rfl, M, h1, h2⟩ k3⟩⟩
      · rw [if_neg hp, if_neg hp]
        exact ih s

omit CG in
theorem digUntame_same (a : XArgs) (M : Arr) (d : Int) (Ls : List Int) : ∀ L0,
    PyRel (List.Forall₂ (SameEig la la')) (digUntame la a M d Ls L0) (digUntame la' a M d Ls L0) := by
  induction Ls with
  | nil => exact fun s => .inr ⟨[], [], rfl, rfl, .nil⟩
  | cons L Ls ih =>
    intro L0
    unfold digUntame
    cases hd : dimSO5r3_rngV a.v_min a.v_max L with
    | error e => exact .inl ⟨e, rfl, rfl⟩
    | ok k =>
      simp only [py_bind_ok]
      by_cases hp : k > 0
      · simp only [if_pos hp]
        rcases eigenlist_same h h' (M.slice (L0 - 1) (L0 + d * k) (L0 - 1) (L0 + d * k)) with ⟨e, h1, h2⟩ | ⟨vs, P, Q, h1, h2⟩
        · rw [h1, h2]
          exact .inl ⟨e, rfl, rfl⟩
        · rw [h1, h2, py_bind_ok, py_bind_ok]
          rcases ih (L0 + d * k) with ⟨e, k1, k2⟩ | ⟨u, u', k1, k2, k3⟩
          · rw [k1, k2]
            exact .inl ⟨e, rfl, rfl⟩
          · rw [k1, k2]
            exact .inr ⟨_, _, rfl, rfl, .cons ⟨rfl, rfl, _, h1, h2⟩ k3⟩
      · simp only [if_neg hp]
        exact ih L0

theorem dig_same (ham : OperatorSum) (a : XArgs) (s : FState) :
    (DigXspace ⟨CG, la⟩ ham a s).2 = (DigXspace ⟨CG, la'⟩ ham a s).2 ∧
      PyRel (List.Forall₂ (SameEig la la')) (DigXspace ⟨CG, la⟩ ham a s).1 (DigXspace ⟨CG, la'⟩ ham a s).1 := by
  unfold DigXspace
  rw [C105_rep CG h h']
  cases hc : a.check with
  | error e => exact ⟨rfl, .inl ⟨e, rfl, rfl⟩⟩
  | ok u =>
    rw [st_lift_ok, st_lift_ok]
    by_cases ht : Op_Tame ham = true
    · simp only [if_pos ht]
      exact digTame_same CG h h' ham a _ s
    · simp only [if_neg ht]
      rw [st_bind, st_bind]
      rcases FM.liftX (RepXspace ⟨CG, la'⟩ ham a) s with ⟨e | M, s1⟩
      · exact ⟨rfl, .inl ⟨e, rfl, rfl⟩⟩
      · exact ⟨rfl, digUntame_same h h' a M _ _ _⟩

theorem energies_same (ham : OperatorSum) (a : XArgs) (s : FState) :
    (DigXspace ⟨CG, la⟩ ham a s).2 = (DigXspace ⟨CG, la'⟩ ham a s).2 ∧
      (DigXspace ⟨CG, la⟩ ham a s).1.map levels = (DigXspace ⟨CG, la'⟩ ham a s).1.map levels := by
  obtain ⟨h1, h2⟩ := dig_same CG h h' ham a s
  refine ⟨h1, ?_⟩
  rcases h2 with ⟨e, k1, k2⟩ | ⟨r, r', k1, k2, k3⟩
  · rw [k1, k2]
  · rw [k1, k2]
    refine congrArg Except.ok ?_
    unfold levels
    clear k1 k2 h1
    induction k3 with
    | nil => rfl
    | cons hx _ ih => rw [List.map_cons, List.map_cons, ih, hx.1, hx.2.1]

end

/-- C105: the angular momenta, the energies, the exception raised instead, and everything else that `DigXspace` changes are the same
for all routines, for any operator. -/
theorem C105_energies (CG : CGFun) {la la' : LinAlg} (h : LinAlgOk la) (h' : LinAlgOk la') (ham : OperatorSum) (a : XArgs) (s : FState) :
    (DigXspace ⟨CG, la⟩ ham a s).2 = (DigXspace ⟨CG, la'⟩ ham a s).2 ∧
      (DigXspace ⟨CG, la⟩ ham a s).1.map levels = (DigXspace ⟨CG, la'⟩ ham a s).1.map levels := energies_same CG h h' ham a s

/-! ### rates -/

section
variable {n m : ℕ} {H P P' : Matrix (Fin n) (Fin n) ℝ} {K Q Q' : Matrix (Fin m) (Fin m) ℝ} {v : ℕ → ℝ} {w : ℕ → ℝ}

theorem sum_trace (T : Matrix (Fin n) (Fin m) ℝ) (g : Fin n → ℝ) (k : Fin m → ℝ) :
    ∑ i, ∑ j, g i * k j * T i j ^ 2 = (Matrix.diagonal g * T * Matrix.diagonal k * T.transpose).trace := by
  unfold Matrix.trace
  refine Finset.sum_congr rfl fun i _ => ?_
  rw [Matrix.diag_apply, Matrix.mul_apply]
  refine Finset.sum_congr rfl fun j _ => ?_
  rw [Matrix.mul_diagonal, Matrix.diagonal_mul, Matrix.transpose_apply]
  ring

theorem strength_same (hP : P.transpose * P = 1) (hPd : P.transpose * H * P = Matrix.diagonal fun i : Fin n => v i)
    (hP' : P'.transpose * P' = 1) (hPd' : P'.transpose * H * P' = Matrix.diagonal fun i : Fin n => v i)
    (hQ : Q.transpose * Q = 1) (hQd : Q.transpose * K * Q = Matrix.diagonal fun i : Fin m => w i)
    (hQ' : Q'.transpose * Q' = 1) (hQd' : Q'.transpose * K * Q' = Matrix.diagonal fun i : Fin m => w i)
    (T : Matrix (Fin n) (Fin m) ℝ) (g k : ℝ → ℝ) :
    ∑ i : Fin n, ∑ j : Fin m, g (v i) * k (w j) * (P.transpose * T * Q) i j ^ 2 =
      ∑ i : Fin n, ∑ j : Fin m, g (v i) * k (w j) * (P'.transpose * T * Q') i j ^ 2 := by
  have key : ∀ (S : Matrix (Fin n) (Fin n) ℝ) (R : Matrix (Fin m) (Fin m) ℝ),
      ∑ i : Fin n, ∑ j : Fin m, g (v i) * k (w j) * (S.transpose * T * R) i j ^ 2 =
      (S * Matrix.diagonal (fun i : Fin n => g (v i)) * S.transpose * T *
        (R * Matrix.diagonal (fun i : Fin m => k (w i)) * R.transpose) * T.transpose).trace := by
    intro S R
    rw [sum_trace (S.transpose * T * R) (fun i => g (v i)) (fun j => k (w j)), Matrix.transpose_mul, Matrix.transpose_mul,
      Matrix.transpose_transpose]
    simp only [← Matrix.mul_assoc]
    rw [Matrix.trace_mul_comm]
    simp only [← Matrix.mul_assoc]
  rw [key, key, eig_same_fun hP hPd hP' hPd' g, eig_same_fun hQ hQd hQ' hQd' k]

theorem moment_same (hP : P.transpose * P = 1) (hPd : P.transpose * H * P = Matrix.diagonal fun i : Fin n => v i)
    (hP' : P'.transpose * P' = 1) (hPd' : P'.transpose * H * P' = Matrix.diagonal fun i : Fin n => v i)
    (T : Matrix (Fin n) (Fin n) ℝ) (g : ℝ → ℝ) :
    ∑ i : Fin n, g (v i) * (P.transpose * T * P) i i = ∑ i : Fin n, g (v i) * (P'.transpose * T * P') i i := by
  have key : ∀ S : Matrix (Fin n) (Fin n) ℝ, ∑ i : Fin n, g (v i) * (S.transpose * T * S) i i =
      (S * Matrix.diagonal (fun i : Fin n => g (v i)) * S.transpose * T).trace := by
    intro S
    have : ∑ i : Fin n, g (v i) * (S.transpose * T * S) i i =
        (Matrix.diagonal (fun i : Fin n => g (v i)) * (S.transpose * T * S)).trace := by
      unfold Matrix.trace
      exact Finset.sum_congr rfl fun i _ => by rw [Matrix.diag_apply, Matrix.diagonal_mul]
    rw [this, ← Matrix.mul_assoc, ← Matrix.mul_assoc, Matrix.trace_mul_comm]
    simp only [← Matrix.mul_assoc]
  rw [key, key, eig_same_fun hP hPd hP' hPd' g]

end

/-- The bases of two routines for the same levels. -/
def TwoBases (n : ℕ) (vals : List ℝ) (A A' : Arr) : Prop :=
  ∃ (H : Matrix (Fin n) (Fin n) ℝ) (v : ℕ → ℝ), vals = (List.range n).map v ∧ A.rows = n ∧ A.cols = n ∧ A'.rows = n ∧ A'.cols = n ∧
    (mat n A).transpose * mat n A = 1 ∧ (mat n A).transpose * H * mat n A = Matrix.diagonal (fun i : Fin n => v i) ∧
    (mat n A').transpose * mat n A' = 1 ∧ (mat n A').transpose * H * mat n A' = Matrix.diagonal (fun i : Fin n => v i)

theorem twoBases {la la' : LinAlg} (h : LinAlgOk la) (h' : LinAlgOk la') {x y : LEig} (hs : SameEig la la' x y) :
    TwoBases x.vals.length x.vals x.basis y.basis := by
  obtain ⟨_, hv, M, e, e'⟩ := hs
  have hsq : M.cols = M.rows := by
    by_contra hne
    have : Eigenlist la M = .error .valueError := by
      unfold Eigenlist Eigenfiddle
      rw [if_pos fun hh => hne hh.symm]
      rfl
    rw [this] at e
    cases e
  obtain ⟨v, P, e1, e2⟩ := Eigenlist_ok la (n := M.rows) rfl hsq
  obtain ⟨w, Q, e1', e2'⟩ := Eigenlist_ok la' (n := M.rows) rfl hsq
  rw [e] at e2
  rw [e'] at e2'
  injection e2 with e2
  injection e2 with a1 a2
  injection e2' with e2'
  injection e2' with a1' a2'
  obtain ⟨_, _, k, p1, p2, o, d, _⟩ := C70_eigen la h M.rows M rfl hsq
  obtain ⟨_, _, k', q1, q2, o', d', _⟩ := C70_eigen la' h' M.rows M rfl hsq
  have hvw := eig_same_vals h h' rfl hsq e1 e1'
  rw [e1] at k
  rw [e1'] at k'
  injection k with k
  injection k with k1 k2
  injection k' with k'
  injection k' with k1' k2'
  subst k1 k2 k1' k2'
  have hn : x.vals.length = M.rows := by rw [a1]; simp
  rw [hn, a2, a2']
  refine ⟨_, v, a1, p1, p2, q1, q2, o, d, o', ?_⟩
  rw [d']
  congr 1
  funext i
  exact (hvw i i.2).symm

theorem block_entry {la : LinAlg} (h : LinAlgOk la) {n m : ℕ} {P Q B : Arr} (p1 : P.rows = n) (p2 : P.cols = n)
    (ho : (mat n P).transpose * mat n P = 1) (hB : B.cols = m) (q2 : Q.cols = m) (i : Fin n) (j : Fin m) :
    (((la.inv P).mul B).mul Q).e i j =
      ((mat n P).transpose * (Matrix.of fun (i : Fin n) (j : Fin m) => B.e i j) * mat m Q) i j := by
  have hinv : mat n (la.inv P) = (mat n P).transpose := by
    have := h.inv_inverse n P p1 p2 (IsUnit.of_mul_eq_one _ (mul_eq_one_comm.1 ho))
    calc mat n (la.inv P) = (mat n P).transpose * mat n P * mat n (la.inv P) := by rw [ho, one_mul]
      _ = (mat n P).transpose := by rw [mul_assoc, this, mul_one]
  obtain ⟨i1, i2⟩ := h.inv_shape n P p1 p2
  rw [← hinv]
  simp only [Matrix.mul_apply, mat, Matrix.of_apply]
  unfold Arr.mul Arr.of
  dsimp only
  rw [i1, i2, q2, hB, if_pos ⟨i.2, j.2⟩, Finset.sum_range]
  refine Finset.sum_congr rfl fun k _ => ?_
  rw [if_pos ⟨i.2, k.2⟩, Finset.sum_range]

theorem get_block_cols {T : Arr} {R : LBlockArray} {Lr Lc : Int} {B G : Arr} (hB : LBlockArray.get_block ⟨T, R.full_space⟩ Lr Lc = .ok B)
    (hG : R.get_block Lr Lc = .ok G) (hc : R.mat.cols = T.cols) : B.cols = G.cols := by
  unfold LBlockArray.get_block at hB hG
  obtain ⟨b, h1, hB⟩ := py_bind_eq_ok hB
  obtain ⟨c, h2, hB⟩ := py_bind_eq_ok hB
  dsimp only at h1 h2
  rw [h1, h2] at hG
  simp only [py_bind_ok] at hG
  injection hB with hB
  injection hG with hG
  subst hB hG
  unfold Arr.slice Arr.of
  dsimp only
  rw [hc]

theorem amp_some {env : FEnv} {op : OperatorSum} {bases : List Arr} {a : XArgs} {Ls : List Int} {t : FState} {R : LBlockArray}
    (hR : (AmpXspeig env op bases a Ls t).1 = .ok R) : Ls ≠ [] := by
  intro hh
  subst hh
  unfold AmpXspeig at hR
  rw [show validate_Lvals [] = .error .valueError from rfl, st_lift_error] at hR
  cases hR

theorem forall₂_mem {α : Type} {R : α → α → Prop} {r r' : List α} (h : List.Forall₂ R r r') {x : α} (hx : x ∈ r) :
    ∃ y ∈ r', R x y := by
  induction h with
  | nil => cases hx
  | cons h1 _ ih =>
    rcases List.mem_cons.1 hx with rfl | hx
    · exact ⟨_, List.mem_cons_self, h1⟩
    · obtain ⟨y, hy, hR⟩ := ih hx
      exact ⟨y, List.mem_cons_of_mem _ hy, hR⟩

theorem pair_mem {r : List LEig} {x : LEig} (hx : x ∈ r) : (x.basis, x.L) ∈ (r.map LEig.basis).zip (r.map LEig.L) := by
  rw [List.zip_map']
  exact List.mem_map.2 ⟨x, hx, rfl⟩

theorem simple_lt {xs : List ℝ} {k : ℕ} (h : Simple xs k) : k < xs.length := by
  obtain ⟨x, h, _⟩ := h
  exact (List.getElem?_eq_some_iff.1 h).1

open Classical in
theorem simple_weight {xs : List ℝ} {k : ℕ} (h : Simple xs k) (i : Fin xs.length) :
    (if xs[i] = xs[k]'(simple_lt h) then (1 : ℝ) else 0) = if i = ⟨k, simple_lt h⟩ then 1 else 0 := by
  obtain ⟨x, hx, hu⟩ := id h
  obtain ⟨hk, hx⟩ := List.getElem?_eq_some_iff.1 hx
  refine if_congr ⟨fun he => ?_, fun he => ?_⟩ rfl rfl
  · refine Fin.ext (hu i ?_)
    rw [← hx, List.getElem?_eq_some_iff]
    exact ⟨i.2, he⟩
  · subst he
    rfl

theorem simple_square {xs ys : List ℝ} {B B' : Arr} (hst : ∀ g k, strength g k xs ys B = strength g k xs ys B') {f i : ℕ}
    (hf : Simple xs f) (hi : Simple ys i) : B.e f i = B'.e f i ∨ B.e f i = - B'.e f i := by
  classical
  have := hst (fun x => if x = xs[f]'(simple_lt hf) then 1 else 0) fun x => if x = ys[i]'(simple_lt hi) then 1 else 0
  unfold strength at this
  simp only [simple_weight hf, simple_weight hi] at this
  simp at this
  exact sq_eq_sq_iff_eq_or_eq_neg.1 this

theorem simple_moment {xs : List ℝ} {B B' : Arr} (hst : ∀ g, moment g xs B = moment g xs B') {f : ℕ}
    (hf : Simple xs f) : B.e f f = B'.e f f := by
  classical
  have := hst (fun x => if x = xs[f]'(simple_lt hf) then 1 else 0)
  unfold moment at this
  simp only [simple_weight hf] at this
  simpa using this

theorem rates_core {CG : CGFun} {la la' : LinAlg} (h : LinAlgOk la) (h' : LinAlgOk la') (j j' : ℕ → ℕ → ℝ) {ham op : OperatorSum}
    (ht : Op_Tame ham = true) {a : XArgs} {s s1 s1' : FState} (hs : MemoOk ⟨CG, la⟩ s.xs) {r r' : List LEig}
    (hr : DigXspace ⟨CG, la⟩ ham a s = (.ok r, s1)) (hr' : DigXspace ⟨CG, la'⟩ ham a s = (.ok r', s1')) {t : FState}
    (hm : MemoOk ⟨CG, la⟩ t.xs) {R : LBlockArray}
    (hR : (AmpXspeig ⟨⟨CG, la⟩, j⟩ op (r.map LEig.basis) a (r.map LEig.L) t).1 = .ok R) :
    ∃ R', (AmpXspeig ⟨⟨CG, la'⟩, j'⟩ op (r'.map LEig.basis) a (r'.map LEig.L) t).1 = .ok R' ∧
      (R'.full_space = R.full_space ∧ R'.mat.rows = R.mat.rows ∧ R'.mat.cols = R.mat.cols) ∧ ∀ x ∈ r, ∀ y ∈ r,
      ∃ (x' y' : LEig) (B G G' : Arr), SameEig la la' x x' ∧ SameEig la la' y y' ∧ (x = y → x' = y') ∧
      R.get_block x.L y.L = .ok G ∧ R'.get_block x.L y.L = .ok G' ∧
      (G.rows = x.vals.length ∧ G.cols = y.vals.length) ∧ (G'.rows = x.vals.length ∧ G'.cols = y.vals.length) ∧
      (∀ (f : Fin x.vals.length) (i : Fin y.vals.length), G.e f i = ((mat x.vals.length x.basis).transpose *
        (Matrix.of fun (i : Fin x.vals.length) (j : Fin y.vals.length) => B.e i j) * mat y.vals.length y.basis) f i) ∧
      ∀ (f : Fin x.vals.length) (i : Fin y.vals.length), G'.e f i = ((mat x.vals.length x'.basis).transpose *
        (Matrix.of fun (i : Fin x.vals.length) (j : Fin y.vals.length) => B.e i j) * mat y.vals.length y'.basis) f i := by
  have hleg : LegalRanges a := by
    by_contra hl
    rw [C32_illegal _ ham hl s] at hr
    cases hr
  have hs' := memoOk_same CG h h' hs
  have hm' := memoOk_same CG h h' hm
  have hsame : List.Forall₂ (SameEig la la') r r' := by
    have := (dig_same CG h h' ham a s).2
    rw [hr, hr'] at this
    rcases this with ⟨e, k, _⟩ | ⟨_, _, k1, k2, k3⟩
    · cases k
    · injection k1 with k1
      injection k2 with k2
      subst k1 k2
      exact k3
  obtain ⟨ho, hd⟩ := C32_partial ht hleg hs hr
  have hLs : r'.map LEig.L = r.map LEig.L := by
    clear hr hr' hR ho hd
    induction hsame with
    | nil => rfl
    | cons hx _ ih => rw [List.map_cons, List.map_cons, ih, hx.1]
  have hne := amp_some hR
  obtain ⟨l0, h0⟩ : ∃ l0, (r.map LEig.L).head? = some l0 := by
    cases hh : r.map LEig.L with
    | nil => exact absurd hh hne
    | cons l ls => exact ⟨l, rfl⟩
  obtain ⟨l1, h1⟩ : ∃ l1, (r.map LEig.L).getLast? = some l1 := ⟨_, List.getLast?_eq_some_getLast hne⟩
  have hR0 := hR
  rw [(amp_eq hleg ho h0 h1 hm _).1] at hR0
  obtain ⟨T, hT, hTR⟩ := py_bind_eq_ok hR0
  clear hTR
  have hT1 : (RepXspace ⟨CG, la⟩ op ⟨a.anorm, a.lambda_base, a.nu_min, a.nu_max, a.v_min, a.v_max, l0, l1⟩ t.xs).1 = .ok T := by
    show (RepXspace ⟨CG, la⟩ op (XArgs.narrow a l0 l1) t.xs).1 = .ok T
    rw [rep_eq (narrow_legal hleg ho h0 h1) hm]
    exact hT
  have hT2 := hT1
  rw [C105_rep CG h h'] at hT2
  have hb : List.Forall₂ (fun P L => P.cols = P.rows ∧ dimXspace a.nu_min a.nu_max a.v_min a.v_max L none = .ok (P.rows : Int))
      (r.map LEig.basis) (r.map LEig.L) := by
    rw [List.forall₂_map_left_iff, List.forall₂_map_right_iff, List.forall₂_same]
    intro x hx
    obtain ⟨y, _, hy⟩ := forall₂_mem hsame hx
    obtain ⟨_, _, _, k1, k2, _⟩ := twoBases h h' hy
    exact ⟨by rw [k1, k2], by rw [k1]; exact (hd x hx).1⟩
  have hb' : List.Forall₂ (fun P L => P.cols = P.rows ∧ dimXspace a.nu_min a.nu_max a.v_min a.v_max L none = .ok (P.rows : Int))
      (r'.map LEig.basis) (r.map LEig.L) := by
    rw [List.forall₂_map_left_iff, List.forall₂_map_right_iff]
    have h2 : List.Forall₂ (fun x y => x ∈ r ∧ SameEig la la' x y) r r' := by
      clear hr hr' hR ho hd hb hLs hne h0 h1 hT hT1 hT2 hR0
      induction hsame with
      | nil => exact .nil
      | cons hx _ ih => exact .cons ⟨List.mem_cons_self, hx⟩ (ih.imp fun _ _ hh => ⟨List.mem_cons_of_mem _ hh.1, hh.2⟩)
    refine h2.flip.imp fun y x hxy => ?_
    obtain ⟨hx, hy⟩ := hxy
    obtain ⟨_, _, _, _, _, k1, k2, _⟩ := twoBases h h' hy
    exact ⟨by rw [k1, k2], by rw [k1]; exact (hd x hx).1⟩
  obtain ⟨R1, e1, n1, r1, c1, b1⟩ := C73_blocks (env := ⟨⟨CG, la⟩, j⟩) h hleg ho h0 h1 hb hm hT1
  obtain ⟨R2, e2, n2, r2, c2, b2⟩ := C73_blocks (env := ⟨⟨CG, la'⟩, j'⟩) h' hleg ho h0 h1 hb' hm' hT2
  rw [hR] at e1
  injection e1 with e1
  subst e1
  have nn : R2.full_space = R.full_space := by
    rw [n1] at n2
    injection n2 with n2
    exact n2.symm
  refine ⟨R2, by rw [hLs]; exact e2, ⟨nn, by rw [r1, r2], by rw [c1, c2]⟩, fun x hx y hy => ?_⟩
  obtain ⟨x', hx', sx⟩ := forall₂_mem hsame hx
  obtain ⟨y', hy', sy⟩ := forall₂_mem hsame hy
  have mx' := pair_mem hx'
  have my' := pair_mem hy'
  rw [hLs, ← sx.1] at mx'
  rw [hLs, ← sy.1] at my'
  obtain ⟨B, t1, G, g1, g2, g3, g4⟩ := b1 _ _ _ _ (pair_mem hx) (pair_mem hy)
  obtain ⟨B', t2, G', g1', g2', g3', g4'⟩ := b2 _ _ _ _ mx' my'
  rw [n1] at n2
  injection n2 with n2
  have tB : B = B' := by
    rw [← n2, t1] at t2
    injection t2
  subst tB
  obtain ⟨H, v, hv, p1, p2, p1', p2', po, pd, po', pd'⟩ := twoBases h h' sx
  obtain ⟨K, w, hw, q1, q2, q1', q2', qo, qd, qo', qd'⟩ := twoBases h h' sy
  have hBc : B.cols = y.vals.length := by
    rw [get_block_cols t1 g1 c1, g3]
    exact q2
  have i1 := h.inv_shape _ _ p1 p2
  have i1' := h'.inv_shape _ _ p1' p2'
  have en : ∀ (f : Fin x.vals.length) (i : Fin y.vals.length), G.e f i = ((mat x.vals.length x.basis).transpose *
      (Matrix.of fun (i : Fin x.vals.length) (j : Fin y.vals.length) => B.e i j) * mat y.vals.length y.basis) f i := by
    intro f i
    rw [g4 f i (lt_of_lt_of_eq f.2 i1.1.symm) (lt_of_lt_of_eq i.2 q2.symm)]
    exact block_entry h p1 p2 po hBc q2 f i
  have en' : ∀ (f : Fin x.vals.length) (i : Fin y.vals.length), G'.e f i = ((mat x.vals.length x'.basis).transpose *
      (Matrix.of fun (i : Fin x.vals.length) (j : Fin y.vals.length) => B.e i j) * mat y.vals.length y'.basis) f i := by
    intro f i
    rw [g4' f i (lt_of_lt_of_eq f.2 i1'.1.symm) (lt_of_lt_of_eq i.2 q2'.symm)]
    exact block_entry h' p1' p2' po' hBc q2' f i
  refine ⟨x', y', B, G, G', sx, sy, fun hxy => ?_, g1, g1', ⟨g2.trans i1.1, g3.trans q2⟩, ⟨g2'.trans i1'.1, g3'.trans q2'⟩, en, en'⟩
  have hn : (r'.map LEig.L).Nodup := by
    rw [hLs]
    exact ho.1.imp fun hlt => ne_of_lt hlt
  exact List.inj_on_of_nodup_map hn hx' hy' (by rw [← sx.1, ← sy.1, hxy])

/-- C105: take the eigenvectors of a tame Hamiltonian from two routines, and the matrix of a transition operator between them.  Both are
found, or neither, with blocks of the same shapes.  The squares of the elements between two angular momenta, added up with any weights that depend on the energies, and
the diagonal elements so added up, are the same. So is up to its sign any element between levels that are not degenerate, and a
diagonal element of such a level is the same with its sign. -/
theorem C105_rates {CG : CGFun} {la la' : LinAlg} (h : LinAlgOk la) (h' : LinAlgOk la') (j j' : ℕ → ℕ → ℝ) {ham op : OperatorSum}
    (ht : Op_Tame ham = true) {a : XArgs} {s s1 s1' : FState} (hs : MemoOk ⟨CG, la⟩ s.xs) {r r' : List LEig}
    (hr : DigXspace ⟨CG, la⟩ ham a s = (.ok r, s1)) (hr' : DigXspace ⟨CG, la'⟩ ham a s = (.ok r', s1')) {t : FState}
    (hm : MemoOk ⟨CG, la⟩ t.xs) {R : LBlockArray}
    (hR : (AmpXspeig ⟨⟨CG, la⟩, j⟩ op (r.map LEig.basis) a (r.map LEig.L) t).1 = .ok R) :
    ∃ R', (AmpXspeig ⟨⟨CG, la'⟩, j'⟩ op (r'.map LEig.basis) a (r'.map LEig.L) t).1 = .ok R' ∧
      (R'.full_space = R.full_space ∧ R'.mat.rows = R.mat.rows ∧ R'.mat.cols = R.mat.cols) ∧ ∀ x ∈ r, ∀ y ∈ r, ∃ B B',
      R.get_block x.L y.L = .ok B ∧ R'.get_block x.L y.L = .ok B' ∧
      (B.rows = x.vals.length ∧ B.cols = y.vals.length) ∧ (B'.rows = x.vals.length ∧ B'.cols = y.vals.length) ∧
      (∀ g k, strength g k x.vals y.vals B = strength g k x.vals y.vals B') ∧
      (∀ f i, Simple x.vals f → Simple y.vals i → B.e f i = B'.e f i ∨ B.e f i = - B'.e f i) ∧
      (x = y → (∀ g, moment g x.vals B = moment g x.vals B') ∧ ∀ f, Simple x.vals f → B.e f f = B'.e f f) := by
  obtain ⟨R', e, hsp, hc⟩ := rates_core h h' j j' ht hs hr hr' hm hR
  refine ⟨R', e, hsp, fun x hx y hy => ?_⟩
  obtain ⟨x', y', B, G, G', sx, sy, hxx, g1, g1', d1, d2, en, en'⟩ := hc x hx y hy
  obtain ⟨H, v, hv, p1, p2, p1', p2', po, pd, po', pd'⟩ := twoBases h h' sx
  obtain ⟨K, w, hw, q1, q2, q1', q2', qo, qd, qo', qd'⟩ := twoBases h h' sy
  have gx : ∀ f : Fin x.vals.length, x.vals[f] = v f := by
    intro f
    have : x.vals[f] = ((List.range x.vals.length).map v)[f]'(by simp) := List.getElem_of_eq hv _
    simpa using this
  have gy : ∀ f : Fin y.vals.length, y.vals[f] = w f := by
    intro f
    have : y.vals[f] = ((List.range y.vals.length).map w)[f]'(by simp) := List.getElem_of_eq hw _
    simpa using this
  have hst : ∀ g k, strength g k x.vals y.vals G = strength g k x.vals y.vals G' := by
    intro g k
    unfold strength
    simp only [en, en', gx, gy]
    exact strength_same po pd po' pd' qo qd qo' qd' _ g k
  refine ⟨G, G', g1, g1', d1, d2, hst, fun f i hf hi => simple_square hst hf hi, fun hxy => ?_⟩
  subst hxy
  have hbb := hxx rfl
  subst hbb
  have hmo : ∀ g, moment g x.vals G = moment g x.vals G' := by
    intro g
    unfold moment
    simp only [en, en', gx]
    exact moment_same po pd po' pd' _ g
  exact ⟨hmo, fun f hf => simple_moment hmo hf⟩

/-! ### signs -/

/-- C105: with the signs of the eigenvectors changed in any way, a routine still does what NumPy documents. -/
theorem C105_signs {la : LinAlg} (h : LinAlgOk la) {σ : ℕ → ℝ} (hσ : ∀ k, σ k ^ 2 = 1) : LinAlgOk (withSigns σ la) := by
  have hm : ∀ n (A : Arr), A.rows = n → A.cols = n → mat n ((withSigns σ la).eigh A).2 =
      mat n (la.eigh A).2 * Matrix.diagonal fun i : Fin n => σ i := by
    intro n A h1 h2
    ext i j
    obtain ⟨k1, k2⟩ := h.eigh_shape n A h1 h2
    rw [Matrix.mul_diagonal]
    simp only [mat, Matrix.of_apply, withSigns, Arr.of]
    rw [k1, k2, if_pos ⟨i.2, j.2⟩, mul_comm]
  have hd : ∀ n, Matrix.diagonal (fun i : Fin n => σ i) * Matrix.diagonal (fun i : Fin n => σ i) = 1 := by
    intro n
    rw [Matrix.diagonal_mul_diagonal, ← Matrix.diagonal_one]
    congr 1
    funext i
    rw [← sq, hσ]
  refine ⟨fun n A h1 h2 => h.eigh_shape n A h1 h2, fun n A h1 h2 hsym => ?_, fun n A h1 h2 hsym => ?_, h.eigh_sorted, h.inv_shape,
    h.inv_inverse⟩
  · rw [hm n A h1 h2, Matrix.transpose_mul, Matrix.diagonal_transpose, ← mul_assoc, mul_assoc (Matrix.diagonal _),
      h.eigh_orthonormal n A h1 h2 hsym, mul_one, hd]
  · rw [hm n A h1 h2, ← mul_assoc, h.eigh_eigen n A h1 h2 hsym, mul_assoc, mul_assoc]
    congr 1
    rw [Matrix.diagonal_mul_diagonal, Matrix.diagonal_mul_diagonal]
    congr 1
    funext i
    exact mul_comm _ _

/-- C105: nothing more than in `C105_rates` can be said about the elements: with the signs of the eigenvectors changed by `σ`, the element between
level `f` and level `i` is multiplied by the two signs. -/
theorem C105_amplitudes {CG : CGFun} {la : LinAlg} (h : LinAlgOk la) {σ : ℕ → ℝ} (hσ : ∀ k, σ k ^ 2 = 1) (j j' : ℕ → ℕ → ℝ)
    {ham op : OperatorSum} (ht : Op_Tame ham = true) {a : XArgs} {s s1 s1' : FState} (hs : MemoOk ⟨CG, la⟩ s.xs) {r r' : List LEig}
    (hr : DigXspace ⟨CG, la⟩ ham a s = (.ok r, s1)) (hr' : DigXspace ⟨CG, withSigns σ la⟩ ham a s = (.ok r', s1')) {t : FState}
    (hm : MemoOk ⟨CG, la⟩ t.xs) {R : LBlockArray}
    (hR : (AmpXspeig ⟨⟨CG, la⟩, j⟩ op (r.map LEig.basis) a (r.map LEig.L) t).1 = .ok R) :
    ∃ R', (AmpXspeig ⟨⟨CG, withSigns σ la⟩, j'⟩ op (r'.map LEig.basis) a (r'.map LEig.L) t).1 = .ok R' ∧
      ∀ x ∈ r, ∀ y ∈ r, ∃ B B', R.get_block x.L y.L = .ok B ∧ R'.get_block x.L y.L = .ok B' ∧
        ∀ f < x.vals.length, ∀ i < y.vals.length, B'.e f i = σ f * σ i * B.e f i := by
  have h' := C105_signs h hσ
  have flip : ∀ {x x' : LEig}, SameEig la (withSigns σ la) x x' → mat x.vals.length x'.basis =
      mat x.vals.length x.basis * Matrix.diagonal fun i : Fin x.vals.length => σ i := by
    intro x x' sx
    obtain ⟨_, _, _, p1, p2, p1', p2', _⟩ := twoBases h h' sx
    obtain ⟨_, _, M, e, e'⟩ := sx
    unfold Eigenlist Eigenfiddle at e e'
    split_ifs at e e' with hsq
    · cases e
    · simp only [pure, Except.pure, py_bind_ok] at e e'
      injection e with e
      injection e with e0 e
      injection e' with e'
      injection e' with e0' e'
      rw [← e] at p1 p2 ⊢
      rw [← e']
      ext i j
      rw [Matrix.mul_diagonal]
      simp only [mat, Matrix.of_apply, withSigns, Arr.of] at p1 p2 ⊢
      rw [p1, p2, if_pos ⟨i.2, j.2⟩, mul_comm]
  obtain ⟨R', e, _, hc⟩ := rates_core h h' j j' ht hs hr hr' hm hR
  refine ⟨R', e, fun x hx y hy => ?_⟩
  obtain ⟨x', y', B, G, G', sx, sy, hxx, g1, g1', _, _, en, en'⟩ := hc x hx y hy
  refine ⟨G, G', g1, g1', fun f hf i hi => ?_⟩
  have e1 := en ⟨f, hf⟩ ⟨i, hi⟩
  have e2 := en' ⟨f, hf⟩ ⟨i, hi⟩
  rw [flip sx, flip sy, Matrix.transpose_mul, Matrix.diagonal_transpose, ← Matrix.mul_assoc, Matrix.mul_diagonal,
    Matrix.mul_assoc (Matrix.diagonal _), Matrix.mul_assoc (Matrix.diagonal _), Matrix.diagonal_mul, ← e1] at e2
  rw [e2]
  ring

/-- The Hamiltonian 1 with two levels, the transition operator `Pi`, and the signs `+, -, +, -, ...`, with any routine. -/
theorem two_levels {CG : CGFun} {la : LinAlg} (h : LinAlgOk la) : ∃ (s s1 s1' : FState)
    (r r' : List LEig) (R : LBlockArray), withSigns (fun k => (-1) ^ k) la ≠ la ∧ LinAlgOk (withSigns (fun k => (-1) ^ k) la) ∧
    s.glb = Glb.init ∧ MemoOk ⟨CG, la⟩ s.xs ∧ DigXspace ⟨CG, la⟩ [(fun _ => 1, [])] arg22 s = (.ok r, s1) ∧
    DigXspace ⟨CG, withSigns (fun k => (-1) ^ k) la⟩ [(fun _ => 1, [])] arg22 s = (.ok r', s1') ∧
    (AmpXspeig ⟨⟨CG, la⟩, fun _ _ => 0⟩ [(fun _ => 1, [.Pi])] (r.map LEig.basis) arg22 (r.map LEig.L) s).1 = .ok R ∧ r.map LEig.L = [2, 4] ∧
    ∀ x ∈ r, Simple x.vals 0 := by
  have hσ : ∀ k : ℕ, ((-1 : ℝ) ^ k) ^ 2 = 1 := fun k => by rw [← pow_mul, mul_comm, pow_mul]; norm_num
  have h' := C105_signs (la := la) h (σ := fun k => (-1) ^ k) hσ
  let s : FState := ⟨Glb.init, fun _ => none, fun _ _ => none, fun _ => none, []⟩
  have hs : ∀ env, MemoOk env s.xs := fun env => memoOk_start env lambda_acm_fun
  have dig : ∀ env : XEnv, ∃ r s1, DigXspace env [(fun _ => 1, [])] arg22 s = (.ok r, s1) := by
    intro env
    obtain ⟨r, s1, hd⟩ := digTame_total (ts := [(fun _ => 1, [])]) arg22_legal _ (range_nonneg arg22_legal) s (hs env)
      (fun L hL => by
        obtain ⟨n, hn⟩ := one_at22 env (range_nonneg arg22_legal L hL)
        exact ⟨_, hn⟩)
    refine ⟨r, s1, ?_⟩
    unfold DigXspace
    rw [check_ok arg22_legal, st_lift_ok, if_pos (show Op_Tame [(fun _ => 1, [])] = true from rfl)]
    exact hd
  obtain ⟨r, s1, hr⟩ := dig ⟨CG, la⟩
  obtain ⟨r', s1', hr'⟩ := dig ⟨CG, withSigns (fun k => (-1) ^ k) la⟩
  obtain ⟨ho, hd⟩ := C32_partial (ham := [(fun _ => 1, [])]) rfl arg22_legal (hs _) hr
  have hLs : r.map LEig.L = [2, 4] := by rw [occupied_eq arg22_legal ho, Ls22]
  have hsame : ∀ x ∈ r, SameEig la la x x := by
    intro x hx
    obtain ⟨_, M, v, _, e2, e3⟩ := hd x hx
    have : Eigenlist la M = .ok (x.vals, x.basis) := by
      unfold Eigenlist
      rw [e2, py_bind_ok, e3]
      rfl
    exact ⟨rfl, rfl, M, this, this⟩
  have hone : ∀ x ∈ r, x.vals.length = 1 := by
    intro x hx
    have hL : x.L = 2 ∨ x.L = 4 := by
      have : x.L ∈ r.map LEig.L := List.mem_map_of_mem hx
      rw [hLs] at this
      simpa using this
    have h1 := (hd x hx).1
    have h2 : dimXspace 0 0 2 2 x.L none = .ok 1 := by
      rcases hL with hL | hL <;> rw [hL] <;> decide +kernel
    have h3 : dimXspace 0 0 2 2 x.L none = .ok (x.vals.length : Int) := h1
    rw [h2] at h3
    injection h3 with h3
    omega
  have hb : List.Forall₂ (fun P L => P.cols = P.rows ∧ dimXspace arg22.nu_min arg22.nu_max arg22.v_min arg22.v_max L none =
      .ok (P.rows : Int)) (r.map LEig.basis) (r.map LEig.L) := by
    rw [List.forall₂_map_left_iff, List.forall₂_map_right_iff, List.forall₂_same]
    intro x hx
    obtain ⟨_, _, _, k1, k2, _⟩ := twoBases h h (hsame x hx)
    exact ⟨by rw [k1, k2], by rw [k1]; exact (hd x hx).1⟩
  obtain ⟨T, hT⟩ : ∃ T, (RepXspace ⟨CG, la⟩ [(fun _ => 1, [.Pi])] arg22 s.xs).1 = .ok T := by
    rw [rep_eq arg22_legal (hs _)]
    exact rep_arg22 _ _ (l := 0) (show lambda_acm_fun 2 = .ok 0 by decide +kernel) (by norm_num)
  obtain ⟨R, hR, _⟩ := C73_blocks (env := ⟨⟨CG, la⟩, fun _ _ => 0⟩) h (a := arg22) arg22_legal ho (l0 := 2) (l1 := 4)
    (by rw [hLs]; rfl) (by rw [hLs]; rfl) hb (hs _) (op := [(fun _ => 1, [.Pi])]) (T := T) (by
      show (RepXspace ⟨CG, la⟩ [(fun _ => 1, [.Pi])] arg22 s.xs).1 = .ok T
      exact hT)
  refine ⟨s, s1, s1', r, r', R, ?_, h', rfl, hs _, hr, hr', hR, hLs, fun x hx => ?_⟩
  · intro he
    have hA := h.eigh_orthonormal 2 (Arr.eye 2) rfl rfl ?_
    · have hc := congrArg (fun l : LinAlg => mat 2 (l.eigh (Arr.eye 2)).2) he
      obtain ⟨k1, k2⟩ := h.eigh_shape 2 (Arr.eye 2) rfl rfl
      have h0 : ∀ i : Fin 2, (la.eigh (Arr.eye 2)).2.e i 1 = 0 := by
        intro i
        have := congrFun (congrFun hc i) 1
        simp only [mat, Matrix.of_apply, withSigns, Arr.of] at this
        rw [k1, k2, if_pos ⟨i.2, by decide⟩] at this
        simp at this
        linarith
      have := congrFun (congrFun hA 1) 1
      rw [Matrix.mul_apply, Fin.sum_univ_two] at this
      simp only [mat, Matrix.of_apply, Matrix.transpose_apply] at this
      have a0 := h0 0
      have a1 : (la.eigh (Arr.eye 2)).2.e 1 1 = 0 := h0 1
      simp only [Fin.val_one] at this
      rw [a0, a1] at this
      norm_num at this
    · ext i j
      simp only [mat, Matrix.of_apply, Matrix.transpose_apply, Arr.eye, Arr.of]
      fin_cases i <;> fin_cases j <;> simp
  · have := hone x hx
    refine ⟨x.vals[0], List.getElem?_eq_getElem (by omega), fun j hj => ?_⟩
    have := (List.getElem?_eq_some_iff.1 hj).1
    omega

/-- The hypotheses of `C105_rates` and `C105_amplitudes` are met, by any routine: a Hamiltonian with two levels, the transition
operator `Pi`, and the signs `+, -, +, -, ...`. -/
example {CG : CGFun} {la : LinAlg} (h : LinAlgOk la) : ∃ (σ : ℕ → ℝ) (ham op : OperatorSum) (a : XArgs) (s s1 s1' : FState)
    (r r' : List LEig) (R : LBlockArray), (∀ k, σ k ^ 2 = 1) ∧ withSigns σ la ≠ la ∧ LinAlgOk (withSigns σ la) ∧ Op_Tame ham = true ∧
    MemoOk ⟨CG, la⟩ s.xs ∧ DigXspace ⟨CG, la⟩ ham a s = (.ok r, s1) ∧ DigXspace ⟨CG, withSigns σ la⟩ ham a s = (.ok r', s1') ∧
    (AmpXspeig ⟨⟨CG, la⟩, fun _ _ => 0⟩ op (r.map LEig.basis) a (r.map LEig.L) s).1 = .ok R ∧ r.map LEig.L = [2, 4] ∧
    ∀ x ∈ r, Simple x.vals 0 := by
  obtain ⟨s, s1, s1', r, r', R, h1, h2, _, h4, h5⟩ := two_levels (CG := CG) h
  exact ⟨fun k => (-1) ^ k, _, _, arg22, s, s1, s1', r, r', R, fun k => by rw [← pow_mul, mul_comm, pow_mul]; norm_num, h1, h2, rfl, h4, h5⟩

end Acm.Props
