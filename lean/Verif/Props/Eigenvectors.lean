import Verif.Model.Eigenvectors
import Verif.Spec.Eigenvectors
import Verif.Props.Routine
import Mathlib.LinearAlgebra.Matrix.Charpoly.Basic
import Mathlib.Algebra.Polynomial.Roots

/-! Property C125: `Eigenvectors` returns all eigenvalues and a basis of eigenvectors, exactly when there is a real one. -/

namespace Acm.Props

open Acm Acm.Spec

theorem floatOf_ok {z : ℂ} {x : ℝ} : floatOf z = .ok x ↔ z = (x : ℂ) := by
  unfold floatOf
  split_ifs with h
  · constructor
    · intro e; injection e with e; exact Complex.ext (by rw [← e]; rfl) (by rw [h]; rfl)
    · rintro rfl; rfl
  · exact ⟨fun e => (by cases e), fun e => absurd (by rw [e]; rfl) h⟩

theorem mapM_ok_iff {α β : Type} (f : α → Py β) : ∀ (l : List α) (r : List β),
    l.mapM f = .ok r ↔ List.Forall₂ (fun a b => f a = .ok b) l r := by
  intro l
  induction l with
  | nil => intro r; cases r <;> simp [pure, Except.pure]
  | cons a l ih =>
    intro r
    rw [List.mapM_cons]
    cases h : f a with
    | error e => exact ⟨fun e => (by cases e), fun e => by cases e; simp_all⟩
    | ok b =>
      cases h' : l.mapM f with
      | error e =>
        refine ⟨fun e => (by cases e), fun e => ?_⟩
        cases e with
        | cons h1 h2 => rw [(ih _).2 h2] at h'; cases h'
      | ok bs =>
        show Except.ok (b :: bs) = _ ↔ _
        constructor
        · intro e; injection e with e; subst e; exact .cons h ((ih _).1 h')
        · intro e
          cases e with
          | cons h1 h2 =>
            rw [h] at h1; injection h1 with h1
            rw [(ih _).2 h2] at h'; injection h' with h'
            rw [h1, h']

/-- What is returned. -/
theorem eigenvectors_ok {sd : Diagonalizer} {M : Arr} {vals : List ℝ} {P : Matrix (Fin M.rows) (Fin M.rows) ℂ} :
    Eigenvectors sd M = .ok (vals, P) ↔ ∃ (D : Matrix (Fin M.rows) (Fin M.rows) ℂ) (w : Fin M.rows → ℝ),
      sd.diagonalize M = .ok (P, D) ∧ (∀ i, D i i = (w i : ℂ)) ∧ vals = List.ofFn w := by
  unfold Eigenvectors
  cases hd : sd.diagonalize M with
  | error e => exact ⟨fun e => (by cases e), fun ⟨_, _, e, _⟩ => (by cases e)⟩
  | ok r =>
    obtain ⟨P', D⟩ := r
    show ((List.finRange M.rows).mapM (fun i => floatOf (D i i)) >>= fun e => Except.ok (e, P')) = _ ↔ _
    constructor
    · intro h
      cases hm : (List.finRange M.rows).mapM (fun i => floatOf (D i i)) with
      | error e => rw [hm] at h; cases h
      | ok v =>
        rw [hm] at h
        injection h with h
        injection h with h1 h2
        subst h1 h2
        have hf := (mapM_ok_iff _ _ _).1 hm
        have hl : v.length = M.rows := by rw [← hf.length_eq, List.length_finRange]
        refine ⟨D, fun i => v[i.1]'(by rw [hl]; exact i.2), rfl, fun i => ?_, ?_⟩
        · have := hf.get (i := i.1) (by rw [List.length_finRange]; exact i.2) (by rw [hl]; exact i.2)
          simp only [List.get_eq_getElem, List.getElem_finRange] at this
          exact floatOf_ok.1 this
        · refine List.ext_getElem (by simp [hl]) fun i _ _ => by simp
    · rintro ⟨D', w, e, hw, rfl⟩
      injection e with e
      injection e with e1 e2
      subst e1 e2
      rw [(mapM_ok_iff _ _ (List.ofFn w)).2]
      · rfl
      · rw [List.ofFn_eq_map, List.forall₂_map_right_iff, List.forall₂_same]
        exact fun i _ => floatOf_ok.2 (hw i)

theorem diag_eq {n : ℕ} {D : Matrix (Fin n) (Fin n) ℂ} (h : ∀ i j, i ≠ j → D i j = 0) {w : Fin n → ℝ} (hw : ∀ i, D i i = (w i : ℂ)) :
    D = Matrix.diagonal fun i => (w i : ℂ) := by
  ext i j
  rcases eq_or_ne i j with rfl | e
  · rw [Matrix.diagonal_apply_eq, hw]
  · rw [Matrix.diagonal_apply_ne _ e, h i j e]

/-- A real matrix with a complex basis of eigenvectors for real eigenvalues has a real one. -/
theorem real_basis {n : ℕ} {A : Arr} {P : Matrix (Fin n) (Fin n) ℂ} {w : Fin n → ℝ} (hP : IsUnit P)
    (h : cmat n A * P = P * Matrix.diagonal fun i => (w i : ℂ)) :
    ∃ Q : Matrix (Fin n) (Fin n) ℝ, IsUnit Q ∧ mat n A * Q = Q * Matrix.diagonal w := by
  set X : Matrix (Fin n) (Fin n) ℝ := P.map Complex.re with hX
  set Y : Matrix (Fin n) (Fin n) ℝ := P.map Complex.im with hY
  have eX : mat n A * X = X * Matrix.diagonal w := by
    ext i j
    have := congrArg Complex.re (congrFun (congrFun h i) j)
    rw [Matrix.mul_diagonal, Matrix.mul_apply, Complex.re_sum] at this
    rw [Matrix.mul_diagonal, Matrix.mul_apply]
    simpa [cmat, mat, hX] using this
  have eY : mat n A * Y = Y * Matrix.diagonal w := by
    ext i j
    have := congrArg Complex.im (congrFun (congrFun h i) j)
    rw [Matrix.mul_diagonal, Matrix.mul_apply, Complex.im_sum] at this
    rw [Matrix.mul_diagonal, Matrix.mul_apply]
    simpa [cmat, mat, hY] using this
  let F : Matrix (Fin n) (Fin n) (Polynomial ℂ) := Matrix.of fun i j => Polynomial.C (X i j : ℂ) + Polynomial.X * Polynomial.C (Y i j : ℂ)
  have hF : ∀ z : ℂ, F.det.eval z = (Matrix.of fun i j => (X i j : ℂ) + z * (Y i j : ℂ)).det := by
    intro z
    rw [← Polynomial.coe_evalRingHom, RingHom.map_det]
    congr 1
    ext i j
    simp [F]
    ring
  have h0 : F.det ≠ 0 := by
    intro e
    have := hF Complex.I
    rw [e, Polynomial.eval_zero] at this
    have e2 : (Matrix.of fun i j => (X i j : ℂ) + Complex.I * (Y i j : ℂ)) = P := by
      ext i j
      simp only [Matrix.of_apply, hX, hY, Matrix.map_apply]
      rw [mul_comm]
      exact Complex.re_add_im _
    rw [e2] at this
    exact ((Matrix.isUnit_iff_isUnit_det _).1 hP).ne_zero this.symm
  obtain ⟨t, ht⟩ : ∃ t : ℝ, F.det.eval (t : ℂ) ≠ 0 := by
    by_contra hc
    push Not at hc
    refine h0 (Polynomial.eq_zero_of_infinite_isRoot _ ?_)
    refine Set.Infinite.mono (s := Set.range ((↑) : ℝ → ℂ)) ?_ (Set.infinite_range_of_injective Complex.ofReal_injective)
    rintro _ ⟨t, rfl⟩
    exact hc t
  refine ⟨X + t • Y, ?_, ?_⟩
  · rw [Matrix.isUnit_iff_isUnit_det, isUnit_iff_ne_zero]
    intro e
    refine ht ?_
    rw [hF]
    have := congrArg (fun x : ℝ => (x : ℂ)) e
    have e2 : (((X + t • Y).det : ℝ) : ℂ) = ((X + t • Y).map (algebraMap ℝ ℂ)).det := by
      rw [← RingHom.mapMatrix_apply, ← RingHom.map_det]; rfl
    simp only [e2, Complex.ofReal_zero] at this
    rw [← this]
    congr 1
    ext i j
    simp
  · rw [Matrix.mul_add, Matrix.add_mul, Matrix.mul_smul, Matrix.smul_mul, eX, eY]

theorem roots_of_diag {n : ℕ} {A Q : Matrix (Fin n) (Fin n) ℝ} {w : Fin n → ℝ} (hQ : IsUnit Q) (h : A * Q = Q * Matrix.diagonal w) :
    A.charpoly.roots = (List.ofFn w : Multiset ℝ) := by
  obtain ⟨U, rfl⟩ := hQ
  have e : A = U.val * Matrix.diagonal w * (U⁻¹).val := by rw [← h, mul_assoc, Units.mul_inv, mul_one]
  have hc : A.charpoly = (Matrix.diagonal w).charpoly := by
    rw [e, Matrix.charpoly_mul_comm, ← mul_assoc, Units.inv_mul, one_mul]
  have e2 : List.ofFn (fun i => Polynomial.X - Polynomial.C (w i)) = (List.ofFn w).map fun a => Polynomial.X - Polynomial.C a := by
    rw [List.map_ofFn]; rfl
  rw [hc, Matrix.charpoly_diagonal, ← List.prod_ofFn, e2, ← Multiset.prod_coe, ← Multiset.map_coe, Polynomial.roots_multiset_prod_X_sub_C]

/-- There is such a routine, and one that returns whenever it can. -/
theorem diagonalizer_exists : ∃ sd, DiagonalizeOk sd ∧ DiagonalizeComplete sd := by
  classical
  refine ⟨⟨fun M => if h : M.rows = M.cols ∧ ∃ r : _ × _, Diagonalizes (cmat M.rows M) r.1 r.2 then .ok h.2.choose else .error .valueError⟩,
    ⟨fun M h => dif_neg fun hc => h hc.1, fun M P D h => ?_⟩, fun M h hd => ?_⟩
  · dsimp only at h
    split_ifs at h with hc
    injection h with h
    have := hc.2.choose_spec
    rw [h] at this
    exact ⟨hc.1, this⟩
  · obtain ⟨P, D, hd⟩ := hd
    exact ⟨_, dif_pos ⟨h, (P, D), hd⟩⟩

/-- The matrix of the project's test (tests/test_eigenvalues.py lines 31-42), with its eigenvalues and eigenvectors. -/
noncomputable def solution_4x4 : Arr := Arr.of 4 4 fun i j => (!![3, -2, 4, -2; 5, 3, -3, -2; 5, -2, 2, -2; 5, -2, -3, 3] : Matrix (Fin 4) (Fin 4) ℝ) (Fin.ofNat 4 i) (Fin.ofNat 4 j)

theorem solution_4x4_diag : RealDiagonalizable (mat 4 solution_4x4) ∧ (mat 4 solution_4x4).charpoly.roots = ([-2, 3, 5, 5] : List ℝ) := by
  have hm : mat 4 solution_4x4 = !![3, -2, 4, -2; 5, 3, -3, -2; 5, -2, 2, -2; 5, -2, -3, 3] := by
    ext i j
    fin_cases i <;> fin_cases j <;> simp [mat, solution_4x4, Arr.of]
  have hQ : IsUnit (!![0, 1, 1, 0; 1, 1, 1, -1; 1, 1, 1, 0; 1, 1, 0, 1] : Matrix (Fin 4) (Fin 4) ℝ) := by
    refine IsUnit.of_mul_eq_one !![-1, 0, 1, 0; 1, 1, -2, 1; 0, -1, 2, -1; 0, -1, 1, 0] ?_
    ext i j
    fin_cases i <;> fin_cases j <;> norm_num [Matrix.mul_apply, Fin.sum_univ_succ]
  have h : mat 4 solution_4x4 * !![0, 1, 1, 0; 1, 1, 1, -1; 1, 1, 1, 0; 1, 1, 0, 1] =
      !![0, 1, 1, 0; 1, 1, 1, -1; 1, 1, 1, 0; 1, 1, 0, 1] * Matrix.diagonal ![-2, 3, 5, 5] := by
    rw [hm]
    ext i j
    rw [Matrix.mul_diagonal]
    fin_cases i <;> fin_cases j <;> norm_num [Matrix.mul_apply, Fin.sum_univ_succ]
  exact ⟨⟨_, _, hQ, h⟩, roots_of_diag hQ h⟩

/-- C125.  The columns of what is returned are a basis of eigenvectors, in the order of the eigenvalues, which are all the roots of the
characteristic polynomial with their multiplicities. -/
theorem C125_eigen (sd : Diagonalizer) (hsd : DiagonalizeOk sd) (n : ℕ) (M : Arr) (hn : M.rows = n) (vals : List ℝ)
    (P : Matrix (Fin M.rows) (Fin M.rows) ℂ) (h : Eigenvectors sd M = .ok (vals, P)) : M.cols = n ∧ vals.length = n ∧ IsUnit P ∧
    (∀ (j : Fin M.rows) (x : ℝ), vals[j.1]? = some x → ∀ i : Fin M.rows, ∑ k : Fin M.rows, (M.e i k : ℂ) * P k j = x * P i j) ∧
    ((mat n M).charpoly.roots = (vals : Multiset ℝ)) := by
  subst hn
  obtain ⟨D, w, e, hw, rfl⟩ := eigenvectors_ok.1 h
  obtain ⟨hsq, hP, hD, hMP⟩ := hsd.sound M P D e
  rw [diag_eq hD hw] at hMP
  refine ⟨hsq.symm, List.length_ofFn, hP, fun j x hx i => ?_, ?_⟩
  · have h1 := congrFun (congrFun hMP i) j
    rw [Matrix.mul_diagonal, Matrix.mul_apply] at h1
    have : x = w j := by
      rw [List.getElem?_eq_getElem (by simp)] at hx
      simpa using hx.symm
    rw [this, mul_comm, ← h1]
    rfl
  · obtain ⟨Q, hQ, hMQ⟩ := real_basis hP hMP
    exact roots_of_diag hQ hMQ

/-- C125.  It returns exactly for the square matrices that have a real basis of eigenvectors. -/
theorem C125_returns (sd : Diagonalizer) (hsd : DiagonalizeOk sd) (hc : DiagonalizeComplete sd) (n : ℕ) (M : Arr) (hn : M.rows = n) :
    (∃ r, Eigenvectors sd M = .ok r) ↔ M.cols = n ∧ RealDiagonalizable (mat n M) := by
  subst hn
  constructor
  · rintro ⟨⟨vals, P⟩, h⟩
    obtain ⟨D, w, e, hw, rfl⟩ := eigenvectors_ok.1 h
    obtain ⟨hsq, hP, hD, hMP⟩ := hsd.sound M P D e
    rw [diag_eq hD hw] at hMP
    obtain ⟨Q, hQ, hMQ⟩ := real_basis hP hMP
    exact ⟨hsq.symm, Q, w, hQ, hMQ⟩
  · rintro ⟨hsq, Q, w, hQ, hMQ⟩
    have hcM : cmat M.rows M = (mat M.rows M).map (algebraMap ℝ ℂ) := by ext i j; rfl
    have hdiag : Diagonalizes (cmat M.rows M) (Q.map (algebraMap ℝ ℂ)) ((Matrix.diagonal w).map (algebraMap ℝ ℂ)) := by
      refine ⟨?_, fun i j hij => ?_, ?_⟩
      · have := hQ.map (RingHom.mapMatrix (algebraMap ℝ ℂ))
        exact this
      · rw [Matrix.map_apply, Matrix.diagonal_apply_ne _ hij, map_zero]
      · rw [hcM, ← Matrix.map_mul, hMQ, Matrix.map_mul]
    obtain ⟨⟨P, D⟩, e⟩ := hc M hsq.symm ⟨_, _, hdiag⟩
    obtain ⟨-, hP, hD, hMP⟩ := hsd.sound M P D e
    -- the diagonal elements are eigenvalues, which are real
    have hroot : ∀ i, ∃ x : ℝ, D i i = x := by
      have key : ∀ i, ∃ j, D i i = (w j : ℂ) := by
        intro i
        obtain ⟨U, rfl⟩ := hP
        obtain ⟨V, hV⟩ := hdiag.1
        have h2 := hdiag.2.2
        rw [← hV] at h2
        have a1 : D = (U⁻¹).val * cmat M.rows M * U.val := by rw [mul_assoc, hMP, ← mul_assoc, Units.inv_mul, one_mul]
        have a2 : cmat M.rows M = V.val * (Matrix.diagonal w).map (algebraMap ℝ ℂ) * (V⁻¹).val := by
          rw [← h2, mul_assoc, Units.mul_inv, mul_one]
        have a3 : D.charpoly = ((Matrix.diagonal w).map (algebraMap ℝ ℂ)).charpoly := by
          rw [a1, Matrix.charpoly_mul_comm, ← mul_assoc, Units.mul_inv, one_mul, a2, Matrix.charpoly_mul_comm, ← mul_assoc, Units.inv_mul,
            one_mul]
        have a4 : D = Matrix.diagonal fun i => D i i := by
          ext i j
          rcases eq_or_ne i j with rfl | e
          · simp
          · rw [Matrix.diagonal_apply_ne _ e, hD i j e]
        rw [a4, Matrix.diagonal_map (map_zero _), Matrix.charpoly_diagonal, Matrix.charpoly_diagonal] at a3
        have a5 := congrArg (Polynomial.eval (D i i)) a3
        rw [Polynomial.eval_prod, Polynomial.eval_prod, Finset.prod_eq_zero (Finset.mem_univ i) (by simp), eq_comm, Finset.prod_eq_zero_iff] at a5
        obtain ⟨j, -, hj⟩ := a5
        exact ⟨j, sub_eq_zero.1 (by simpa using hj)⟩
      exact fun i => (key i).imp' w fun j hj => hj
    choose u hu using hroot
    exact ⟨(List.ofFn u, P), eigenvectors_ok.2 ⟨D, u, e, hu, rfl⟩⟩

/-- The matrix of the project's test: `Eigenvectors` returns its eigenvalues in some order. -/
example : ∃ sd, DiagonalizeOk sd ∧ ∃ vals P, Eigenvectors sd solution_4x4 = .ok (vals, P) ∧ vals.Perm [-2, 3, 5, 5] := by
  obtain ⟨sd, h1, h2⟩ := diagonalizer_exists
  obtain ⟨⟨vals, P⟩, h⟩ := (C125_returns sd h1 h2 4 solution_4x4 rfl).2 ⟨rfl, solution_4x4_diag.1⟩
  refine ⟨sd, h1, vals, P, h, ?_⟩
  have := (C125_eigen sd h1 4 solution_4x4 rfl vals P h).2.2.2.2
  rw [solution_4x4_diag.2] at this
  exact (Multiset.coe_eq_coe.1 this).symm

/-- C125.  A matrix that has no real basis of eigenvectors but a complex one is refused with a `TypeError`, a matrix that is not square with a
`ValueError`. -/
theorem C125_refused (sd : Diagonalizer) (hsd : DiagonalizeOk sd) (hc : DiagonalizeComplete sd) (n : ℕ) (M : Arr) (hn : M.rows = n) :
    (M.cols ≠ n → Eigenvectors sd M = .error .valueError) ∧
    (M.cols = n → ¬ RealDiagonalizable (mat n M) → (∃ P D, Diagonalizes (cmat n M) P D) → Eigenvectors sd M = .error .typeError) := by
  subst hn
  refine ⟨fun h => ?_, fun h h1 h2 => ?_⟩
  · unfold Eigenvectors
    rw [hsd.nonsquare M (Ne.symm h)]
    rfl
  · cases he : Eigenvectors sd M with
    | ok r => exact absurd ((C125_returns sd hsd hc _ M rfl).1 ⟨r, he⟩).2 h1
    | error e =>
      obtain ⟨⟨P, D⟩, hd⟩ := hc M h.symm h2
      unfold Eigenvectors at he
      rw [hd] at he
      have key : ∀ (l : List (Fin M.rows)) e', l.mapM (fun i => floatOf (D i i)) = .error e' → e' = .typeError := by
        intro l
        induction l with
        | nil => intro e' h; cases h
        | cons a l ih =>
          intro e' h
          rw [List.mapM_cons] at h
          cases hf : floatOf (D a a) with
          | error e2 =>
            rw [hf] at h
            injection h with h
            rw [← h]
            unfold floatOf at hf
            split_ifs at hf
            · cases hf
            · injection hf with hf; exact hf.symm
          | ok x =>
            rw [hf] at h
            cases hm : l.mapM (fun i => floatOf (D i i)) with
            | error e2 => rw [hm] at h; injection h with h; rw [← h]; exact ih e2 hm
            | ok xs => rw [hm] at h; cases h
      have he' : ((List.finRange M.rows).mapM (fun i => floatOf (D i i)) >>= fun e => Except.ok (e, P)) = .error e := he
      cases hm : (List.finRange M.rows).mapM (fun i => floatOf (D i i)) with
      | error e2 => rw [hm] at he'; injection he' with he'; rw [← he', key _ _ hm]
      | ok xs => rw [hm] at he'; cases he'

/-- A rotation by a right angle has complex eigenvectors only. -/
example : ∃ M : Arr, M.rows = 2 ∧ M.cols = 2 ∧ ¬ RealDiagonalizable (mat 2 M) ∧ ∃ P D, Diagonalizes (cmat 2 M) P D := by
  let M : Arr := Arr.of 2 2 fun i j => if i = 0 ∧ j = 1 then -1 else if i = 1 ∧ j = 0 then 1 else 0
  have hm : mat 2 M = !![0, -1; 1, 0] := by
    ext i j; fin_cases i <;> fin_cases j <;> simp [mat, M, Arr.of]
  have hc : cmat 2 M = !![0, -1; 1, 0] := by
    ext i j; fin_cases i <;> fin_cases j <;> simp [cmat, M, Arr.of]
  refine ⟨M, rfl, rfl, ?_, !![1, 1; -Complex.I, Complex.I], !![Complex.I, 0; 0, -Complex.I], ?_, ?_, ?_⟩
  · rintro ⟨Q, w, hQ, h⟩
    have hz : ∀ j, Q 0 j = 0 ∧ Q 1 j = 0 := by
      intro j
      have a := congrFun (congrFun h 0) j
      have b := congrFun (congrFun h 1) j
      rw [Matrix.mul_diagonal, hm] at a b
      simp [Matrix.mul_apply] at a b
      have c : Q 0 j * (1 + w j ^ 2) = 0 := by rw [mul_add, mul_one]; nth_rw 1 [b]; rw [show Q 1 j = -(Q 0 j * w j) by linarith]; ring
      have d : Q 0 j = 0 := by
        rcases mul_eq_zero.1 c with d | d
        · exact d
        · nlinarith [sq_nonneg (w j)]
      exact ⟨d, by rw [d] at a; linarith⟩
    have : Q = 0 := by
      ext i j
      fin_cases i
      · exact (hz j).1
      · exact (hz j).2
    rw [this] at hQ
    exact not_isUnit_zero hQ
  · rw [Matrix.isUnit_iff_isUnit_det, Matrix.det_fin_two_of, isUnit_iff_ne_zero]
    intro e
    have := congrArg Complex.im e
    norm_num at this
  · intro i j hij
    fin_cases i <;> fin_cases j <;> simp_all
  · rw [hc]
    ext i j
    fin_cases i <;> fin_cases j <;> simp [Matrix.mul_apply]

/-- C125.  For a symmetric matrix it returns, and its eigenvalues in ascending order are those of `Eigenfiddle`. -/
theorem C125_symmetric (sd : Diagonalizer) (hsd : DiagonalizeOk sd) (hc : DiagonalizeComplete sd) (la : LinAlg) (hla : LinAlgOk la) (n : ℕ) (M : Arr)
    (h1 : M.rows = n) (h2 : M.cols = n) (hs : (mat n M).IsSymm) : ∃ vals P v Q, Eigenvectors sd M = .ok (vals, P) ∧
    Eigenfiddle la M = .ok (v, Q) ∧ vals.Perm ((List.range n).map v) ∧ ((List.range n).map v).Pairwise (· ≤ ·) := by
  obtain ⟨v, Q, e, -, -, ho, hd, hsort⟩ := C70_eigen la hla n M h1 h2
  have hsym : (1 / 2 : ℝ) • (mat n M + (mat n M).transpose) = mat n M := by
    rw [hs.eq, ← two_smul ℝ (mat n M), smul_smul]; norm_num
  rw [hsym] at hd
  have hU : IsUnit (mat n Q) := IsUnit.of_mul_eq_one _ (mul_eq_one_comm.1 ho)
  have hMQ : mat n M * mat n Q = mat n Q * Matrix.diagonal fun i : Fin n => v i := by
    rw [← hd, ← mul_assoc, ← mul_assoc, mul_eq_one_comm.1 ho, one_mul]
  obtain ⟨⟨vals, P⟩, hv⟩ := (C125_returns sd hsd hc n M h1).2 ⟨h2, _, _, hU, hMQ⟩
  refine ⟨vals, P, v, Q, hv, e, ?_, ?_⟩
  · have r1 := (C125_eigen sd hsd n M h1 vals P hv).2.2.2.2
    rw [roots_of_diag hU hMQ] at r1
    have r2 := Multiset.coe_eq_coe.1 r1
    refine r2.symm.trans (List.Perm.of_eq ?_)
    exact List.ext_getElem (by simp) fun i _ _ => by simp
  · rw [List.pairwise_map]
    exact List.Pairwise.imp_of_mem (fun _ hj hij => hsort _ _ hij.le (List.mem_range.1 hj)) List.pairwise_lt_range

example : ∃ sd la, DiagonalizeOk sd ∧ DiagonalizeComplete sd ∧ LinAlgOk la ∧ (mat 2 (Arr.eye 2)).IsSymm := by
  obtain ⟨sd, h1, h2⟩ := diagonalizer_exists
  obtain ⟨la, h⟩ := linAlg_exists
  exact ⟨sd, la, h1, h2, h, by rw [mat_eye]; exact Matrix.isSymm_one⟩

end Acm.Props
