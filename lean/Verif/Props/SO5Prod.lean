import Verif.Lemmas.SO5Prod

/-!
# Properties C66, C70, C72: diagonal operators, products of spherical operators, eigenvalues
-/

namespace Acm.Props

open Acm Acm.Spec

/-! ## C66 -/

theorem diag_entry {states : List Label} (g : Label → ℝ) (i j : ℕ) (s : Label)
    (hi : states[i]? = some s) (hj : j < states.length) :
    (Arr.diag (states.map g).length fun i => (states.map g).getD i 0).e i j =
      if i = j then g s else 0 := by
  obtain ⟨h, _⟩ := List.getElem?_eq_some_iff.mp hi
  simp only [Arr.diag, Arr.of, List.length_map]
  rw [if_pos ⟨h, hj⟩, List.getD_eq_getElem?_getD, List.getElem?_map, hi]
  simp

/-- C66: `SpDiag_sqLdiv` is represented by the diagonal matrix with entries
`(-1)^L / sqrt(2L+1)`. -/
theorem C66_sqLdiv {v_min v_max L_min L_max : Int} (hv : 0 ≤ v_min) (hv2 : v_min ≤ v_max)
    (hL : 0 ≤ L_min) (hL2 : L_min ≤ L_max) {states : List Label}
    (hs : lbsSO5r3_rngVvarL v_min v_max L_min (some L_max) = .ok states) :
    ∃ A, RepSO5_sqLdiv v_min v_max L_min L_max = .ok A ∧ Square states.length A ∧
      ∀ (i j : ℕ) (v a L : Int), states[i]? = some (v, a, L) → j < states.length →
        A.e i j = if i = j then (-1) ^ L.toNat / Real.sqrt (2 * L + 1) else 0 := by
  have e := diagM_ok hv hv2 hL hL2 hs fun L n => (-1 : ℝ) ^ L.toNat / Real.sqrt n
  refine ⟨_, by unfold RepSO5_sqLdiv; rw [hs, py_bind_ok, e, py_bind_ok]; rfl, ?_, ?_⟩
  · have := square_diag (states.map fun s : Label =>
      (-1 : ℝ) ^ s.2.2.toNat / Real.sqrt (2 * s.2.2 + 1)).length
    rw [List.length_map] at this ⊢
    exact this _
  · intro i j v a L hi hj
    exact diag_entry (fun s : Label => (-1 : ℝ) ^ s.2.2.toNat / Real.sqrt (2 * s.2.2 + 1)) i j _ hi hj

/-- C66, what holds for `SpDiag_sqLdim`: it is represented by the diagonal matrix with entries
`-sqrt(2L+1)`.  Missing: the sign should be `(-1)^L`, but Python reads `-1 ** L` in line 326 as
`-(1 ** L)`. -/
theorem C66_sqLdim_partial {v_min v_max L_min L_max : Int} (hv : 0 ≤ v_min) (hv2 : v_min ≤ v_max)
    (hL : 0 ≤ L_min) (hL2 : L_min ≤ L_max) {states : List Label}
    (hs : lbsSO5r3_rngVvarL v_min v_max L_min (some L_max) = .ok states) :
    ∃ A, RepSO5_sqLdim v_min v_max L_min L_max = .ok A ∧ Square states.length A ∧
      ∀ (i j : ℕ) (v a L : Int), states[i]? = some (v, a, L) → j < states.length →
        A.e i j = if i = j then -Real.sqrt (2 * L + 1) else 0 := by
  have e := diagM_ok hv hv2 hL hL2 hs fun L n => -((1 : ℝ) ^ L.toNat) * Real.sqrt n
  refine ⟨_, by unfold RepSO5_sqLdim; rw [hs, py_bind_ok, e, py_bind_ok]; rfl, ?_, ?_⟩
  · have := square_diag (states.map fun s : Label =>
      -((1 : ℝ) ^ s.2.2.toNat) * Real.sqrt (2 * s.2.2 + 1)).length
    rw [List.length_map] at this ⊢
    exact this _
  · intro i j v a L hi hj
    rw [diag_entry (fun s : Label => -((1 : ℝ) ^ s.2.2.toNat) * Real.sqrt (2 * s.2.2 + 1)) i j _ hi hj]
    simp

/-- C66 is false of the code: every state of even `L` gets the wrong sign. -/
theorem C66_sqLdim_fails {v_min v_max L_min L_max : Int} (hv : 0 ≤ v_min) (hv2 : v_min ≤ v_max)
    (hL : 0 ≤ L_min) (hL2 : L_min ≤ L_max) {states : List Label}
    (hs : lbsSO5r3_rngVvarL v_min v_max L_min (some L_max) = .ok states)
    (i : ℕ) (v a : Int) (k : ℕ) (hi : states[i]? = some (v, a, ((2 * k : ℕ) : Int))) :
    ∃ A, RepSO5_sqLdim v_min v_max L_min L_max = .ok A ∧
      A.e i i ≠ (-1) ^ (2 * k) * Real.sqrt (2 * (2 * k : ℕ) + 1) := by
  obtain ⟨A, h1, _, h3⟩ := C66_sqLdim_partial hv hv2 hL hL2 hs
  refine ⟨A, h1, ?_⟩
  obtain ⟨hlt, _⟩ := List.getElem?_eq_some_iff.mp hi
  rw [h3 i i v a _ hi hlt, if_pos rfl, pow_mul, neg_one_sq, one_pow, one_mul]
  push_cast
  have : 0 < Real.sqrt (2 * (2 * (k : ℝ)) + 1) := Real.sqrt_pos.mpr (by positivity)
  linarith

/-- The range `v = 0..1, L = 0..2` meets the hypotheses; its first state has `L = 0`. -/
example : lbsSO5r3_rngVvarL 0 1 0 (some 2) = .ok [(0, 1, 0), (1, 1, 2)] := by decide +kernel

/-- C66, what holds for the product: `sqLdim sqLdiv` is the diagonal matrix with entries
`-(-1)^L`, the inverse relation holds for odd `L` only. -/
theorem C66_product_partial {v_min v_max L_min L_max : Int} (hv : 0 ≤ v_min) (hv2 : v_min ≤ v_max)
    (hL : 0 ≤ L_min) (hL2 : L_min ≤ L_max) {states : List Label}
    (hs : lbsSO5r3_rngVvarL v_min v_max L_min (some L_max) = .ok states) :
    ∃ A B, RepSO5_sqLdim v_min v_max L_min L_max = .ok A ∧
      RepSO5_sqLdiv v_min v_max L_min L_max = .ok B ∧
      ∀ (i j : ℕ) (v a L : Int), states[i]? = some (v, a, L) → j < states.length →
        (A.mul B).e i j = if i = j then -(-1) ^ L.toNat else 0 := by
  obtain ⟨A, a1, a2, a3⟩ := C66_sqLdim_partial hv hv2 hL hL2 hs
  obtain ⟨B, b1, b2, b3⟩ := C66_sqLdiv hv hv2 hL hL2 hs
  refine ⟨A, B, a1, b1, fun i j v a L hi hj => ?_⟩
  obtain ⟨hlt, _⟩ := List.getElem?_eq_some_iff.mp hi
  simp only [Arr.mul, Arr.of, a2.1, a2.2.1, b2.2.1]
  rw [if_pos ⟨hlt, hj⟩, Finset.sum_eq_single i]
  · rw [a3 i i v a L hi hlt, b3 i j v a L hi hj, if_pos rfl]
    split_ifs
    · have hL0 : 0 ≤ L := by
        rw [lbsSO5r3_rngVvarL_some_ok hv hv2 hL hL2] at hs
        injection hs with hs
        subst hs
        have := (mem_labelsV.mp (List.mem_of_getElem? hi)).2.2.1
        omega
      have : 0 < Real.sqrt (2 * (L : ℝ) + 1) := Real.sqrt_pos.mpr (by
        have : (0 : ℝ) ≤ L := by exact_mod_cast hL0
        linarith)
      field_simp
    · ring
  · intro k hk hne
    rw [a3 i k v a L hi (by simpa using hk), if_neg (fun h => hne h.symm), zero_mul]
  · intro hk; simp only [Finset.mem_range] at hk; omega

/-! ## C72 -/

theorem item_square {CG : CGFun} {v_min v_max L_min L_max : Int} (hv : 0 ≤ v_min)
    (hv2 : v_min ≤ v_max) (hL : 0 ≤ L_min) (hL2 : L_min ≤ L_max) {states : List Label}
    (hs : lbsSO5r3_rngVvarL v_min v_max L_min (some L_max) = .ok states) {y : YSym} {A : Arr}
    (h : RepSO5r3_item CG v_min v_max L_min L_max y = .ok A) : Square states.length A := by
  rcases y with s | t
  · cases s with
    | harm k => exact (RepSO5_Y_rem_ok hs h).1
    | sqLdim =>
      obtain ⟨B, h1, h2, _⟩ := C66_sqLdim_partial hv hv2 hL hL2 hs
      have : RepSO5_sqLdim v_min v_max L_min L_max = .ok A := h
      rw [h1] at this
      injection this with this
      exact this ▸ h2
    | sqLdiv =>
      obtain ⟨B, h1, h2, _⟩ := C66_sqLdiv hv hv2 hL hL2 hs
      have : RepSO5_sqLdiv v_min v_max L_min L_max = .ok A := h
      rw [h1] at this
      injection this with this
      exact this ▸ h2
    | _ => cases h
  · exact (RepSO5_Y_rem_ok hs h).1

theorem loop_some {CG : CGFun} {v_min v_max L_min L_max : Int} {n : ℕ} {ys : List YSym}
    {Ms : List Arr}
    (h : List.Forall₂ (fun y M => RepSO5r3_item CG v_min v_max L_min L_max y = .ok M ∧ Square n M)
      ys Ms) (P : Arr) (hP : Square n P) :
    ∃ A, RepSO5r3_loop CG v_min v_max L_min L_max ys (some P) = .ok (some A) ∧ Square n A ∧
      mat n A = mat n P * (Ms.map (mat n)).prod := by
  induction h generalizing P with
  | nil => exact ⟨P, rfl, hP, by simp⟩
  | cons h1 _ ih =>
    rename_i y M ys Ms _
    obtain ⟨A, e1, e2, e3⟩ := ih (P.mul M) (square_mul hP.1 h1.2.2.1)
    refine ⟨A, by rw [RepSO5r3_loop, h1.1, py_bind_ok]; exact e1, e2, ?_⟩
    rw [e3, mat_mul hP.1 hP.2.1 h1.2.2.1, List.map_cons, List.prod_cons, Matrix.mul_assoc]

/-- C72: if every item of a spherical product has a matrix, the product code returns the ordered
product of these matrices (the identity for the empty product) on the space of all labels in the
range. -/
theorem C72_product (CG : CGFun) {v_min v_max L_min L_max : ℕ} (hv2 : v_min ≤ v_max)
    (hL2 : L_min ≤ L_max) {states : List Label}
    (hs : lbsSO5r3_rngVvarL v_min v_max L_min (some (L_max : Int)) = .ok states)
    (ys : List YSym) (Ms : List Arr)
    (h : List.Forall₂ (fun y M => RepSO5r3_item CG v_min v_max L_min L_max y = .ok M) ys Ms) :
    ∃ A, RepSO5r3_Prod_wrk CG ys v_min v_max L_min L_max = .ok A ∧ Square states.length A ∧
      mat states.length A = (Ms.map (mat states.length)).prod := by
  have hv' : (v_min : Int) ≤ v_max := by exact_mod_cast hv2
  have hL' : (L_min : Int) ≤ L_max := by exact_mod_cast hL2
  have hlen : dimSO5r3_rngVvarL v_min v_max L_min (some (L_max : Int)) = .ok (states.length : Int) := by
    rw [lbsSO5r3_rngVvarL_some_ok (by omega) hv' (by omega) hL'] at hs
    injection hs with hs
    subst hs
    rw [dimSO5r3_rngVvarL, dimSO5r3_rngVrngL_ok (by omega) hv' (by omega) hL', length_labelsV, sum_swap]
  cases h with
  | nil =>
    refine ⟨_, by rw [RepSO5r3_Prod_wrk, if_pos List.length_nil, hlen, py_bind_ok]; rfl, square_eye _, ?_⟩
    simpa using mat_eye _
  | cons h1 h2 =>
    rename_i y M ys Ms
    have sq := item_square (by omega) hv' (by omega) hL' hs h1
    have h2' : List.Forall₂ (fun y M => RepSO5r3_item CG v_min v_max L_min L_max y = .ok M ∧
        Square states.length M) ys Ms :=
      h2.imp fun y M hM => ⟨hM, item_square (by omega) hv' (by omega) hL' hs hM⟩
    obtain ⟨A, e1, e2, e3⟩ := loop_some h2' M sq
    refine ⟨A, ?_, e2, by rw [e3, List.map_cons, List.prod_cons]⟩
    rw [RepSO5r3_Prod_wrk, if_neg (by simp), RepSO5r3_loop, h1, py_bind_ok, e1]
    rfl

/-- C72: the matrix of a harmonic has the entries `CG * reduced element` between the states of
the range. -/
theorem C72_entries {CG : CGFun} {y : Label} {v_min v_max L_min L_max : Int}
    {states : List Label} (hs : lbsSO5r3_rngVvarL v_min v_max L_min (some L_max) = .ok states)
    {A : Arr} (h : RepSO5_Y_rem CG y v_min v_max L_min L_max = .ok A) (i j : ℕ) (f k : Label)
    (hi : states[i]? = some f) (hj : states[j]? = some k) :
    ∃ c r, CG k y f = .ok c ∧ ME_SO5red f.1 y.1 k.1 = .ok r ∧ A.e i j = c * r := by
  have := (RepSO5_Y_rem_ok hs h).2 i j f k hi hj
  unfold ME_SO5r3 at this
  obtain ⟨c, h1, this⟩ := py_bind_eq_ok this
  obtain ⟨r, h2, this⟩ := py_bind_eq_ok this
  injection this with this
  exact ⟨c, r, h1, h2, this.symm⟩

/-- C72: an item that is no spherical operator is rejected if the items before it have
matrices. -/
theorem C72_invalid (CG : CGFun) (v_min v_max L_min L_max : Int) (ys zs : List YSym) (s : OpSym)
    (hs1 : s ≠ .sqLdim) (hs2 : s ≠ .sqLdiv) (hs3 : ∀ h, s ≠ .harm h)
    (h : ∀ y ∈ ys, ∃ M, RepSO5r3_item CG v_min v_max L_min L_max y = .ok M) :
    RepSO5r3_Prod_wrk CG (ys ++ .sym s :: zs) v_min v_max L_min L_max = .error .valueError := by
  have bad : RepSO5r3_item CG v_min v_max L_min L_max (.sym s) = .error .valueError := by
    cases s with
    | sqLdim => exact absurd rfl hs1
    | sqLdiv => exact absurd rfl hs2
    | harm k => exact absurd rfl (hs3 k)
    | _ => rfl
  have loop : ∀ P, RepSO5r3_loop CG v_min v_max L_min L_max (ys ++ .sym s :: zs) P
      = .error .valueError := by
    induction ys with
    | nil => intro P; rw [List.nil_append, RepSO5r3_loop, bad]; rfl
    | cons y ys ih =>
      intro P
      obtain ⟨M, hM⟩ := h y (by simp)
      rw [List.cons_append, RepSO5r3_loop, hM, py_bind_ok]
      exact ih (fun y hy => h y (by simp [hy])) _
  rw [RepSO5r3_Prod_wrk, if_neg (by simp), loop]
  rfl

/-- The hypotheses of C72 are met by `sqLdim sqLdiv` on the range `v = 0..1, L = 0..2`. -/
example (CG : CGFun) : ∃ A, RepSO5r3_Prod_wrk CG [.sym .sqLdim, .sym .sqLdiv] 0 1 0 2 = .ok A ∧
    Square 2 A := by
  have hs : lbsSO5r3_rngVvarL 0 1 0 (some 2) = .ok [(0, 1, 0), (1, 1, 2)] := by decide +kernel
  obtain ⟨A, a1, _, _⟩ := C66_sqLdim_partial (by norm_num) (by norm_num) (by norm_num)
    (by norm_num) hs
  obtain ⟨B, b1, _, _⟩ := C66_sqLdiv (by norm_num) (by norm_num) (by norm_num) (by norm_num) hs
  obtain ⟨C, c1, c2, _⟩ := C72_product CG (v_min := 0) (v_max := 1) (L_min := 0) (L_max := 2)
    (by norm_num) (by norm_num) hs [.sym .sqLdim, .sym .sqLdiv] [A, B]
    (.cons a1 (.cons b1 .nil))
  exact ⟨C, c1, c2⟩

/-! ## C70 -/

/-- C70: non-square input is rejected. -/
theorem C70_nonsquare (la : LinAlg) (A : Arr) (h : A.rows ≠ A.cols) :
    Eigenfiddle la A = .error .valueError := by
  unfold Eigenfiddle; rw [if_pos h]; rfl

/-- C70: for every square matrix `A`, `Eigenfiddle` returns ascending eigenvalues and an
orthogonal matrix that diagonalises the symmetric part of `A`. -/
theorem C70_eigen (la : LinAlg) (hla : LinAlgOk la) (n : ℕ) (A : Arr) (h1 : A.rows = n)
    (h2 : A.cols = n) :
    ∃ v P, Eigenfiddle la A = .ok (v, P) ∧ P.rows = n ∧ P.cols = n ∧
      (mat n P).transpose * mat n P = 1 ∧
      (mat n P).transpose * ((1 / 2 : ℝ) • (mat n A + (mat n A).transpose)) * mat n P
        = Matrix.diagonal (fun i : Fin n => v i) ∧
      (∀ i j, i ≤ j → j < n → v i ≤ v j) := by
  unfold Eigenfiddle
  rw [if_neg (by rw [h1, h2]; simp)]
  set H := Arr.of A.rows A.cols fun i j => (A.e i j + A.T.e i j) / 2 with hH
  have hm : mat n H = (1 / 2 : ℝ) • (mat n A + (mat n A).transpose) := by
    ext i j
    simp only [mat, Matrix.of_apply, hH, Arr.of, Arr.T, h1, h2, Matrix.smul_apply, Matrix.add_apply,
      Matrix.transpose_apply, smul_eq_mul]
    rw [if_pos ⟨i.2, j.2⟩]
    ring
  have r1 : H.rows = n := by simp [hH, Arr.of, h1]
  have r2 : H.cols = n := by simp [hH, Arr.of, h2]
  have hs' : (mat n H).IsSymm := by
    rw [hm]
    ext i j
    simp only [Matrix.transpose_apply, Matrix.smul_apply, Matrix.add_apply, smul_eq_mul]
    ring
  have hsh := hla.eigh_shape n H r1 r2
  have ho := hla.eigh_orthonormal n H r1 r2 hs'
  refine ⟨(la.eigh H).1, (la.eigh H).2, rfl, hsh.1, hsh.2, ho, ?_, hla.eigh_sorted n H r1 r2 hs'⟩
  rw [← hm, Matrix.mul_assoc, hla.eigh_eigen n H r1 r2 hs', ← Matrix.mul_assoc, ho, Matrix.one_mul]

/-- C70: for symmetric input the matrix that is diagonalised is the input itself. -/
theorem C70_symmetric (la : LinAlg) (hla : LinAlgOk la) (n : ℕ) (A : Arr) (h1 : A.rows = n)
    (h2 : A.cols = n) (hs : (mat n A).IsSymm) :
    ∃ v P, Eigenfiddle la A = .ok (v, P) ∧ (mat n P).transpose * mat n P = 1 ∧
      (mat n P).transpose * mat n A * mat n P = Matrix.diagonal (fun i : Fin n => v i) := by
  obtain ⟨v, P, e, _, _, ho, hd, _⟩ := C70_eigen la hla n A h1 h2
  refine ⟨v, P, e, ho, ?_⟩
  have : (1 / 2 : ℝ) • (mat n A + (mat n A).transpose) = mat n A := by
    rw [hs.eq, ← two_smul ℝ (mat n A), smul_smul]; norm_num
  rwa [this] at hd

/-- The hypotheses of C70 are met: linear algebra routines that satisfy the contract exist, and
the 2 x 2 identity is symmetric. -/
example : ∃ la, LinAlgOk la ∧ (mat 2 (Arr.eye 2)).IsSymm := by
  obtain ⟨la, h⟩ := linAlg_exists
  exact ⟨la, h, by rw [mat_eye]; exact Matrix.isSymm_one⟩

end Acm.Props
