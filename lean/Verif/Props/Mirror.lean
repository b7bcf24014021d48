import Verif.Props.Rescale
import Verif.Props.Selection
import Verif.Props.Balance
import Verif.Spec.Mirror

/-!
# C111: prolate and oblate
-/

namespace Acm.Props

open Acm.Spec

/-! ### matrices -/

/-- Row and column `i` are multiplied by `σ i`. -/
noncomputable def conjArr (σ : ℕ → ℝ) (M : Arr) : Arr := Arr.of M.rows M.cols fun i j => σ i * σ j * M.e i j

/-- The signs of the rows. -/
noncomputable def rowSign (xs : List XspaceLabel) (i : ℕ) : ℝ := (xs[i]?.map invSign).getD 1

theorem invSign_sq (x : XspaceLabel) : invSign x ^ 2 = 1 := by
  unfold invSign
  split_ifs <;> norm_num

theorem rowSign_sq (xs : List XspaceLabel) (i : ℕ) : rowSign xs i ^ 2 = 1 := by
  unfold rowSign
  cases xs[i]? with
  | none => exact one_pow 2
  | some x => exact invSign_sq x

theorem conj_square {n : ℕ} {A : Arr} (σ : ℕ → ℝ) (h : Square n A) : Square n (conjArr σ A) :=
  ⟨h.1, h.2.1, fun i j hij => by simp only [conjArr, Arr.of, h.1, h.2.1]; rw [if_neg hij]⟩

theorem conj_e {n : ℕ} {A : Arr} (σ : ℕ → ℝ) (h : Square n A) {i j : ℕ} (hi : i < n) (hj : j < n) :
    (conjArr σ A).e i j = σ i * σ j * A.e i j := by
  simp only [conjArr, Arr.of, h.1, h.2.1]
  rw [if_pos ⟨hi, hj⟩]

theorem invSign_mul {x y : XspaceLabel} {n : ℕ} (h : (x.2.1 - y.2.1 - n) % 2 = 0) : invSign x * invSign y = (-1) ^ n := by
  unfold invSign
  rcases Nat.even_or_odd n with hn | hn
  · rw [hn.neg_one_pow]
    obtain ⟨k, rfl⟩ := hn
    push_cast at h
    split_ifs <;> first | (exfalso; omega) | norm_num
  · rw [hn.neg_one_pow]
    obtain ⟨k, rfl⟩ := hn
    push_cast at h
    split_ifs <;> first | (exfalso; omega) | norm_num

section
variable {env : XEnv} {a : XArgs} (h : LegalRanges a) (lam : LambdaFunction)
include h

theorem termMat_inv (t : Coeff × OperatorProduct) :
    termMat env a.xlabels a lam (fun x => (-1) ^ termSen t.2 * t.1 x, t.2) =
      (termMat env a.xlabels a lam t).map (conjArr (rowSign a.xlabels)) := by
  rw [termMat_times h lam]
  cases hP : termMat env a.xlabels a lam t with
  | error e => rfl
  | ok P =>
    refine congrArg Except.ok ?_
    have hsq := termMat_square h lam hP
    refine square_ext (square_aff _ 0 hsq) (conj_square _ hsq) fun i j hi hj => ?_
    rw [aff_e _ 0 hsq hi hj, conj_e _ hsq hi hj, ite_self, add_zero]
    have hi' := hi
    have hj' := hj
    rw [← length_xlabels] at hi' hj'
    by_cases h0 : P.e i j = 0
    · rw [h0, mul_zero, mul_zero]
    · have hrep : (RepXspace env [t] a (XState.start lam)).1 = .ok P := by
        rw [rep_eq h (memoOk_start env lam)]
        show (lbsXspace a.nu_min a.nu_max a.v_min a.v_max a.L_min (some a.L_max) >>= fun xs =>
          termMat env xs a lam t >>= fun M => sumMat env xs a lam [] M) = .ok P
        rw [lbsXspace_ok h, py_bind_ok, hP, py_bind_ok]
        rfl
      have := C102_seniority h (memoOk_start env lam) hrep (lbsXspace_ok h) i j _ _ (List.getElem?_eq_getElem hi') (List.getElem?_eq_getElem hj')
      rw [not_imp_comm] at this
      obtain ⟨u, hu, _, hp⟩ := this h0
      rw [List.mem_singleton.1 hu] at hp
      unfold rowSign
      rw [List.getElem?_eq_getElem hi', List.getElem?_eq_getElem hj']
      show _ = invSign _ * invSign _ * _
      rw [invSign_mul hp]

theorem sumMat_inv (ts : OperatorSum) : ∀ {M : Arr}, Square a.dim M →
    sumMat env a.xlabels a lam (inverted ts) (conjArr (rowSign a.xlabels) M) =
      (sumMat env a.xlabels a lam ts M).map (conjArr (rowSign a.xlabels)) := by
  induction ts with
  | nil => exact fun _ => rfl
  | cons t ts ih =>
    intro M hM
    show (termMat env a.xlabels a lam (fun x => (-1) ^ termSen t.2 * t.1 x, t.2) >>= fun x =>
        sumMat env a.xlabels a lam (inverted ts) ((conjArr (rowSign a.xlabels) M).add x)) =
      (termMat env a.xlabels a lam t >>= fun x => sumMat env a.xlabels a lam ts (M.add x)).map (conjArr (rowSign a.xlabels))
    rw [termMat_inv h lam]
    cases hP : termMat env a.xlabels a lam t with
    | error e => rfl
    | ok P =>
      have hsq := termMat_square h lam hP
      show sumMat env a.xlabels a lam (inverted ts) ((conjArr (rowSign a.xlabels) M).add (conjArr (rowSign a.xlabels) P)) =
        (sumMat env a.xlabels a lam ts (M.add P)).map (conjArr (rowSign a.xlabels))
      rw [← ih (square_add hM)]
      congr 1
      refine square_ext (square_add (conj_square _ hM)) (conj_square _ (square_add hM)) fun i j hi hj => ?_
      rw [add_e (conj_square _ hM) hi hj, conj_e _ hM hi hj, conj_e _ hsq hi hj, conj_e _ (square_add hM) hi hj, add_e hM hi hj]
      ring

theorem allMat_inv (ts : OperatorSum) :
    allMat env a (inverted ts) lam = (allMat env a ts lam).map (conjArr (rowSign a.xlabels)) := by
  cases ts with
  | nil =>
    show (dimXspace a.nu_min a.nu_max a.v_min a.v_max a.L_min (some a.L_max) >>= fun d => pure (Arr.zeros d.toNat d.toNat)) =
      (dimXspace a.nu_min a.nu_max a.v_min a.v_max a.L_min (some a.L_max) >>= fun d => pure (Arr.zeros d.toNat d.toNat)).map
        (conjArr (rowSign a.xlabels))
    rw [dimXspace_ok h]
    refine congrArg Except.ok ?_
    ext i j
    · rfl
    · rfl
    · simp [conjArr, Arr.zeros, Arr.of]
  | cons t ts =>
    show (lbsXspace a.nu_min a.nu_max a.v_min a.v_max a.L_min (some a.L_max) >>= fun xs =>
      termMat env xs a lam (fun x => (-1) ^ termSen t.2 * t.1 x, t.2) >>= fun M => sumMat env xs a lam (inverted ts) M) =
      (lbsXspace a.nu_min a.nu_max a.v_min a.v_max a.L_min (some a.L_max) >>= fun xs =>
      termMat env xs a lam t >>= fun M => sumMat env xs a lam ts M).map (conjArr (rowSign a.xlabels))
    rw [lbsXspace_ok h, py_bind_ok, py_bind_ok, termMat_inv h lam]
    cases hP : termMat env a.xlabels a lam t with
    | error e => rfl
    | ok P => exact sumMat_inv h lam ts (termMat_square h lam hP)

end

theorem tame_inv (op : OperatorSum) : Op_Tame (inverted op) = Op_Tame op := by
  rw [Bool.eq_iff_iff, C63_tame, C63_tame]
  constructor
  · exact fun h t ht => h (fun x => (-1) ^ termSen t.2 * t.1 x, t.2) (List.mem_map.2 ⟨t, ht, rfl⟩)
  · intro h t ht
    obtain ⟨u, hu, rfl⟩ := List.mem_map.1 ht
    exact h u hu

/-- C111: the matrix of the operator after inversion has the same elements up to the signs of the two states; if one cannot be computed, the
same exception is raised for the other. -/
theorem C111_matrix {env : XEnv} {a : XArgs} (h : LegalRanges a) {s : XState} (hs : MemoOk env s) (op : OperatorSum) {xs : List XspaceLabel}
    (hx : lbsXspace a.nu_min a.nu_max a.v_min a.v_max a.L_min (some a.L_max) = .ok xs) :
    (∃ e, (RepXspace env op a s).1 = .error e ∧ (RepXspace env (inverted op) a s).1 = .error e) ∨
    ∃ M M', (RepXspace env op a s).1 = .ok M ∧ (RepXspace env (inverted op) a s).1 = .ok M' ∧ M'.rows = M.rows ∧ M'.cols = M.cols ∧
      ∀ p q f i, xs[p]? = some f → xs[q]? = some i → M'.e p q = invSign f * invSign i * M.e p q := by
  rw [lbsXspace_ok h] at hx
  injection hx with hx
  subst hx
  rw [rep_eq h hs, rep_eq h hs, allMat_inv h]
  cases hM : allMat env a op s.lam_fun with
  | error e => exact .inl ⟨e, rfl, rfl⟩
  | ok M =>
    refine .inr ⟨M, _, rfl, rfl, rfl, rfl, fun p q f i hp hq => ?_⟩
    obtain ⟨hp', rfl⟩ := List.getElem?_eq_some_iff.1 hp
    obtain ⟨hq', rfl⟩ := List.getElem?_eq_some_iff.1 hq
    rw [conj_e _ (allMat_square h hM) (by rw [← length_xlabels]; exact hp') (by rw [← length_xlabels]; exact hq')]
    unfold rowSign
    rw [hp, hq]
    rfl

/-! ### energies -/

theorem conj_mat {n : ℕ} (σ : ℕ → ℝ) {M : Arr} (h1 : M.rows = n) (h2 : M.cols = n) :
    mat n (conjArr σ M) = Matrix.diagonal (fun i : Fin n => σ i) * mat n M * Matrix.diagonal (fun i : Fin n => σ i) := by
  ext i j
  rw [Matrix.mul_diagonal, Matrix.diagonal_mul]
  simp only [mat, conjArr, Arr.of, Matrix.of_apply, h1, h2]
  rw [if_pos ⟨i.2, j.2⟩]
  ring

/-- Rows multiplied by signs. -/
noncomputable def flipRows (σ : ℕ → ℝ) (P : Arr) : Arr := Arr.of P.rows P.cols fun i j => σ i * P.e i j

theorem flip_mat {n : ℕ} (σ : ℕ → ℝ) {P : Arr} (h1 : P.rows = n) (h2 : P.cols = n) :
    mat n (flipRows σ P) = Matrix.diagonal (fun i : Fin n => σ i) * mat n P := by
  ext i j
  rw [Matrix.diagonal_mul]
  simp only [mat, flipRows, Arr.of, Matrix.of_apply, h1, h2]
  rw [if_pos ⟨i.2, j.2⟩]

theorem diag_sq {n : ℕ} {σ : ℕ → ℝ} (hσ : ∀ i, σ i ^ 2 = 1) :
    Matrix.diagonal (fun i : Fin n => σ i) * Matrix.diagonal (fun i : Fin n => σ i) = 1 := by
  rw [Matrix.diagonal_mul_diagonal]
  simp only [← pow_two, hσ]
  exact Matrix.diagonal_one

/-- Eigenvectors of the matrix with signs are, up to signs, eigenvectors of the matrix. -/
theorem conj_eig {la la' : LinAlg} (h : LinAlgOk la) (h' : LinAlgOk la') {σ : ℕ → ℝ} (hσ : ∀ i, σ i ^ 2 = 1) {n : ℕ} {M : Arr}
    (h1 : M.rows = n) (h2 : M.cols = n) : ∃ vs P P', Eigenlist la M = .ok (vs, P) ∧ Eigenlist la' (conjArr σ M) = .ok (vs, P') ∧
      vs.length = n ∧ P'.rows = n ∧ P'.cols = n ∧ TwoBases n vs P (flipRows σ P') := by
  obtain ⟨v, P, e1, e2⟩ := Eigenlist_ok la h1 h2
  obtain ⟨w, Q, e1', e2'⟩ := Eigenlist_ok la' (M := conjArr σ M) (n := n) h1 h2
  obtain ⟨_, _, k, p1, p2, o, d, s⟩ := C70_eigen la h n M h1 h2
  obtain ⟨_, _, k', q1, q2, o', d', s'⟩ := C70_eigen la' h' n (conjArr σ M) h1 h2
  rw [e1] at k
  rw [e1'] at k'
  injection k with k
  injection k with k1 k2
  injection k' with k'
  injection k' with k1' k2'
  subst k1 k2 k1' k2'
  have hD := diag_sq (n := n) hσ
  set D := Matrix.diagonal (fun i : Fin n => σ i) with hDd
  have hDt : D.transpose = D := Matrix.diagonal_transpose _
  have oo : (mat n (flipRows σ Q)).transpose * mat n (flipRows σ Q) = 1 := by
    rw [flip_mat σ q1 q2, ← hDd, Matrix.transpose_mul, hDt]
    calc (mat n Q).transpose * D * (D * mat n Q) = (mat n Q).transpose * (D * D) * mat n Q := by simp only [mul_assoc]
      _ = 1 := by rw [hD, mul_one, o']
  have dd : (mat n (flipRows σ Q)).transpose * ((1 / 2 : ℝ) • (mat n M + (mat n M).transpose)) * mat n (flipRows σ Q) =
      Matrix.diagonal (fun i : Fin n => w i) := by
    rw [← d', conj_mat σ h1 h2, ← hDd, flip_mat σ q1 q2, ← hDd, Matrix.transpose_mul, Matrix.transpose_mul, Matrix.transpose_mul, hDt]
    simp only [Matrix.mul_smul, Matrix.smul_mul, mul_add, add_mul, mul_assoc]
  have sorted : ∀ u : ℕ → ℝ, (∀ i j, i ≤ j → j < n → u i ≤ u j) → ((List.range n).map u).Pairwise (· ≤ ·) := by
    intro u hu
    rw [List.pairwise_map]
    refine List.Pairwise.imp_of_mem ?_ (List.pairwise_lt_range (n := n))
    intro i j _ hj hij
    exact hu i j hij.le (List.mem_range.1 hj)
  have hp := (eig_same_perm o d oo dd).eq_of_pairwise' (sorted v s) (sorted w s')
  refine ⟨_, P, Q, e2, by rw [hp]; exact e2', by simp, q1, q2, _, v, rfl, p1, p2, q1, q2, o, d, oo, ?_⟩
  rw [dd]
  congr 1
  funext i
  have := congrArg (fun l => l[i.1]?) hp
  simpa [i.2] using this.symm

/-- What is found for a Hamiltonian and for its inversion. -/
def InvEig (a : XArgs) (x y : LEig) : Prop :=
  y.L = x.L ∧ y.vals = x.vals ∧ y.basis.rows = x.vals.length ∧ y.basis.cols = x.vals.length ∧
    TwoBases x.vals.length x.vals x.basis (flipRows (rowSign (a.at x.L).xlabels) y.basis)

theorem digTame_inv {CG : CGFun} {la la' : LinAlg} (h : LinAlgOk la) (h' : LinAlgOk la') (ham : OperatorSum) {a : XArgs}
    (ha : LegalRanges a) (Ls : List Int) : (∀ L ∈ Ls, 0 ≤ L) → ∀ s t : FState, FOk ⟨CG, la⟩ s → FOk ⟨CG, la⟩ t →
    t.glb.lam_fun = s.glb.lam_fun →
    PyRel (List.Forall₂ (InvEig a)) (digTame ⟨CG, la⟩ ham a Ls s).1 (digTame ⟨CG, la'⟩ (inverted ham) a Ls t).1 := by
  induction Ls with
  | nil => exact fun _ s t _ _ _ => .inr ⟨[], [], rfl, rfl, .nil⟩
  | cons L Ls ih =>
    intro hL s t hs ht et
    replace ih := ih fun K hK => hL K (List.mem_cons_of_mem _ hK)
    have hL' := hL L List.mem_cons_self
    have hleg := legal_at ha hL'
    unfold digTame
    rw [rngV_at ha hL', st_lift_ok, st_lift_ok]
    by_cases hp : ((a.at L).states.length : Int) > 0
    · rw [if_pos hp, if_pos hp]
      obtain ⟨s1, e1, f1, g1, _⟩ := liftX_rep hleg hs ham
      have ht' : FOk ⟨CG, la'⟩ t := memoOk_same CG h h' ht
      obtain ⟨t1, e2, f2, g2, _⟩ := liftX_rep hleg ht' (inverted ham)
      have f2' : FOk ⟨CG, la⟩ t1 := memoOk_same CG h' h f2
      have ea : allMat ⟨CG, la'⟩ (a.at L) (inverted ham) t.glb.lam_fun =
          (allMat ⟨CG, la⟩ (a.at L) ham s.glb.lam_fun).map (conjArr (rowSign (a.at L).xlabels)) := by
        have := rep_eq hleg ht (inverted ham)
        rw [C105_rep CG h h', rep_eq hleg ht'] at this
        rw [show allMat ⟨CG, la'⟩ (a.at L) (inverted ham) t.glb.lam_fun = allMat ⟨CG, la⟩ (a.at L) (inverted ham) t.glb.lam_fun from this, et,
          allMat_inv hleg]
      rw [ea] at e2
      cases hM : allMat ⟨CG, la⟩ (a.at L) ham s.glb.lam_fun with
      | error e =>
        rw [hM] at e1 e2
        rw [st_bind_error e1, st_bind_error e2]
        exact .inl ⟨e, rfl, rfl⟩
      | ok M =>
        rw [hM] at e1 e2
        have hsq := allMat_square hleg hM
        obtain ⟨vs, P, P', k1, k2, k3, k4, k5, k6⟩ := conj_eig h h' (rowSign_sq (a.at L).xlabels) hsq.1 hsq.2.1
        replace e2 : FM.liftX (RepXspace ⟨CG, la'⟩ (inverted ham) (a.at L)) t = (.ok (conjArr (rowSign (a.at L).xlabels) M), t1) := e2
        rw [st_bind_ok e1, st_bind_ok e2, k1, k2, st_lift_ok, st_lift_ok]
        have := ih s1 t1 f1 f2' (by rw [g1, g2]; exact et)
        rcases m1 : digTame ⟨CG, la⟩ ham a Ls s1 with ⟨u, s2⟩
        rcases m2 : digTame ⟨CG, la'⟩ (inverted ham) a Ls t1 with ⟨w, t2⟩
        rw [m1, m2] at this
        rcases this with ⟨e, i1, i2⟩ | ⟨r, r', i1, i2, i3⟩
        · dsimp only at i1 i2
          rw [i1] at m1
          rw [i2] at m2
          rw [st_bind_error m1, st_bind_error m2]
          exact .inl ⟨e, rfl, rfl⟩
        · dsimp only at i1 i2
          rw [i1] at m1
          rw [i2] at m2
          rw [st_bind_ok m1, st_bind_ok m2, st_pure, st_pure]
          refine .inr ⟨_, _, rfl, rfl, .cons ⟨rfl, rfl, ?_, ?_, ?_⟩ i3⟩
          · show P'.rows = vs.length; rw [k3, k4]
          · show P'.cols = vs.length; rw [k3, k5]
          · show TwoBases vs.length vs P (flipRows (rowSign (a.at L).xlabels) P')
            rw [k3]
            exact k6
    · rw [if_neg hp, if_neg hp]
      exact ih s t hs ht et

theorem slice_conj (σ : ℕ → ℝ) {M : Arr} (h : M.rows = M.cols) (b : Int) {e : Int} (he : 0 ≤ e) :
    (conjArr σ M).slice b e b e = conjArr (fun i => σ (sliceBound M.rows b + i)) (M.slice b e b e) := by
  have hm := sliceBound_max M.cols he
  ext i j
  · rfl
  · rfl
  · simp only [conjArr, Arr.slice, Arr.of, h]
    split_ifs <;> first | (exfalso; omega) | rfl

theorem digUntame_inv {la la' : LinAlg} (h : LinAlgOk la) (h' : LinAlgOk la') {σ : ℕ → ℝ} (hσ : ∀ i, σ i ^ 2 = 1) (a : XArgs) {M : Arr}
    (hM : M.rows = M.cols) {k : Int} (hk : 0 ≤ k) (Ls : List Int) : ∀ L0, 0 ≤ L0 →
    (digUntame la' a (conjArr σ M) k Ls L0).map levels = (digUntame la a M k Ls L0).map levels := by
  induction Ls with
  | nil => exact fun _ _ => rfl
  | cons L Ls ih =>
    intro L0 h0
    unfold digUntame
    cases hd : dimSO5r3_rngV a.v_min a.v_max L with
    | error e => rfl
    | ok n =>
      simp only [py_bind_ok]
      by_cases hp : n > 0
      · have hs : 0 ≤ L0 + k * n := add_nonneg h0 (mul_nonneg hk hp.le)
        rw [if_pos hp, if_pos hp, slice_conj σ hM _ hs]
        set N := M.slice (L0 - 1) (L0 + k * n) (L0 - 1) (L0 + k * n) with hN
        have hsq : N.cols = N.rows := by rw [hN]; simp only [Arr.slice, Arr.of, hM]
        obtain ⟨vs, P, P', k1, k2, _⟩ := conj_eig h h' (σ := fun i => σ (sliceBound M.rows (L0 - 1) + i)) (fun i => hσ _) (M := N) rfl hsq
        rw [k1, k2, py_bind_ok, py_bind_ok]
        have := ih _ hs
        cases c1 : digUntame la a M k Ls (L0 + k * n) with
        | error e =>
          rw [c1] at this
          cases c2 : digUntame la' a (conjArr σ M) k Ls (L0 + k * n) with
          | error e' => rw [c2] at this; injection this with this; rw [this]; rfl
          | ok r' => rw [c2] at this; cases this
        | ok r =>
          rw [c1] at this
          cases c2 : digUntame la' a (conjArr σ M) k Ls (L0 + k * n) with
          | error e' => rw [c2] at this; cases this
          | ok r' =>
            rw [c2] at this
            injection this with this
            refine congrArg Except.ok ?_
            unfold levels at this ⊢
            rw [List.map_cons, List.map_cons, this]
      · rw [if_neg hp, if_neg hp]
        exact ih _ h0

theorem levels_inv {a : XArgs} {r r' : List LEig} (h : List.Forall₂ (InvEig a) r r') : levels r' = levels r := by
  unfold levels
  induction h with
  | nil => rfl
  | cons hx _ ih => rw [List.map_cons, List.map_cons, ih, hx.1, hx.2.1]

theorem dig_inv {CG : CGFun} {la la' : LinAlg} (h : LinAlgOk la) (h' : LinAlgOk la') {ham : OperatorSum} (hta : Op_Tame ham = true)
    (a : XArgs) {s : FState} (hs : MemoOk ⟨CG, la⟩ s.xs) :
    PyRel (List.Forall₂ (InvEig a)) (DigXspace ⟨CG, la⟩ ham a s).1 (DigXspace ⟨CG, la'⟩ (inverted ham) a s).1 := by
  by_cases ha : LegalRanges a
  · unfold DigXspace
    rw [check_ok ha, st_lift_ok, st_lift_ok, tame_inv, if_pos hta, if_pos hta]
    exact digTame_inv h h' ham ha _ (range_nonneg ha) s s hs hs rfl
  · rw [C32_illegal _ _ ha, C32_illegal _ _ ha]
    exact .inl ⟨_, rfl, rfl⟩

/-- C111: the inversion changes neither the angular momenta nor the energies, whatever the Hamiltonian, nor the exception if there is
one. -/
theorem C111_energies {CG : CGFun} {la la' : LinAlg} (h : LinAlgOk la) (h' : LinAlgOk la') (ham : OperatorSum) (a : XArgs) {s : FState}
    (hs : MemoOk ⟨CG, la⟩ s.xs) :
    (DigXspace ⟨CG, la'⟩ (inverted ham) a s).1.map levels = (DigXspace ⟨CG, la⟩ ham a s).1.map levels := by
  by_cases hta : Op_Tame ham = true
  · rcases dig_inv h h' hta a hs with ⟨e, k1, k2⟩ | ⟨r, r', k1, k2, k3⟩
    · rw [k1, k2]
    · rw [k1, k2]
      exact congrArg Except.ok (levels_inv k3)
  · by_cases ha : LegalRanges a
    · unfold DigXspace
      rw [check_ok ha, st_lift_ok, st_lift_ok, tame_inv, if_neg hta, if_neg hta]
      obtain ⟨s1, e1, _⟩ := liftX_rep ha hs ham
      have hs' : FOk ⟨CG, la'⟩ s := memoOk_same CG h h' hs
      obtain ⟨t1, e2, _⟩ := liftX_rep ha hs' (inverted ham)
      have ea : allMat ⟨CG, la'⟩ a (inverted ham) s.glb.lam_fun =
          (allMat ⟨CG, la⟩ a ham s.glb.lam_fun).map (conjArr (rowSign a.xlabels)) := by
        have := rep_eq ha hs (inverted ham)
        rw [C105_rep CG h h', rep_eq ha hs'] at this
        rw [show allMat ⟨CG, la'⟩ a (inverted ham) s.glb.lam_fun = allMat ⟨CG, la⟩ a (inverted ham) s.glb.lam_fun from this, allMat_inv ha]
      rw [ea] at e2
      cases hM : allMat ⟨CG, la⟩ a ham s.glb.lam_fun with
      | error e =>
        rw [hM] at e1 e2
        rw [st_bind_error e1, st_bind_error e2]
      | ok M =>
        rw [hM] at e1 e2
        have hsq := allMat_square ha hM
        replace e2 : FM.liftX (RepXspace ⟨CG, la'⟩ (inverted ham) a) s = (.ok (conjArr (rowSign a.xlabels) M), t1) := e2
        rw [st_bind_ok e1, st_bind_ok e2, dimRadial_eq ha, st_lift, st_lift]
        exact digUntame_inv h h' (rowSign_sq a.xlabels) a (by rw [hsq.1, hsq.2.1]) (by omega) _ 1 (by omega)
    · rw [C32_illegal _ _ ha, C32_illegal _ _ ha]

/-! ### transitions -/

/-- The labels in the block of an angular momentum. -/
theorem block_label {a : XArgs} (h : LegalRanges a) {Ls : List Int} (ho : OccupiedL a Ls) {L : Int} (hL : L ∈ Ls) {b e : ℕ}
    (hb : b < e) (hpos : ∀ p x, a.xlabels[p]? = some x → (x.2.2.2 = L ↔ b ≤ p ∧ p < e)) (hlen : (a.at L).dim = e - b) {k : ℕ} (hk : b + k < e) :
    a.xlabels[b + k]? = (a.at L).xlabels[k]? := by
  have hflat : a.xlabels = Ls.flatMap fun L => (a.at L).xlabels := by rw [xlabels_flat, ← occupied_eq h ho]
  obtain ⟨l1, l2, hl⟩ := List.append_of_mem hL
  have hnd := occupied_nodup ho
  rw [hl, List.flatMap_append, List.flatMap_cons] at hflat
  set n := (l1.flatMap fun L => (a.at L).xlabels).length with hn
  have hat : (a.at L).xlabels.length = e - b := by rw [length_xlabels, hlen]
  have get : ∀ k, k < e - b → a.xlabels[n + k]? = (a.at L).xlabels[k]? := by
    intro k hk
    rw [hflat, List.getElem?_append_right (by omega), show n + k - n = k by omega, List.getElem?_append_left (by omega)]
  have hnb : n = b := by
    have h0 : (a.at L).xlabels[0]? = some ((a.at L).xlabels[0]'(by omega)) := List.getElem?_eq_getElem _
    have h1 := get 0 (by omega)
    rw [h0] at h1
    have h2 := (hpos _ _ h1).1 (xlabels_at_L (List.getElem_mem _))
    by_contra hne
    have hlt : b < n := by omega
    have hx : a.xlabels[b]? = some ((l1.flatMap fun L => (a.at L).xlabels)[b]'hlt) := by
      rw [hflat, List.getElem?_append_left hlt]
      exact List.getElem?_eq_getElem _
    have hxL := (hpos _ _ hx).2 ⟨le_rfl, hb⟩
    obtain ⟨K, hK, hm⟩ := List.mem_flatMap.1 (List.getElem_mem hlt)
    rw [xlabels_at_L hm] at hxL
    subst hxL
    rw [hl, List.nodup_append] at hnd
    exact hnd.2.2 K hK K List.mem_cons_self rfl
  rw [← hnb]
  exact get k (by omega)

theorem amp_inv {CG : CGFun} {la la' : LinAlg} (h : LinAlgOk la) (h' : LinAlgOk la') (j j' : ℕ → ℕ → ℝ) {ham op : OperatorSum}
    (ht : Op_Tame ham = true) {a : XArgs} {s s1 : FState} (hs : MemoOk ⟨CG, la⟩ s.xs) {r r' : List LEig}
    (hr : DigXspace ⟨CG, la⟩ ham a s = (.ok r, s1)) (hsame : List.Forall₂ (InvEig a) r r') {t : FState}
    (hm : MemoOk ⟨CG, la⟩ t.xs) {R : LBlockArray}
    (hR : (AmpXspeig ⟨⟨CG, la⟩, j⟩ op (r.map LEig.basis) a (r.map LEig.L) t).1 = .ok R) :
    ∃ R', (AmpXspeig ⟨⟨CG, la'⟩, j'⟩ (inverted op) (r'.map LEig.basis) a (r'.map LEig.L) t).1 = .ok R' ∧
      (R'.full_space = R.full_space ∧ R'.mat.rows = R.mat.rows ∧ R'.mat.cols = R.mat.cols) ∧ ∀ x ∈ r, ∀ y ∈ r,
      ∃ (x' y' : LEig) (B G G' : Arr), InvEig a x x' ∧ InvEig a y y' ∧ (x = y → x' = y') ∧
      R.get_block x.L y.L = .ok G ∧ R'.get_block x.L y.L = .ok G' ∧
      (G.rows = x.vals.length ∧ G.cols = y.vals.length) ∧ (G'.rows = x.vals.length ∧ G'.cols = y.vals.length) ∧
      (∀ (f : Fin x.vals.length) (i : Fin y.vals.length), G.e f i = ((mat x.vals.length x.basis).transpose *
        (Matrix.of fun (i : Fin x.vals.length) (j : Fin y.vals.length) => B.e i j) * mat y.vals.length y.basis) f i) ∧
      ∀ (f : Fin x.vals.length) (i : Fin y.vals.length), G'.e f i =
        ((mat x.vals.length (flipRows (rowSign (a.at x.L).xlabels) x'.basis)).transpose *
        (Matrix.of fun (i : Fin x.vals.length) (j : Fin y.vals.length) => B.e i j) *
          mat y.vals.length (flipRows (rowSign (a.at y.L).xlabels) y'.basis)) f i := by
  have hleg : LegalRanges a := by
    by_contra hl
    rw [C32_illegal _ ham hl s] at hr
    cases hr
  have hm' := memoOk_same CG h h' hm
  obtain ⟨ho, hd⟩ := C32_partial ht hleg hs hr
  have hLs : r'.map LEig.L = r.map LEig.L := by
    clear hr hR ho hd
    induction hsame with
    | nil => rfl
    | cons hx _ ih => rw [List.map_cons, List.map_cons, ih, hx.1]
  have hne := amp_some hR
  obtain ⟨l0, h0⟩ : ∃ l0, (r.map LEig.L).head? = some l0 := by
    cases hh : r.map LEig.L with
    | nil => exact absurd hh hne
    | cons l ls => exact ⟨l, rfl⟩
  obtain ⟨l1, h1⟩ : ∃ l1, (r.map LEig.L).getLast? = some l1 := ⟨_, List.getLast?_eq_some_getLast hne⟩
  have hnl := narrow_legal hleg ho h0 h1
  have hR0 := hR
  rw [(amp_eq hleg ho h0 h1 hm _).1] at hR0
  obtain ⟨T, hT, hTR⟩ := py_bind_eq_ok hR0
  clear hTR
  have hsq := allMat_square hnl hT
  have hT1 : (RepXspace ⟨CG, la⟩ op ⟨a.anorm, a.lambda_base, a.nu_min, a.nu_max, a.v_min, a.v_max, l0, l1⟩ t.xs).1 = .ok T := by
    show (RepXspace ⟨CG, la⟩ op (XArgs.narrow a l0 l1) t.xs).1 = .ok T
    rw [rep_eq hnl hm]
    exact hT
  have hT2 : (RepXspace ⟨CG, la'⟩ (inverted op) ⟨a.anorm, a.lambda_base, a.nu_min, a.nu_max, a.v_min, a.v_max, l0, l1⟩ t.xs).1 =
      .ok (conjArr (rowSign a.xlabels) T) := by
    rw [← C105_rep CG h h']
    show (RepXspace ⟨CG, la⟩ (inverted op) (XArgs.narrow a l0 l1) t.xs).1 = _
    rw [rep_eq hnl hm, allMat_inv hnl, show allMat ⟨CG, la⟩ (XArgs.narrow a l0 l1) op t.xs.lam_fun = .ok T from hT,
      narrow_xlabels hleg ho h0 h1]
    rfl
  have hb : List.Forall₂ (fun P L => P.cols = P.rows ∧ dimXspace a.nu_min a.nu_max a.v_min a.v_max L none = .ok (P.rows : Int))
      (r.map LEig.basis) (r.map LEig.L) := by
    rw [List.forall₂_map_left_iff, List.forall₂_map_right_iff, List.forall₂_same]
    intro x hx
    obtain ⟨y, _, hy⟩ := forall₂_mem hsame hx
    obtain ⟨_, _, _, k1, k2, _⟩ := hy.2.2.2.2
    exact ⟨by rw [k1, k2], by rw [k1]; exact (hd x hx).1⟩
  have hb' : List.Forall₂ (fun P L => P.cols = P.rows ∧ dimXspace a.nu_min a.nu_max a.v_min a.v_max L none = .ok (P.rows : Int))
      (r'.map LEig.basis) (r.map LEig.L) := by
    rw [List.forall₂_map_left_iff, List.forall₂_map_right_iff]
    have h2 : List.Forall₂ (fun x y => x ∈ r ∧ InvEig a x y) r r' := by
      clear hr hR ho hd hb hLs hne h0 h1 hT hT1 hT2 hR0
      induction hsame with
      | nil => exact .nil
      | cons hx _ ih => exact .cons ⟨List.mem_cons_self, hx⟩ (ih.imp fun _ _ hh => ⟨List.mem_cons_of_mem _ hh.1, hh.2⟩)
    refine h2.flip.imp fun y x hxy => ?_
    obtain ⟨hx, _, _, k1, k2, _⟩ := hxy
    exact ⟨by rw [k1, k2], by rw [k1]; exact (hd x hx).1⟩
  obtain ⟨R1, e1, n1, r1, c1, b1⟩ := C73_blocks (env := ⟨⟨CG, la⟩, j⟩) h hleg ho h0 h1 hb hm hT1
  obtain ⟨R2, e2, n2, r2, c2, b2⟩ := C73_blocks (env := ⟨⟨CG, la'⟩, j'⟩) h' hleg ho h0 h1 hb' hm' hT2
  rw [hR] at e1
  injection e1 with e1
  subst e1
  have nn : R2.full_space = R.full_space := by
    rw [n1] at n2
    injection n2 with n2
    exact n2.symm
  obtain ⟨xs, S, _, hxs, hS, hSd, hblk, _⟩ := C33_tiling hleg ho h0 h1
  rw [lbsXspace_ok hleg] at hxs
  injection hxs with hxs
  subst hxs
  rw [hS] at n1
  injection n1 with n1
  have hdim : a.xlabels.length = (XArgs.narrow a l0 l1).dim := by rw [← narrow_xlabels hleg ho h0 h1, length_xlabels]
  refine ⟨R2, by rw [hLs]; exact e2, ⟨nn, by rw [r1, r2]; rfl, by rw [c1, c2]; rfl⟩, fun x hx y hy => ?_⟩
  obtain ⟨x', hx', sx⟩ := forall₂_mem hsame hx
  obtain ⟨y', hy', sy⟩ := forall₂_mem hsame hy
  have mx' := pair_mem hx'
  have my' := pair_mem hy'
  rw [hLs, sx.1] at mx'
  rw [hLs, sy.1] at my'
  obtain ⟨B, t1, G, g1, g2, g3, g4⟩ := b1 _ _ _ _ (pair_mem hx) (pair_mem hy)
  obtain ⟨B', t2, G', g1', g2', g3', g4'⟩ := b2 _ _ _ _ mx' my'
  obtain ⟨H, v, hv, p1, p2, _, _, po, pd, po', pd'⟩ := sx.2.2.2.2
  obtain ⟨K, w, hw, q1, q2, _, _, qo, qd, qo', qd'⟩ := sy.2.2.2.2
  have p1' := sx.2.2.1
  have p2' := sx.2.2.2.1
  have q1' := sy.2.2.1
  have q2' := sy.2.2.2.1
  have px : (mat x.vals.length x'.basis).transpose * mat x.vals.length x'.basis = 1 := by
    have := po'
    rw [flip_mat _ p1' p2', Matrix.transpose_mul, Matrix.diagonal_transpose, mul_assoc, ← mul_assoc (Matrix.diagonal _),
      diag_sq (rowSign_sq _), one_mul] at this
    exact this
  have hBc : B.cols = y.vals.length := by
    rw [get_block_cols t1 g1 c1, g3]
    exact q2
  have hBc' : B'.cols = y.vals.length := by
    rw [get_block_cols t2 g1' c2, g3']
    exact q2'
  have i1 := h.inv_shape _ _ p1 p2
  have i1' := h'.inv_shape _ _ p1' p2'
  have en : ∀ (f : Fin x.vals.length) (i : Fin y.vals.length), G.e f i = ((mat x.vals.length x.basis).transpose *
      (Matrix.of fun (i : Fin x.vals.length) (j : Fin y.vals.length) => B.e i j) * mat y.vals.length y.basis) f i := by
    intro f i
    rw [g4 f i (lt_of_lt_of_eq f.2 i1.1.symm) (lt_of_lt_of_eq i.2 q2.symm)]
    exact block_entry h p1 p2 po hBc q2 f i
  have en' : ∀ (f : Fin x.vals.length) (i : Fin y.vals.length), G'.e f i = ((mat x.vals.length x'.basis).transpose *
      (Matrix.of fun (i : Fin x.vals.length) (j : Fin y.vals.length) => B'.e i j) * mat y.vals.length y'.basis) f i := by
    intro f i
    rw [g4' f i (lt_of_lt_of_eq f.2 i1'.1.symm) (lt_of_lt_of_eq i.2 q2'.symm)]
    exact block_entry h' p1' p2' px hBc' q2' f i
  obtain ⟨bx, ex, w1, w2, w3, w4, w5⟩ := hblk x.L (List.mem_map_of_mem hx)
  obtain ⟨bY, ey, u1, u2, u3, u4, u5⟩ := hblk y.L (List.mem_map_of_mem hy)
  have L0 : ∀ z ∈ r, 0 ≤ z.L := by
    intro z hz
    have := ((ho.2 z.L).1 (List.mem_map_of_mem hz)).1
    have := hleg.2.2.1
    omega
  have dx : x.vals.length = ex - bx ∧ (a.at x.L).dim = ex - bx := by
    have := (hd x hx).1
    rw [w4] at this
    injection this with this
    have k2 := w4
    rw [dimXspace_at hleg (L0 x hx)] at k2
    injection k2 with k2
    omega
  have dy : y.vals.length = ey - bY ∧ (a.at y.L).dim = ey - bY := by
    have := (hd y hy).1
    rw [u4] at this
    injection this with this
    have k2 := u4
    rw [dimXspace_at hleg (L0 y hy)] at k2
    injection k2 with k2
    omega
  have hBB : ∀ (k : Fin x.vals.length) (m : Fin y.vals.length), B'.e k m =
      rowSign (a.at x.L).xlabels k * rowSign (a.at y.L).xlabels m * B.e k m := by
    intro k m
    rw [nn] at t2
    rw [← n1] at t1 t2
    unfold LBlockArray.get_block at t1 t2
    dsimp only at t1 t2
    rw [w1, u1] at t1 t2
    simp only [py_bind_ok, pure, Except.pure] at t1 t2
    injection t1 with t1
    injection t2 with t2
    have hk := k.2
    have hm' := m.2
    rw [← t1, ← t2, slice_at hsq.1 hsq.2.1 (by omega) (by omega) (by omega) (by omega),
      slice_at (conj_square _ hsq).1 (conj_square _ hsq).2.1 (by omega) (by omega) (by omega) (by omega),
      conj_e _ hsq (by omega) (by omega)]
    unfold rowSign
    rw [block_label hleg ho (List.mem_map_of_mem hx) w2 w5 dx.2 (by omega), block_label hleg ho (List.mem_map_of_mem hy) u2 u5 dy.2 (by omega)]
  refine ⟨x', y', B, G, G', sx, sy, fun hxy => ?_, g1, g1', ⟨g2.trans i1.1, g3.trans q2⟩, ⟨g2'.trans i1'.1, g3'.trans q2'⟩, en, ?_⟩
  · have hn : (r'.map LEig.L).Nodup := by
      rw [hLs]
      exact ho.1.imp fun hlt => ne_of_lt hlt
    exact List.inj_on_of_nodup_map hn hx' hy' (by rw [sx.1, sy.1, hxy])
  · intro f i
    rw [en', flip_mat _ p1' p2', flip_mat _ q1' q2', Matrix.transpose_mul, Matrix.diagonal_transpose]
    have : (Matrix.of fun (i : Fin x.vals.length) (j : Fin y.vals.length) => B'.e i j) =
        Matrix.diagonal (fun i : Fin x.vals.length => rowSign (a.at x.L).xlabels i) *
        (Matrix.of fun (i : Fin x.vals.length) (j : Fin y.vals.length) => B.e i j) *
        Matrix.diagonal (fun i : Fin y.vals.length => rowSign (a.at y.L).xlabels i) := by
      ext k m
      rw [Matrix.mul_diagonal, Matrix.diagonal_mul, Matrix.of_apply, Matrix.of_apply, hBB]
      ring
    rw [this]
    simp only [Matrix.mul_assoc]

/-- C111: nor does it change transition rates, if the transition operator is inverted as well: `strength` and `moment` are the same
numbers, an element between levels that are not degenerate has the same modulus, and a diagonal element the same sign. -/
theorem C111_rates {CG : CGFun} {la la' : LinAlg} (h : LinAlgOk la) (h' : LinAlgOk la') (j j' : ℕ → ℕ → ℝ) {ham op : OperatorSum}
    (ht : Op_Tame ham = true) {a : XArgs} {s s1 s1' : FState} (hs : MemoOk ⟨CG, la⟩ s.xs) {r r' : List LEig}
    (hr : DigXspace ⟨CG, la⟩ ham a s = (.ok r, s1)) (hr' : DigXspace ⟨CG, la'⟩ (inverted ham) a s = (.ok r', s1')) {t : FState}
    (hm : MemoOk ⟨CG, la⟩ t.xs) {R : LBlockArray}
    (hR : (AmpXspeig ⟨⟨CG, la⟩, j⟩ op (r.map LEig.basis) a (r.map LEig.L) t).1 = .ok R) :
    ∃ R', (AmpXspeig ⟨⟨CG, la'⟩, j'⟩ (inverted op) (r'.map LEig.basis) a (r'.map LEig.L) t).1 = .ok R' ∧
      (R'.full_space = R.full_space ∧ R'.mat.rows = R.mat.rows ∧ R'.mat.cols = R.mat.cols) ∧ ∀ x ∈ r, ∀ y ∈ r, ∃ B B',
      R.get_block x.L y.L = .ok B ∧ R'.get_block x.L y.L = .ok B' ∧
      (B.rows = x.vals.length ∧ B.cols = y.vals.length) ∧ (B'.rows = x.vals.length ∧ B'.cols = y.vals.length) ∧
      (∀ g k, strength g k x.vals y.vals B = strength g k x.vals y.vals B') ∧
      (∀ f i, Simple x.vals f → Simple y.vals i → B.e f i = B'.e f i ∨ B.e f i = - B'.e f i) ∧
      (x = y → (∀ g, moment g x.vals B = moment g x.vals B') ∧ ∀ f, Simple x.vals f → B.e f f = B'.e f f) := by
  have hsame : List.Forall₂ (InvEig a) r r' := by
    have := dig_inv h h' ht a hs
    rw [hr, hr'] at this
    rcases this with ⟨e, k, _⟩ | ⟨_, _, k1, k2, k3⟩
    · cases k
    · injection k1 with k1
      injection k2 with k2
      subst k1 k2
      exact k3
  obtain ⟨R', e, hsp, hc⟩ := amp_inv h h' j j' ht hs hr hsame hm hR
  refine ⟨R', e, hsp, fun x hx y hy => ?_⟩
  obtain ⟨x', y', B, G, G', sx, sy, hxx, g1, g1', d1, d2, en, en'⟩ := hc x hx y hy
  obtain ⟨H, v, hv, p1, p2, p1', p2', po, pd, po', pd'⟩ := sx.2.2.2.2
  obtain ⟨K, w, hw, q1, q2, q1', q2', qo, qd, qo', qd'⟩ := sy.2.2.2.2
  have gx : ∀ f : Fin x.vals.length, x.vals[f] = v f := by
    intro f
    have : x.vals[f] = ((List.range x.vals.length).map v)[f]'(by simp) := List.getElem_of_eq hv _
    simpa using this
  have gy : ∀ f : Fin y.vals.length, y.vals[f] = w f := by
    intro f
    have : y.vals[f] = ((List.range y.vals.length).map w)[f]'(by simp) := List.getElem_of_eq hw _
    simpa using this
  have hst : ∀ g k, strength g k x.vals y.vals G = strength g k x.vals y.vals G' := by
    intro g k
    unfold strength
    simp only [en, en', gx, gy]
    exact strength_same po pd po' pd' qo qd qo' qd' _ g k
  refine ⟨G, G', g1, g1', d1, d2, hst, fun f i hf hi => simple_square hst hf hi, fun hxy => ?_⟩
  subst hxy
  have hbb := hxx rfl
  subst hbb
  have hmo : ∀ g, moment g x.vals G = moment g x.vals G' := by
    intro g
    unfold moment
    simp only [en, en', gx]
    exact moment_same po pd po' pd' _ g
  exact ⟨hmo, fun f hf => simple_moment hmo hf⟩

theorem inverted_even {op : OperatorSum} (h : EvenOpSum op) : inverted op = op := by
  unfold inverted
  conv_rhs => rw [← List.map_id op]
  refine List.map_congr_left fun t ht => ?_
  have : (-1 : ℝ) ^ termSen t.2 = 1 := (Nat.even_iff.2 (h t ht)).neg_one_pow
  simp only [this, one_mul, id]

theorem inverted_odd {op : OperatorSum} (h : OddOp op) : inverted (ctimes (-1) op) = op := by
  unfold inverted ctimes
  rw [List.map_map]
  conv_rhs => rw [← List.map_id op]
  refine List.map_congr_left fun t ht => ?_
  have : (-1 : ℝ) ^ termSen t.2 = -1 := (Nat.odd_iff.2 (h t ht)).neg_one_pow
  simp only [Function.comp, this, id]
  refine Prod.ext (funext fun x => ?_) rfl
  ring

/-- C111: for a transition operator that the inversion does not change, rates and moments of a Hamiltonian and the inverted one are the
same. -/
theorem C111_even {CG : CGFun} {la la' : LinAlg} (h : LinAlgOk la) (h' : LinAlgOk la') (j j' : ℕ → ℕ → ℝ) {ham op : OperatorSum}
    (ht : Op_Tame ham = true) (hop : EvenOpSum op) {a : XArgs} {s s1 s1' : FState} (hs : MemoOk ⟨CG, la⟩ s.xs) {r r' : List LEig}
    (hr : DigXspace ⟨CG, la⟩ ham a s = (.ok r, s1)) (hr' : DigXspace ⟨CG, la'⟩ (inverted ham) a s = (.ok r', s1')) {t : FState}
    (hm : MemoOk ⟨CG, la⟩ t.xs) {R : LBlockArray}
    (hR : (AmpXspeig ⟨⟨CG, la⟩, j⟩ op (r.map LEig.basis) a (r.map LEig.L) t).1 = .ok R) :
    ∃ R', (AmpXspeig ⟨⟨CG, la'⟩, j'⟩ op (r'.map LEig.basis) a (r'.map LEig.L) t).1 = .ok R' ∧
      (R'.full_space = R.full_space ∧ R'.mat.rows = R.mat.rows) ∧ ∀ x ∈ r, ∀ y ∈ r, ∃ B B',
      R.get_block x.L y.L = .ok B ∧ R'.get_block x.L y.L = .ok B' ∧
      (B.rows = x.vals.length ∧ B.cols = y.vals.length) ∧ (B'.rows = x.vals.length ∧ B'.cols = y.vals.length) ∧
      (∀ g k, strength g k x.vals y.vals B = strength g k x.vals y.vals B') ∧
      (∀ f i, Simple x.vals f → Simple y.vals i → B.e f i = B'.e f i ∨ B.e f i = - B'.e f i) ∧
      (x = y → (∀ g, moment g x.vals B = moment g x.vals B') ∧ ∀ f, Simple x.vals f → B.e f f = B'.e f f) := by
  obtain ⟨R', e1, e2, e3⟩ := C111_rates h h' j j' ht hs hr hr' hm hR
  rw [inverted_even hop] at e1
  exact ⟨R', e1, ⟨e2.1, e2.2.1⟩, e3⟩

/-- C111: for a transition operator that changes its sign, such as the quadrupole operator, the rates of a Hamiltonian and the inverted
one are the same, and the moments have opposite signs: a prolate nucleus becomes an oblate one. -/
theorem C111_odd {CG : CGFun} {la la' : LinAlg} (h : LinAlgOk la) (h' : LinAlgOk la') (j j' : ℕ → ℕ → ℝ) {ham op : OperatorSum}
    (ht : Op_Tame ham = true) (hop : OddOp op) {a : XArgs} {s s1 s1' : FState} (hs : MemoOk ⟨CG, la⟩ s.xs) {r r' : List LEig}
    (hr : DigXspace ⟨CG, la⟩ ham a s = (.ok r, s1)) (hr' : DigXspace ⟨CG, la'⟩ (inverted ham) a s = (.ok r', s1')) {t : FState}
    (hm : MemoOk ⟨CG, la⟩ t.xs) {R : LBlockArray}
    (hR : (AmpXspeig ⟨⟨CG, la⟩, j⟩ op (r.map LEig.basis) a (r.map LEig.L) t).1 = .ok R) :
    ∃ R', (AmpXspeig ⟨⟨CG, la'⟩, j'⟩ op (r'.map LEig.basis) a (r'.map LEig.L) t).1 = .ok R' ∧
      (R'.full_space = R.full_space ∧ R'.mat.rows = R.mat.rows) ∧ ∀ x ∈ r, ∀ y ∈ r, ∃ B B',
      R.get_block x.L y.L = .ok B ∧ R'.get_block x.L y.L = .ok B' ∧
      (B.rows = x.vals.length ∧ B.cols = y.vals.length) ∧ (B'.rows = x.vals.length ∧ B'.cols = y.vals.length) ∧
      (∀ g k, strength g k x.vals y.vals B = strength g k x.vals y.vals B') ∧
      (∀ f i, Simple x.vals f → Simple y.vals i → B.e f i = B'.e f i ∨ B.e f i = - B'.e f i) ∧
      (x = y → (∀ g, moment g x.vals B = - moment g x.vals B') ∧ ∀ f, Simple x.vals f → B.e f f = - B'.e f f) := by
  obtain ⟨T, t1, t2, t3, t4⟩ := amp_norm (-1) (env := ⟨⟨CG, la⟩, j⟩) h ht hs hr hm hR
  obtain ⟨R', e1, e2, e3⟩ := C111_rates h h' j j' ht hs hr hr' hm t1
  rw [inverted_odd hop] at e1
  refine ⟨R', e1, ⟨e2.1.trans t2, e2.2.1.trans t3⟩, fun x hx y hy => ?_⟩
  obtain ⟨B, C, b1, b2, b3, b4, b5⟩ := t4 x.L (List.mem_map_of_mem hx) y.L (List.mem_map_of_mem hy)
  obtain ⟨C0, B', c1, c2, c3, c4, c5, c6, c7⟩ := e3 x hx y hy
  rw [b2] at c1
  injection c1 with c1
  subst c1
  have d : B.rows = x.vals.length ∧ B.cols = y.vals.length := ⟨by rw [← b3, c3.1], by rw [← b4, c3.2]⟩
  have neg : ∀ (f : Fin x.vals.length) (i : Fin y.vals.length), B.e f i = - C.e f i := fun f i => by
    rw [b5 f i (lt_of_lt_of_eq f.2 d.1.symm) (lt_of_lt_of_eq i.2 d.2.symm)]
    ring
  have hst : ∀ g k, strength g k x.vals y.vals B = strength g k x.vals y.vals B' := by
    intro g k
    rw [← c5]
    unfold strength
    simp only [neg, neg_sq]
  refine ⟨B, B', b1, c2, d, c4, hst, fun f i hf hi => simple_square hst hf hi, fun hxy => ?_⟩
  subst hxy
  obtain ⟨c8, c9⟩ := c7 rfl
  refine ⟨fun g => ?_, fun f hf => ?_⟩
  · rw [← c8]
    unfold moment
    simp only [neg, mul_neg, Finset.sum_neg_distrib]
  · rw [← c9 f hf]
    exact neg ⟨f, simple_lt hf⟩ ⟨f, simple_lt hf⟩

/-! ### the operators -/

theorem addTerm_inv_even (op : OperatorSum) (c e : Coeff) {p : OperatorProduct} (hp : termSen p % 2 = 0) :
    inverted (addTerm op c e p) = addTerm (inverted op) c e p := by
  have : (-1 : ℝ) ^ termSen p = 1 := (Nat.even_iff.2 hp).neg_one_pow
  unfold addTerm
  by_cases hc : c = 0
  · rw [if_neg (by simpa using hc), if_neg (by simpa using hc)]
  · rw [if_pos hc, if_pos hc]
    simp [inverted, this]

theorem addTerm_inv_odd (op : OperatorSum) (c e : Coeff) {p : OperatorProduct} (hp : termSen p % 2 = 1) :
    inverted (addTerm op c e p) = addTerm (inverted op) (-c) (-e) p := by
  have : (-1 : ℝ) ^ termSen p = -1 := (Nat.odd_iff.2 hp).neg_one_pow
  unfold addTerm
  by_cases hc : c = 0
  · rw [if_neg (by simpa using hc), if_neg (by simpa using hc)]
  · rw [if_pos hc, if_pos (by simpa using hc)]
    simp [inverted, this]
    rfl

/-- C111: the inversion changes the sign of the coefficients of `cos(3 gamma)` in `ACM_Hamiltonian` and of the term with the momenta. -/
theorem C111_hamiltonian (c11 c20 c21 c22 c23 c30 c31 c32 c33 c40 c41 c42 c43 c50 : Coeff) :
    inverted (ACM_Hamiltonian c11 c20 c21 c22 c23 c30 c31 c32 c33 c40 c41 c42 c43 c50) =
    ACM_Hamiltonian c11 c20 c21 c22 c23 (-c30) (-c31) (-c32) (-c33) c40 c41 c42 c43 (-c50) := by
  unfold ACM_Hamiltonian
  dsimp only
  rw [addTerm_inv_odd _ _ _ (by decide), addTerm_inv_even _ _ _ (by decide), addTerm_inv_even _ _ _ (by decide),
    addTerm_inv_even _ _ _ (by decide), addTerm_inv_even _ _ _ (by decide), addTerm_inv_odd _ _ _ (by decide),
    addTerm_inv_odd _ _ _ (by decide), addTerm_inv_odd _ _ _ (by decide), addTerm_inv_odd _ _ _ (by decide),
    addTerm_inv_even _ _ _ (by decide), addTerm_inv_even _ _ _ (by decide), addTerm_inv_even _ _ _ (by decide),
    addTerm_inv_even _ _ _ (by decide)]
  have : inverted (open Classical in if c11 = 0 then []
      else [(c11, [.rad .D2b]), (-c11 * (2 + SENIORITY * (SENIORITY + 3)), [.rad .bm2])]) =
      (open Classical in if c11 = 0 then []
      else [(c11, [.rad .D2b]), (-c11 * (2 + SENIORITY * (SENIORITY + 3)), [.rad .bm2])]) := by
    apply inverted_even
    split_ifs
    · exact fun t ht => absurd ht (by simp)
    · intro t ht
      simp only [List.mem_cons, List.not_mem_nil, or_false] at ht
      rcases ht with rfl | rfl <;> rfl
  rw [this]
  simp only [neg_mul]

/-- C111: and of the odd coefficients of `ACM_HamSH3`. -/
theorem C111_sh3 (c0 c1 c2 c3 c4 c5 c6 c7 c8 : Coeff) :
    inverted (ACM_HamSH3 c0 c1 c2 c3 c4 c5 c6 c7 c8) = ACM_HamSH3 c0 (-c1) c2 (-c3) c4 (-c5) c6 (-c7) c8 := by
  unfold ACM_HamSH3
  simp only [ACM_HamSH3_loop]
  rw [addTerm_inv_even _ _ _ (by decide), addTerm_inv_odd _ _ _ (by decide), addTerm_inv_even _ _ _ (by decide),
    addTerm_inv_odd _ _ _ (by decide), addTerm_inv_even _ _ _ (by decide), addTerm_inv_odd _ _ _ (by decide),
    addTerm_inv_even _ _ _ (by decide), addTerm_inv_odd _ _ _ (by decide), addTerm_inv_even _ _ _ (by decide)]
  simp only [neg_mul]
  rfl

/-- C111: and of `ACM_HamSH6`. -/
theorem C111_sh6 (c0 c1 c2 c3 c4 c5 c6 c7 c8 : Coeff) :
    inverted (ACM_HamSH6 c0 c1 c2 c3 c4 c5 c6 c7 c8) = ACM_HamSH6 c0 (-c1) c2 (-c3) c4 (-c5) c6 (-c7) c8 := by
  unfold ACM_HamSH6
  dsimp only
  rw [addTerm_inv_even _ _ _ (by decide), addTerm_inv_odd _ _ _ (by decide), addTerm_inv_even _ _ _ (by decide),
    addTerm_inv_odd _ _ _ (by decide), addTerm_inv_even _ _ _ (by decide), addTerm_inv_odd _ _ _ (by decide),
    addTerm_inv_even _ _ _ (by decide), addTerm_inv_odd _ _ _ (by decide), addTerm_inv_even _ _ _ (by decide)]
  have n1 : -(c1 + c3 / 3 + c5 / 9 + c7 / 27) = -c1 + -c3 / 3 + -c5 / 9 + -c7 / 27 := by
    funext x
    simp only [Pi.add_apply, Pi.neg_apply, Pi.div_apply]
    ring
  have n3 : -(c3 / 3 + c5 * 2 / 9 + c7 / 9) = -c3 / 3 + -c5 * 2 / 9 + -c7 / 9 := by
    funext x
    simp only [Pi.add_apply, Pi.neg_apply, Pi.div_apply, Pi.mul_apply]
    ring
  have n5 : -(c5 / 9 + c7 / 9) = -c5 / 9 + -c7 / 9 := by
    funext x
    simp only [Pi.add_apply, Pi.neg_apply, Pi.div_apply]
    ring
  have n7 : -(c7 / 27) = -c7 / 27 := by
    funext x
    simp only [Pi.neg_apply, Pi.div_apply]
    ring
  simp only [← neg_mul]
  rw [n1, n3, n5, n7]
  rfl

/-- C111: and of `ACM_HamRigidBeta`. -/
theorem C111_rigid (cas con c1 c2 c3 c4 c5 c6 : Coeff) (flag : Int) :
    (ACM_HamRigidBeta cas con c1 c2 c3 c4 c5 c6 flag).map inverted = ACM_HamRigidBeta cas con (-c1) c2 (-c3) c4 (-c5) c6 flag := by
  have n0 : (-0 : Coeff) = 0 := neg_zero
  have e3 := C111_sh3 con c1 c2 c3 c4 c5 c6 0 0
  have e6 := C111_sh6 con c1 c2 c3 c4 c5 c6 0 0
  rw [n0] at e3 e6
  unfold ACM_HamRigidBeta
  by_cases hf : flag = 0 ∨ flag = 1
  · rw [if_neg (not_not.2 hf), if_neg (not_not.2 hf)]
    dsimp only
    have e : ∀ op op' : OperatorSum, inverted op = op' → (open Classical in if cas ≠ 0 then
        if op.length > 0 then pure ([(cas * SENIORITY * (SENIORITY + 3), [])] ++ op) else pure [(cas * SENIORITY * (SENIORITY + 3), [])]
        else (pure op : Py OperatorSum)).map inverted = open Classical in if cas ≠ 0 then
        if op'.length > 0 then pure ([(cas * SENIORITY * (SENIORITY + 3), [])] ++ op') else pure [(cas * SENIORITY * (SENIORITY + 3), [])]
        else pure op' := by
      rintro op _ rfl
      have hl : (inverted op).length = op.length := by simp [inverted]
      have h1 : ∀ op : OperatorSum, inverted ((cas * SENIORITY * (SENIORITY + 3), []) :: op) =
          (cas * SENIORITY * (SENIORITY + 3), []) :: inverted op := fun op => by
        simp [inverted, termSen]
        rfl
      rw [hl]
      split_ifs
      · exact congrArg Except.ok (h1 op)
      · exact congrArg Except.ok (h1 [])
      · rfl
    refine e _ _ ?_
    split_ifs
    · exact e3
    · exact e6
  · rw [if_pos hf, if_pos hf]
    rfl

/-- C111: and of `chi` in `RWC_Ham`. -/
theorem C111_rwc (B c1 c2 chi kappa : Coeff) : inverted (RWC_Ham B c1 c2 chi kappa) = RWC_Ham B c1 c2 (-chi) kappa := by
  unfold RWC_Ham
  rw [C111_hamiltonian]
  simp only [neg_zero]

/-- C111: the quadrupole operators change their sign. -/
theorem C111_quadrupole : OddOp quad_op ∧ OddOp quadRigid_op := by
  constructor <;> intro t ht <;> rw [List.mem_singleton.1 ht] <;> decide

/-! ### displays -/

/-- C111: what `ACM_Adapt` displays of energies and rates is the same for the inverted Hamiltonian, if the transition operator changes its
sign or does not change, and there are no degenerate levels with the same angular momentum. -/
theorem C111_adapt {CG : CGFun} {la la' : LinAlg} (h : LinAlgOk la) (h' : LinAlgOk la') (j j' : ℕ → ℕ → ℝ) {ham : OperatorSum}
    (htame : Op_Tame ham = true) {a : XArgs} {s s1 : FState} (hs : MemoOk ⟨CG, la⟩ s.xs)
    (hop : OddOp s.glb.rat_TRop ∨ EvenOpSum s.glb.rat_TRop) (hev : EvenFun s.glb.rat_fun)
    (hl : s.glb.amp_lst = []) {r : List LEig} {tr : Option LBlockArray} (hr : ACM_Adapt ⟨⟨CG, la⟩, j⟩ ham a s = (.ok (r, tr), s1))
    (hnd : ∀ x ∈ r, x.vals.Nodup) :
    ∃ r' tr' s1', ACM_Adapt ⟨⟨CG, la'⟩, j'⟩ (inverted ham) a s = (.ok (r', tr'), s1') ∧ levels r' = levels r ∧
      valueLines s1'.out = valueLines s1.out ∧ (0 < s.glb.eig_num → s1'.glb.eig_sft = s1.glb.eig_sft) ∧
      (s.glb.rat_lst ≠ [] → s1'.glb.rat_sft = s1.glb.rat_sft) := by
  obtain ⟨u1, u2, k1, k2, k3⟩ := adapt_split hr
  have hs' : MemoOk ⟨CG, la'⟩ s.xs := memoOk_same CG h h' hs
  have hlv := C111_energies h h' ham a hs
  rw [k1] at hlv
  rcases hd : DigXspace ⟨CG, la'⟩ (inverted ham) a s with ⟨q, s3⟩
  rw [hd] at hlv
  cases q with
  | error e => cases hlv
  | ok r' =>
  have hlv' : levels r' = levels r := by
    injection hlv
  have hlev : levels r' = relevel (fun e => 1 * e + 0) (levels r) := by
    rw [hlv']
    unfold relevel
    simp
  have hL : r'.map LEig.L = r.map LEig.L := levels_L hlev
  obtain ⟨tr', t1, i1, i2, i3, i4⟩ := adapt_times (κ := 1) (μ := 1) (d := 0) one_pos one_pos one_ne_zero
    (env := ⟨⟨CG, la⟩, j⟩) (env' := ⟨⟨CG, la'⟩, j'⟩) (op := s.glb.rat_TRop) hs hs' rfl rfl (.inr rfl) (fun z => by
      rw [one_mul]
      cases s.glb.amp_sft_fun z with
      | error e => rfl
      | ok y => exact congrArg Except.ok (one_mul y).symm) hr hd hlev (by
    intro v w T hv hw lv lw hT
    have key : ∃ R', (AmpXspeig ⟨⟨CG, la'⟩, j'⟩ s.glb.rat_TRop (r'.map LEig.basis) a (r'.map LEig.L) v).1 = .ok R' ∧
        (R'.full_space = T.full_space ∧ R'.mat.rows = T.mat.rows) ∧ ∀ x ∈ r, ∀ y ∈ r, ∃ B B',
        T.get_block x.L y.L = .ok B ∧ R'.get_block x.L y.L = .ok B' ∧
        (B.rows = x.vals.length ∧ B.cols = y.vals.length) ∧ (B'.rows = x.vals.length ∧ B'.cols = y.vals.length) ∧
        (∀ f i, Simple x.vals f → Simple y.vals i → B.e f i = B'.e f i ∨ B.e f i = - B'.e f i) := by
      rcases hop with ho | he
      · obtain ⟨R', p1, p2, p3⟩ := C111_odd h h' j j' htame ho hs k1 hd hv hT
        refine ⟨R', p1, p2, fun x hx y hy => ?_⟩
        obtain ⟨B, B', b1, b2, b3, b4, _, b6, _⟩ := p3 x hx y hy
        exact ⟨B, B', b1, b2, b3, b4, b6⟩
      · obtain ⟨R', p1, p2, p3⟩ := C111_even h h' j j' htame he hs k1 hd hv hT
        refine ⟨R', p1, p2, fun x hx y hy => ?_⟩
        obtain ⟨B, B', b1, b2, b3, b4, _, b6, _⟩ := p3 x hx y hy
        exact ⟨B, B', b1, b2, b3, b4, b6⟩
    obtain ⟨T', p1, p2, p3⟩ := key
    refine ⟨T', ?_, p2.1, p2.2, ?_⟩
    · rw [amp_settings _ _ _ _ hw (memoOk_same CG h h' hv) (lw.trans lv.symm), ← hL]
      exact p1
    · intro L1 h1 L2 h2
      have hLv := amp_Lvals hT
      rw [hLv] at h1 h2
      obtain ⟨y, hy, rfl⟩ := List.mem_map.1 h1
      obtain ⟨x, hx, rfl⟩ := List.mem_map.1 h2
      obtain ⟨B, B', b1, b2, b3, b4, b6⟩ := p3 x hx y hy
      refine ⟨B, B', b1, b2, by rw [b3.1, b4.1], by rw [b3.2, b4.2], fun f i hf hi => ⟨?_, .inl hl⟩⟩
      have one : ∀ z : Py ℝ, z.map (1 * ·) = z := fun z => by
        cases z with
        | error e => rfl
        | ok y => exact congrArg Except.ok (one_mul y)
      rw [one]
      rcases b6 f i (simple_of_nodup (hnd x hx) (by rw [← b3.1]; exact hf)) (simple_of_nodup (hnd y hy) (by rw [← b3.2]; exact hi)) with e | e
      · rw [e]
      · rw [e, hev])
  refine ⟨_, tr', t1, i1, hlv', i2, fun hn => by rw [i3 hn, one_mul], fun hn => ?_⟩
  rw [(i4 (.inl hn)).1, one_mul]

/-- The hypotheses of C111 are met by `cos(3 gamma) beta`, as the Hamiltonian and the transition operator, on two states: its matrix is not
diagonal, and it changes its sign. -/
example {la : LinAlg} (hla : LinAlgOk la) : ∃ (op : OperatorSum) (a : XArgs) (s s1 s1' : FState) (M : Arr) (r r' : List LEig)
    (R : LBlockArray), Op_Tame op = true ∧ OddOp op ∧ inverted op ≠ op ∧ LegalRanges a ∧ MemoOk ⟨fileCG onesFS none, la⟩ s.xs ∧
    (RepXspace ⟨fileCG onesFS none, la⟩ op a s.xs).1 = .ok M ∧ M.e 1 0 ≠ 0 ∧
    DigXspace ⟨fileCG onesFS none, la⟩ op a s = (.ok r, s1) ∧ DigXspace ⟨fileCG onesFS none, la⟩ (inverted op) a s = (.ok r', s1') ∧ r ≠ [] ∧
    (AmpXspeig ⟨⟨fileCG onesFS none, la⟩, fun _ _ => 0⟩ op (r.map LEig.basis) a (r.map LEig.L) s).1 = .ok R := by
  obtain ⟨s, M, r, s1, hm, hlam, ha, hn, hp, _, hM, h10, hr⟩ := twoStates_meets hla
  have hop : ACM_Hamiltonian (c30 := kC 1) = [(kC 1 * kC Convert_310, [.rad .b, .harm .y310])] := by
    have h1 : kC 1 ≠ (0 : Coeff) := fun h => by have := congrFun h (0, 0, 0, 0); simp [kC] at this
    simp [ACM_Hamiltonian, addTerm, h1]
  have ht : Op_Tame (ACM_Hamiltonian (c30 := kC 1)) = true := by rw [hop]; rfl
  obtain ⟨ho, hd⟩ := C32_partial ht ha hm hr
  have hLs : r.map LEig.L = [0] := by rw [occupied_eq ha ho]; decide +kernel
  have hb : List.Forall₂ (fun P L => P.cols = P.rows ∧ dimXspace twoStates.nu_min twoStates.nu_max twoStates.v_min twoStates.v_max L none =
      .ok (P.rows : Int)) (r.map LEig.basis) (r.map LEig.L) := by
    rw [List.forall₂_map_left_iff, List.forall₂_map_right_iff, List.forall₂_same]
    intro x hx
    obtain ⟨hdx, M, v, _, e2, e3⟩ := hd x hx
    have : Eigenlist la M = .ok (x.vals, x.basis) := by
      unfold Eigenlist
      rw [e2, py_bind_ok, e3]
      rfl
    obtain ⟨_, _, _, k1, k2, _⟩ := twoBases hla hla (x := x) (y := x) ⟨rfl, rfl, M, this, this⟩
    exact ⟨by rw [k1, k2], by rw [k1]; exact hdx⟩
  obtain ⟨R, hR, _⟩ := C73_blocks (env := ⟨⟨fileCG onesFS none, la⟩, fun _ _ => 0⟩) hla ha ho (l0 := 0) (l1 := 0)
    (by rw [hLs]; rfl) (by rw [hLs]; rfl) hb hm hM
  have hlv := C111_energies (CG := fileCG onesFS none) hla hla (ACM_Hamiltonian (c30 := kC 1)) twoStates hm
  rw [hr] at hlv
  rcases hd' : DigXspace ⟨fileCG onesFS none, la⟩ (inverted (ACM_Hamiltonian (c30 := kC 1))) twoStates s with ⟨q, s1'⟩
  rw [hd'] at hlv
  cases q with
  | error e => cases hlv
  | ok r' =>
  refine ⟨_, twoStates, s, s1, s1', M, r, r', R, ht, ?_, ?_, ha, hm, hM, h10, hr, hd', ?_, hR⟩
  · rw [hop]
    intro t ht
    rw [List.mem_singleton.1 ht]
    decide
  · rw [hop]
    intro he
    have := congrFun (congrArg Prod.fst (List.head_eq_of_cons_eq he)) (0, 0, 0, 0)
    have hc : Convert_310 ≠ 0 := by
      unfold Convert_310 FourPi
      positivity
    replace this : (-1 : ℝ) ^ 3 * (1 * Convert_310) = 1 * Convert_310 := this
    have : Convert_310 = 0 := by linarith
    exact hc this
  · intro hh
    rw [hh] at hLs
    cases hLs

/-- The hypotheses of C111 on displays are met: see `succeeds_levels`. -/
example {CG : CGFun} {la : LinAlg} (h : LinAlgOk la) (j : ℕ → ℕ → ℝ) : ∃ (ham : OperatorSum) (a : XArgs) (s s1 : FState)
    (r : List LEig) (tr : Option LBlockArray), Op_Tame ham = true ∧ MemoOk ⟨CG, la⟩ s.xs ∧ EvenOpSum s.glb.rat_TRop ∧
    EvenFun s.glb.rat_fun ∧ s.glb.amp_lst = [] ∧ s.glb.rat_lst ≠ [] ∧ 0 < s.glb.eig_num ∧
    ACM_Adapt ⟨⟨CG, la⟩, j⟩ ham a s = (.ok (r, tr), s1) ∧ ∀ x ∈ r, x.vals.Nodup := by
  obtain ⟨hs, r, tr, s', h1, h2⟩ := succeeds_levels (env := ⟨⟨CG, la⟩, j⟩) h
  refine ⟨_, _, _, s', r, tr, rfl, hs, ?_, (C110_rate_functions 3).1.2, rfl, by unfold fitGlb; simp, by unfold fitGlb Glb.init; decide, h1, h2⟩
  intro t ht
  replace ht : t ∈ [((fun _ => 1, []) : Coeff × OperatorProduct)] := ht
  rw [List.mem_singleton.1 ht]
  rfl

end Acm.Props
