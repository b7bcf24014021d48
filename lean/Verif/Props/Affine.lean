import Verif.Props.Routine
import Verif.Props.Display
import Verif.Props.Diagonal
import Verif.Spec.Affine

/-!
# C107: units and zero of the energy
-/

namespace Acm.Props

open Acm.Spec

/-! ### matrices -/

/-- `c A + d`. -/
noncomputable def affArr (c d : ℝ) (A : Arr) : Arr := Arr.of A.rows A.cols fun i j => c * A.e i j + if i = j then d else 0

/-- The routine that finds the eigenvalues of `A` from those of `c A + d`. -/
noncomputable def affLA (c d : ℝ) (la : LinAlg) : LinAlg where
  eigh A := (fun i => ((la.eigh (affArr c d A)).1 i - d) / c, (la.eigh (affArr c d A)).2)
  inv := la.inv

theorem mat_aff (c d : ℝ) {n : ℕ} {A : Arr} (h1 : A.rows = n) (h2 : A.cols = n) :
    mat n (affArr c d A) = c • mat n A + d • (1 : Matrix (Fin n) (Fin n) ℝ) := by
  ext i j
  simp only [mat, affArr, Arr.of, h1, h2, Matrix.of_apply, Matrix.add_apply, Matrix.smul_apply, smul_eq_mul, Matrix.one_apply, Fin.ext_iff]
  rw [if_pos ⟨i.2, j.2⟩]
  congr 1
  split_ifs <;> simp

theorem affLA_ok {c d : ℝ} (hc : 0 < c) {la : LinAlg} (h : LinAlgOk la) : LinAlgOk (affLA c d la) := by
  have sym : ∀ (n : ℕ) (A : Arr), A.rows = n → A.cols = n → (mat n A).IsSymm → (mat n (affArr c d A)).IsSymm := by
    intro n A h1 h2 hs
    rw [mat_aff c d h1 h2]
    unfold Matrix.IsSymm at hs ⊢
    rw [Matrix.transpose_add, Matrix.transpose_smul, Matrix.transpose_smul, hs, Matrix.transpose_one]
  refine ⟨fun n A h1 h2 => h.eigh_shape n _ h1 h2, fun n A h1 h2 hs => h.eigh_orthonormal n _ h1 h2 (sym n A h1 h2 hs),
    fun n A h1 h2 hs => ?_, fun n A h1 h2 hs i j hij hj => ?_, h.inv_shape, h.inv_inverse⟩
  · have := h.eigh_eigen n (affArr c d A) h1 h2 (sym n A h1 h2 hs)
    rw [mat_aff c d h1 h2] at this
    show mat n A * mat n (la.eigh (affArr c d A)).2 = mat n (la.eigh (affArr c d A)).2 *
      Matrix.diagonal fun i : Fin n => ((la.eigh (affArr c d A)).1 i - d) / c
    set P := mat n (la.eigh (affArr c d A)).2
    rw [add_mul, smul_mul_assoc, smul_mul_assoc, one_mul] at this
    ext i j
    have e := congrFun (congrFun this i) j
    rw [Matrix.mul_diagonal] at e ⊢
    simp only [Matrix.add_apply, Matrix.smul_apply, smul_eq_mul] at e
    field_simp
    linarith
  · have := h.eigh_sorted n (affArr c d A) h1 h2 (sym n A h1 h2 hs) i j hij hj
    show ((la.eigh (affArr c d A)).1 i - d) / c ≤ ((la.eigh (affArr c d A)).1 j - d) / c
    exact div_le_div_of_nonneg_right (by linarith) hc.le

/-- The results for a matrix with the eigenvalues changed. -/
noncomputable def affEig (c d : ℝ) (x : LEig) : LEig := ⟨x.L, x.vals.map fun e => c * e + d, x.basis⟩

theorem eigenlist_aff {c : ℝ} (hc : 0 < c) (d : ℝ) (la : LinAlg) (M : Arr) :
    Eigenlist la (affArr c d M) = (Eigenlist (affLA c d la) M).map fun r => (r.1.map fun e => c * e + d, r.2) := by
  unfold Eigenlist Eigenfiddle
  by_cases h : M.rows = M.cols
  · have e : Arr.of (affArr c d M).rows (affArr c d M).cols (fun i j => ((affArr c d M).e i j + (affArr c d M).T.e i j) / 2) =
        affArr c d (Arr.of M.rows M.cols fun i j => (M.e i j + M.T.e i j) / 2) := by
      ext i j
      · rfl
      · rfl
      · simp only [affArr, Arr.of, Arr.T, h]
        split_ifs with h1 h2 h3 h4 h5 h6 <;> first | (exfalso; omega) | ring
    rw [if_neg (by simpa [affArr, Arr.of] using h), if_neg (by simpa using h)]
    simp only [e]
    refine congrArg Except.ok (Prod.ext ?_ rfl)
    show (List.range M.rows).map _ = ((List.range M.rows).map _).map _
    rw [List.map_map]
    refine List.map_congr_left fun i _ => ?_
    simp only [Function.comp, affLA]
    field_simp
    ring
  · rw [if_pos (by simpa [affArr, Arr.of] using h), if_pos h]
    rfl

theorem sliceBound_max (n : ℕ) {i : Int} (h : 0 ≤ i) : sliceBound n i ≤ n := by
  unfold sliceBound
  rw [if_neg (by omega)]
  omega

theorem slice_aff (c d : ℝ) {M : Arr} (h : M.rows = M.cols) (a : Int) {b : Int} (hb : 0 ≤ b) :
    (affArr c d M).slice a b a b = affArr c d (M.slice a b a b) := by
  have hm := sliceBound_max M.cols hb
  ext i j
  · rfl
  · rfl
  · simp only [affArr, Arr.slice, Arr.of, h]
    split_ifs <;> first | (exfalso; omega) | rfl

theorem digUntame_aff {c : ℝ} (hc : 0 < c) (d : ℝ) (la : LinAlg) (a : XArgs) {M : Arr} (h : M.rows = M.cols) {k : Int} (hk : 0 ≤ k)
    (Ls : List Int) : ∀ L0, 0 ≤ L0 →
    digUntame la a (affArr c d M) k Ls L0 = (digUntame (affLA c d la) a M k Ls L0).map (List.map (affEig c d)) := by
  induction Ls with
  | nil => exact fun _ _ => rfl
  | cons L Ls ih =>
    intro L0 h0
    unfold digUntame
    cases hd : dimSO5r3_rngV a.v_min a.v_max L with
    | error e => rfl
    | ok n =>
      simp only [py_bind_ok]
      by_cases hp : n > 0
      · have hs : 0 ≤ L0 + k * n := add_nonneg h0 (mul_nonneg hk hp.le)
        rw [if_pos hp, if_pos hp, slice_aff c d h _ hs, eigenlist_aff hc, ih _ hs]
        cases Eigenlist (affLA c d la) (M.slice (L0 - 1) (L0 + k * n) (L0 - 1) (L0 + k * n)) with
        | error e => rfl
        | ok r =>
          simp only [Except.map, py_bind_ok]
          cases digUntame (affLA c d la) a M k Ls (L0 + k * n) with
          | error e => rfl
          | ok r' => rfl
      · rw [if_neg hp, if_neg hp, ih _ h0]

theorem digTame_aff {c : ℝ} (hc : 0 < c) (d : ℝ) {CG : CGFun} {la : LinAlg} (h : LinAlgOk la) {ham ham' : OperatorSum} {a : XArgs}
    (ha : LegalRanges a) {lam : LambdaFunction}
    (hrep : ∀ L, a.L_min ≤ L → L ≤ a.L_max → allMat ⟨CG, la⟩ (a.at L) ham' lam = (allMat ⟨CG, la⟩ (a.at L) ham lam).map (affArr c d))
    (Ls : List Int) : (∀ L ∈ Ls, a.L_min ≤ L ∧ L ≤ a.L_max) → ∀ s t : FState, FOk ⟨CG, la⟩ s → FOk ⟨CG, la⟩ t → s.glb.lam_fun = lam →
    t.glb.lam_fun = lam →
    (digTame ⟨CG, la⟩ ham' a Ls s).1 = (digTame ⟨CG, affLA c d la⟩ ham a Ls t).1.map (List.map (affEig c d)) := by
  have h' := affLA_ok (d := d) hc h
  induction Ls with
  | nil => exact fun _ _ _ _ _ _ _ => rfl
  | cons L Ls ih =>
    intro hL s t hs ht es et
    replace ih := ih fun K hK => hL K (List.mem_cons_of_mem _ hK)
    have hL' := hL L List.mem_cons_self
    have hl0 := ha.2.2.1
    have hleg := legal_at ha (show 0 ≤ L by omega)
    unfold digTame
    rw [rngV_at ha (show 0 ≤ L by omega), st_lift_ok, st_lift_ok]
    by_cases hp : ((a.at L).states.length : Int) > 0
    · rw [if_pos hp, if_pos hp]
      obtain ⟨s1, e1, f1, g1, _⟩ := liftX_rep hleg hs ham'
      have ht' : FOk ⟨CG, affLA c d la⟩ t := memoOk_same CG h h' ht
      obtain ⟨t1, e2, f2, g2, _⟩ := liftX_rep hleg ht' ham
      have f2' : FOk ⟨CG, la⟩ t1 := memoOk_same CG h' h f2
      have ea : allMat ⟨CG, affLA c d la⟩ (a.at L) ham lam = allMat ⟨CG, la⟩ (a.at L) ham lam := by
        rw [← et]
        have := rep_eq hleg ht ham
        rw [C105_rep CG h h', rep_eq hleg ht'] at this
        exact this
      rw [es, hrep L hL'.1 hL'.2] at e1
      rw [et, ea] at e2
      cases hM : allMat ⟨CG, la⟩ (a.at L) ham lam with
      | error e =>
        rw [hM] at e1 e2
        rw [st_bind_error e1, st_bind_error e2]
        rfl
      | ok M =>
        rw [hM] at e1 e2
        rw [st_bind_ok e1, st_bind_ok e2, eigenlist_aff hc]
        cases Eigenlist (affLA c d la) M with
        | error e => rw [Except.map, st_lift_error, st_lift_error]; rfl
        | ok r =>
          rw [Except.map, st_lift_ok, st_lift_ok]
          have := ih s1 t1 f1 f2' (by rw [g1]; exact es) (by rw [g2]; exact et)
          rcases k1 : digTame ⟨CG, la⟩ ham' a Ls s1 with ⟨u, s2⟩
          rcases k2 : digTame ⟨CG, affLA c d la⟩ ham a Ls t1 with ⟨w, t2⟩
          rw [k1, k2] at this
          dsimp only at this
          cases w with
          | error e =>
            rw [this] at k1
            rw [st_bind_error k1, st_bind_error k2]
            rfl
          | ok w =>
            rw [this] at k1
            rw [st_bind_ok k1, st_bind_ok k2]
            rfl
    · rw [if_neg hp, if_neg hp]
      exact ih s t hs ht es et

theorem dig_aff {c : ℝ} (hc : 0 < c) (d : ℝ) {CG : CGFun} {la : LinAlg} (h : LinAlgOk la) {ham ham' : OperatorSum} {a : XArgs}
    (htame : Op_Tame ham' = Op_Tame ham) {s t : FState} (hs : MemoOk ⟨CG, la⟩ s.xs) (ht : MemoOk ⟨CG, la⟩ t.xs)
    (hlam : t.glb.lam_fun = s.glb.lam_fun)
    (hrep : ∀ L L', LegalRanges (XArgs.narrow a L L') → allMat ⟨CG, la⟩ (XArgs.narrow a L L') ham' s.glb.lam_fun =
      (allMat ⟨CG, la⟩ (XArgs.narrow a L L') ham s.glb.lam_fun).map (affArr c d)) :
    (DigXspace ⟨CG, la⟩ ham' a s).1 = (DigXspace ⟨CG, affLA c d la⟩ ham a t).1.map (List.map (affEig c d)) := by
  have h' := affLA_ok (d := d) hc h
  by_cases ha : LegalRanges a
  · unfold DigXspace
    rw [check_ok ha, st_lift_ok, st_lift_ok, htame]
    by_cases hta : Op_Tame ham = true
    · rw [if_pos hta, if_pos hta]
      refine digTame_aff hc d h ha (fun L h1 h2 => ?_) _ (fun L hL => ?_) s t hs ht rfl hlam
      · exact hrep L L (legal_at ha (by have := ha.2.2.1; omega))
      · rw [mem_pyRange] at hL
        omega
    · rw [if_neg hta, if_neg hta]
      obtain ⟨s1, e1, _⟩ := liftX_rep ha hs ham'
      have ht' : FOk ⟨CG, affLA c d la⟩ t := memoOk_same CG h h' ht
      obtain ⟨t1, e2, _⟩ := liftX_rep ha ht' ham
      have ea : allMat ⟨CG, affLA c d la⟩ a ham t.glb.lam_fun = allMat ⟨CG, la⟩ a ham s.glb.lam_fun := by
        have := rep_eq ha ht ham
        rw [C105_rep CG h h', rep_eq ha ht'] at this
        rw [← hlam]
        exact this
      have er : allMat ⟨CG, la⟩ a ham' s.glb.lam_fun = (allMat ⟨CG, la⟩ a ham s.glb.lam_fun).map (affArr c d) :=
        hrep a.L_min a.L_max ha
      rw [er] at e1
      rw [ea] at e2
      cases hM : allMat ⟨CG, la⟩ a ham s.glb.lam_fun with
      | error e =>
        rw [hM] at e1 e2
        rw [st_bind_error e1, st_bind_error e2]
        rfl
      | ok M =>
        rw [hM] at e1 e2
        have hsq := allMat_square ha hM
        rw [st_bind_ok e1, st_bind_ok e2, dimRadial_eq ha, st_lift, st_lift]
        exact digUntame_aff hc d la a (by rw [hsq.1, hsq.2.1]) (by omega) _ 1 (by omega)
  · rw [C32_illegal _ _ ha, C32_illegal _ _ ha]
    rfl

/-! ### operators -/

theorem square_aff {n : ℕ} {A : Arr} (c d : ℝ) (h : Square n A) : Square n (affArr c d A) :=
  ⟨h.1, h.2.1, fun i j hij => by simp only [affArr, Arr.of, h.1, h.2.1]; rw [if_neg hij]⟩

theorem aff_e {n : ℕ} {A : Arr} (c d : ℝ) (h : Square n A) {i j : ℕ} (hi : i < n) (hj : j < n) :
    (affArr c d A).e i j = c * A.e i j + if i = j then d else 0 := by
  simp only [affArr, Arr.of, h.1, h.2.1]
  rw [if_pos ⟨hi, hj⟩]

theorem square_ext {n : ℕ} {A B : Arr} (hA : Square n A) (hB : Square n B) (h : ∀ i j, i < n → j < n → A.e i j = B.e i j) : A = B := by
  ext i j
  · rw [hA.1, hB.1]
  · rw [hA.2.1, hB.2.1]
  · by_cases hij : i < n ∧ j < n
    · exact h i j hij.1 hij.2
    · rw [hA.2.2 i j hij, hB.2.2 i j hij]

theorem scaleTerm_times (c : ℝ) (t : Coeff × OperatorProduct) {xs : List XspaceLabel} {M : Arr} (hM : Square xs.length M) :
    scaleTerm (fun x => c * t.1 x, t.2) xs M = affArr c 0 (scaleTerm t xs M) := by
  refine square_ext (scaleTerm_square hM) (square_aff c 0 (scaleTerm_square hM)) fun i j hi hj => ?_
  rw [aff_e c 0 (scaleTerm_square hM) hi hj, scaleTerm_e hM hi (List.getElem?_eq_getElem hj),
    scaleTerm_e hM hi (List.getElem?_eq_getElem hj)]
  simp only [ite_self, add_zero]
  ring

section
variable {env : XEnv} {a : XArgs} (h : LegalRanges a) (lam : LambdaFunction)
include h

theorem termMat_times (c : ℝ) (t : Coeff × OperatorProduct) :
    termMat env a.xlabels a lam (fun x => c * t.1 x, t.2) = (termMat env a.xlabels a lam t).map (affArr c 0) := by
  unfold termMat
  cases hP : prodMat env a t.2 lam with
  | error e => rfl
  | ok P =>
    have := prodMat_square h hP
    rw [← length_xlabels] at this
    rw [py_bind_ok, py_bind_ok, scaleTerm_times c t this]
    rfl

theorem termMat_square {t : Coeff × OperatorProduct} {M : Arr} (hM : termMat env a.xlabels a lam t = .ok M) : Square a.dim M := by
  unfold termMat at hM
  obtain ⟨P, hP, hM⟩ := py_bind_eq_ok hM
  injection hM with hM
  have := prodMat_square h hP
  rw [← length_xlabels] at this ⊢
  exact hM ▸ scaleTerm_square this

theorem sumMat_times (c : ℝ) (ts : OperatorSum) : ∀ {M : Arr}, Square a.dim M →
    sumMat env a.xlabels a lam (ctimes c ts) (affArr c 0 M) = (sumMat env a.xlabels a lam ts M).map (affArr c 0) := by
  induction ts with
  | nil => exact fun _ => rfl
  | cons t ts ih =>
    intro M hM
    show (termMat env a.xlabels a lam (fun x => c * t.1 x, t.2) >>= fun x => sumMat env a.xlabels a lam (ctimes c ts) ((affArr c 0 M).add x)) =
      (termMat env a.xlabels a lam t >>= fun x => sumMat env a.xlabels a lam ts (M.add x)).map (affArr c 0)
    rw [termMat_times h lam]
    cases hP : termMat env a.xlabels a lam t with
    | error e => rfl
    | ok P =>
      have hsq := termMat_square h lam hP
      show sumMat env a.xlabels a lam (ctimes c ts) ((affArr c 0 M).add (affArr c 0 P)) =
        (sumMat env a.xlabels a lam ts (M.add P)).map (affArr c 0)
      rw [← ih (square_add hM)]
      congr 1
      refine square_ext (square_add (square_aff c 0 hM)) (square_aff c 0 (square_add hM)) fun i j hi hj => ?_
      rw [add_e (square_aff c 0 hM) hi hj, aff_e c 0 hM hi hj, aff_e c 0 hsq hi hj, aff_e c 0 (square_add hM) hi hj, add_e hM hi hj]
      simp only [ite_self]
      ring

theorem allMat_times (c : ℝ) (ts : OperatorSum) : allMat env a (ctimes c ts) lam = (allMat env a ts lam).map (affArr c 0) := by
  cases ts with
  | nil =>
    show (dimXspace a.nu_min a.nu_max a.v_min a.v_max a.L_min (some a.L_max) >>= fun d => pure (Arr.zeros d.toNat d.toNat)) =
      (dimXspace a.nu_min a.nu_max a.v_min a.v_max a.L_min (some a.L_max) >>= fun d => pure (Arr.zeros d.toNat d.toNat)).map (affArr c 0)
    rw [dimXspace_ok h]
    refine congrArg Except.ok ?_
    ext i j
    · rfl
    · rfl
    · simp [affArr, Arr.zeros, Arr.of]
  | cons t ts =>
    show (lbsXspace a.nu_min a.nu_max a.v_min a.v_max a.L_min (some a.L_max) >>= fun xs =>
      termMat env xs a lam (fun x => c * t.1 x, t.2) >>= fun M => sumMat env xs a lam (ctimes c ts) M) =
      (lbsXspace a.nu_min a.nu_max a.v_min a.v_max a.L_min (some a.L_max) >>= fun xs =>
      termMat env xs a lam t >>= fun M => sumMat env xs a lam ts M).map (affArr c 0)
    rw [lbsXspace_ok h, py_bind_ok, py_bind_ok, termMat_times h lam]
    cases hP : termMat env a.xlabels a lam t with
    | error e => rfl
    | ok P => exact sumMat_times h lam c ts (termMat_square h lam hP)

omit h in
theorem sumMat_append (ts us : OperatorSum) : ∀ M, sumMat env a.xlabels a lam (ts ++ us) M =
    (sumMat env a.xlabels a lam ts M >>= fun N => sumMat env a.xlabels a lam us N) := by
  induction ts with
  | nil => exact fun _ => rfl
  | cons t ts ih =>
    intro M
    show (termMat env a.xlabels a lam t >>= fun x => sumMat env a.xlabels a lam (ts ++ us) (M.add x)) =
      ((termMat env a.xlabels a lam t >>= fun x => sumMat env a.xlabels a lam ts (M.add x)) >>= fun N => sumMat env a.xlabels a lam us N)
    cases termMat env a.xlabels a lam t with
    | error e => rfl
    | ok x => exact ih _

theorem termMat_const {ls : Int → Int} (hl : ∀ v, a.v_min ≤ v → v ≤ a.v_max → lam v = .ok (ls v))
    (hpos : ∀ v, a.v_min ≤ v → v ≤ a.v_max → 0 < a.lambda_base + ls v) (d : ℝ) :
    termMat env a.xlabels a lam (fun _ => d, []) = .ok ((Arr.eye a.dim).smul d) := by
  unfold termMat
  rw [prodMat_nil h lam hl hpos, py_bind_ok]
  unfold scaleTerm
  rw [if_pos ⟨d, rfl⟩]
  rfl

theorem allMat_plus {ls : Int → Int} (hl : ∀ v, a.v_min ≤ v → v ≤ a.v_max → lam v = .ok (ls v))
    (hpos : ∀ v, a.v_min ≤ v → v ≤ a.v_max → 0 < a.lambda_base + ls v) (d : ℝ) (ts : OperatorSum) :
    allMat env a (plus ts d) lam = (allMat env a ts lam).map (affArr 1 d) := by
  have hk := termMat_const (env := env) h lam hl hpos d
  cases ts with
  | nil =>
    show (lbsXspace a.nu_min a.nu_max a.v_min a.v_max a.L_min (some a.L_max) >>= fun xs =>
      termMat env xs a lam (fun _ => d, []) >>= fun M => pure M) =
      (dimXspace a.nu_min a.nu_max a.v_min a.v_max a.L_min (some a.L_max) >>= fun d => pure (Arr.zeros d.toNat d.toNat)).map (affArr 1 d)
    rw [lbsXspace_ok h, dimXspace_ok h, py_bind_ok, py_bind_ok, hk, py_bind_ok]
    refine congrArg Except.ok ?_
    rw [Int.toNat_natCast]
    ext i j
    · rfl
    · rfl
    · simp [affArr, Arr.zeros, Arr.of, Arr.eye, Arr.smul]
      intro h1 h2 h3
      have := h1 h2
      omega
  | cons t ts =>
    show (lbsXspace a.nu_min a.nu_max a.v_min a.v_max a.L_min (some a.L_max) >>= fun xs =>
      termMat env xs a lam t >>= fun M => sumMat env xs a lam (ts ++ [(fun _ => d, [])]) M) =
      (lbsXspace a.nu_min a.nu_max a.v_min a.v_max a.L_min (some a.L_max) >>= fun xs =>
      termMat env xs a lam t >>= fun M => sumMat env xs a lam ts M).map (affArr 1 d)
    rw [lbsXspace_ok h, py_bind_ok, py_bind_ok]
    cases hP : termMat env a.xlabels a lam t with
    | error e => rfl
    | ok P =>
      rw [py_bind_ok, py_bind_ok, sumMat_append lam]
      cases hN : sumMat env a.xlabels a lam ts P with
      | error e => rfl
      | ok N =>
        have hsq : Square a.dim N := by
          refine allMat_square (ts := t :: ts) (env := env) (lam := lam) h ?_
          show (lbsXspace a.nu_min a.nu_max a.v_min a.v_max a.L_min (some a.L_max) >>= fun xs =>
            termMat env xs a lam t >>= fun M => sumMat env xs a lam ts M) = _
          rw [lbsXspace_ok h, py_bind_ok, hP, py_bind_ok, hN]
        rw [py_bind_ok]
        show (termMat env a.xlabels a lam (fun _ => d, []) >>= fun x => pure (N.add x)) = _
        rw [hk, py_bind_ok]
        refine congrArg Except.ok (square_ext (square_add hsq) (square_aff 1 d hsq) fun i j hi hj => ?_)
        rw [add_e hsq hi hj, aff_e 1 d hsq hi hj, one_mul]
        congr 1
        simp only [Arr.smul, Arr.eye, Arr.of]
        rw [if_pos ⟨hi, hj⟩]
        split_ifs <;> simp_all

end

theorem aff_aff (c d : ℝ) (A : Arr) : affArr 1 d (affArr c 0 A) = affArr c d A := by
  ext i j
  · rfl
  · rfl
  · simp only [affArr, Arr.of]
    split_ifs <;> ring

theorem tame_times (c : ℝ) (op : OperatorSum) : Op_Tame (ctimes c op) = Op_Tame op := by
  unfold Op_Tame ctimes
  rw [List.length_map, List.map_map]
  rfl

theorem tame_plus (op : OperatorSum) (d : ℝ) : Op_Tame (plus op d) = Op_Tame op := by
  unfold Op_Tame plus
  cases op with
  | nil => rfl
  | cons t op => simp

/-- The values of `lambda` are defined and positive. -/
def LambdaPos (a : XArgs) (lam : LambdaFunction) : Prop :=
  ∃ ls : Int → Int, (∀ v, a.v_min ≤ v → v ≤ a.v_max → lam v = .ok (ls v)) ∧ ∀ v, a.v_min ≤ v → v ≤ a.v_max → 0 < a.lambda_base + ls v

/-- `H'` stands for `c H + d`. -/
def IsAff (CG : CGFun) (la : LinAlg) (a : XArgs) (lam : LambdaFunction) (c d : ℝ) (ham ham' : OperatorSum) : Prop :=
  Op_Tame ham' = Op_Tame ham ∧ ∀ L L', LegalRanges (XArgs.narrow a L L') → allMat ⟨CG, la⟩ (XArgs.narrow a L L') ham' lam =
    (allMat ⟨CG, la⟩ (XArgs.narrow a L L') ham lam).map (affArr c d)

theorem isAff_times (CG : CGFun) (la : LinAlg) (a : XArgs) (lam : LambdaFunction) (c : ℝ) (ham : OperatorSum) :
    IsAff CG la a lam c 0 ham (ctimes c ham) := ⟨tame_times c ham, fun _ _ hl => allMat_times hl lam c ham⟩

theorem isAff_plus (CG : CGFun) (la : LinAlg) {a : XArgs} {lam : LambdaFunction} (hl : LambdaPos a lam) (c d : ℝ) (ham : OperatorSum) :
    IsAff CG la a lam c d ham (plus (ctimes c ham) d) := by
  obtain ⟨ls, h1, h2⟩ := hl
  refine ⟨by rw [tame_plus, tame_times], fun L L' hleg => ?_⟩
  rw [allMat_plus hleg lam h1 h2, allMat_times hleg]
  cases allMat ⟨CG, la⟩ (XArgs.narrow a L L') ham lam with
  | error e => rfl
  | ok M => exact congrArg Except.ok (aff_aff c d M)

theorem levels_aff (c d : ℝ) (r : List LEig) : levels (r.map (affEig c d)) = relevel (fun e => c * e + d) (levels r) := by
  unfold levels relevel
  rw [List.map_map, List.map_map]
  rfl

theorem energies_aff {c : ℝ} (hc : 0 < c) (d : ℝ) {CG : CGFun} {la : LinAlg} (h : LinAlgOk la) {ham ham' : OperatorSum} {a : XArgs}
    {s : FState} (hs : MemoOk ⟨CG, la⟩ s.xs) (ha : IsAff CG la a s.glb.lam_fun c d ham ham') :
    (DigXspace ⟨CG, la⟩ ham' a s).1.map levels = ((DigXspace ⟨CG, la⟩ ham a s).1.map levels).map (relevel fun e => c * e + d) := by
  rw [dig_aff hc d h ha.1 hs hs rfl ha.2, (C105_energies CG h (affLA_ok (d := d) hc h) ham a s).2]
  cases (DigXspace ⟨CG, affLA c d la⟩ ham a s).1 with
  | error e => rfl
  | ok r => exact congrArg Except.ok (levels_aff c d r)

/-- C107: with `c` times the Hamiltonian, `c` positive, all energies are `c` times as large, for every operator, every range, every
state of the memory; if one calculation raises an exception, so does the other, the same one. -/
theorem C107_scale {c : ℝ} (hc : 0 < c) {CG : CGFun} {la : LinAlg} (h : LinAlgOk la) (ham : OperatorSum) (a : XArgs) {s : FState}
    (hs : MemoOk ⟨CG, la⟩ s.xs) : (DigXspace ⟨CG, la⟩ (ctimes c ham) a s).1.map levels =
      ((DigXspace ⟨CG, la⟩ ham a s).1.map levels).map (relevel fun e => c * e) := by
  have := energies_aff hc 0 h hs (isAff_times CG la a s.glb.lam_fun c ham)
  simpa only [add_zero] using this

/-- C107: with a constant added to the Hamiltonian, the same constant is added to all energies. -/
theorem C107_shift {CG : CGFun} {la : LinAlg} (h : LinAlgOk la) (ham : OperatorSum) (d : ℝ) {a : XArgs} {s : FState}
    (hs : MemoOk ⟨CG, la⟩ s.xs) {ls : Int → Int} (hl : ∀ v, a.v_min ≤ v → v ≤ a.v_max → s.glb.lam_fun v = .ok (ls v))
    (hpos : ∀ v, a.v_min ≤ v → v ≤ a.v_max → 0 < a.lambda_base + ls v) : (DigXspace ⟨CG, la⟩ (plus ham d) a s).1.map levels =
      ((DigXspace ⟨CG, la⟩ ham a s).1.map levels).map (relevel fun e => e + d) := by
  have ha : IsAff CG la a s.glb.lam_fun 1 d ham (plus ham d) :=
    ⟨tame_plus ham d, fun L L' hleg => allMat_plus hleg s.glb.lam_fun hl hpos d ham⟩
  have := energies_aff one_pos d h hs ha
  simpa only [one_mul] using this

/-- A routine whose inverses are the same gives the same transition amplitudes. -/
theorem amp_aff {c : ℝ} (hc : 0 < c) (d : ℝ) (CG : CGFun) {la : LinAlg} (h : LinAlgOk la) (j : ℕ → ℕ → ℝ) (op : OperatorSum)
    (bs : List Arr) (a : XArgs) (Ls : List Int) (t : FState) :
    AmpXspeig ⟨⟨CG, affLA c d la⟩, j⟩ op bs a Ls t = AmpXspeig ⟨⟨CG, la⟩, j⟩ op bs a Ls t := by
  unfold AmpXspeig
  rw [C105_rep CG (affLA_ok (d := d) hc h) h]
  rfl

theorem rates_aff {c : ℝ} (hc : 0 < c) (d : ℝ) {CG : CGFun} {la : LinAlg} (h : LinAlgOk la) (j : ℕ → ℕ → ℝ) {ham ham' op : OperatorSum}
    (ht : Op_Tame ham = true) {a : XArgs} {s s1 s1' : FState} (hs : MemoOk ⟨CG, la⟩ s.xs) {r r' : List LEig}
    (ha : IsAff CG la a s.glb.lam_fun c d ham ham')
    (hr : DigXspace ⟨CG, la⟩ ham a s = (.ok r, s1)) (hr' : DigXspace ⟨CG, la⟩ ham' a s = (.ok r', s1')) {t : FState}
    (hm : MemoOk ⟨CG, la⟩ t.xs) {R : LBlockArray}
    (hR : (AmpXspeig ⟨⟨CG, la⟩, j⟩ op (r.map LEig.basis) a (r.map LEig.L) t).1 = .ok R) :
    ∃ R', (AmpXspeig ⟨⟨CG, la⟩, j⟩ op (r'.map LEig.basis) a (r'.map LEig.L) t).1 = .ok R' ∧
      (R'.full_space = R.full_space ∧ R'.mat.rows = R.mat.rows ∧ R'.mat.cols = R.mat.cols) ∧ ∀ x ∈ r, ∀ y ∈ r, ∃ B B',
      R.get_block x.L y.L = .ok B ∧ R'.get_block x.L y.L = .ok B' ∧
      (B.rows = x.vals.length ∧ B.cols = y.vals.length) ∧ (B'.rows = x.vals.length ∧ B'.cols = y.vals.length) ∧
      (∀ g k, strength g k x.vals y.vals B = strength g k x.vals y.vals B') ∧
      (∀ f i, Simple x.vals f → Simple y.vals i → B.e f i = B'.e f i ∨ B.e f i = - B'.e f i) ∧
      (x = y → (∀ g, moment g x.vals B = moment g x.vals B') ∧ ∀ f, Simple x.vals f → B.e f f = B'.e f f) := by
  have e := dig_aff hc d h ha.1 hs hs rfl ha.2
  rw [hr'] at e
  rcases hq : DigXspace ⟨CG, affLA c d la⟩ ham a s with ⟨q, s2⟩
  rw [hq] at e
  cases q with
  | error e' => cases e
  | ok q =>
    injection e with e
    obtain ⟨R', h1, h2⟩ := C105_rates h (affLA_ok (d := d) hc h) j j ht hs hr hq hm hR
    refine ⟨R', ?_, h2⟩
    rw [amp_aff hc d CG h] at h1
    rw [e, List.map_map, List.map_map]
    exact h1

/-- C107: transition rates do not change with the unit of the energy. -/
theorem C107_rates {c : ℝ} (hc : 0 < c) {CG : CGFun} {la : LinAlg} (h : LinAlgOk la) (j : ℕ → ℕ → ℝ) {ham op : OperatorSum}
    (ht : Op_Tame ham = true) {a : XArgs} {s s1 s1' : FState} (hs : MemoOk ⟨CG, la⟩ s.xs) {r r' : List LEig}
    (hr : DigXspace ⟨CG, la⟩ ham a s = (.ok r, s1)) (hr' : DigXspace ⟨CG, la⟩ (ctimes c ham) a s = (.ok r', s1')) {t : FState}
    (hm : MemoOk ⟨CG, la⟩ t.xs) {R : LBlockArray}
    (hR : (AmpXspeig ⟨⟨CG, la⟩, j⟩ op (r.map LEig.basis) a (r.map LEig.L) t).1 = .ok R) :
    ∃ R', (AmpXspeig ⟨⟨CG, la⟩, j⟩ op (r'.map LEig.basis) a (r'.map LEig.L) t).1 = .ok R' ∧
      (R'.full_space = R.full_space ∧ R'.mat.rows = R.mat.rows ∧ R'.mat.cols = R.mat.cols) ∧ ∀ x ∈ r, ∀ y ∈ r, ∃ B B',
      R.get_block x.L y.L = .ok B ∧ R'.get_block x.L y.L = .ok B' ∧
      (B.rows = x.vals.length ∧ B.cols = y.vals.length) ∧ (B'.rows = x.vals.length ∧ B'.cols = y.vals.length) ∧
      (∀ g k, strength g k x.vals y.vals B = strength g k x.vals y.vals B') ∧
      (∀ f i, Simple x.vals f → Simple y.vals i → B.e f i = B'.e f i ∨ B.e f i = - B'.e f i) ∧
      (x = y → (∀ g, moment g x.vals B = moment g x.vals B') ∧ ∀ f, Simple x.vals f → B.e f f = B'.e f f) :=
  rates_aff hc 0 h j ht hs (isAff_times CG la a s.glb.lam_fun c ham) hr hr' hm hR

/-- C107: transition rates do not change with the unit of the energy and its zero. -/
theorem C107_rates_shift {c : ℝ} (hc : 0 < c) (d : ℝ) {CG : CGFun} {la : LinAlg} (h : LinAlgOk la) (j : ℕ → ℕ → ℝ)
    {ham op : OperatorSum} (ht : Op_Tame ham = true) {a : XArgs} {s s1 s1' : FState} (hs : MemoOk ⟨CG, la⟩ s.xs) {r r' : List LEig}
    {ls : Int → Int} (hl : ∀ v, a.v_min ≤ v → v ≤ a.v_max → s.glb.lam_fun v = .ok (ls v))
    (hpos : ∀ v, a.v_min ≤ v → v ≤ a.v_max → 0 < a.lambda_base + ls v)
    (hr : DigXspace ⟨CG, la⟩ ham a s = (.ok r, s1)) (hr' : DigXspace ⟨CG, la⟩ (plus (ctimes c ham) d) a s = (.ok r', s1')) {t : FState}
    (hm : MemoOk ⟨CG, la⟩ t.xs) {R : LBlockArray}
    (hR : (AmpXspeig ⟨⟨CG, la⟩, j⟩ op (r.map LEig.basis) a (r.map LEig.L) t).1 = .ok R) :
    ∃ R', (AmpXspeig ⟨⟨CG, la⟩, j⟩ op (r'.map LEig.basis) a (r'.map LEig.L) t).1 = .ok R' ∧
      (R'.full_space = R.full_space ∧ R'.mat.rows = R.mat.rows ∧ R'.mat.cols = R.mat.cols) ∧ ∀ x ∈ r, ∀ y ∈ r, ∃ B B',
      R.get_block x.L y.L = .ok B ∧ R'.get_block x.L y.L = .ok B' ∧
      (B.rows = x.vals.length ∧ B.cols = y.vals.length) ∧ (B'.rows = x.vals.length ∧ B'.cols = y.vals.length) ∧
      (∀ g k, strength g k x.vals y.vals B = strength g k x.vals y.vals B') ∧
      (∀ f i, Simple x.vals f → Simple y.vals i → B.e f i = B'.e f i ∨ B.e f i = - B'.e f i) ∧
      (x = y → (∀ g, moment g x.vals B = moment g x.vals B') ∧ ∀ f, Simple x.vals f → B.e f f = B'.e f f) :=
  rates_aff hc d h j ht hs (isAff_plus CG la ⟨ls, hl, hpos⟩ c d ham) hr hr' hm hR

/-- The hypotheses of C107 on rates are met: the Hamiltonians 1 and 3 (and 3 + 2 for the shift) with two levels, and the transition
operator `Pi`, with any routine. -/
example {CG : CGFun} {la : LinAlg} (h : LinAlgOk la) : ∃ (ham op : OperatorSum) (a : XArgs) (s s1 s2 s3 : FState) (r r' r'' : List LEig)
    (R : LBlockArray) (ls : Int → Int), Op_Tame ham = true ∧ MemoOk ⟨CG, la⟩ s.xs ∧ DigXspace ⟨CG, la⟩ ham a s = (.ok r, s1) ∧
    DigXspace ⟨CG, la⟩ (ctimes 3 ham) a s = (.ok r', s2) ∧ DigXspace ⟨CG, la⟩ (plus (ctimes 3 ham) 2) a s = (.ok r'', s3) ∧
    (AmpXspeig ⟨⟨CG, la⟩, fun _ _ => 0⟩ op (r.map LEig.basis) a (r.map LEig.L) s).1 = .ok R ∧ r.map LEig.L = [2, 4] ∧
    (∀ x ∈ r, Simple x.vals 0) ∧ (∀ v, a.v_min ≤ v → v ≤ a.v_max → s.glb.lam_fun v = .ok (ls v)) ∧
    ∀ v, a.v_min ≤ v → v ≤ a.v_max → 0 < a.lambda_base + ls v := by
  obtain ⟨s, s1, _, r, _, R, _, _, h3, h4, h5, _, h7, h8⟩ := two_levels (CG := CG) h
  have hl : ∀ v, arg22.v_min ≤ v → v ≤ arg22.v_max → s.glb.lam_fun v = .ok ((fun _ => 0 : Int → Int) v) := by
    intro v k1 k2
    have h1' : 2 ≤ v := k1
    have h2' : v ≤ 2 := k2
    have : v = 2 := by omega
    subst this
    rw [h3]
    exact show lambda_acm_fun 2 = .ok 0 by decide +kernel
  have hp : ∀ v, arg22.v_min ≤ v → v ≤ arg22.v_max → 0 < arg22.lambda_base + ((fun _ => 0 : Int → Int) v : Int) := by
    intro _ _ _
    show (0 : ℝ) < 5 / 2 + ((0 : Int) : ℝ)
    norm_num
  have ok : ∀ {d : ℝ} {ham' : OperatorSum}, IsAff CG la arg22 s.glb.lam_fun 3 d [(fun _ => 1, [])] ham' →
      ∃ r' s', DigXspace ⟨CG, la⟩ ham' arg22 s = (.ok r', s') := by
    intro d ham' ha
    have := energies_aff (by norm_num) d h h4 ha
    rw [h5] at this
    rcases hq : DigXspace ⟨CG, la⟩ ham' arg22 s with ⟨q, s'⟩
    rw [hq] at this
    cases q with
    | error e => cases this
    | ok q => exact ⟨q, s', rfl⟩
  obtain ⟨r', s2, k1⟩ := ok (isAff_times CG la arg22 s.glb.lam_fun 3 [(fun _ => 1, [])])
  obtain ⟨r'', s3, k2⟩ := ok (isAff_plus CG la ⟨_, hl, hp⟩ 3 2 [(fun _ => 1, [])])
  exact ⟨_, _, arg22, s, s1, s2, s3, r, r', r'', R, fun _ => 0, rfl, h4, h5, k1, k2, h7, h8.1, h8.2, hl, hp⟩

/-! ### the Hamiltonians -/

theorem addTerm_times {k : ℝ} (hk : k ≠ 0) (op : OperatorSum) (c e : Coeff) (p : OperatorProduct) :
    ctimes k (addTerm op c e p) = addTerm (ctimes k op) (kC k * c) (kC k * e) p := by
  have : kC k * c = 0 ↔ c = 0 := by
    constructor
    · intro h
      funext x
      have := congrFun h x
      exact (mul_eq_zero.1 this).resolve_left hk
    · rintro rfl
      exact mul_zero _
  unfold addTerm
  by_cases hc : c = 0
  · rw [if_neg (by simpa using hc), if_neg (by simpa [this] using hc)]
  · rw [if_pos hc, if_pos (by rw [Ne, this]; exact hc)]
    simp [ctimes]
    rfl

theorem two_terms {k : ℝ} (hk : k ≠ 0) (c : Coeff) : open Classical in
    ctimes k (if c = 0 then [] else [(c, [.rad .D2b]), (-c * (2 + SENIORITY * (SENIORITY + 3)), [.rad .bm2])]) =
      if kC k * c = 0 then [] else [(kC k * c, [.rad .D2b]), (-(kC k * c) * (2 + SENIORITY * (SENIORITY + 3)), [.rad .bm2])] := by
  have : kC k * c = 0 ↔ c = 0 := by
    constructor
    · intro h
      funext x
      have := congrFun h x
      exact (mul_eq_zero.1 this).resolve_left hk
    · rintro rfl
      exact mul_zero _
  by_cases hc : c = 0
  · rw [if_pos hc, if_pos (this.2 hc)]
    rfl
  · rw [if_neg hc, if_neg (by rw [this]; exact hc)]
    have : (fun x => k * (-c * (2 + SENIORITY * (SENIORITY + 3))) x) = -(kC k * c) * (2 + SENIORITY * (SENIORITY + 3)) := by
      funext x
      simp [kC]
      ring
    simp only [ctimes, List.map_cons, List.map_nil, this]
    rfl

/-- C107: the Hamiltonian with `k` times the coefficients is `k` times the Hamiltonian. -/
theorem C107_hamiltonian {k : ℝ} (hk : k ≠ 0) (c11 c20 c21 c22 c23 c30 c31 c32 c33 c40 c41 c42 c43 c50 : Coeff) :
    ACM_Hamiltonian (kC k * c11) (kC k * c20) (kC k * c21) (kC k * c22) (kC k * c23) (kC k * c30) (kC k * c31) (kC k * c32) (kC k * c33)
      (kC k * c40) (kC k * c41) (kC k * c42) (kC k * c43) (kC k * c50) =
    ctimes k (ACM_Hamiltonian c11 c20 c21 c22 c23 c30 c31 c32 c33 c40 c41 c42 c43 c50) := by
  unfold ACM_Hamiltonian
  simp only [addTerm_times hk, two_terms hk, mul_assoc]

/-! ### displays -/

theorem minHead_aff {c : ℝ} (hc : 0 < c) (d : ℝ) (xs : List (List ℝ)) :
    min_head (xs.map fun x => x.map fun e => c * e + d) = (min_head xs).map fun e => c * e + d := by
  unfold min_head
  have : (xs.map fun x => x.map fun e => c * e + d).filterMap List.head? = (xs.filterMap List.head?).map fun e => c * e + d := by
    rw [List.filterMap_map, List.map_filterMap]
    refine List.filterMap_congr fun x _ => ?_
    cases x <;> rfl
  rw [this]
  cases xs.filterMap List.head? with
  | nil => rfl
  | cons y ys =>
    refine congrArg Except.ok ?_
    clear this
    rw [List.foldl_map]
    induction ys generalizing y with
    | nil => rfl
    | cons z ys ih =>
      rw [List.foldl_cons, List.foldl_cons, ← ih]
      congr 1
      rcases le_total y z with k | k
      · rw [min_eq_left k, min_eq_left (by nlinarith)]
      · rw [min_eq_right k, min_eq_right (by nlinarith)]

theorem levels_vals {r r' : List LEig} {f : ℝ → ℝ} (h : levels r' = relevel f (levels r)) :
    r'.map LEig.vals = (r.map LEig.vals).map fun x => x.map f := by
  have := congrArg (List.map Prod.snd) h
  simpa [levels, relevel, Function.comp_def] using this

theorem levels_L {r r' : List LEig} {f : ℝ → ℝ} (h : levels r' = relevel f (levels r)) : r'.map LEig.L = r.map LEig.L := by
  have := congrArg (List.map Prod.fst) h
  simpa [levels, relevel, Function.comp_def] using this

theorem eigenAt_aff {r r' : List LEig} {f : ℝ → ℝ} (h : levels r' = relevel f (levels r)) (L : Int) :
    eigenAt r' L = (eigenAt r L).map (List.map f) := by
  induction r generalizing r' with
  | nil =>
    cases r' with
    | nil => rfl
    | cons x r' => cases h
  | cons y r ih =>
    cases r' with
    | nil => cases h
    | cons x r' =>
      injection h with h1 h2
      injection h1 with h1 h3
      have := ih h2
      unfold eigenAt at this ⊢
      rw [List.find?_cons, List.find?_cons]
      have e : x.L = y.L := h1
      rw [e]
      by_cases hL : y.L = L
      · rw [decide_eq_true hL]
        exact congrArg Except.ok h3
      · rw [decide_eq_false hL]
        exact this

theorem pyGet_map (f : ℝ → ℝ) (xs : List ℝ) (i : Int) : pyGet (xs.map f) i = (pyGet xs i).map f := by
  unfold pyGet
  simp only [List.length_map]
  generalize (if i < 0 then i + (xs.length : Int) else i) = j
  by_cases hj : 0 ≤ j
  · rw [if_pos hj, if_pos hj, List.getElem?_map]
    cases xs[j.toNat]? <;> rfl
  · rw [if_neg hj, if_neg hj]
    rfl

theorem energyLines_eq (xs : List Shown) : energyLines xs = energyLines (valueLines xs) := by
  induction xs with
  | nil => rfl
  | cons x xs ih =>
    cases x <;> simp_all [energyLines, valueLines]

theorem valueLines_append (xs ys : List Shown) : valueLines (xs ++ ys) = valueLines xs ++ valueLines ys := List.filter_append ..

theorem body_aff {c : ℝ} (hc : 0 < c) {d : ℝ} (vals : List (List ℝ)) (Ls : List Int) (n lo hi : Int) {t t' u : FState} {x : Option ℝ}
    (h1 : t'.glb.eig_rel = t.glb.eig_rel) (h2 : t'.glb.eig_sft = c * t.glb.eig_sft) (h3 : valueLines t'.out = valueLines t.out)
    (h4 : t.glb.eig_rel = true ∨ d = 0) (h : showEigsBody vals Ls n lo hi t = (.ok x, u)) :
    ∃ x' u', showEigsBody (vals.map fun x => x.map fun e => c * e + d) Ls n lo hi t' = (.ok x', u') ∧ u'.glb = t'.glb ∧ u.glb = t.glb ∧
      valueLines u'.out = valueLines u.out := by
  have key : ∀ low low', low' = c * low + d →
      valueLines (((Ls.zip (vals.map fun x => x.map fun e => c * e + d)).filter fun x => decide (lo ≤ x.1 ∧ x.1 ≤ hi)).map fun x =>
        Shown.eigs x.1 ((x.2.take n.toNat).map fun val => (val - low') / t'.glb.eig_sft)) =
      valueLines (((Ls.zip vals).filter fun x => decide (lo ≤ x.1 ∧ x.1 ≤ hi)).map fun x =>
        Shown.eigs x.1 ((x.2.take n.toNat).map fun val => (val - low) / t.glb.eig_sft)) := by
    rintro low low' rfl
    rw [h2]
    congr 1
    rw [List.zip_map_right, List.filter_map, List.map_map]
    refine List.map_congr_left fun y _ => ?_
    simp only [Function.comp, Prod.map, id, List.map_take, List.map_map]
    congr 2
    refine List.map_congr_left fun e _ => ?_
    show (c * e + d - (c * low + d)) / (c * t.glb.eig_sft) = _
    rw [show c * e + d - (c * low + d) = c * (e - low) by ring, mul_div_mul_left _ _ hc.ne']
  unfold showEigsBody at h ⊢
  rw [st_bind_ok (x := FM.glb) (s := t) (s' := t) rfl] at h
  rw [st_bind_ok (x := FM.glb) (s := t') (s' := t') rfl, h1]
  by_cases hrel : t.glb.eig_rel = true
  · rw [if_pos hrel] at h ⊢
    rw [minHead_aff hc d]
    cases hm : min_head vals with
    | error e => rw [hm, st_lift_error] at h; cases h
    | ok low =>
      rw [hm, st_lift_ok, st_bind_ok (x := FM.print _) (print_add _ _), st_bind_ok (eigsLoop_ok _ _ _ _ _ _ _), add_add] at h
      rw [Except.map, st_lift_ok, st_bind_ok (x := FM.print _) (print_add _ _), st_bind_ok (eigsLoop_ok _ _ _ _ _ _ _), add_add]
      cases h
      refine ⟨_, _, rfl, rfl, rfl, ?_⟩
      simp only [FState.add, valueLines_append, h3]
      rw [key low _ rfl]
      rfl
  · have hd : d = 0 := by tauto
    rw [if_neg hrel] at h ⊢
    rw [st_bind_ok (x := FM.print _) (print_add _ _), st_bind_ok (eigsLoop_ok _ _ _ _ _ _ _), add_add] at h
    rw [st_bind_ok (x := FM.print _) (print_add _ _), st_bind_ok (eigsLoop_ok _ _ _ _ _ _ _), add_add]
    cases h
    refine ⟨_, _, rfl, rfl, rfl, ?_⟩
    simp only [FState.add, valueLines_append, h3]
    rw [key 0 0 (by rw [hd]; ring)]
    rfl

theorem show_aff {c : ℝ} (hc : 0 < c) {d : ℝ} (vals : List (List ℝ)) (Ls : List Int) (n : Int) {t t' u : FState} {x : Option ℝ}
    (h1 : t'.glb.eig_rel = t.glb.eig_rel) (h2 : t'.glb.eig_sft = c * t.glb.eig_sft) (h3 : valueLines t'.out = valueLines t.out)
    (h4 : t.glb.eig_rel = true ∨ d = 0) (h : Show_Eigs vals Ls n none none t = (.ok x, u)) :
    ∃ x' u', Show_Eigs (vals.map fun x => x.map fun e => c * e + d) Ls n none none t' = (.ok x', u') ∧ u'.glb = t'.glb ∧ u.glb = t.glb ∧
      valueLines u'.out = valueLines u.out := by
  unfold Show_Eigs at h ⊢
  obtain ⟨_, t1, k1, h'⟩ := st_bind_eq_ok h
  obtain ⟨k1', rfl⟩ := st_lift_eq_ok k1
  clear h k1
  rw [k1', st_lift_ok]
  rw [List.length_map]
  by_cases hz : n = 0 ∨ vals.length = 0
  · rw [if_pos hz] at h' ⊢
    cases h'
    exact ⟨_, _, rfl, rfl, rfl, h3⟩
  · rw [if_neg hz] at h' ⊢
    obtain ⟨_, t2, k2, h⟩ := st_bind_eq_ok h'
    obtain ⟨k2', rfl⟩ := st_lift_eq_ok k2
    clear h' k2
    rw [k2', st_lift_ok]
    by_cases ha : (Ls.any fun L => decide ((eigBounds none none).1 ≤ L ∧ L ≤ (eigBounds none none).2.2)) = true
    · rw [if_pos ha] at h ⊢
      exact body_aff hc vals Ls n _ _ h1 h2 h3 h4 h
    · rw [if_neg ha] at h ⊢
      cases h
      exact ⟨_, _, rfl, rfl, rfl, h3⟩

theorem fit_aff {c : ℝ} (hc : 0 < c) {d : ℝ} {r r' : List LEig} (hr : levels r' = relevel (fun e => c * e + d) (levels r))
    {s s' s1 : FState} {op : OperatorSum} (hg : s'.glb.resetLap = { s.glb.resetLap with rat_TRop := op }) (h4 : s.glb.eig_rel = true ∨ d = 0) (h : fitEig r s = (.ok (), s1)) :
    ∃ s1', fitEig r' s' = (.ok (), s1') ∧ s1'.glb.eig_sft = c * s1.glb.eig_sft ∧ s1'.glb.eig_rel = s1.glb.eig_rel ∧
      s1'.out = s'.out ∧ s1.out = s.out ∧ s1.glb.eig_rel = s.glb.eig_rel ∧ s1'.glb.rat_lst = s.glb.rat_lst ∧ s1'.glb.amp_lst = s.glb.amp_lst := by
  have g1 : s'.glb.eig_rel = s.glb.eig_rel := (congrArg Glb.eig_rel hg :)
  have g2 : s'.glb.eig_L = s.glb.eig_L := (congrArg Glb.eig_L hg :)
  have g3 : s'.glb.eig_idx = s.glb.eig_idx := (congrArg Glb.eig_idx hg :)
  have g4 : s'.glb.eig_fit = s.glb.eig_fit := (congrArg Glb.eig_fit hg :)
  have g5 : s'.glb.rat_lst = s.glb.rat_lst := (congrArg Glb.rat_lst hg :)
  have g6 : s'.glb.amp_lst = s.glb.amp_lst := (congrArg Glb.amp_lst hg :)
  unfold fitEig at h ⊢
  rw [st_bind_ok (x := FM.glb) (s := s) (s' := s) rfl] at h
  rw [st_bind_ok (x := FM.glb) (s := s') (s' := s') rfl]
  obtain ⟨low, t1, j1, h1⟩ := st_bind_eq_ok h
  obtain ⟨k1, rfl⟩ := st_lift_eq_ok j1
  obtain ⟨vs, t2, j2, h2⟩ := st_bind_eq_ok h1
  obtain ⟨k2, rfl⟩ := st_lift_eq_ok j2
  obtain ⟨E, t3, j3, h3⟩ := st_bind_eq_ok h2
  obtain ⟨k3, rfl⟩ := st_lift_eq_ok j3
  clear h h1 h2 j1 j2 j3
  have m1 : ∃ low', eigenLow s'.glb (r'.map LEig.vals) = .ok low' ∧ low' = c * low + d := by
    unfold eigenLow at k1 ⊢
    rw [g1, levels_vals hr]
    by_cases hrel : t3.glb.eig_rel = true
    · rw [if_pos hrel] at k1 ⊢
      rw [minHead_aff hc d, k1]
      exact ⟨_, rfl, rfl⟩
    · rw [if_neg hrel] at k1 ⊢
      have hd : d = 0 := by tauto
      cases k1
      exact ⟨_, rfl, by rw [hd]; ring⟩
  obtain ⟨low', m1, rfl⟩ := m1
  have m2 : eigenAt r' s'.glb.eig_L = .ok (vs.map fun e => c * e + d) := by
    rw [g2, eigenAt_aff hr, k2]
    rfl
  have m3 : pyGet (vs.map fun e => c * e + d) (s'.glb.eig_idx - 1) = .ok (c * E + d) := by
    rw [g3, pyGet_map, k3]
    rfl
  rw [m1, st_lift_ok, m2, st_lift_ok, m3, st_lift_ok, g4]
  have e : (c * E + d - (c * low + d)) / t3.glb.eig_fit = c * ((E - low) / t3.glb.eig_fit) := by ring
  rw [e]
  obtain ⟨_, t4, k4, h⟩ := st_bind_eq_ok h3
  cases k4
  by_cases hz : (E - low) / t3.glb.eig_fit = 0
  · rw [if_pos hz] at h
    cases h
  · rw [if_neg hz] at h
    cases h
    refine ⟨⟨{ s'.glb with eig_sft := c * ((E - low) / t3.glb.eig_fit) }, s'.piMemo, s'.pipiMemo, s'.piqpiMemo, s'.out⟩, ?_, ?_, g1, rfl, rfl,
      rfl, g5, g6⟩
    · rw [st_bind_ok (x := FM.setGlb _) (s := s') (a := ())
        (s' := ⟨{ s'.glb with eig_sft := c * ((E - low) / t3.glb.eig_fit) }, s'.piMemo, s'.pipiMemo, s'.piqpiMemo, s'.out⟩) (by rw [← e, ← g4]; rfl),
        if_neg (mul_ne_zero hc.ne' hz)]
      rfl
    · rfl

theorem scaleEig_aff {c : ℝ} (hc : 0 < c) {d : ℝ} {r r' : List LEig} (hr : levels r' = relevel (fun e => c * e + d) (levels r))
    {s s' s1 : FState} {op : OperatorSum} (hg : s'.glb.resetLap = { s.glb.resetLap with rat_TRop := op }) (h3 : valueLines s'.out = valueLines s.out)
    (h4 : s.glb.eig_rel = true ∨ d = 0) (hn : 0 < s.glb.eig_num) (h : scaleEig 1 r s = (.ok (), s1)) :
    ∃ s1', scaleEig 1 r' s' = (.ok (), s1') ∧ s1'.glb.eig_sft = c * s1.glb.eig_sft ∧ valueLines s1'.out = valueLines s1.out ∧
      s1'.glb.rat_lst = s.glb.rat_lst ∧ s1'.glb.amp_lst = s.glb.amp_lst := by
  have g1 : s'.glb.eig_num = s.glb.eig_num := (congrArg Glb.eig_num hg :)
  unfold scaleEig at h ⊢
  rw [st_bind_ok (x := FM.glb) (s := s) (s' := s) rfl, if_pos hn, if_pos (by norm_num)] at h
  rw [st_bind_ok (x := FM.glb) (s := s') (s' := s') rfl, g1, if_pos hn, if_pos (by norm_num)]
  obtain ⟨_, t1, k1, h'⟩ := st_bind_eq_ok h
  obtain ⟨x, t2, k2, h''⟩ := st_bind_eq_ok h'
  cases h''
  obtain ⟨t1', e1, e2, e3, e4, e5, e6, e7, e8⟩ := fit_aff hc hr hg h4 k1
  obtain ⟨x', t2', f1, f2, f3, f4⟩ := show_aff hc (r.map LEig.vals) (r.map LEig.L) s.glb.eig_num e3 e2 (by rw [e4, e5, h3])
    (by rw [e6]; exact h4) k2
  refine ⟨t2', ?_, by rw [f2, f3, e2], f4, by rw [f2, e7], by rw [f2, e8]⟩
  rw [st_bind_ok e1, levels_vals hr, levels_L hr, st_bind_ok f1]
  rfl

theorem adapt_aff {c : ℝ} (hc : 0 < c) {d : ℝ} {env : FEnv} (hla : LinAlgOk env.x.la) {ham ham' : OperatorSum} {a : XArgs} {s s1 : FState}
    (hs : MemoOk env.x s.xs) (ha : IsAff env.x.CG env.x.la a s.glb.lam_fun c d ham ham') (h4 : s.glb.eig_rel = true ∨ d = 0)
    (hn : 0 < s.glb.eig_num) (l1 : s.glb.rat_lst = []) (l2 : s.glb.amp_lst = []) {r : List LEig} {tr : Option LBlockArray}
    (h : ACM_Adapt env ham a s = (.ok (r, tr), s1)) :
    ∃ r' s1', ACM_Adapt env ham' a s = (.ok (r', none), s1') ∧ levels r' = relevel (fun e => c * e + d) (levels r) ∧
      energyLines s1'.out = energyLines s1.out ∧ s1'.glb.eig_sft = c * s1.glb.eig_sft := by
  obtain ⟨t1, t2, k1, k2, k3⟩ := adapt_split h
  have he := energies_aff hc d hla hs ha
  rw [show (⟨env.x.CG, env.x.la⟩ : XEnv) = env.x from rfl, k1] at he
  rcases hq : DigXspace env.x ham' a s with ⟨q, t1'⟩
  rw [hq] at he
  cases q with
  | error e => cases he
  | ok r' =>
    have hlev : levels r' = relevel (fun e => c * e + d) (levels r) := by
      injection he
    have o1 := (dig_eig hs k1).2.2.2.1
    have o2 := (dig_eig hs hq).2.2.2.1
    have hg1 : t1.glb.resetLap = s.glb.resetLap := by
      have := dig_glb env.x ham a s
      rw [k1] at this
      rcases this with e | e
      · rw [e]
      · rw [e]
        rfl
    have hg2 : t1'.glb.resetLap = s.glb.resetLap := by
      have := dig_glb env.x ham' a s
      rw [hq] at this
      rcases this with e | e
      · rw [e]
      · rw [e]
        rfl
    have e1 : t1.glb.eig_rel = s.glb.eig_rel := (congrArg Glb.eig_rel hg1 :)
    have e2 : t1.glb.eig_num = s.glb.eig_num := (congrArg Glb.eig_num hg1 :)
    have e3 : t1.glb.rat_lst = s.glb.rat_lst := (congrArg Glb.rat_lst hg1 :)
    have e4 : t1.glb.amp_lst = s.glb.amp_lst := (congrArg Glb.amp_lst hg1 :)
    obtain ⟨t2', f1, f2, f3, f4, f5⟩ := scaleEig_aff hc hlev (op := t1.glb.rat_TRop) (hg2.trans hg1.symm) (by rw [o1, o2]) (by rw [e1]; exact h4)
      (by rw [e2]; exact hn) k2
    have e5 : t2.glb.rat_lst = t1.glb.rat_lst ∧ t2.glb.amp_lst = t1.glb.amp_lst := by
      have F : Frame fun s s' : FState => s'.glb.rat_lst = s.glb.rat_lst ∧ s'.glb.amp_lst = s.glb.amp_lst :=
        frame_glb (P := fun g g' => g'.rat_lst = g.rat_lst ∧ g'.amp_lst = g.amp_lst) (fun _ => ⟨rfl, rfl⟩)
          fun _ _ _ p q => ⟨q.1.trans p.1, q.2.trans p.2⟩
      have := keeps_scaleEig F r 1 (fun _ => keeps_fitEig F (fun _ _ => ⟨rfl, rfl⟩) r) t1
      rw [k2] at this
      exact this
    have rest : ∀ (q : List LEig) (t : FState), t.glb.rat_lst = [] → t.glb.amp_lst = [] →
        scaleRest env 1 a q t = (.ok (q, none), t) := by
      intro q t m1 m2
      unfold scaleRest
      rw [st_bind_ok (x := FM.glb) (s := t) (s' := t) rfl, if_neg (by rw [m1, m2]; simp)]
      rfl
    have k3' := rest r t2 (by rw [e5.1, e3, l1]) (by rw [e5.2, e4, l2])
    rw [k3] at k3'
    injection k3' with _ k3'
    subst k3'
    refine ⟨r', t2', ?_, hlev, by rw [energyLines_eq, f3, ← energyLines_eq], f2⟩
    unfold ACM_Adapt ACM_ScaleOrAdapt at h ⊢
    obtain ⟨_, u1, j1, h1⟩ := st_bind_eq_ok h
    obtain ⟨i1, rfl⟩ := st_lift_eq_ok j1
    obtain ⟨_, u2, j2, h2⟩ := st_bind_eq_ok h1
    obtain ⟨i2, rfl⟩ := st_lift_eq_ok j2
    obtain ⟨_, u3, j3, h3⟩ := st_bind_eq_ok h2
    obtain ⟨i3, rfl⟩ := st_lift_eq_ok j3
    obtain ⟨g, u4, j4, h5⟩ := st_bind_eq_ok h3
    cases j4
    obtain ⟨_, u5, j5, h6⟩ := st_bind_eq_ok h5
    obtain ⟨i5, rfl⟩ := st_lift_eq_ok j5
    rw [i1, st_lift_ok, st_lift_ok, i3, st_lift_ok, st_bind_ok (x := FM.glb) (a := u5.glb) (s' := u5) rfl, i5, st_lift_ok, st_bind_ok hq,
      st_bind_ok f1]
    exact rest r' t2' (by rw [f4, e3, l1]) (by rw [f5, e4, l2])

/-- C107: the energies which `ACM_Adapt` displays do not change with the unit of the energy; its scaling factor takes it up. -/
theorem C107_adapt {c : ℝ} (hc : 0 < c) {env : FEnv} (hla : LinAlgOk env.x.la) {ham : OperatorSum} {a : XArgs} {s s1 : FState}
    (hs : MemoOk env.x s.xs) (hn : 0 < s.glb.eig_num) (l1 : s.glb.rat_lst = []) (l2 : s.glb.amp_lst = []) {r : List LEig}
    {tr : Option LBlockArray} (h : ACM_Adapt env ham a s = (.ok (r, tr), s1)) :
    ∃ r' s1', ACM_Adapt env (ctimes c ham) a s = (.ok (r', none), s1') ∧ levels r' = relevel (fun e => c * e) (levels r) ∧
      energyLines s1'.out = energyLines s1.out ∧ s1'.glb.eig_sft = c * s1.glb.eig_sft := by
  have := adapt_aff hc hla hs (isAff_times env.x.CG env.x.la a s.glb.lam_fun c ham) (.inr rfl) hn l1 l2 h
  simpa only [add_zero] using this

/-- C107: the energies which `ACM_Adapt` displays relative to the lowest do not change with the unit of the energy and its zero. -/
theorem C107_adapt_shift {c : ℝ} (hc : 0 < c) (d : ℝ) {env : FEnv} (hla : LinAlgOk env.x.la) {ham : OperatorSum} {a : XArgs}
    {s s1 : FState} (hs : MemoOk env.x s.xs) (hrel : s.glb.eig_rel = true) (hn : 0 < s.glb.eig_num) (l1 : s.glb.rat_lst = [])
    (l2 : s.glb.amp_lst = []) {ls : Int → Int} (hl : ∀ v, a.v_min ≤ v → v ≤ a.v_max → s.glb.lam_fun v = .ok (ls v))
    (hpos : ∀ v, a.v_min ≤ v → v ≤ a.v_max → 0 < a.lambda_base + ls v) {r : List LEig} {tr : Option LBlockArray}
    (h : ACM_Adapt env ham a s = (.ok (r, tr), s1)) :
    ∃ r' s1', ACM_Adapt env (plus (ctimes c ham) d) a s = (.ok (r', none), s1') ∧
      levels r' = relevel (fun e => c * e + d) (levels r) ∧
      energyLines s1'.out = energyLines s1.out ∧ s1'.glb.eig_sft = c * s1.glb.eig_sft :=
  adapt_aff hc hla hs (isAff_plus env.x.CG env.x.la ⟨ls, hl, hpos⟩ c d ham) (.inl hrel) hn l1 l2 h

/-- A call of `ACM_Adapt` that succeeds, with energies relative to the lowest: the Hamiltonian is the angular momentum. -/
theorem adapt_angmom {env : FEnv} (hla : LinAlgOk env.x.la) :
    let s : FState := ⟨{ Glb.init with eig_L := 4 }, fun _ => none, fun _ _ => none, fun _ => none, []⟩
    MemoOk env.x s.xs ∧ ∃ r s', ACM_Adapt env [(ANGMOM, [])] arg22 s = (.ok (r, none), s') ∧ levels r = [(2, [2]), (4, [4])] ∧
      energyLines s'.out = [(2, [0]), (4, [6])] ∧ s'.glb.eig_sft = 1 / 3 := by
  intro s
  have hs : MemoOk env.x s.xs := memoOk_start env.x lambda_acm_fun
  refine ⟨hs, ?_⟩
  have hlam : ∀ v, arg22.v_min ≤ v → v ≤ arg22.v_max → s.glb.lam_fun v = .ok ((fun _ => 0 : Int → Int) v) := by
    intro v h1 h2
    have h1' : 2 ≤ v := h1
    have h2' : v ≤ 2 := h2
    have : v = 2 := by omega
    subst this
    exact show lambda_acm_fun 2 = .ok 0 by decide +kernel
  obtain ⟨r, s1, hd, ho, hx⟩ := C108_energies hla arg22_legal hs hlam (fun _ _ _ => by
    show (0 : ℝ) < 5 / 2 + ((0 : Int) : ℝ)
    norm_num) (op := [(ANGMOM, [])]) (by simp [Diagonal])
  have hLs : r.map LEig.L = [2, 4] := by rw [occupied_eq arg22_legal ho, Ls22]
  obtain ⟨x, y, rfl⟩ : ∃ x y, r = [x, y] := by
    have : r.length = 2 := by rw [← List.length_map (f := LEig.L), hLs]; rfl
    exact List.length_eq_two.1 this
  have hxL : x.L = 2 := by simp at hLs; exact hLs.1
  have hyL : y.L = 4 := by simp at hLs; exact hLs.2
  have hxv : x.vals = [2] := by
    obtain ⟨_, xs, e1, e2⟩ := hx x (by simp)
    rw [hxL] at e1
    replace e1 : lbsXspace 0 0 2 2 2 none = .ok xs := e1
    rw [show lbsXspace 0 0 2 2 2 none = .ok [(0, 2, 1, 2)] by decide +kernel] at e1
    injection e1 with e1
    subst e1
    rw [List.perm_singleton.1 e2]
    simp [valueAt, ANGMOM]
  have hyv : y.vals = [4] := by
    obtain ⟨_, xs, e1, e2⟩ := hx y (by simp)
    rw [hyL] at e1
    replace e1 : lbsXspace 0 0 2 2 4 none = .ok xs := e1
    rw [show lbsXspace 0 0 2 2 4 none = .ok [(0, 2, 1, 4)] by decide +kernel] at e1
    injection e1 with e1
    subst e1
    rw [List.perm_singleton.1 e2]
    simp [valueAt, ANGMOM]
  have hg : s1.glb = s.glb := by
    have := dig_glb env.x [(ANGMOM, [])] arg22 s
    rw [hd] at this
    rcases this with h | h <;> exact h
  have hout : s1.out = [] := (dig_eig hs hd).2.2.2.1
  have hchk : refChecks 1 1 arg22 s.glb = .ok () := by
    have h4 : dimXspace 0 0 2 2 4 none = .ok 1 := by decide +kernel
    have : refCheck arg22 4 1 = .ok () := by
      unfold refCheck
      rw [if_neg (by unfold arg22; simp)]
      show (dimXspace 0 0 2 2 4 none >>= fun d => if 1 > d then throw .valueError else pure () : Py Unit) = _
      rw [h4]
      rfl
    unfold refChecks
    rw [if_pos (by simp only [s]; unfold Glb.init; decide), if_neg (by simp only [s]; unfold Glb.init; decide)]
    show refCheck arg22 4 1 >>= _ = _
    rw [this]
    rfl
  have hmin : min_head ([x, y].map LEig.vals) = .ok 2 := by
    simp only [List.map_cons, List.map_nil, hxv, hyv]
    show (.ok (min (2 : ℝ) 4) : Py ℝ) = _
    norm_num
  have hfit : fitEig [x, y] s1 = (.ok (), ⟨{ s.glb with eig_sft := (4 - 2) / 6 }, s1.piMemo, s1.pipiMemo, s1.piqpiMemo, s1.out⟩) := by
    unfold fitEig
    rw [st_bind_ok (x := FM.glb) (s := s1) (s' := s1) rfl, hg]
    rw [show eigenLow s.glb ([x, y].map LEig.vals) = .ok 2 from hmin, st_lift_ok]
    have : eigenAt [x, y] s.glb.eig_L = .ok [4] := by
      unfold eigenAt
      rw [List.find?_cons_of_neg (by rw [hxL]; simp [s]), List.find?_cons_of_pos (by rw [hyL]; rfl), ← hyv]
      rfl
    rw [this, st_lift_ok]
    rw [show pyGet [(4 : ℝ)] (s.glb.eig_idx - 1) = .ok 4 from rfl, st_lift_ok]
    rw [st_bind_ok (x := FM.setGlb _) (s' := ⟨{ s.glb with eig_sft := (4 - 2) / 6 }, s1.piMemo, s1.pipiMemo,
      s1.piqpiMemo, s1.out⟩) (a := ()) (by unfold FM.setGlb; rw [hg]; rfl)]
    rw [if_neg (by show ¬ (4 - 2 : ℝ) / 6 = 0; norm_num)]
    rfl
  have hshow := C40_show (vals := [x, y].map LEig.vals) (Ls := [x, y].map LEig.L) (by rw [hLs]; simp) (toshow := 4) (by norm_num) (by simp)
    (by simp) (s := ⟨{ s.glb with eig_sft := (4 - 2) / 6 }, s1.piMemo, s1.pipiMemo, s1.piqpiMemo, s1.out⟩) rfl hmin
  obtain ⟨u, hsc, u1, u2, u3, u4⟩ : ∃ u, scaleEig 1 [x, y] s1 = (.ok (), u) ∧ u.glb.rat_lst = [] ∧ u.glb.amp_lst = [] ∧
      energyLines u.out = [(2, [0]), (4, [6])] ∧ u.glb.eig_sft = 1 / 3 := by
    refine ⟨_, by
      unfold scaleEig
      rw [st_bind_ok (x := FM.glb) (s := s1) (s' := s1) rfl, if_pos (by rw [hg]; simp only [s]; unfold Glb.init; decide),
        if_pos (by decide), st_bind_ok hfit, show s1.glb.eig_num = 4 by rw [hg]; rfl, st_bind_ok hshow]
      rfl, rfl, rfl, ?_, ?_⟩
    · simp only [FState.add, hout, hLs]
      simp only [List.map_cons, List.map_nil, hxv, hyv]
      norm_num [energyLines]
      rfl
    · simp only [FState.add]
      norm_num
  refine ⟨[x, y], u, ?_, by simp [levels, hxL, hyL, hxv, hyv], u3, u4⟩
  unfold ACM_Adapt ACM_ScaleOrAdapt
  rw [require_nonnegint_ok (by norm_num), st_lift_ok, st_lift_ok, check_ok arg22_legal, st_lift_ok,
    st_bind_ok (x := FM.glb) (a := s.glb) (s' := s) rfl, hchk, st_lift_ok, st_bind_ok hd, st_bind_ok hsc]
  unfold scaleRest
  rw [st_bind_ok (x := FM.glb) (s := u) (s' := u) rfl, if_neg (by rw [u1, u2]; simp)]
  rfl

/-- The hypotheses of C107 on `ACM_Adapt` are met. -/
example {env : FEnv} (hla : LinAlgOk env.x.la) : ∃ (s s1 : FState) (r : List LEig) (tr : Option LBlockArray) (ls : Int → Int),
    MemoOk env.x s.xs ∧ s.glb.eig_rel = true ∧ 0 < s.glb.eig_num ∧ s.glb.rat_lst = [] ∧ s.glb.amp_lst = [] ∧
    (∀ v, arg22.v_min ≤ v → v ≤ arg22.v_max → s.glb.lam_fun v = .ok (ls v)) ∧
    (∀ v, arg22.v_min ≤ v → v ≤ arg22.v_max → 0 < arg22.lambda_base + ls v) ∧
    ACM_Adapt env [(ANGMOM, [])] arg22 s = (.ok (r, tr), s1) ∧ levels r = [(2, [2]), (4, [4])] := by
  obtain ⟨hs, r, s', h1, h2, _⟩ := adapt_angmom hla
  refine ⟨_, s', r, none, fun _ => 0, hs, rfl, by unfold Glb.init; decide, rfl, rfl, fun v k1 k2 => ?_, fun _ _ _ => ?_, h1, h2⟩
  · have h1' : 2 ≤ v := k1
    have h2' : v ≤ 2 := k2
    have : v = 2 := by omega
    subst this
    exact show lambda_acm_fun 2 = .ok 0 by decide +kernel
  · show (0 : ℝ) < 5 / 2 + ((0 : Int) : ℝ)
    norm_num

end Acm.Props
