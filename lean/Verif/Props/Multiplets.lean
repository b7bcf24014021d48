import Verif.Spec.Multiplets
import Verif.Props.Subspace
import Verif.Props.Spectrum
import Verif.Props.Symmetric

/-!
# Levels of Hamiltonians that do not depend on the angles (C130)
-/

namespace Acm.Props

open Acm Acm.Spec
open Polynomial

/-- The matrix of a product of radial operators: nothing between different states on the sphere. -/
theorem twin_rad {a : XArgs} (h : LegalRanges a) {env : XEnv} {lam : LambdaFunction} {rs : List RadSym} {M : Arr}
    (hM : RepXspace_Twin env lam rs [] a = .ok M) {i j x y : ℕ} {f g : Label} (hi : a.states[i]? = some f) (hj : a.states[j]? = some g)
    (hx : x < a.rdim) (hy : y < a.rdim) : ∃ l R, lam g.1 = .ok l ∧
      (i = j → RepRadialProd env.la a.anorm rs (a.lambda_base + l) 0 a.nu_min a.nu_max 0 = .ok R ∧
        M.e (i * a.rdim + x) (j * a.rdim + y) = R.e x y) ∧
      (i ≠ j → M.e (i * a.rdim + x) (j * a.rdim + y) = 0) := by
  have hS : RepSO5r3_Prod_wrk env.CG (sphItems []) a.v_min a.v_max a.L_min a.L_max = .ok (Arr.eye a.states.length) := by
    unfold RepSO5r3_Prod_wrk
    rw [if_pos (show (sphItems []).length = 0 from rfl), sphDim_ok h, py_bind_ok, Int.toNat_natCast]
    rfl
  have hSe : ∀ i j, i < a.states.length → j < a.states.length → (Arr.eye a.states.length).e i j = if i = j then 1 else 0 := by
    intro i j hi hj
    simp only [Arr.eye, Arr.of]
    split_ifs <;> first | rfl | (exfalso; omega)
  obtain ⟨_, S, hS', hel⟩ := C28_elements h env lam rs [] (lbsXspace_ok h) (states_ok h) hM
  rw [hS] at hS'
  injection hS' with hS'
  subst hS'
  obtain ⟨i', j', lf, li, k1, k2, k3, k4, k5, k6⟩ := hel (i * a.rdim + x) (j * a.rdim + y) _ _ _ _
    (by rw [getElem?_xlabels a i x hx, hi]; rfl) (by rw [getElem?_xlabels a j y hy, hj]; rfl)
  obtain rfl := states_inj hi k1
  obtain rfl := states_inj hj k2
  rw [hSe i j (List.getElem?_eq_some_iff.1 hi).1 (List.getElem?_eq_some_iff.1 hj).1] at k5 k6
  by_cases hij : i = j
  · subst hij
    rw [hi] at hj
    injection hj with hj
    subst hj
    rw [k3] at k4
    injection k4 with k4
    subst k4
    obtain ⟨R, r1, r2⟩ := k6 (by simp)
    rw [sub_self] at r1
    refine ⟨lf, R, k3, fun _ => ⟨r1, ?_⟩, fun hne => absurd rfl hne⟩
    rw [r2, show (a.nu_min + (x : Int) - a.nu_min).toNat = x by omega, show (a.nu_min + (y : Int) - a.nu_min).toNat = y by omega]
    simp [harmonics]
  · exact ⟨li, ⟨0, 0, fun _ _ => 0⟩, k4, fun he => absurd he hij, fun _ => k5 (if_neg hij)⟩

theorem charpoly_blockDiagonal {n m : ℕ} (A : Fin m → Matrix (Fin n) (Fin n) ℝ) :
    (Matrix.blockDiagonal A).charpoly = ∏ k, (A k).charpoly := by
  unfold Matrix.charpoly
  rw [← Matrix.det_blockDiagonal]
  congr 1
  ext ⟨i, k⟩ ⟨j, l⟩
  simp only [Matrix.charmatrix_apply, Matrix.blockDiagonal_apply, Matrix.diagonal_apply, Prod.mk.injEq]
  by_cases hk : k = l
  · subst hk; simp
  · simp [hk]

theorem gammaFree_tame {op : OperatorSum} (h : GammaFree op) : Op_Tame op = true := by
  rw [C63_tame]
  intro t ht
  obtain ⟨⟨rs, -, e⟩, -⟩ := h t ht
  rw [e]
  simp

theorem prodMat_rads {env : XEnv} {a : XArgs} (h : LegalRanges a) {rs : List RadSym} (hr : RadSym.other ∉ rs) (lam : LambdaFunction) :
    prodMat env a (rs.map .rad) lam = RepXspace_Twin env lam rs [] a := by
  have := prodMat_word (env := env) h hr 0 lam
  rwa [List.replicate_zero, List.append_nil] at this

theorem rad_map_inj {rs qs : List RadSym} (h : rs.map OpSym.rad = qs.map OpSym.rad) : rs = qs :=
  List.map_injective_iff.2 (fun _ _ e => by injection e) h

theorem radialTerms_unique {la : LinAlg} {op : OperatorSum} {c l : ℝ} {n0 n1 : Int} {Ps Qs : List Arr} (hP : RadialTerms la op c l n0 n1 Ps)
    (hQ : RadialTerms la op c l n0 n1 Qs) : Ps = Qs := by
  unfold RadialTerms at hP hQ
  induction hP generalizing Qs with
  | nil => cases hQ; rfl
  | cons h1 _ ih =>
    cases hQ with
    | cons h2 h3 =>
      obtain ⟨rs, e1, k1⟩ := h1
      obtain ⟨qs, e2, k2⟩ := h2
      obtain rfl := rad_map_inj (e1.symm.trans e2)
      rw [k1] at k2
      injection k2 with k2
      rw [k2, ih h3]

/-- The blocks of the matrix of a sum of radial operators. -/
theorem rad_blocks {env : XEnv} {a : XArgs} (h : LegalRanges a) {s : XState} (hs : MemoOk env s) {op : OperatorSum} (hg : GammaFree op)
    {M : Arr} (hM : (RepXspace env op a s).1 = .ok M) {j : ℕ} {g : Label} (hj : a.states[j]? = some g) :
    ∃ Ps, (op = [] ∨ ∃ l, s.lam_fun g.1 = .ok l ∧ RadialTerms env.la op a.anorm (a.lambda_base + l) a.nu_min a.nu_max Ps) ∧
      ∀ i < a.states.length, ∀ x y : Fin a.rdim,
        M.e (i * a.rdim + x) (j * a.rdim + y) = if i = j then radialMat op Ps a.nu_min g.1 a.rdim x y else 0 := by
  have hex := (C30_exists h hs op).1 ⟨M, hM⟩
  have hPs : ∃ Ps, List.Forall₂ (fun t P => (RepXspace_Prod env t.2 a s).1 = .ok P) op Ps := by
    clear hM hg
    induction op with
    | nil => exact ⟨[], .nil⟩
    | cons t ts ih =>
      obtain ⟨P, hP⟩ := hex t List.mem_cons_self
      obtain ⟨Ps, hPs⟩ := ih fun u hu => hex u (List.mem_cons_of_mem _ hu)
      exact ⟨P :: Ps, .cons hP hPs⟩
  obtain ⟨Ps, hPs⟩ := hPs
  obtain ⟨-, hel⟩ := C30_sum h hs hM (lbsXspace_ok h) hPs
  rw [length_xlabels] at hel
  have hr := rdim_pos h
  have hjl := (List.getElem?_eq_some_iff.1 hj).1
  have hone : ∀ t P, t ∈ op → (RepXspace_Prod env t.2 a s).1 = .ok P → ∃ l R rs, s.lam_fun g.1 = .ok l ∧ t.2 = rs.map .rad ∧
      RepRadialProd env.la a.anorm rs (a.lambda_base + l) 0 a.nu_min a.nu_max 0 = .ok R ∧ ∀ i < a.states.length, ∀ x y : Fin a.rdim,
        P.e (i * a.rdim + x) (j * a.rdim + y) = if i = j then R.e x y else 0 := by
    intro t P ht hP
    obtain ⟨⟨rs, ho, e⟩, -⟩ := hg t ht
    rw [prod_eq hs, e, prodMat_rads h ho] at hP
    obtain ⟨l, R, k1, k2, -⟩ := twin_rad h hP hj hj hr hr
    obtain ⟨k2, -⟩ := k2 rfl
    refine ⟨l, R, rs, k1, e, k2, fun i hi x y => ?_⟩
    obtain ⟨l', R', q1, q2, q3⟩ := twin_rad h hP (List.getElem?_eq_getElem hi) hj x.2 y.2
    split_ifs with hij
    · obtain ⟨q2, q4⟩ := q2 hij
      rw [k1] at q1
      injection q1 with q1
      subst q1
      rw [k2] at q2
      injection q2 with q2
      rw [q4, q2]
    · exact q3 hij
  have hall : ∃ Rs, (op = [] ∨ ∃ l, s.lam_fun g.1 = .ok l ∧ RadialTerms env.la op a.anorm (a.lambda_base + l) a.nu_min a.nu_max Rs) ∧
      ∀ i < a.states.length, ∀ x y : Fin a.rdim,
        (List.zipWith (fun t P => t.1 (a.nu_min + (y : ℕ), g) * P.e (i * a.rdim + x) (j * a.rdim + y)) op Ps).sum =
          if i = j then radialMat op Rs a.nu_min g.1 a.rdim x y else 0 := by
    clear hel hM hex
    induction hPs with
    | nil => exact ⟨[], .inl rfl, fun i _ x y => by simp [radialMat]⟩
    | @cons t P ts Ps hP hPs ih =>
      obtain ⟨Rs, k1, k2⟩ := ih (fun u hu => hg u (List.mem_cons_of_mem _ hu)) (fun u Q hu => hone u Q (List.mem_cons_of_mem _ hu))
      obtain ⟨l, R, rs, m1, m2, m3, m4⟩ := hone t P List.mem_cons_self hP
      obtain ⟨-, c, hc⟩ := hg t List.mem_cons_self
      have hRs : ∃ Rs, RadialTerms env.la ts a.anorm (a.lambda_base + l) a.nu_min a.nu_max Rs ∧ ∀ i < a.states.length, ∀ x y : Fin a.rdim,
          (List.zipWith (fun t P => t.1 (a.nu_min + (y : ℕ), g) * P.e (i * a.rdim + x) (j * a.rdim + y)) ts Ps).sum =
          if i = j then radialMat ts Rs a.nu_min g.1 a.rdim x y else 0 := by
        rcases k1 with rfl | ⟨l', n1, n2⟩
        · exact ⟨[], .nil, fun i hi x y => by simp [radialMat]⟩
        · rw [m1] at n1
          injection n1 with n1
          subst n1
          exact ⟨Rs, n2, k2⟩
      obtain ⟨Rs, k1, k2⟩ := hRs
      refine ⟨R :: Rs, .inr ⟨l, m1, .cons ⟨rs, m2, m3⟩ k1⟩, fun i hi x y => ?_⟩
      rw [List.zipWith_cons_cons, List.sum_cons, k2 i hi x y, m4 i hi x y]
      obtain ⟨gv, ga, gL⟩ := g
      split_ifs with hij
      · simp only [radialMat, Matrix.of_apply, List.zipWith_cons_cons, List.sum_cons, hc]
      · simp
  obtain ⟨Rs, k1, k2⟩ := hall
  refine ⟨Rs, k1, fun i hi x y => ?_⟩
  rw [← k2 i hi x y]
  refine hel _ _ _ ?_ ?_
  · show _ < a.states.length * a.rdim
    calc i * a.rdim + x < i * a.rdim + a.rdim := Nat.add_lt_add_left x.2 _
      _ = (i + 1) * a.rdim := by ring
      _ ≤ _ := Nat.mul_le_mul_right _ hi
  · rw [getElem?_xlabels a j y y.2, hj]; rfl

theorem perm_of_prod {es fs : List ℝ} (h : (es.map fun x => X - C x).prod = (fs.map fun x => X - C x).prod) : es.Perm fs := by
  have e : ∀ l : List ℝ, (l.map fun x => X - C x).prod.roots = (l : Multiset ℝ) := fun l => by
    rw [← Multiset.prod_coe, ← Multiset.map_coe, roots_multiset_prod_X_sub_C]
  have := congrArg Polynomial.roots h
  rw [e, e] at this
  exact Multiset.coe_eq_coe.1 this

/-- Eigenvalues of block diagonal matrices. -/
theorem eig_blocks {la : LinAlg} (hla : LinAlgOk la) {n : ℕ} {M : Arr} (fs : List Label) (hsq : Square (fs.length * n) M)
    (N : Int → Matrix (Fin n) (Fin n) ℝ) (hM : ∀ i j : Fin fs.length, ∀ x y : Fin n,
      M.e (i * n + x) (j * n + y) = if i = j then N (fs.get j).1 x y else 0) {v : ℕ → ℝ} {P : Arr} (h : Eigenfiddle la M = .ok (v, P))
    (E : Int → List ℝ) (hE : ∀ v, IsLevels (N v) (E v)) :
    ((List.range M.rows).map v).Perm (fs.flatMap fun f => E f.1) ∧ ((List.range M.rows).map v).Pairwise (· ≤ ·) := by
  have hsort : ∀ i j, i ≤ j → j < fs.length * n → v i ≤ v j := by
    obtain ⟨v', P', e1, _, _, _, _, hsort⟩ := C70_eigen la hla _ M hsq.1 hsq.2.1
    rw [h] at e1
    injection e1 with e1
    injection e1 with e1 _
    subst e1
    exact hsort
  rw [hsq.1]
  constructor
  · apply perm_of_prod
    rw [← eig_charpoly hla hsq.1 hsq.2.1 h]
    let e : Fin n × Fin fs.length ≃ Fin (fs.length * n) := (Equiv.prodComm _ _).trans finProdFinEquiv
    rw [← Matrix.charpoly_reindex e.symm]
    have : Matrix.reindex e.symm e.symm ((1 / 2 : ℝ) • (mat (fs.length * n) M + (mat (fs.length * n) M).transpose)) =
        Matrix.blockDiagonal fun k : Fin fs.length => (1 / 2 : ℝ) • (N (fs.get k).1 + (N (fs.get k).1).transpose) := by
      ext ⟨x, i⟩ ⟨y, j⟩
      have ev : ∀ (x : Fin n) (i : Fin fs.length), ((e (x, i) : Fin (fs.length * n)) : ℕ) = i * n + x := fun x i => by
        show (x : ℕ) + n * (i : ℕ) = _
        ring
      rw [Matrix.blockDiagonal_apply]
      simp only [Matrix.reindex_apply, Matrix.submatrix_apply, Equiv.symm_symm, Matrix.smul_apply, Matrix.add_apply, Matrix.transpose_apply, mat,
        Matrix.of_apply, ev, hM]
      by_cases hij : i = j
      · subst hij; simp
      · simp [hij, Ne.symm hij]
    rw [this, charpoly_blockDiagonal]
    rw [Finset.prod_congr rfl fun k _ => (hE (fs.get k).1).1]
    clear this e hM hsq hsort h
    induction fs with
    | nil => simp
    | cons f fs ih =>
      rw [List.flatMap_cons, List.map_append, List.prod_append, ← ih]
      exact Fin.prod_univ_succ _
  · rw [List.pairwise_map]
    refine List.Pairwise.imp_of_mem ?_ List.pairwise_lt_range
    intro i j _ hj hij
    exact hsort i j hij.le (List.mem_range.1 hj)

/-- C130: let the Hamiltonian be a sum of products of radial operators, with coefficients that depend on `nu` and on the seniority only, and
fix the width of the basis, its base `lambda`, the range of `nu`, and the function that shifts `lambda`.  There is one list of energies for each
seniority, such that in every space, with any range of seniorities and of angular momenta, the levels that `DigXspace` reports for an
angular momentum are these lists, one copy for each state on the sphere with that angular momentum, sorted.  The list for a seniority
contains the eigenvalues of (the symmetric part of) the sum of the radial matrices for that seniority. -/
theorem C130_multiplets {env : XEnv} (hla : LinAlgOk env.la) {ham : OperatorSum} (hg : GammaFree ham) (anorm lambda_base : ℝ)
    (nu_min nu_max : Int) (lam : LambdaFunction) :
    ∃ E : Int → List ℝ, (∀ v, (E v).length = (nu_max - nu_min + 1).toNat) ∧
      (∀ v l Ps, lam v = .ok l → RadialTerms env.la ham anorm (lambda_base + l) nu_min nu_max Ps →
        IsLevels (radialMat ham Ps nu_min v (nu_max - nu_min + 1).toNat) (E v)) ∧
      ∀ (v_min v_max L_min L_max : Int) (s s1 : FState) (r : List LEig), MemoOk env s.xs → s.glb.lam_fun = lam →
        DigXspace env ham ⟨anorm, lambda_base, nu_min, nu_max, v_min, v_max, L_min, L_max⟩ s = (.ok r, s1) →
        ∀ x ∈ r, ∃ states, lbsSO5r3_rngV v_min v_max x.L = .ok states ∧ x.vals.Perm (states.flatMap fun f => E f.1) ∧
          x.vals.Pairwise (· ≤ ·) := by
  classical
  set n := (nu_max - nu_min + 1).toNat with hn
  let Q : Int → List Arr → Prop := fun v Ps => ∃ l, lam v = .ok l ∧ RadialTerms env.la ham anorm (lambda_base + l) nu_min nu_max Ps
  have hQ : ∀ {v Ps Ps'}, Q v Ps → Q v Ps' → Ps = Ps' := by
    rintro v Ps Ps' ⟨l, a1, a2⟩ ⟨l', b1, b2⟩
    rw [a1] at b1
    injection b1 with b1
    subst b1
    exact radialTerms_unique a2 b2
  have hN : ∀ v, ∃ N : Matrix (Fin n) (Fin n) ℝ, (∀ Ps, Q v Ps → N = radialMat ham Ps nu_min v n) ∧ (ham = [] → N = 0) := by
    intro v
    by_cases hq : ∃ Ps, Q v Ps
    · obtain ⟨Ps, hq⟩ := hq
      refine ⟨_, fun Ps' hq' => by rw [hQ hq' hq], fun e => ?_⟩
      rw [e]
      ext i j
      simp [radialMat]
    · exact ⟨0, fun Ps hP => absurd ⟨Ps, hP⟩ hq, fun _ => rfl⟩
  choose N hN using hN
  have hE : ∀ v, ∃ es : List ℝ, es.length = n ∧ IsLevels (N v) es := by
    intro v
    let A : Arr := ⟨n, n, fun i j => if h : i < n ∧ j < n then N v ⟨i, h.1⟩ ⟨j, h.2⟩ else 0⟩
    have hA : mat n A = N v := by
      ext i j
      simp [mat, A]
    obtain ⟨w, P, e1, _, _, _, _, hsort⟩ := C70_eigen env.la hla n A rfl rfl
    refine ⟨(List.range n).map w, by simp, ?_, ?_⟩
    · rw [← hA]; exact eig_charpoly hla rfl rfl e1
    · rw [List.pairwise_map]
      refine List.Pairwise.imp_of_mem ?_ List.pairwise_lt_range
      intro i j _ hj hij
      exact hsort i j hij.le (List.mem_range.1 hj)
  choose E hE using hE
  refine ⟨E, fun v => (hE v).1, fun v l Ps h1 h2 => by rw [← (hN v).1 Ps ⟨l, h1, h2⟩]; exact (hE v).2, ?_⟩
  intro v0 v1 L0 L1 s s1 r hs hlam hr x hx
  set a : XArgs := ⟨anorm, lambda_base, nu_min, nu_max, v0, v1, L0, L1⟩ with ha
  have h : LegalRanges a := by
    by_contra h
    rw [C32_illegal env ham h s] at hr
    cases hr
  obtain ⟨ho, hxs⟩ := C32_partial (gammaFree_tame hg) h hs hr
  have hL := ((ho.2 x.L).1 (List.mem_map_of_mem hx)).1
  obtain ⟨_, M, w, k1, k2, k3⟩ := hxs x hx
  have hle : LegalRanges (a.at x.L) := ⟨h.1, h.2.1, le_trans h.2.2.1 hL.1, le_rfl⟩
  have hsq : Square ((a.at x.L).states.length * n) M := allMat_square hle ((rep_eq hle hs ham).symm.trans k1)
  refine ⟨(a.at x.L).states, ?_, ?_⟩
  · exact lbsSO5r3_rngV_ok h.2.1.1 h.2.1.2 (le_trans h.2.2.1 hL.1)
  · rw [k3]
    refine eig_blocks hla (a.at x.L).states hsq N (fun i j p q => ?_) k2 E fun v => (hE v).2
    obtain ⟨Ps, m1, m2⟩ := rad_blocks hle hs hg k1 (List.getElem?_eq_getElem j.2)
    have := m2 i i.2 p q
    refine this.trans ?_
    by_cases hij : i = j
    · rw [if_pos (congrArg Fin.val hij), if_pos hij]
      rcases m1 with m1 | ⟨l, q1, q2⟩
      · rw [(hN _).2 m1]
        subst m1
        exact List.sum_nil
      · rw [List.get_eq_getElem, (hN _).1 Ps ⟨l, by rw [← hlam]; exact q1, q2⟩]
        rfl
    · rw [if_neg fun e => hij (Fin.ext e), if_neg hij]

/-- C130 applies to `ACM_Hamiltonian` when all of its coefficients for terms with `cos(3 gamma)` and for `[pi x q x pi]` are zero and the others
are numbers: the coefficient of its centrifugal term depends on the seniority. -/
theorem C130_acm (c11 c20 c21 c22 c23 : ℝ) :
    GammaFree (ACM_Hamiltonian (c11 := kC c11) (c20 := kC c20) (c21 := kC c21) (c22 := kC c22) (c23 := kC c23)) := by
  let G : Coeff × OperatorProduct → Prop := fun t =>
    (∃ rs : List RadSym, RadSym.other ∉ rs ∧ t.2 = rs.map .rad) ∧ ∃ c : Int → Int → ℝ, ∀ nu v al L, t.1 (nu, v, al, L) = c nu v
  show ∀ t ∈ _, G t
  have hw : ∀ (c : Coeff) (rs : List RadSym), RadSym.other ∉ rs → (∃ d : Int → Int → ℝ, ∀ nu v al L, c (nu, v, al, L) = d nu v) →
      G (c, rs.map .rad) := fun c rs h1 h2 => ⟨⟨rs, h1, rfl⟩, h2⟩
  have hk : ∀ c : ℝ, ∃ d : Int → Int → ℝ, ∀ nu v al L, kC c (nu, v, al, L) = d nu v := fun c => ⟨fun _ _ => c, fun _ _ _ _ => rfl⟩
  unfold ACM_Hamiltonian
  simp only [zero_mul]
  repeat' first
    | (refine mem_addTerm (P := G) (fun h => absurd rfl h) ?_)
    | (refine mem_addTerm (P := G) (fun _ => hw _ [] (by simp) (hk _)) ?_)
    | (refine mem_addTerm (P := G) (fun _ => hw _ [.b2] (by simp) (hk _)) ?_)
    | (refine mem_addTerm (P := G) (fun _ => hw _ [.b2, .b2] (by simp) (hk _)) ?_)
    | (refine mem_addTerm (P := G) (fun _ => hw _ [.bm2] (by simp) (hk _)) ?_)
  split_ifs
  · simp
  · intro t ht
    rw [List.mem_cons, List.mem_singleton] at ht
    rcases ht with rfl | rfl
    · exact hw _ [.D2b] (by simp) (hk _)
    · exact hw _ [.bm2] (by simp) ⟨fun _ v => -c11 * (2 + v * (v + 3)), fun nu v al L => by simp [kC, SENIORITY]⟩

/-- The hypotheses of C130 are met: the harmonic oscillator on the states of seniority up to 3 and angular momentum up to 4 has levels. -/
example {la : LinAlg} (hla : LinAlgOk la) (CG : CGFun) : ∃ (ham : OperatorSum) (s s1 : FState) (r : List LEig), GammaFree ham ∧
    MemoOk ⟨CG, la⟩ s.xs ∧ DigXspace ⟨CG, la⟩ ham ⟨1, 5 / 2, 0, 2, 0, 3, 0, 4⟩ s = (.ok r, s1) ∧ r.map LEig.L = [0, 2, 3, 4] := by
  let s : FState := ⟨{ Glb.init with lam_fun := lambda_sho_fun }, fun _ => none, fun _ _ => none, fun _ => none, []⟩
  have hs : MemoOk ⟨CG, la⟩ s.xs := memoOk_start _ lambda_sho_fun
  have h : LegalRanges ⟨1, 5 / 2, 0, 2, 0, 3, 0, 4⟩ := by simp [LegalRanges]
  obtain ⟨r, s1, hr, ho, -⟩ := C95_oscillator h (env := ⟨CG, la⟩) hla one_pos rfl hs rfl
  refine ⟨_, s, s1, r, ?_, hs, hr, ?_⟩
  · have := C130_acm (-1 / 2) 0 (1 ^ 4 / 2) 0 0
    have e : kC 0 = 0 := rfl
    rwa [e] at this
  · rw [occupied_eq h ho]
    decide +kernel

end Acm.Props
