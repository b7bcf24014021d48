import Verif.Props.FullSum
import Verif.Props.RadialElement
import Verif.Props.Scale
import Mathlib.LinearAlgebra.Matrix.Charpoly.Basic

/-!
# Lemmas for Hamiltonians that only contain radial operators
-/

namespace Acm.Props

open Acm Acm.Spec

theorem states_nodup (a : XArgs) : a.states.Nodup := labelsV_nodup _ _ _ _

theorem states_inj {a : XArgs} {i j : ℕ} {s : Label} (hi : a.states[i]? = some s) (hj : a.states[j]? = some s) :
    i = j :=
  (List.getElem?_inj (List.getElem?_eq_some_iff.1 hi).1 (states_nodup a)).1 (hi.trans hj.symm)

theorem state_v {a : XArgs} {s : Label} (h : s ∈ a.states) : a.v_min ≤ s.1 ∧ s.1 ≤ a.v_max := by
  obtain ⟨v, b, K⟩ := s
  have := (mem_labelsV.1 h).1
  exact ⟨this.1, this.2⟩

/-- The matrix of a product of radial operators that do not change `lambda`. -/
theorem twin_diag {a : XArgs} (h : LegalRanges a) {env : XEnv} (hla : LinAlgOk env.la) (ha : a.anorm ≠ 0)
    {lam : LambdaFunction} {rs : List RadSym} {ls : Int → Int} (hl : ∀ v, a.v_min ≤ v → v ≤ a.v_max → lam v = .ok (ls v))
    {G : Int → Int → Int → ℝ}
    (hrad : ∀ v, a.v_min ≤ v → v ≤ a.v_max → ∃ y, RepRadialProd env.la a.anorm rs (a.lambda_base + ls v) 0
      a.nu_min a.nu_max 0 = .ok y ∧ ∀ f i : Int, (a.nu_min ≤ f ∧ f ≤ a.nu_max) → (a.nu_min ≤ i ∧ i ≤ a.nu_max) →
        y.e (f - a.nu_min).toNat (i - a.nu_min).toNat = G v f i) :
    ∃ M, RepXspace_Twin env lam rs [] a = .ok M ∧ ∀ p q x y, a.xlabels[p]? = some x → a.xlabels[q]? = some y →
      M.e p q = if x.2 = y.2 then G y.2.1 x.1 y.1 else 0 := by
  have hS : RepSO5r3_Prod_wrk env.CG (sphItems []) a.v_min a.v_max a.L_min a.L_max
      = .ok (Arr.eye a.states.length) := by
    unfold RepSO5r3_Prod_wrk
    rw [if_pos (show (sphItems []).length = 0 from rfl), sphDim_ok h, py_bind_ok, Int.toNat_natCast]
    rfl
  have hSe : ∀ i j, i < a.states.length → j < a.states.length →
      (Arr.eye a.states.length).e i j = if i = j then 1 else 0 := by
    intro i j hi hj
    simp only [Arr.eye, Arr.of]
    split_ifs <;> first | rfl | (exfalso; omega)
  obtain ⟨M, hM⟩ := C28_exists h env hla ha lam rs [] (states_ok h) hS (fun s => ls s.1)
    (fun s hs => hl _ (state_v hs).1 (state_v hs).2) (by
      intro i j f k hi hj hne
      have hi' := (List.getElem?_eq_some_iff.1 hi).1
      have hj' := (List.getElem?_eq_some_iff.1 hj).1
      have hij : i = j := by
        by_contra hh
        rw [hSe i j hi' hj', if_neg hh] at hne
        exact hne rfl
      subst hij
      rw [hi] at hj
      injection hj with hj
      subst hj
      obtain ⟨y, hy, _⟩ := hrad f.1 (state_v (List.mem_of_getElem? hi)).1 (state_v (List.mem_of_getElem? hi)).2
      exact ⟨y, by rw [sub_self]; exact hy⟩)
  refine ⟨M, hM, ?_⟩
  obtain ⟨_, S, hS', hel⟩ := C28_elements h env lam rs [] (lbsXspace_ok h) (states_ok h) hM
  rw [hS] at hS'
  injection hS' with hS'
  subst hS'
  rintro p q ⟨nf, sf⟩ ⟨ni, si⟩ hp hq
  obtain ⟨i, j, lf, li, hi, hj, k1, k2, k3, k4⟩ := hel p q nf ni sf si hp hq
  have hi' := (List.getElem?_eq_some_iff.1 hi).1
  have hj' := (List.getElem?_eq_some_iff.1 hj).1
  rw [hSe i j hi' hj'] at k3 k4
  show _ = if sf = si then _ else _
  by_cases hss : sf = si
  · subst hss
    obtain rfl := states_inj hi hj
    rw [if_pos rfl] at k3 k4
    obtain ⟨R, hR, k4⟩ := k4 one_ne_zero
    have hv := state_v (List.mem_of_getElem? hi)
    have : lf = ls sf.1 ∧ li = ls sf.1 := by
      have := hl _ hv.1 hv.2
      rw [this] at k1 k2
      injection k1 with k1
      injection k2 with k2
      exact ⟨k1.symm, k2.symm⟩
    obtain ⟨rfl, rfl⟩ := this
    obtain ⟨y, hy, hye⟩ := hrad _ hv.1 hv.2
    rw [sub_self, hy] at hR
    injection hR with hR
    subst hR
    obtain ⟨_, x1, _, hx1, _, hn1⟩ := xlabels_split hp
    obtain ⟨_, x2, _, hx2, _, hn2⟩ := xlabels_split hq
    unfold XArgs.rdim at hx1 hx2
    rw [if_pos rfl, k4, hye nf ni (by omega) (by omega)]
    simp [harmonics]
  · rw [if_neg hss]
    refine k3 (if_neg fun hh => hss ?_)
    subst hh
    rw [hi] at hj
    injection hj

/-- The matrix of a single radial operator that does not change `lambda`. -/
theorem twin_radial {a : XArgs} (h : LegalRanges a) {env : XEnv} (hla : LinAlgOk env.la) (ha : a.anorm ≠ 0)
    {lam : LambdaFunction} {r : RadSym} {prim : Prim} (hc : closedForm (some r) 0 = some prim) {ls : Int → Int}
    (hl : ∀ v, a.v_min ≤ v → v ≤ a.v_max → lam v = .ok (ls v))
    (hpos : ∀ v, a.v_min ≤ v → v ≤ a.v_max → 0 < a.lambda_base + ls v)
    (hs : ∀ v, a.v_min ≤ v → v ≤ a.v_max → ¬ Singular (some r) (a.lambda_base + ls v)) {g : ℝ → ℕ → ℕ → ℝ}
    (hg : ∀ v, a.v_min ≤ v → v ≤ a.v_max → Entries (primME prim (a.lambda_base + ls v)) (g (a.lambda_base + ls v))) :
    ∃ M, RepXspace_Twin env lam [r] [] a = .ok M ∧ ∀ p q x y, a.xlabels[p]? = some x → a.xlabels[q]? = some y →
      M.e p q = if x.2 = y.2 then a.anorm ^ symExpo r * g (a.lambda_base + ls y.2.1) x.1.toNat y.1.toNat else 0 := by
  obtain ⟨n0, e0⟩ := Int.eq_ofNat_of_zero_le h.1.1
  obtain ⟨n1, e1⟩ := Int.eq_ofNat_of_zero_le (h.1.1.trans h.1.2)
  have hle := h.1.2
  have hrad : ∀ v, a.v_min ≤ v → v ≤ a.v_max → ∃ y, RepRadialProd env.la a.anorm [r] (a.lambda_base + ls v) 0
      a.nu_min a.nu_max 0 = .ok y ∧ ∀ f i : Int, (a.nu_min ≤ f ∧ f ≤ a.nu_max) → (a.nu_min ≤ i ∧ i ≤ a.nu_max) →
        y.e (f - a.nu_min).toNat (i - a.nu_min).toNat = a.anorm ^ symExpo r * g (a.lambda_base + ls v) f.toNat i.toNat := by
    intro v h1 h2
    obtain ⟨y, y1, y2⟩ := C79_agrees env.la hla a.anorm ha (some r) 0 prim hc _ (hpos v h1 h2)
      (by simpa using hpos v h1 h2) (hs v h1 h2) n0 n1 0 (by omega)
    refine ⟨y, by rw [e0, e1]; exact y1, fun f i hf hi => ?_⟩
    have := y2 f.toNat (Finset.mem_Icc.2 (by omega)) i.toNat (Finset.mem_Icc.2 (by omega))
    rw [element_direct (hpos v h1 h2) hc, hg v h1 h2, py_bind_ok, py_pure] at this
    injection this with this
    rw [show (f - a.nu_min).toNat = f.toNat - n0 by omega, show (i - a.nu_min).toNat = i.toNat - n0 by omega, ← this]
    simp [opList]
  exact twin_diag h hla ha hl hrad

/-- A product of banded operators is the product of the truncated matrices. -/
theorem banded_window (la : LinAlg) (hla : LinAlgOk la) {anorm : ℝ} (ha : anorm ≠ 0) {ops : List RadSym} {lam : ℝ}
    (hlam : 0 < lam) {nu_min nu_max nu_lap : ℕ} (hr : nu_min ≤ nu_max + 1) {fs : List (ℕ → ℕ → ℝ)}
    (hfs : List.Forall₂ (fun s f => ∃ m, bandedME s = some m ∧ Entries (m.fn lam) f) ops fs) :
    ∃ y, RepRadialProd la anorm ops lam 0 nu_min nu_max nu_lap = .ok y ∧ Square (nu_max + 1 - nu_min) y ∧
      ∀ i < nu_max + 1 - nu_min, ∀ j < nu_max + 1 - nu_min, y.e i j = anorm ^ (ops.map symExpo).sum *
        windowProd (nu_min - nu_lap) (nu_max + nu_lap) fs (nu_min + i) (nu_min + j) := by
  have hsome : ∀ s ∈ ops, (bandedME s).isSome := by
    intro s hs
    obtain ⟨i, hi, rfl⟩ := List.getElem_of_mem hs
    obtain ⟨m, hm, _⟩ := hfs.get hi (by rw [← hfs.length_eq]; exact hi)
    simp only [List.get_eq_getElem] at hm
    rw [hm]; rfl
  have hrep : ∀ m ∈ [RadME.Sm, .S0, .Sp, .b2, .bDb],
      ∃ y, (radMat la anorm ((nu_min - nu_lap : ℕ) : Int) ((nu_max + nu_lap : ℕ) : Int)).rep m lam = .ok y := by
    intro m hm
    have : ∃ s, bandedME s = some m := by
      simp only [List.mem_cons, List.not_mem_nil, or_false] at hm
      rcases hm with rfl | rfl | rfl | rfl | rfl
      · exact ⟨.Sm, rfl⟩
      · exact ⟨.S0, rfl⟩
      · exact ⟨.Sp, rfl⟩
      · exact ⟨.b2, rfl⟩
      · exact ⟨.bDb, rfl⟩
    obtain ⟨s, hs⟩ := this
    obtain ⟨f, hf, _⟩ := banded_entries hlam hs
    exact ⟨_, ofM_eq fun i _ j _ => hf _ _⟩
  obtain ⟨kops, z, e1, e2, e3⟩ := prod_even _ hlam hrep ops hsome
  obtain ⟨y, gs, y1, y2, y3, y4⟩ := prod_window hla ha hlam (v := 0) (by simpa using hlam) hr e1 e2 e3
  refine ⟨y, y1, y2, fun i hi j hj => ?_⟩
  rw [y4 i hi j hj]
  congr 1
  refine windowProd_congr y3 (forall₂_filterMap hfs) _ ?_ _ ?_ <;> rw [Finset.mem_Icc] <;> omega

theorem prodMat_rad {env : XEnv} {a : XArgs} (h : LegalRanges a) {r : RadSym} (hr : (OpSym.rad r).radial? = some r)
    (lam : LambdaFunction) : prodMat env a [.rad r] lam = RepXspace_Twin env lam [r] [] a := by
  unfold prodMat
  rw [check_ok h, py_bind_ok]
  have : segsOf [.rad r] [] [] = [.twin [r] []] := by simp [segsOf, hr]
  rw [this]
  simp only [segMat, segsMat]
  cases RepXspace_Twin env lam [r] [] a <;> rfl

theorem prodMat_empty {env : XEnv} {a : XArgs} (h : LegalRanges a) (lam : LambdaFunction) :
    prodMat env a [] lam = RepXspace_Twin env lam [] [] a := by
  unfold prodMat
  rw [check_ok h, py_bind_ok, show segsOf [] [] [] = [.twin [] []] from rfl]
  simp only [segMat, segsMat]
  cases RepXspace_Twin env lam [] [] a <;> rfl

/-- The matrix of a sum of products whose matrices are known. -/
theorem rep_sum {env : XEnv} {a : XArgs} (h : LegalRanges a) {lam : LambdaFunction} {ts : OperatorSum}
    {f : OperatorProduct → ℕ → ℕ → ℝ} (hf : ∀ t ∈ ts, ∃ P, prodMat env a t.2 lam = .ok P ∧
      ∀ p q, p < a.dim → q < a.dim → P.e p q = f t.2 p q) :
    ∃ M, allMat env a ts lam = .ok M ∧ Square a.dim M ∧ ∀ p q x, p < a.dim → a.xlabels[q]? = some x →
      M.e p q = (ts.map fun t => t.1 x * f t.2 p q).sum := by
  have hs := memoOk_start env lam
  have hex : ∃ M, (RepXspace env ts a (XState.start lam)).1 = .ok M := by
    refine (C30_exists h hs ts).2 fun t ht => ?_
    obtain ⟨P, hP, _⟩ := hf t ht
    exact ⟨P, by rw [prod_eq hs]; exact hP⟩
  obtain ⟨M, hM⟩ := hex
  have : ∃ Ps, List.Forall₂ (fun t P => (RepXspace_Prod env t.2 a (XState.start lam)).1 = .ok P) ts Ps ∧
      ∀ p q x, p < a.dim → q < a.dim → (List.zipWith (fun t P => t.1 x * P.e p q) ts Ps).sum
        = (ts.map fun t => t.1 x * f t.2 p q).sum := by
    clear hM
    induction ts with
    | nil => exact ⟨[], .nil, fun _ _ _ _ _ => rfl⟩
    | cons t ts ih =>
      obtain ⟨Ps, h1, h2⟩ := ih fun u hu => hf u (List.mem_cons_of_mem _ hu)
      obtain ⟨P, hP, hPe⟩ := hf t List.mem_cons_self
      refine ⟨P :: Ps, .cons (by rw [prod_eq hs]; exact hP) h1, fun p q x hp hq => ?_⟩
      rw [List.zipWith_cons_cons, List.sum_cons, h2 p q x hp hq, hPe p q hp hq, List.map_cons, List.sum_cons]
  obtain ⟨Ps, h1, h2⟩ := this
  obtain ⟨h3, h4⟩ := C30_sum h hs hM (lbsXspace_ok h) h1
  rw [length_xlabels] at h3 h4
  refine ⟨M, by rw [rep_eq h hs] at hM; exact hM, h3, fun p q x hp hq => ?_⟩
  have hq' : q < a.dim := by rw [← length_xlabels]; exact (List.getElem?_eq_some_iff.1 hq).1
  rw [h4 p q x hp hq, h2 p q x hp hq']

open Polynomial in
theorem prod_roots (n : ℕ) (w : ℕ → ℝ) :
    (∏ i : Fin n, (X - C (w i))).roots = (((List.range n).map w : List ℝ) : Multiset ℝ) := by
  have : (∏ i : Fin n, (X - C (w i))) = ((((List.range n).map w : List ℝ) : Multiset ℝ).map fun a => X - C a).prod := by
    rw [Fin.prod_univ_eq_prod_range (fun i => X - C (w i)) n, Multiset.map_coe, Multiset.prod_coe, List.map_map]
    rfl
  rw [this, roots_multiset_prod_X_sub_C]

/-- Orthogonal transformations do not change the spectrum. -/
theorem diag_perm {n : ℕ} {Q : Matrix (Fin n) (Fin n) ℝ} {v d : ℕ → ℝ} (ho : Q.transpose * Q = 1)
    (he : Q.transpose * Matrix.diagonal (fun i : Fin n => d i) * Q = Matrix.diagonal fun i : Fin n => v i) :
    ((List.range n).map v).Perm ((List.range n).map d) := by
  let U : (Matrix (Fin n) (Fin n) ℝ)ˣ := ⟨Q, Q.transpose, mul_eq_one_comm.1 ho, ho⟩
  have hU : Q⁻¹ = Q.transpose := Matrix.inv_eq_left_inv ho
  have hch := Matrix.charpoly_units_conj' U (Matrix.diagonal fun i : Fin n => d i)
  rw [show (↑U : Matrix (Fin n) (Fin n) ℝ) = Q from rfl, hU, he, Matrix.charpoly_diagonal, Matrix.charpoly_diagonal] at hch
  have := congrArg Polynomial.roots hch
  rw [prod_roots, prod_roots] at this
  exact Multiset.coe_eq_coe.1 this

/-- The eigenvalues of a diagonal matrix are its diagonal elements, with multiplicities. -/
theorem eig_diag {la : LinAlg} (hla : LinAlgOk la) {n : ℕ} {A : Arr} {d : ℕ → ℝ} (h1 : A.rows = n) (h2 : A.cols = n)
    (hd : ∀ p q, p < n → q < n → A.e p q = if p = q then d p else 0) {v : ℕ → ℝ} {P : Arr}
    (h : Eigenfiddle la A = .ok (v, P)) :
    ((List.range n).map v).Perm ((List.range n).map d) ∧ ((List.range n).map v).Pairwise (· ≤ ·) := by
  obtain ⟨v', P', e1, _, _, ho, he, hs⟩ := C70_eigen la hla n A h1 h2
  rw [h] at e1
  injection e1 with e1
  injection e1 with e1 e3
  subst e1 e3
  constructor
  · have hA : mat n A = Matrix.diagonal fun i : Fin n => d i := by
      ext i j
      rw [mat, Matrix.of_apply, hd _ _ i.2 j.2, Matrix.diagonal_apply]
      simp only [Fin.ext_iff]
    rw [hA, Matrix.diagonal_transpose, ← two_smul ℝ (Matrix.diagonal fun i : Fin n => d i), smul_smul,
      show (1 / 2 : ℝ) * 2 = 1 by norm_num, one_smul] at he
    exact diag_perm ho he
  · rw [List.pairwise_map]
    refine List.Pairwise.imp_of_mem ?_ (List.pairwise_lt_range (n := n))
    intro i j _ hj hij
    exact hs i j hij.le (List.mem_range.1 hj)

end Acm.Props
