import Verif.Props.Symmetric
import Verif.Props.Routine
import Verif.Props.Lambda
import Verif.Spec.Balance

/-!
# C106: transitions in the two directions
-/

namespace Acm.Props

open Acm.Spec

theorem prodMat_one {env : XEnv} {a : XArgs} (h : LegalRanges a) {rs : List RadSym} (hr : RadSym.other ∉ rs) (y : SpHarm)
    (lam : LambdaFunction) :
    prodMat env a (rs.map .rad ++ [.harm y]) lam = RepXspace_Twin env lam rs [.harm y] a := by
  have hrad : ∀ (rs qs : List RadSym), RadSym.other ∉ rs →
      segsOf (rs.map .rad ++ [.harm y]) qs [] = [.twin (qs ++ rs) [.harm y]] := by
    intro rs
    induction rs with
    | nil => intro qs _; simp [segsOf, OpSym.radial?, OpSym.isSpherical]
    | cons r rs ih =>
      intro qs hr
      have : (OpSym.rad r).radial? = some r := by cases r <;> first | rfl | simp at hr
      simp only [List.map_cons, List.cons_append, segsOf, this]
      rw [ih _ (by simp_all)]
      simp
  unfold prodMat
  rw [check_ok h, py_bind_ok, hrad rs [] hr]
  simp only [List.nil_append, segMat, segsMat]
  cases RepXspace_Twin env lam rs [.harm y] a <;> rfl

theorem table_nat (y : SpHarm) : ∃ v al L : ℕ, y.table = ((v : Int), (al : Int), (L : Int)) ∧ 1 ≤ al := by
  cases y <;> exact ⟨_, _, _, rfl, by decide⟩

theorem sph_one {CG : CGFun} {y : SpHarm} {a : XArgs} {S : Arr}
    (h : RepSO5r3_Prod_wrk CG (sphItems [.harm y]) a.v_min a.v_max a.L_min a.L_max = .ok S) :
    RepSO5_Y_rem CG y.table a.v_min a.v_max a.L_min a.L_max = .ok S := by
  unfold RepSO5r3_Prod_wrk at h
  rw [if_neg (by simp [sphItems])] at h
  obtain ⟨r, hr, h⟩ := py_bind_eq_ok h
  cases r with
  | none => cases h
  | some P =>
    injection h with h
    subst h
    simp only [sphItems, List.map_cons, List.map_nil, RepSO5r3_loop, RepSO5r3_item] at hr
    obtain ⟨M, hM, hr⟩ := py_bind_eq_ok hr
    rw [hM]
    injection hr with hr
    injection hr with hr
    rw [hr]

theorem sph_couple {CG : CGFun} {a : XArgs} (ha : LegalRanges a) {y : SpHarm} {S : Arr}
    (h : RepSO5_Y_rem CG y.table a.v_min a.v_max a.L_min a.L_max = .ok S) {i j : ℕ} {f k : Label}
    (hi : a.states[i]? = some f) (hj : a.states[j]? = some k) (h0 : S.e i j ≠ 0) :
    |f.1 - k.1| ≤ y.table.1 ∧ (f.1 - k.1 - y.table.1) % 2 = 0 := by
  obtain ⟨c, r, _, hr, e⟩ := C72_entries (states_ok ha) h i j f k hi hj
  obtain ⟨v1, _, _, rfl, _⟩ := state_nat ha (List.mem_of_getElem? hi)
  obtain ⟨v3, _, _, rfl, _⟩ := state_nat ha (List.mem_of_getElem? hj)
  obtain ⟨v2, _, _, e2, _⟩ := table_nat y
  rw [e2] at hr ⊢
  obtain ⟨m, hm, _, hz⟩ := C65_selection v1 v2 v3
  simp only at hr ⊢
  rw [hm] at hr
  injection hr with hr
  subst hr
  by_contra hc
  refine h0 ?_
  rw [e, hz ?_, mul_zero]
  intro hh
  refine hc ⟨abs_le.2 ⟨by omega, by omega⟩, by omega⟩

theorem reciprocal_symm {l Lf Li : Int} {x x' : ℝ} (h : Reciprocal l Lf Li x x') : Reciprocal l Li Lf x' x := by
  unfold Reciprocal at *
  have e : ((-1 : ℝ)) ^ (Li + l - Lf) * (-1) ^ (Lf + l - Li) = 1 := by
    rw [← zpow_add₀ (by norm_num), show Li + l - Lf + (Lf + l - Li) = 2 * l by ring, zpow_mul]
    norm_num
  rw [h, ← mul_assoc, e, one_mul]

theorem reciprocal_zero {l Lf Li : Int} (hf : 0 ≤ Lf) {x x' : ℝ} (h : Reciprocal l Lf Li x x') (h0 : x' = 0) : x = 0 := by
  unfold Reciprocal at h
  rw [h0, zero_mul, mul_zero] at h
  have : 0 < Real.sqrt (2 * (Lf : ℝ) + 1) := Real.sqrt_pos.2 (by have : (0 : ℝ) ≤ Lf := by exact_mod_cast hf
                                                                 linarith)
  exact (mul_eq_zero.1 h).resolve_right this.ne'

theorem sign_parity {l l' x : Int} (h : (l - l') % 2 = 0) : ((-1 : ℝ)) ^ (x + l) = (-1) ^ (x + l') := by
  obtain ⟨k, hk⟩ : ∃ k, l = l' + 2 * k := ⟨(l - l') / 2, by omega⟩
  rw [hk, ← add_assoc, zpow_add₀ (by norm_num), zpow_mul]
  norm_num

/-- C106: the matrix of such an operator, with the coefficients from any files, is reciprocal. -/
theorem C106_matrix {a : XArgs} (ha : LegalRanges a) (hn : a.anorm ≠ 0) (fs : FileSys) (dir : Option (List Char)) {la : LinAlg}
    (hla : LinAlgOk la) {op : OperatorSum} {s : XState} (hs : MemoOk ⟨fileCG fs dir, la⟩ s) {ls : Int → Int}
    (hl : ∀ v, a.v_min ≤ v → v ≤ a.v_max → s.lam_fun v = .ok (ls v))
    (hpos : ∀ v, a.v_min ≤ v → v ≤ a.v_max → 0 < a.lambda_base + ls v) {l : Int} (hop : OddTensor a.lambda_base ls a l op) {M : Arr}
    (hM : (RepXspace ⟨fileCG fs dir, la⟩ op a s).1 = .ok M) {xs : List XspaceLabel}
    (hx : lbsXspace a.nu_min a.nu_max a.v_min a.v_max a.L_min (some a.L_max) = .ok xs) {p q : ℕ} {x y : XspaceLabel}
    (hp : xs[p]? = some x) (hq : xs[q]? = some y) : Reciprocal l x.2.2.2 y.2.2.2 (M.e p q) (M.e q p) := by
  rw [lbsXspace_ok ha] at hx
  injection hx with hx
  subst hx
  set env : XEnv := ⟨fileCG fs dir, la⟩ with henv
  rw [rep_eq ha hs] at hM
  let F : OperatorProduct → ℕ → ℕ → ℝ := fun w p q => match prodMat env a w s.lam_fun with | .ok P => P.e p q | .error _ => 0
  have hex : ∀ t ∈ op, ∃ P, prodMat env a t.2 s.lam_fun = .ok P := by
    have := (C30_exists ha hs op).1 ⟨M, by rw [rep_eq ha hs]; exact hM⟩
    intro t ht
    obtain ⟨P, hP⟩ := this t ht
    exact ⟨P, by rw [prod_eq hs] at hP; exact hP⟩
  obtain ⟨M', h1, _, h2⟩ := rep_sum (f := F) ha (ts := op) (env := env) (lam := s.lam_fun) fun t ht => by
    obtain ⟨P, hP⟩ := hex t ht
    exact ⟨P, hP, fun p q _ _ => by simp only [F, hP]⟩
  rw [hM] at h1
  injection h1 with h1
  subst h1
  have hpd : p < a.dim := by rw [← length_xlabels]; exact (List.getElem?_eq_some_iff.1 hp).1
  have hqd : q < a.dim := by rw [← length_xlabels]; exact (List.getElem?_eq_some_iff.1 hq).1
  unfold Reciprocal
  rw [h2 p q _ hpd hq, h2 q p _ hqd hp, ← List.sum_map_mul_right, ← List.sum_map_mul_right, ← List.sum_map_mul_left]
  congr 1
  refine List.map_congr_left fun t ht => ?_
  obtain ⟨P, hP⟩ := hex t ht
  obtain ⟨c, rs, z, rfl, hother, hodd, hev, hg⟩ := hop t ht
  simp only at hP
  simp only [F, hP]
  rw [prodMat_one ha hother] at hP
  suffices h : Reciprocal l x.2.2.2 y.2.2.2 (P.e p q) (P.e q p) by
    unfold Reciprocal at h
    linear_combination c * h
  obtain ⟨_, S, hS, hel⟩ := C28_elements ha _ _ _ _ (lbsXspace_ok ha) (states_ok ha) hP
  replace hS := sph_one hS
  obtain ⟨nf, f⟩ := x
  obtain ⟨ni, k⟩ := y
  obtain ⟨i, j, lf, li, hi, hj, k1, k2, k3, k4⟩ := hel p q nf ni f k hp hq
  obtain ⟨j', i', li', lf', hj', hi', k2', k1', k3', k4'⟩ := hel q p ni nf k f hq hp
  obtain rfl := states_inj hi hi'
  obtain rfl := states_inj hj hj'
  have hvf := state_v (List.mem_of_getElem? hi)
  have hvk := state_v (List.mem_of_getElem? hj)
  have hST : Reciprocal l f.2.2 k.2.2 (S.e i j) (S.e j i) := by
    by_cases hv : f.1 = k.1
    · have z1 : S.e i j = 0 := by
        by_contra hh
        have := sph_couple ha hS hi hj hh
        omega
      have z2 : S.e j i = 0 := by
        by_contra hh
        have := sph_couple ha hS hj hi hh
        omega
      unfold Reciprocal
      rw [z1, z2]
      ring
    · obtain ⟨v1, a1, L1, rfl, _⟩ := state_nat ha (List.mem_of_getElem? hi)
      obtain ⟨v3, a3, L3, rfl, _⟩ := state_nat ha (List.mem_of_getElem? hj)
      obtain ⟨v2, a2, L2, e2, ha2⟩ := table_nat z
      rw [e2] at hS hev
      have := C97_harmonic ha fs dir ha2 hS hi hj (fun hh => hv (by rw [hh]))
      unfold Reciprocal
      have e : ((-1 : ℝ)) ^ ((L1 : ℤ) + L2 - L3) = (-1) ^ ((L1 : ℤ) + l - L3) := by
        have := sign_parity (x := (L1 : ℤ) - L3) (l := L2) (l' := l) hev
        rw [show (L1 : ℤ) + L2 - L3 = L1 - L3 + L2 by ring, this]
        congr 1
        ring
      rw [e] at this
      push_cast
      exact this
  obtain ⟨_, _, Lf, ef, _⟩ := state_nat ha (List.mem_of_getElem? hi)
  obtain ⟨_, _, Lk, ek, _⟩ := state_nat ha (List.mem_of_getElem? hj)
  have hfn : 0 ≤ f.2.2 := by rw [ef]; exact Int.natCast_nonneg _
  have hkn : 0 ≤ k.2.2 := by rw [ek]; exact Int.natCast_nonneg _
  by_cases h0 : S.e i j = 0
  · have h0' := reciprocal_zero hkn (reciprocal_symm hST) h0
    unfold Reciprocal
    rw [k3 h0, k3' h0']
    ring
  · have h0' : S.e j i ≠ 0 := fun hh => h0 (reciprocal_zero hfn hST hh)
    obtain ⟨R, hR, q4⟩ := k4 h0
    obtain ⟨R', hR', q4'⟩ := k4' h0'
    have el : lf = ls f.1 ∧ li = ls k.1 ∧ lf' = ls f.1 ∧ li' = ls k.1 := by
      have t1 := hl _ hvf.1 hvf.2
      have t2 := hl _ hvk.1 hvk.2
      rw [t1] at k1 k1'
      rw [t2] at k2 k2'
      injection k1 with k1; injection k1' with k1'; injection k2 with k2; injection k2' with k2'
      exact ⟨k1.symm, k2.symm, k1'.symm, k2'.symm⟩
    obtain ⟨rfl, rfl, rfl, rfl⟩ := el
    have c1 := sph_couple ha hS hi hj h0
    have c2 := sph_couple ha hS hj hi h0'
    have g1 := hg k.1 f.1 hvk.1 hvk.2 hvf.1 hvf.2 c1.1 (by omega)
    have g2 := hg f.1 k.1 hvf.1 hvf.2 hvk.1 hvk.2 c2.1 (by omega)
    obtain ⟨_, x1, _, hx1, _, hn1⟩ := xlabels_split hp
    obtain ⟨_, x2, _, hx2, _, hn2⟩ := xlabels_split hq
    unfold XArgs.rdim at hx1 hx2
    have l1 := ha.1
    obtain ⟨n0, en0⟩ := Int.eq_ofNat_of_zero_le l1.1
    obtain ⟨n1, en1⟩ := Int.eq_ofNat_of_zero_le (l1.1.trans l1.2)
    rw [en0, en1] at hR hR'
    have hsy := good_symm hla hn (hpos _ hvk.1 hvk.2) (hpos _ hvf.1 hvf.2) g1 g2 (n0 := n0) (n1 := n1) (by omega) hR hR'
      nf.toNat (Finset.mem_Icc.2 (by omega)) ni.toNat (Finset.mem_Icc.2 (by omega))
    rw [show (nf - a.nu_min).toNat = nf.toNat - n0 by omega, show (ni - a.nu_min).toNat = ni.toNat - n0 by omega] at q4 q4'
    rw [q4, q4', ← hsy]
    unfold Reciprocal at hST ⊢
    linear_combination (1 / (4 * Real.pi)) ^ harmonics [.harm z] * R.e (nf.toNat - n0) (ni.toNat - n0) * hST

theorem slice_at {T : Arr} {b e c d n m : ℕ} (hr : T.rows = n) (hc : T.cols = m) (h1 : e ≤ n) (h2 : d ≤ m) {i j : ℕ} (hi : b + i < e)
    (hj : c + j < d) : (T.slice b e c d).e i j = T.e (b + i) (c + j) := by
  unfold Arr.slice Arr.of
  dsimp only
  rw [hr, hc, sliceBound_le h1, sliceBound_le h2, sliceBound_le (show b ≤ n by omega), sliceBound_le (show c ≤ m by omega),
    if_pos ⟨by omega, by omega⟩]

/-- C106: so is the matrix between the eigenvectors of a tame Hamiltonian, which need not be self-adjoint itself. -/
theorem C106_amplitudes {ham op : OperatorSum} (ht : Op_Tame ham = true) {a : XArgs} (hn : a.anorm ≠ 0) (fs : FileSys)
    (dir : Option (List Char)) {la : LinAlg} (hla : LinAlgOk la) (junk : ℕ → ℕ → ℝ) {s s1 t : FState} {r : List LEig}
    (hs : MemoOk ⟨fileCG fs dir, la⟩ s.xs) (hr : DigXspace ⟨fileCG fs dir, la⟩ ham a s = (.ok r, s1))
    (hm : MemoOk ⟨fileCG fs dir, la⟩ t.xs) {ls : Int → Int} (hl : ∀ v, a.v_min ≤ v → v ≤ a.v_max → t.glb.lam_fun v = .ok (ls v))
    (hpos : ∀ v, a.v_min ≤ v → v ≤ a.v_max → 0 < a.lambda_base + ls v) {l : Int} (hop : OddTensor a.lambda_base ls a l op)
    {R : LBlockArray} (hR : (AmpXspeig ⟨⟨fileCG fs dir, la⟩, junk⟩ op (r.map LEig.basis) a (r.map LEig.L) t).1 = .ok R) {x y : LEig}
    (hx : x ∈ r) (hy : y ∈ r) : ∃ B B', R.get_block x.L y.L = .ok B ∧ R.get_block y.L x.L = .ok B' ∧
      ∀ f < x.vals.length, ∀ i < y.vals.length, Reciprocal l x.L y.L (B.e f i) (B'.e i f) := by
  have hleg : LegalRanges a := by
    by_contra hl
    rw [C32_illegal _ ham hl s] at hr
    cases hr
  obtain ⟨ho, hd⟩ := C32_partial ht hleg hs hr
  have hsame : ∀ x ∈ r, SameEig la la x x := by
    intro x hx
    obtain ⟨_, M, v, _, e2, e3⟩ := hd x hx
    have : Eigenlist la M = .ok (x.vals, x.basis) := by
      unfold Eigenlist
      rw [e2, py_bind_ok, e3]
      rfl
    exact ⟨rfl, rfl, M, this, this⟩
  have hne := amp_some hR
  obtain ⟨l0, h0⟩ : ∃ l0, (r.map LEig.L).head? = some l0 := by
    cases hh : r.map LEig.L with
    | nil => exact absurd hh hne
    | cons l ls => exact ⟨l, rfl⟩
  obtain ⟨l1, h1⟩ : ∃ l1, (r.map LEig.L).getLast? = some l1 := ⟨_, List.getLast?_eq_some_getLast hne⟩
  have hnl := narrow_legal hleg ho h0 h1
  have hR0 := hR
  rw [(amp_eq hleg ho h0 h1 hm _).1] at hR0
  obtain ⟨T, hT, hTR⟩ := py_bind_eq_ok hR0
  clear hTR
  have hsq := allMat_square hnl hT
  have hT1 : (RepXspace ⟨fileCG fs dir, la⟩ op (XArgs.narrow a l0 l1) t.xs).1 = .ok T := by
    rw [rep_eq hnl hm]
    exact hT
  have hb : List.Forall₂ (fun P L => P.cols = P.rows ∧ dimXspace a.nu_min a.nu_max a.v_min a.v_max L none = .ok (P.rows : Int))
      (r.map LEig.basis) (r.map LEig.L) := by
    rw [List.forall₂_map_left_iff, List.forall₂_map_right_iff, List.forall₂_same]
    intro x hx
    obtain ⟨_, _, _, k1, k2, _⟩ := twoBases hla hla (hsame x hx)
    exact ⟨by rw [k1, k2], by rw [k1]; exact (hd x hx).1⟩
  obtain ⟨R1, e1, n1, r1, c1, b1⟩ := C73_blocks (env := ⟨⟨fileCG fs dir, la⟩, junk⟩) hla hleg ho h0 h1 hb hm hT1
  rw [hR] at e1
  injection e1 with e1
  subst e1
  obtain ⟨xs, S, hxs, _, hS, hSd, hblk, _⟩ := C33_tiling hleg ho h0 h1
  rw [hS] at n1
  injection n1 with n1
  have hdim : xs.length = (XArgs.narrow a l0 l1).dim := by
    have := lbsXspace_ok hnl
    rw [show lbsXspace (XArgs.narrow a l0 l1).nu_min (XArgs.narrow a l0 l1).nu_max (XArgs.narrow a l0 l1).v_min
      (XArgs.narrow a l0 l1).v_max (XArgs.narrow a l0 l1).L_min (some (XArgs.narrow a l0 l1).L_max) = .ok xs from hxs] at this
    injection this with this
    rw [this, length_xlabels]
  have entry : ∀ x ∈ r, ∀ y ∈ r, ∃ (G B : Arr), R.get_block x.L y.L = .ok G ∧ (∀ (f : Fin x.vals.length) (i : Fin y.vals.length),
      G.e f i = ((mat x.vals.length x.basis).transpose *
        (Matrix.of fun (i : Fin x.vals.length) (j : Fin y.vals.length) => B.e i j) * mat y.vals.length y.basis) f i) ∧
      LBlockArray.get_block ⟨T, S⟩ x.L y.L = .ok B := by
    intro x hx y hy
    obtain ⟨B, t1, G, g1, g2, g3, g4⟩ := b1 _ _ _ _ (pair_mem hx) (pair_mem hy)
    obtain ⟨_, _, _, p1, p2, _, _, po, _⟩ := twoBases hla hla (hsame x hx)
    obtain ⟨_, _, _, q1, q2, _⟩ := twoBases hla hla (hsame y hy)
    have hBc : B.cols = y.vals.length := by
      rw [get_block_cols t1 g1 c1, g3]
      exact q2
    have i1 := hla.inv_shape _ _ p1 p2
    refine ⟨G, B, g1, fun f i => ?_, by rw [n1]; exact t1⟩
    rw [g4 f i (lt_of_lt_of_eq f.2 i1.1.symm) (lt_of_lt_of_eq i.2 q2.symm)]
    exact block_entry hla p1 p2 po hBc q2 f i
  obtain ⟨G, B, g1, g2, g3⟩ := entry x hx y hy
  obtain ⟨G', B', g1', g2', g3'⟩ := entry y hy x hx
  refine ⟨G, G', g1, g1', fun f hf i hi => ?_⟩
  obtain ⟨bx, ex, w1, w2, w3, w4, w5⟩ := hblk x.L (List.mem_map_of_mem hx)
  obtain ⟨bY, ey, u1, u2, u3, u4, u5⟩ := hblk y.L (List.mem_map_of_mem hy)
  have dx : x.vals.length = ex - bx := by
    have := (hd x hx).1
    rw [w4] at this
    injection this with this
    omega
  have dy : y.vals.length = ey - bY := by
    have := (hd y hy).1
    rw [u4] at this
    injection this with this
    omega
  have hB : ∀ (k : Fin x.vals.length) (m : Fin y.vals.length), Reciprocal l x.L y.L (B.e k m) (B'.e m k) := by
    intro k m
    unfold LBlockArray.get_block at g3 g3'
    dsimp only at g3 g3'
    rw [w1, u1] at g3 g3'
    simp only [py_bind_ok, pure, Except.pure] at g3 g3'
    injection g3 with g3
    injection g3' with g3'
    have hk := k.2
    have hm' := m.2
    rw [← g3, ← g3', slice_at hsq.1 hsq.2.1 (by omega) (by omega) (by omega) (by omega),
      slice_at hsq.1 hsq.2.1 (by omega) (by omega) (by omega) (by omega)]
    have hp : xs[bx + k.1]? = some (xs[bx + k.1]'(by omega)) := List.getElem?_eq_getElem _
    have hq : xs[bY + m.1]? = some (xs[bY + m.1]'(by omega)) := List.getElem?_eq_getElem _
    have := C106_matrix hnl hn fs dir hla hm (op := op) (l := l) hl hpos hop hT1 hxs hp hq
    rwa [(w5 _ _ hp).2 (by omega), (u5 _ _ hq).2 (by omega)] at this
  have e1 := g2 ⟨f, hf⟩ ⟨i, hi⟩
  have e2 := g2' ⟨i, hi⟩ ⟨f, hf⟩
  simp only [Matrix.mul_apply, Matrix.transpose_apply, Matrix.of_apply, mat] at e1 e2
  unfold Reciprocal at hB ⊢
  rw [e1, e2]
  simp only [Finset.sum_mul, Finset.mul_sum]
  rw [Finset.sum_comm]
  refine Finset.sum_congr rfl fun k _ => Finset.sum_congr rfl fun m _ => ?_
  linear_combination x.basis.e k f * y.basis.e m i * hB k m

theorem rates_reciprocal {l : Int} {Lf Li : ℕ} {x x' : ℝ} (h : Reciprocal l Lf Li x x') (T T' : Int) : ∃ w w',
    quad_rat_fun T Li Lf x = .ok w ∧ quad_rat_fun T' Lf Li x' = .ok w' ∧ (2 * Li + 1) * w = (2 * Lf + 1) * w' ∧
    mel_rat_fun T Li Lf x = mel_rat_fun T' Lf Li x' := by
  obtain ⟨e1, e2, _⟩ := C69_rates T Li Lf x
  obtain ⟨e1', e2', _⟩ := C69_rates T' Lf Li x'
  have k : (2 * (Lf : ℝ) + 1) * x ^ 2 = (2 * Li + 1) * x' ^ 2 := by
    unfold Reciprocal at h
    have := congrArg (· ^ 2) h
    simp only [mul_pow] at this
    have e : (((-1 : ℝ)) ^ ((Lf : ℤ) + l - Li)) ^ 2 = 1 := by
      rw [← zpow_natCast, ← zpow_mul, mul_comm, zpow_mul]
      norm_num
    rw [e, Real.sq_sqrt (by positivity), Real.sq_sqrt (by positivity)] at this
    push_cast at this
    linarith
  refine ⟨_, _, e1, e1', ?_, ?_⟩
  · field_simp
    linarith
  · rw [e2, e2']
    congr 1

/-- C106: the transition rates that the program computes, with its functions "quad" and "mel", in the two directions: the number of states
times the rate "quad" is the same, and so is the rate "mel". -/
theorem C106_rates {ham op : OperatorSum} (ht : Op_Tame ham = true) {a : XArgs} (hn : a.anorm ≠ 0) (fs : FileSys)
    (dir : Option (List Char)) {la : LinAlg} (hla : LinAlgOk la) (junk : ℕ → ℕ → ℝ) {s s1 t : FState} {r : List LEig}
    (hs : MemoOk ⟨fileCG fs dir, la⟩ s.xs) (hr : DigXspace ⟨fileCG fs dir, la⟩ ham a s = (.ok r, s1))
    (hm : MemoOk ⟨fileCG fs dir, la⟩ t.xs) {ls : Int → Int} (hl : ∀ v, a.v_min ≤ v → v ≤ a.v_max → t.glb.lam_fun v = .ok (ls v))
    (hpos : ∀ v, a.v_min ≤ v → v ≤ a.v_max → 0 < a.lambda_base + ls v) {l : Int} (hop : OddTensor a.lambda_base ls a l op)
    {R : LBlockArray} (hR : (AmpXspeig ⟨⟨fileCG fs dir, la⟩, junk⟩ op (r.map LEig.basis) a (r.map LEig.L) t).1 = .ok R) {x y : LEig}
    (hx : x ∈ r) (hy : y ∈ r) (T : Int) : ∃ B B', R.get_block x.L y.L = .ok B ∧ R.get_block y.L x.L = .ok B' ∧
      ∀ f < x.vals.length, ∀ i < y.vals.length, ∃ w w', quad_rat_fun T y.L x.L (B.e f i) = .ok w ∧
        quad_rat_fun T x.L y.L (B'.e i f) = .ok w' ∧ (2 * y.L + 1) * w = (2 * x.L + 1) * w' ∧
        mel_rat_fun T y.L x.L (B.e f i) = mel_rat_fun T x.L y.L (B'.e i f) := by
  obtain ⟨B, B', h1, h2, h3⟩ := C106_amplitudes ht hn fs dir hla junk hs hr hm hl hpos hop hR hx hy
  refine ⟨B, B', h1, h2, fun f hf i hi => ?_⟩
  have hleg : LegalRanges a := by
    by_contra hl
    rw [C32_illegal _ ham hl s] at hr
    cases hr
  have nn : ∀ x ∈ r, 0 ≤ x.L := fun x hx => by
    have := (((C32_partial ht hleg hs hr).1.2 x.L).1 (List.mem_map_of_mem hx)).1
    have := hleg.2.2.1
    omega
  obtain ⟨Lf, ef⟩ := Int.eq_ofNat_of_zero_le (nn x hx)
  obtain ⟨Li, ei⟩ := Int.eq_ofNat_of_zero_le (nn y hy)
  have := h3 f hf i hi
  rw [ef, ei] at this ⊢
  obtain ⟨w, w', k1, k2, k3, k4⟩ := rates_reciprocal this T T
  exact ⟨w, w', k1, k2, by push_cast; exact k3, k4⟩

/-- C106: the quadrupole operator is of this kind with either of the two functions `lambda` that change by one from a seniority to the
next, and so is that of the rigid model with a fixed `lambda`. -/
theorem C106_quad (lb : ℝ) (a : XArgs) : OddTensor lb (fun v => v % 2) a 2 quad_op ∧ OddTensor lb (fun v => v) a 2 quad_op ∧
    OddTensor lb (fun _ => 0) a 2 quadRigid_op := by
  refine ⟨fun t ht => ?_, fun t ht => ?_, fun t ht => ?_⟩
  · rw [List.mem_singleton.1 ht]
    refine ⟨_, [.b], .y112, rfl, by simp, by decide, by decide, fun v v' _ _ _ _ h h' => .inl ⟨some .b, rfl, by simp [SelfAdjoint], ?_, by simp⟩⟩
    have : v' % 2 - v % 2 = 1 ∨ v' % 2 - v % 2 = -1 := by omega
    rcases this with h | h <;> rw [h] <;> exact ⟨_, rfl⟩
  · rw [List.mem_singleton.1 ht]
    refine ⟨_, [.b], .y112, rfl, by simp, by decide, by decide, fun v v' _ _ _ _ h h' => .inl ⟨some .b, rfl, by simp [SelfAdjoint], ?_, by simp⟩⟩
    rw [show SpHarm.y112.table.1 = 1 from rfl, abs_le] at h
    have : v' - v = 1 ∨ v' - v = -1 := by omega
    rcases this with h | h <;> rw [h] <;> exact ⟨_, rfl⟩
  · rw [List.mem_singleton.1 ht]
    exact ⟨_, [], .y112, rfl, by simp, by decide, by decide, fun v v' _ _ _ _ h h' =>
      .inl ⟨none, rfl, by simp [SelfAdjoint], ⟨_, rfl⟩, by simp⟩⟩

/-- The hypotheses of C106 are met, for the operator `cos(3 gamma) beta` and with the same Hamiltonian: its matrix on two states is not
diagonal. -/
example {la : LinAlg} (hla : LinAlgOk la) : ∃ (op : OperatorSum) (a : XArgs) (s s1 : FState) (M : Arr) (r : List LEig) (R : LBlockArray),
    Op_Tame op = true ∧ LegalRanges a ∧ a.anorm ≠ 0 ∧ MemoOk ⟨fileCG onesFS none, la⟩ s.xs ∧
    (∀ v, a.v_min ≤ v → v ≤ a.v_max → s.glb.lam_fun v = .ok (v % 2)) ∧
    (∀ v : Int, a.v_min ≤ v → v ≤ a.v_max → 0 < a.lambda_base + ((v % 2 : Int) : ℝ)) ∧ OddTensor a.lambda_base (fun v => v % 2) a 0 op ∧
    (RepXspace ⟨fileCG onesFS none, la⟩ op a s.xs).1 = .ok M ∧ M.e 1 0 ≠ 0 ∧
    DigXspace ⟨fileCG onesFS none, la⟩ op a s = (.ok r, s1) ∧ r ≠ [] ∧
    (AmpXspeig ⟨⟨fileCG onesFS none, la⟩, fun _ _ => 0⟩ op (r.map LEig.basis) a (r.map LEig.L) s).1 = .ok R := by
  obtain ⟨s, M, r, s1, hm, hlam, ha, hn, hp, _, hM, h10, hr⟩ := twoStates_meets hla
  have hop : ACM_Hamiltonian (c30 := kC 1) = [(kC 1 * kC Convert_310, [.rad .b, .harm .y310])] := by
    have h1 : kC 1 ≠ (0 : Coeff) := fun h => by have := congrFun h (0, 0, 0, 0); simp [kC] at this
    simp [ACM_Hamiltonian, addTerm, h1]
  have ht : Op_Tame (ACM_Hamiltonian (c30 := kC 1)) = true := by rw [hop]; rfl
  obtain ⟨ho, hd⟩ := C32_partial ht ha hm hr
  have hLs : r.map LEig.L = [0] := by rw [occupied_eq ha ho]; decide +kernel
  have hb : List.Forall₂ (fun P L => P.cols = P.rows ∧ dimXspace twoStates.nu_min twoStates.nu_max twoStates.v_min twoStates.v_max L none =
      .ok (P.rows : Int)) (r.map LEig.basis) (r.map LEig.L) := by
    rw [List.forall₂_map_left_iff, List.forall₂_map_right_iff, List.forall₂_same]
    intro x hx
    obtain ⟨hdx, M, v, _, e2, e3⟩ := hd x hx
    have : Eigenlist la M = .ok (x.vals, x.basis) := by
      unfold Eigenlist
      rw [e2, py_bind_ok, e3]
      rfl
    obtain ⟨_, _, _, k1, k2, _⟩ := twoBases hla hla (x := x) (y := x) ⟨rfl, rfl, M, this, this⟩
    exact ⟨by rw [k1, k2], by rw [k1]; exact hdx⟩
  obtain ⟨R, hR, _⟩ := C73_blocks (env := ⟨⟨fileCG onesFS none, la⟩, fun _ _ => 0⟩) hla ha ho (l0 := 0) (l1 := 0)
    (by rw [hLs]; rfl) (by rw [hLs]; rfl) hb hm hM
  refine ⟨_, twoStates, s, s1, M, r, R, ht, ha, hn, hm, fun v h1 h2 => ?_, fun v h1 h2 => ?_, ?_, hM, h10, hr, ?_, hR⟩
  · rw [hlam]
    obtain ⟨n, rfl⟩ := Int.eq_ofNat_of_zero_le (show 0 ≤ v from h1)
    rw [show lambda_acm_fun (n : Int) = .ok ((n % 2 : ℕ) : Int) from (C48_simple n).2.2.1]
    push_cast
    rfl
  · have : (0 : ℝ) ≤ ((v % 2 : Int) : ℝ) := by exact_mod_cast Int.emod_nonneg _ (by decide)
    linarith
  · intro t ht
    rw [hop, List.mem_singleton] at ht
    rw [ht]
    refine ⟨1 * Convert_310, [.b], .y310, rfl, by simp, by decide, by decide, fun v v' _ _ _ _ h h' =>
      .inl ⟨some .b, rfl, by simp [SelfAdjoint], ?_, by simp⟩⟩
    have : v' % 2 - v % 2 = 1 ∨ v' % 2 - v % 2 = -1 := by omega
    rcases this with h | h <;> rw [h] <;> exact ⟨_, rfl⟩
  · intro hh
    rw [hh] at hLs
    cases hLs

end Acm.Props
