import Verif.Lemmas.RadialHam
import Verif.Lemmas.Interlace
import Verif.Spec.Variational
import Verif.Props.Spectrum

/-!
# Property C96: the variational principle
-/

namespace Acm.Props

open Acm Acm.Spec

theorem red_parity {u w v : Int} {m : ℝ} (h : ME_SO5red u w v = .ok m) (hm : m ≠ 0) : (u - v - w) % 2 = 0 := by
  unfold ME_SO5red at h
  obtain ⟨_, _, h⟩ := py_bind_eq_ok h
  obtain ⟨_, _, h⟩ := py_bind_eq_ok h
  obtain ⟨_, _, h⟩ := py_bind_eq_ok h
  by_contra hodd
  rw [if_pos (by
    right; right; right
    rw [is_odd_iff]
    omega)] at h
  injection h with h
  exact hm h.symm

theorem Y_parity {CG : CGFun} {y : Label} {a : XArgs} (ha : LegalRanges a) {A : Arr}
    (h : RepSO5_Y_rem CG y a.v_min a.v_max a.L_min a.L_max = .ok A) {i j : ℕ} {f k : Label}
    (hi : a.states[i]? = some f) (hj : a.states[j]? = some k) (hne : A.e i j ≠ 0) : (f.1 - k.1 - y.1) % 2 = 0 := by
  obtain ⟨c, r, _, h2, h3⟩ := C72_entries (states_ok ha) h i j f k hi hj
  refine red_parity h2 fun h0 => hne ?_
  rw [h3, h0, mul_zero]

theorem loop_parity {CG : CGFun} {a : XArgs} (ha : LegalRanges a) : ∀ (hs : List SpHarm) (P : Arr) (w : Int) {S : Arr},
    Square a.states.length P →
    (∀ {i j : ℕ} {f k : Label}, a.states[i]? = some f → a.states[j]? = some k → P.e i j ≠ 0 → (f.1 - k.1 - w) % 2 = 0) →
    RepSO5r3_loop CG a.v_min a.v_max a.L_min a.L_max (sphItems (hs.map .harm)) (some P) = .ok (some S) →
    ∀ {i j : ℕ} {f k : Label}, a.states[i]? = some f → a.states[j]? = some k → S.e i j ≠ 0 →
      (f.1 - k.1 - (w + (hs.map fun h => h.table.1).sum)) % 2 = 0 := by
  intro hs
  induction hs with
  | nil =>
    intro P w S _ hP h i j f k hi hj hne
    injection h with h
    injection h with h
    subst h
    simpa using hP hi hj hne
  | cons y hs ih =>
    intro P w S hsq hP h i j f k hi hj hne
    simp only [sphItems, List.map_cons, RepSO5r3_loop] at h
    obtain ⟨M, hM, h⟩ := py_bind_eq_ok h
    have hMs : Square a.states.length M := (RepSO5_Y_rem_ok (states_ok ha) hM).1
    have := ih (P.mul M) (w + y.table.1) (square_mul hsq.1 hMs.2.1) (by
      intro i j f k hi hj hne
      have hi' := (List.getElem?_eq_some_iff.1 hi).1
      have hj' := (List.getElem?_eq_some_iff.1 hj).1
      simp only [Arr.mul, Arr.of, hsq.1, hsq.2.1, hMs.2.1] at hne
      rw [if_pos ⟨hi', hj'⟩] at hne
      obtain ⟨l, hl, hne⟩ := Finset.exists_ne_zero_of_sum_ne_zero hne
      have hl' := Finset.mem_range.1 hl
      have e1 := hP hi (List.getElem?_eq_getElem hl') (left_ne_zero_of_mul hne)
      have e2 := Y_parity ha hM (List.getElem?_eq_getElem hl') hj (right_ne_zero_of_mul hne)
      omega) h hi hj hne
    simp only [List.map_cons, List.sum_cons]
    rwa [← add_assoc]

/-- The selection rule of a product of harmonics. -/
theorem sph_parity {CG : CGFun} {a : XArgs} (ha : LegalRanges a) {hs : List SpHarm} {S : Arr}
    (h : RepSO5r3_Prod_wrk CG (sphItems (hs.map .harm)) a.v_min a.v_max a.L_min a.L_max = .ok S) {i j : ℕ} {f k : Label}
    (hi : a.states[i]? = some f) (hj : a.states[j]? = some k) (hne : S.e i j ≠ 0) : MayCouple hs k.1 f.1 := by
  unfold MayCouple
  unfold RepSO5r3_Prod_wrk at h
  have hi' := (List.getElem?_eq_some_iff.1 hi).1
  cases hs with
  | nil =>
    rw [if_pos (show (sphItems (([] : List SpHarm).map .harm)).length = 0 from rfl), sphDim_ok ha, py_bind_ok, Int.toNat_natCast] at h
    injection h with h
    subst h
    simp only [Arr.eye, Arr.of] at hne
    have hij : i = j := by
      by_contra hh
      simp [hh] at hne
    subst hij
    rw [hi] at hj
    injection hj with hj
    rw [if_pos rfl, hj]
  | cons y hs =>
    rw [if_neg (by simp [sphItems])] at h
    obtain ⟨r, hr, h⟩ := py_bind_eq_ok h
    cases r with
    | none => cases h
    | some P =>
      injection h with h
      subst h
      simp only [sphItems, List.map_cons, RepSO5r3_loop] at hr
      obtain ⟨M, hM, hr⟩ := py_bind_eq_ok hr
      have := loop_parity ha hs M y.table.1 (RepSO5_Y_rem_ok (states_ok ha) hM).1 (Y_parity ha hM) hr hi hj hne
      rw [if_neg (by simp), List.map_cons, List.sum_cons]
      exact this

/-- The spherical matrix element between two labels does not depend on the space, for at most one harmonic or when only the
radial ranges differ. -/
theorem sph_nested {CG : CGFun} {a b : XArgs} (ha : LegalRanges a) (hb : LegalRanges b) {hs : List SpHarm}
    (hn : hs.length ≤ 1 ∨ a.v_min = b.v_min ∧ a.v_max = b.v_max ∧ a.L_min = b.L_min ∧ a.L_max = b.L_max) {S T : Arr}
    (hS : RepSO5r3_Prod_wrk CG (sphItems (hs.map .harm)) a.v_min a.v_max a.L_min a.L_max = .ok S)
    (hT : RepSO5r3_Prod_wrk CG (sphItems (hs.map .harm)) b.v_min b.v_max b.L_min b.L_max = .ok T)
    {i j i' j' : ℕ} {f k : Label} (hi : a.states[i]? = some f) (hj : a.states[j]? = some k)
    (hi' : b.states[i']? = some f) (hj' : b.states[j']? = some k) : S.e i j = T.e i' j' := by
  rcases hn with hn | ⟨e1, e2, e3, e4⟩
  · match hs, hn with
    | [], _ =>
      unfold RepSO5r3_Prod_wrk at hS hT
      rw [if_pos (show (sphItems (([] : List SpHarm).map .harm)).length = 0 from rfl), sphDim_ok ha, py_bind_ok, Int.toNat_natCast] at hS
      rw [if_pos (show (sphItems (([] : List SpHarm).map .harm)).length = 0 from rfl), sphDim_ok hb, py_bind_ok, Int.toNat_natCast] at hT
      injection hS with hS
      injection hT with hT
      subst hS hT
      have h1 := (List.getElem?_eq_some_iff.1 hi).1
      have h2 := (List.getElem?_eq_some_iff.1 hj).1
      have h3 := (List.getElem?_eq_some_iff.1 hi').1
      have h4 := (List.getElem?_eq_some_iff.1 hj').1
      have hiff : i = j ↔ i' = j' := by
        constructor
        · rintro rfl
          rw [hi] at hj
          injection hj with hj
          subst hj
          exact states_inj hi' hj'
        · rintro rfl
          rw [hi'] at hj'
          injection hj' with hj'
          subst hj'
          exact states_inj hi hj
      simp only [Arr.eye, Arr.of, h1, h2, h3, h4, and_self, if_true, hiff]
    | [y], _ =>
      have one : ∀ {c : XArgs} {S : Arr}, RepSO5r3_Prod_wrk CG (sphItems (([y] : List SpHarm).map .harm)) c.v_min c.v_max
          c.L_min c.L_max = .ok S → RepSO5_Y_rem CG y.table c.v_min c.v_max c.L_min c.L_max = .ok S := by
        intro c S hS
        unfold RepSO5r3_Prod_wrk at hS
        rw [if_neg (by simp [sphItems])] at hS
        simp only [sphItems, List.map_cons, List.map_nil, RepSO5r3_loop, RepSO5r3_item] at hS
        cases hM : RepSO5_Y_rem CG y.table c.v_min c.v_max c.L_min c.L_max with
        | error e => rw [hM] at hS; cases hS
        | ok M => rw [hM] at hS; exact hS
      obtain ⟨c, r, c1, r1, h1⟩ := C72_entries (states_ok ha) (one hS) i j f k hi hj
      obtain ⟨c', r', c2, r2, h2⟩ := C72_entries (states_ok hb) (one hT) i' j' f k hi' hj'
      rw [c1] at c2
      rw [r1] at r2
      injection c2 with c2
      injection r2 with r2
      rw [h1, h2, c2, r2]
  · have hst : a.states = b.states := by unfold XArgs.states; rw [e1, e2, e3, e4]
    rw [e1, e2, e3, e4, hT] at hS
    injection hS with hS
    subst hS
    rw [hst] at hi hj
    rw [states_inj hi hi', states_inj hj hj']

/-- The matrix element of a product between two labels does not depend on the space. -/
theorem twin_nested {env : XEnv} (hla : LinAlgOk env.la) {a b : XArgs} (ha : LegalRanges a) (hb : LegalRanges b)
    (hc : Contains b a) (hn : a.anorm ≠ 0) {lam : LambdaFunction} {ls : Int → Int}
    (hl : ∀ v, b.v_min ≤ v → v ≤ b.v_max → lam v = .ok (ls v))
    (hpos : ∀ v, b.v_min ≤ v → v ≤ b.v_max → 0 < a.lambda_base + ls v) {r : Option RadSym} {hs : List SpHarm}
    (hlen : hs.length ≤ 1 ∨ a.v_min = b.v_min ∧ a.v_max = b.v_max ∧ a.L_min = b.L_min ∧ a.L_max = b.L_max)
    (hcl : ∀ v v', b.v_min ≤ v → v ≤ b.v_max → b.v_min ≤ v' → v' ≤ b.v_max → MayCouple hs v v' →
      (∃ prim, closedForm r (ls v' - ls v) = some prim) ∧ ¬ Singular r (a.lambda_base + ls v)) {M N : Arr}
    (hM : RepXspace_Twin env lam (opList r) (hs.map .harm) a = .ok M)
    (hN : RepXspace_Twin env lam (opList r) (hs.map .harm) b = .ok N) {p q p' q' : ℕ} {x y : XspaceLabel}
    (hp : a.xlabels[p]? = some x) (hq : a.xlabels[q]? = some y) (hp' : b.xlabels[p']? = some x)
    (hq' : b.xlabels[q']? = some y) : M.e p q = N.e p' q' := by
  obtain ⟨_, S, hS, hel⟩ := C28_elements ha env lam _ _ (lbsXspace_ok ha) (states_ok ha) hM
  obtain ⟨_, T, hT, hel'⟩ := C28_elements hb env lam _ _ (lbsXspace_ok hb) (states_ok hb) hN
  obtain ⟨nf, f⟩ := x
  obtain ⟨ni, k⟩ := y
  obtain ⟨i, j, lf, li, hi, hj, k1, k2, k3, k4⟩ := hel p q nf ni f k hp hq
  obtain ⟨i', j', lf', li', hi', hj', k1', k2', k3', k4'⟩ := hel' p' q' nf ni f k hp' hq'
  have hST := sph_nested ha hb hlen hS hT hi hj hi' hj'
  by_cases h0 : S.e i j = 0
  · rw [k3 h0, k3' (by rw [← hST]; exact h0)]
  · obtain ⟨R, hR, k4⟩ := k4 h0
    obtain ⟨R', hR', k4'⟩ := k4' (by rw [← hST]; exact h0)
    rw [k4, k4', hST]
    congr 1
    obtain ⟨⟨e1, e2⟩, hnu, hv, hL⟩ := hc
    have hvf := state_v (List.mem_of_getElem? hi')
    have hvk := state_v (List.mem_of_getElem? hj')
    have el : lf = ls f.1 ∧ li = ls k.1 ∧ lf' = ls f.1 ∧ li' = ls k.1 := by
      have t1 := hl _ hvf.1 hvf.2
      have t2 := hl _ hvk.1 hvk.2
      rw [t1] at k1 k1'
      rw [t2] at k2 k2'
      injection k1 with k1; injection k1' with k1'; injection k2 with k2; injection k2' with k2'
      exact ⟨k1.symm, k2.symm, k1'.symm, k2'.symm⟩
    obtain ⟨rfl, rfl, rfl, rfl⟩ := el
    obtain ⟨⟨prim, hprim⟩, hsing⟩ := hcl k.1 f.1 hvk.1 hvk.2 hvf.1 hvf.2 (sph_parity ha hS hi hj h0)
    have hp1 := hpos k.1 hvk.1 hvk.2
    have hp2 : 0 < a.lambda_base + ls k.1 + ((ls f.1 - ls k.1 : Int) : ℝ) := by
      have := hpos f.1 hvf.1 hvf.2
      push_cast
      linarith
    obtain ⟨_, x1, _, hx1, _, hn1⟩ := xlabels_split hp
    obtain ⟨_, x2, _, hx2, _, hn2⟩ := xlabels_split hq
    obtain ⟨_, x1', _, hx1', _, hn1'⟩ := xlabels_split hp'
    obtain ⟨_, x2', _, hx2', _, hn2'⟩ := xlabels_split hq'
    unfold XArgs.rdim at hx1 hx2 hx1' hx2'
    have l1 := ha.1
    have l2 := hb.1
    obtain ⟨n0, en0⟩ := Int.eq_ofNat_of_zero_le l1.1
    obtain ⟨n1, en1⟩ := Int.eq_ofNat_of_zero_le (l1.1.trans l1.2)
    obtain ⟨m0, em0⟩ := Int.eq_ofNat_of_zero_le l2.1
    obtain ⟨m1, em1⟩ := Int.eq_ofNat_of_zero_le (l2.1.trans l2.2)
    obtain ⟨y, y1, y2⟩ := C79_agrees env.la hla a.anorm hn r _ prim hprim _ hp1 hp2 hsing n0 n1 0 (by omega)
    obtain ⟨z, z1, z2⟩ := C79_agrees env.la hla a.anorm hn r _ prim hprim _ hp1 hp2 hsing m0 m1 0 (by omega)
    rw [en0, en1] at hR
    rw [em0, em1, e1, e2] at hR'
    have hR2 : RepRadialProd env.la a.anorm (opList r) (a.lambda_base + ls k.1) (ls f.1 - ls k.1) n0 n1 0 = .ok R := hR
    have hR2' : RepRadialProd env.la a.anorm (opList r) (a.lambda_base + ls k.1) (ls f.1 - ls k.1) m0 m1 0 = .ok R' := hR'
    have y1' : RepRadialProd env.la a.anorm (opList r) (a.lambda_base + ls k.1) (ls f.1 - ls k.1) n0 n1 0 = .ok y := y1
    have z1' : RepRadialProd env.la a.anorm (opList r) (a.lambda_base + ls k.1) (ls f.1 - ls k.1) m0 m1 0 = .ok z := z1
    rw [y1'] at hR2
    rw [z1'] at hR2'
    injection hR2 with hR2
    injection hR2' with hR2'
    subst hR2 hR2'
    have t1 := y2 nf.toNat (Finset.mem_Icc.2 (by omega)) ni.toNat (Finset.mem_Icc.2 (by omega))
    have t2 := z2 nf.toNat (Finset.mem_Icc.2 (by omega)) ni.toNat (Finset.mem_Icc.2 (by omega))
    rw [t1] at t2
    injection t2 with t2
    rw [show (nf - a.nu_min).toNat = nf.toNat - n0 by omega, show (ni - a.nu_min).toNat = ni.toNat - n0 by omega,
      show (nf - b.nu_min).toNat = nf.toNat - m0 by omega, show (ni - b.nu_min).toNat = ni.toNat - m0 by omega, t2]

theorem prodMat_oneRadial {env : XEnv} {a : XArgs} (h : LegalRanges a) {r : Option RadSym} (hr : r ≠ some .other)
    (hs : List SpHarm) (lam : LambdaFunction) :
    prodMat env a (oneRadial r hs) lam = RepXspace_Twin env lam (opList r) (hs.map .harm) a := by
  have hsph : ∀ (hs : List SpHarm) rs ss, segsOf (hs.map .harm) rs ss = [.twin rs (ss ++ hs.map .harm)] := by
    intro hs
    induction hs with
    | nil => intro rs ss; simp [segsOf]
    | cons y hs ih => intro rs ss; simp [segsOf, OpSym.radial?, OpSym.isSpherical, ih]
  have : segsOf (oneRadial r hs) [] [] = [.twin (opList r) (hs.map .harm)] := by
    cases r with
    | none => exact hsph hs [] []
    | some r =>
      have : (OpSym.rad r).radial? = some r := by cases r <;> first | rfl | exact absurd rfl hr
      simp only [oneRadial, opList, List.map_cons, List.map_nil, List.cons_append, List.nil_append, segsOf, this]
      exact hsph hs [r] []
  unfold prodMat
  rw [check_ok h, py_bind_ok, this]
  simp only [segMat, segsMat]
  cases RepXspace_Twin env lam (opList r) (hs.map .harm) a <;> rfl

theorem allMat_nested {env : XEnv} (hla : LinAlgOk env.la) {a b : XArgs} (ha : LegalRanges a) (hb : LegalRanges b)
    (hc : Contains b a) (hn : a.anorm ≠ 0) (hL : a.L_min = b.L_min ∧ a.L_max = b.L_max) {lam : LambdaFunction} {ls : Int → Int}
    (hl : ∀ v, b.v_min ≤ v → v ≤ b.v_max → lam v = .ok (ls v))
    (hpos : ∀ v, b.v_min ≤ v → v ≤ b.v_max → 0 < a.lambda_base + ls v) {ham : OperatorSum}
    (hham : Nestable a.lambda_base ls a b ham) {M N : Arr}
    (hM : allMat env a ham lam = .ok M) (hN : allMat env b ham lam = .ok N) {p q p' q' : ℕ} {x y : XspaceLabel}
    (hp : a.xlabels[p]? = some x) (hq : a.xlabels[q]? = some y) (hp' : b.xlabels[p']? = some x)
    (hq' : b.xlabels[q']? = some y) : M.e p q = N.e p' q' := by
  let F : XArgs → OperatorProduct → ℕ → ℕ → ℝ := fun c w p q =>
    match prodMat env c w lam with | .ok P => P.e p q | .error _ => 0
  have key : ∀ {c : XArgs} (_ : LegalRanges c) {M : Arr} (_ : allMat env c ham lam = .ok M) {p q : ℕ} {x y : XspaceLabel}
      (_ : c.xlabels[p]? = some x) (_ : c.xlabels[q]? = some y),
      M.e p q = (ham.map fun t => t.1 y * F c t.2 p q).sum ∧ ∀ t ∈ ham, ∃ P, prodMat env c t.2 lam = .ok P := by
    intro c hcl M hM p q x y hp hq
    have hs := memoOk_start env lam
    have hex : ∀ t ∈ ham, ∃ P, prodMat env c t.2 lam = .ok P := by
      have := (C30_exists hcl hs ham).1 ⟨M, by rw [rep_eq hcl hs]; exact hM⟩
      intro t ht
      obtain ⟨P, hP⟩ := this t ht
      exact ⟨P, by rw [prod_eq hs] at hP; exact hP⟩
    obtain ⟨M', h1, _, h2⟩ := rep_sum (f := F c) hcl (ts := ham) (env := env) (lam := lam) fun t ht => by
      obtain ⟨P, hP⟩ := hex t ht
      exact ⟨P, hP, fun p q _ _ => by simp only [F, hP]⟩
    rw [hM] at h1
    injection h1 with h1
    subst h1
    refine ⟨h2 p q y ?_ hq, hex⟩
    rw [← length_xlabels]
    exact (List.getElem?_eq_some_iff.1 hp).1
  obtain ⟨e1, x1⟩ := key ha hM hp hq
  obtain ⟨e2, x2⟩ := key hb hN hp' hq'
  rw [e1, e2]
  congr 1
  refine List.map_congr_left fun t ht => ?_
  congr 1
  obtain ⟨P, hP⟩ := x1 t ht
  obtain ⟨P', hP'⟩ := x2 t ht
  simp only [F, hP, hP']
  obtain ⟨r, hs, e, hr, hlen, hcl⟩ := hham t ht
  rw [e, prodMat_oneRadial ha hr] at hP
  rw [e, prodMat_oneRadial hb hr] at hP'
  exact twin_nested hla ha hb hc hn hl hpos (hlen.imp_right fun h => ⟨h.1, h.2, hL.1, hL.2⟩) hcl hP hP' hp hq hp' hq'

theorem contains_mem {a b : XArgs} (hc : Contains b a) {x : XspaceLabel} (hx : x ∈ a.xlabels) : x ∈ b.xlabels := by
  obtain ⟨_, hnu, hv, hL⟩ := hc
  obtain ⟨nu, v, al, L⟩ := x
  unfold XArgs.xlabels XArgs.states lbsRadial at hx ⊢
  simp only [List.mem_flatMap, List.mem_map, mem_pyRange, Prod.exists, Prod.mk.injEq] at hx ⊢
  obtain ⟨v', al', L', h1, n, h2, rfl, rfl, rfl, rfl⟩ := hx
  rw [mem_labelsV] at h1
  exact ⟨v', al', L', mem_labelsV.2 (by omega), n, by omega, rfl, rfl, rfl, rfl⟩

/-- The matrices behind the levels in two spaces: that of the first is a part of that of the second. -/
theorem nested_levels {a b : XArgs} (ha : LegalRanges a) (hb : LegalRanges b) (hc : Contains b a) (hn : a.anorm ≠ 0)
    {env : XEnv} (hla : LinAlgOk env.la) {ham : OperatorSum} {s s' : FState} (hs : MemoOk env s.xs) (hs' : MemoOk env s'.xs)
    {ls : Int → Int} (hl : ∀ v, b.v_min ≤ v → v ≤ b.v_max → s.glb.lam_fun v = .ok (ls v))
    (hll : s'.glb.lam_fun = s.glb.lam_fun)
    (hpos : ∀ v, b.v_min ≤ v → v ≤ b.v_max → 0 < a.lambda_base + ls v) (hham : Nestable a.lambda_base ls a b ham)
    {r r' : List LEig} {t t' : FState} (hr : DigXspace env ham a s = (.ok r, t)) (hr' : DigXspace env ham b s' = (.ok r', t')) :
    ∀ x ∈ r, ∃ y ∈ r', y.L = x.L ∧ ∃ (n m : ℕ) (ι : Fin n → Fin m) (A P : Matrix (Fin n) (Fin n) ℝ) (B Q : Matrix (Fin m) (Fin m) ℝ)
      (v w : ℕ → ℝ), Function.Injective ι ∧ A = B.submatrix ι ι ∧ P.transpose * P = 1 ∧
      P.transpose * A * P = Matrix.diagonal (fun i : Fin n => v i) ∧ Q.transpose * Q = 1 ∧
      Q.transpose * B * Q = Matrix.diagonal (fun i : Fin m => w i) ∧ (∀ i j, i ≤ j → j < n → v i ≤ v j) ∧
      (∀ i j, i ≤ j → j < m → w i ≤ w j) ∧ x.vals = (List.range n).map v ∧ y.vals = (List.range m).map w := by
  have ht : Op_Tame ham = true := by
    rw [C63_tame]
    intro t ht
    obtain ⟨r, hs, e, _⟩ := hham t ht
    rw [e]
    unfold oneRadial
    simp
  obtain ⟨ho, hx⟩ := C32_partial ht ha hs hr
  obtain ⟨ho', hx'⟩ := C32_partial ht hb hs' hr'
  intro x hxr
  obtain ⟨hd, M, v, e1, e2, e3⟩ := hx x hxr
  have hL := ((ho.2 x.L).1 (List.mem_map_of_mem hxr))
  have hL0 : 0 ≤ x.L := by have := hL.1; have := ha.2.2.1; omega
  have hLb : x.L ∈ r'.map LEig.L := by
    refine (ho'.2 x.L).2 ⟨by have := hL.1; have := hc.2.2.2; omega, ?_⟩
    refine ⟨_, dimXspace_at hb hL0, ?_⟩
    obtain ⟨d, d1, d2⟩ := hL.2
    rw [dimXspace_at ha hL0] at d1
    injection d1 with d1
    subst d1
    have hne : (a.at x.L).dim ≠ 0 := by exact_mod_cast d2
    rw [← length_xlabels] at hne
    obtain ⟨y, hy⟩ := List.exists_mem_of_ne_nil _ (List.ne_nil_of_length_pos (Nat.pos_of_ne_zero hne))
    have : y ∈ (b.at x.L).xlabels := contains_mem (a := a.at x.L) (b := b.at x.L)
      ⟨hc.1, hc.2.1, hc.2.2.1, le_refl _, le_refl _⟩ hy
    have := List.length_pos_of_mem this
    rw [length_xlabels] at this
    exact_mod_cast this.ne'
  obtain ⟨y, hy, hyL⟩ := List.mem_map.1 hLb
  refine ⟨y, hy, hyL, ?_⟩
  obtain ⟨hd', N, w, f1, f2, f3⟩ := hx' y hy
  rw [hyL] at f1
  have hla' := legal_at ha hL0
  have hlb' := legal_at hb hL0
  have hcont : Contains (b.at x.L) (a.at x.L) := ⟨hc.1, hc.2.1, hc.2.2.1, le_refl _, le_refl _⟩
  rw [rep_eq hla' hs] at e1
  rw [rep_eq hlb' hs', show s'.xs.lam_fun = s.xs.lam_fun from hll] at f1
  have sqM := allMat_square hla' e1
  have sqN := allMat_square hlb' f1
  obtain ⟨v1, P, g1, _, _, g2, g3, g4⟩ := C70_eigen env.la hla _ M sqM.1 sqM.2.1
  obtain ⟨w1, Q, k1, _, _, k2, k3, k4⟩ := C70_eigen env.la hla _ N sqN.1 sqN.2.1
  rw [e2] at g1
  rw [f2] at k1
  injection g1 with g1
  injection k1 with k1
  injection g1 with g1 gP
  injection k1 with k1 kQ
  subst g1 gP k1 kQ
  have hidx : ∀ i : Fin (a.at x.L).dim, ∃ j : Fin (b.at x.L).dim, (a.at x.L).xlabels[i.1]? = (b.at x.L).xlabels[j.1]? := by
    intro i
    have hi : i.1 < (a.at x.L).xlabels.length := by rw [length_xlabels]; exact i.2
    obtain ⟨j, hj, he⟩ := List.getElem_of_mem (contains_mem hcont (List.getElem_mem hi))
    exact ⟨⟨j, by rw [← length_xlabels]; exact hj⟩, by rw [List.getElem?_eq_getElem hi, List.getElem?_eq_getElem hj, he]⟩
  choose ι hι using hidx
  have hlab : ∀ i : Fin (a.at x.L).dim, ∃ z, (a.at x.L).xlabels[i.1]? = some z := fun i =>
    ⟨_, List.getElem?_eq_getElem (by rw [length_xlabels]; exact i.2)⟩
  have hinj : Function.Injective ι := by
    intro i j hij
    have h1 := hι i
    rw [hij, ← hι j] at h1
    exact Fin.ext ((List.getElem?_inj (by rw [length_xlabels]; exact i.2) (C27_distinct hla' (lbsXspace_ok hla'))).1 h1)
  have hel : ∀ i j, M.e i.1 j.1 = N.e (ι i).1 (ι j).1 := by
    intro i j
    obtain ⟨z, hz⟩ := hlab i
    obtain ⟨u, hu⟩ := hlab j
    exact allMat_nested hla hla' hlb' hcont hn ⟨rfl, rfl⟩ hl hpos hham e1 f1 hz hu (by rw [← hι, hz]) (by rw [← hι, hu])
  refine ⟨_, _, ι, (1 / 2 : ℝ) • (mat (a.at x.L).dim M + (mat (a.at x.L).dim M).transpose), _,
    (1 / 2 : ℝ) • (mat (b.at x.L).dim N + (mat (b.at x.L).dim N).transpose), _, v, w, hinj, ?_, g2, g3, k2, k3, g4, k4,
    by rw [e3, sqM.1], by rw [f3, sqN.1]⟩
  ext i j
  simp only [Matrix.smul_apply, Matrix.add_apply, Matrix.transpose_apply, Matrix.submatrix_apply, mat, Matrix.of_apply, hel]

/-- C96, the variational principle, as far as it holds: when the space is enlarged, no energy rises.  For every Hamiltonian
whose products have closed radial forms, any two legal spaces of which the second contains the first, and any settings under which both are
diagonalised, each level of the first is found in the second with the same L and the same place in the ascending order, and
its energy there is lower or equal.  Missing: products of several radial operators, for which it is wrong (C96_fails),
several harmonics when the range of v grows, and the operators of the momenta. -/
theorem C96_variational_partial {a b : XArgs} (ha : LegalRanges a) (hb : LegalRanges b) (hc : Contains b a) (hn : a.anorm ≠ 0)
    {env : XEnv} (hla : LinAlgOk env.la) {ham : OperatorSum} {s s' : FState} (hs : MemoOk env s.xs) (hs' : MemoOk env s'.xs)
    {ls : Int → Int} (hl : ∀ v, b.v_min ≤ v → v ≤ b.v_max → s.glb.lam_fun v = .ok (ls v))
    (hll : s'.glb.lam_fun = s.glb.lam_fun)
    (hpos : ∀ v, b.v_min ≤ v → v ≤ b.v_max → 0 < a.lambda_base + ls v) (hham : Nestable a.lambda_base ls a b ham)
    {r r' : List LEig} {t t' : FState} (hr : DigXspace env ham a s = (.ok r, t)) (hr' : DigXspace env ham b s' = (.ok r', t')) :
    EnergiesDrop r r' := by
  intro x hx
  obtain ⟨y, hy, hyL, n, m, ι, A, P, B, Q, v, w, h1, h2, h3, h4, h5, h6, h7, h8, e, f⟩ := nested_levels ha hb hc hn hla hs hs' hl hll hpos hham hr hr' x hx
  refine ⟨y, hy, hyL, fun k hk => ?_⟩
  rw [e, List.length_map, List.length_range] at hk
  have := submatrix_le ι h1 h2 h3 h4 h5 h6 h7 h8 hk
  refine ⟨by rw [f, List.length_map, List.length_range]; exact this.1, ?_⟩
  simp only [e, f, List.getElem_map, List.getElem_range]
  exact this.2

theorem acm_lambda {v : Int} (hv : 0 ≤ v) : lambda_acm_fun v = .ok (v % 2) := by
  unfold lambda_acm_fun
  rw [require_nonnegint_ok hv]
  exact irem_ok hv (by decide)

theorem acm_nestable {a b : XArgs} (h1 : 0 < a.lambda_base) (h2 : a.lambda_base ≠ 1) (c11 c20 c21 c23 c30 c33 c40 c41 c43 : Coeff)
    (hv : (c40 = 0 ∧ c41 = 0 ∧ c43 = 0) ∨ a.v_min = b.v_min ∧ a.v_max = b.v_max) :
    Nestable a.lambda_base (fun v => v % 2) a b (ACM_Hamiltonian (c11 := c11) (c20 := c20) (c21 := c21) (c23 := c23) (c30 := c30) (c33 := c33)
      (c40 := c40) (c41 := c41) (c43 := c43)) := by
  have hE : ∀ (hs : List SpHarm), (hs.map fun h => h.table.1).sum % 2 = 0 → ∀ v v', MayCouple hs v v' →
      v' % 2 - v % 2 = 0 := by
    intro hs he v v' h
    unfold MayCouple at h
    split_ifs at h <;> omega
  have hO : ∀ v v', MayCouple [.y310] v v' → v' % 2 - v % 2 = 1 ∨ v' % 2 - v % 2 = -1 := by
    intro v v' h
    unfold MayCouple at h
    simp [SpHarm.table] at h
    omega
  have hS : ∀ v, ¬ Singular (some .bm2) (a.lambda_base + ((v % 2 : Int) : ℝ)) ∧
      ¬ Singular (some .D2b) (a.lambda_base + ((v % 2 : Int) : ℝ)) := by
    intro v
    have : a.lambda_base + ((v % 2 : Int) : ℝ) ≠ 1 := by
      rcases Int.emod_two_eq_zero_or_one v with h | h <;> rw [h]
      · simpa using h2
      · push_cast
        intro hh
        linarith
    exact ⟨fun hh => this hh.2, fun hh => this hh.2⟩
  have hv2 : ∀ {c : Coeff} (_ : c ≠ 0) (_ : c = c40 ∨ c = c41 ∨ c = c43), a.v_min = b.v_min ∧ a.v_max = b.v_max := by
    intro c hc0 hcc
    rcases hv with ⟨z1, z2, z3⟩ | hv
    · rcases hcc with rfl | rfl | rfl <;> contradiction
    · exact hv
  unfold Nestable ACM_Hamiltonian
  simp only []
  refine mem_addTerm (fun h => absurd rfl h) ?_
  refine mem_addTerm (fun h => ⟨some .bm2, [.y310, .y310], rfl, by decide, .inr (hv2 h (by simp)), fun v v' _ _ _ _ hm =>
    ⟨by rw [hE _ rfl v v' hm]; exact ⟨_, rfl⟩, (hS v).1⟩⟩) ?_
  refine mem_addTerm (fun h => absurd rfl h) ?_
  refine mem_addTerm (fun h => ⟨some .b2, [.y310, .y310], rfl, by decide, .inr (hv2 h (by simp)), fun v v' _ _ _ _ hm =>
    ⟨by rw [hE _ rfl v v' hm]; exact ⟨_, rfl⟩, by simp⟩⟩) ?_
  refine mem_addTerm (fun h => ⟨none, [.y310, .y310], rfl, by decide, .inr (hv2 h (by simp)), fun v v' _ _ _ _ hm =>
    ⟨by rw [hE _ rfl v v' hm]; exact ⟨_, rfl⟩, by simp⟩⟩) ?_
  refine mem_addTerm (fun h => ⟨some .bm, [.y310], rfl, by decide, .inl (le_refl _), fun v v' _ _ _ _ hm =>
    ⟨by rcases hO v v' hm with e | e <;> rw [e] <;> exact ⟨_, rfl⟩, by simp⟩⟩) ?_
  refine mem_addTerm (fun h => absurd rfl h) ?_
  refine mem_addTerm (fun h => absurd rfl h) ?_
  refine mem_addTerm (fun h => ⟨some .b, [.y310], rfl, by decide, .inl (le_refl _), fun v v' _ _ _ _ hm =>
    ⟨by rcases hO v v' hm with e | e <;> rw [e] <;> exact ⟨_, rfl⟩, by simp⟩⟩) ?_
  refine mem_addTerm (fun h => ⟨some .bm2, [], rfl, by decide, .inl (Nat.zero_le _), fun v v' _ _ _ _ hm =>
    ⟨by rw [hE _ rfl v v' hm]; exact ⟨_, rfl⟩, (hS v).1⟩⟩) ?_
  refine mem_addTerm (fun h => absurd rfl h) ?_
  refine mem_addTerm (fun h => ⟨some .b2, [], rfl, by decide, .inl (Nat.zero_le _), fun v v' _ _ _ _ hm =>
    ⟨by rw [hE _ rfl v v' hm]; exact ⟨_, rfl⟩, by simp⟩⟩) ?_
  refine mem_addTerm (fun h => ⟨none, [], rfl, by decide, .inl (Nat.zero_le _), fun v v' _ _ _ _ hm =>
    ⟨by rw [hE _ rfl v v' hm]; exact ⟨_, rfl⟩, by simp⟩⟩) ?_
  have hD : ∃ r hs, [OpSym.rad .D2b] = oneRadial r hs ∧ r ≠ some .other ∧
      (hs.length ≤ 1 ∨ a.v_min = b.v_min ∧ a.v_max = b.v_max) ∧
      ∀ v v', b.v_min ≤ v → v ≤ b.v_max → b.v_min ≤ v' → v' ≤ b.v_max → MayCouple hs v v' →
        (∃ prim, closedForm r (v' % 2 - v % 2) = some prim) ∧
          ¬ ((r = some .bm2 ∨ r = some .D2b) ∧ a.lambda_base + ((v % 2 : Int) : ℝ) = 1) :=
    ⟨some .D2b, [], rfl, by decide, .inl (Nat.zero_le _), fun v v' _ _ _ _ hm =>
      ⟨by rw [hE _ rfl v v' hm]; exact ⟨_, rfl⟩, (hS v).2⟩⟩
  have hB : ∃ r hs, [OpSym.rad .bm2] = oneRadial r hs ∧ r ≠ some .other ∧
      (hs.length ≤ 1 ∨ a.v_min = b.v_min ∧ a.v_max = b.v_max) ∧
      ∀ v v', b.v_min ≤ v → v ≤ b.v_max → b.v_min ≤ v' → v' ≤ b.v_max → MayCouple hs v v' →
        (∃ prim, closedForm r (v' % 2 - v % 2) = some prim) ∧
          ¬ ((r = some .bm2 ∨ r = some .D2b) ∧ a.lambda_base + ((v % 2 : Int) : ℝ) = 1) :=
    ⟨some .bm2, [], rfl, by decide, .inl (Nat.zero_le _), fun v v' _ _ _ _ hm =>
      ⟨by rw [hE _ rfl v v' hm]; exact ⟨_, rfl⟩, (hS v).1⟩⟩
  split_ifs
  · intro t ht; cases ht
  · intro t ht
    simp only [List.mem_cons, List.not_mem_nil, or_false] at ht
    rcases ht with rfl | rfl
    · exact hD
    · exact hB

/-- C96 for the Hamiltonians of `ACM_Hamiltonian` (laplacian, constant, powers of beta, cos(3 gamma) and its square) in the
basis of `lambda_acm_fun`; with a term in the square of cos(3 gamma) only the range of nu may be enlarged. -/
theorem C96_acm_partial {a b : XArgs} (ha : LegalRanges a) (hb : LegalRanges b) (hc : Contains b a) (hn : a.anorm ≠ 0)
    (h1 : 0 < a.lambda_base) (h2 : a.lambda_base ≠ 1) {env : XEnv} (hla : LinAlgOk env.la)
    (c11 c20 c21 c23 c30 c33 c40 c41 c43 : Coeff)
    (hv : (c40 = 0 ∧ c41 = 0 ∧ c43 = 0) ∨ a.v_min = b.v_min ∧ a.v_max = b.v_max)
    {s s' : FState} (hs : MemoOk env s.xs) (hs' : MemoOk env s'.xs) (hl : s.glb.lam_fun = lambda_acm_fun)
    (hl' : s'.glb.lam_fun = lambda_acm_fun) {r r' : List LEig} {t t' : FState}
    (hr : DigXspace env (ACM_Hamiltonian (c11 := c11) (c20 := c20) (c21 := c21) (c23 := c23) (c30 := c30) (c33 := c33)
      (c40 := c40) (c41 := c41) (c43 := c43)) a s = (.ok r, t))
    (hr' : DigXspace env (ACM_Hamiltonian (c11 := c11) (c20 := c20) (c21 := c21) (c23 := c23) (c30 := c30) (c33 := c33)
      (c40 := c40) (c41 := c41) (c43 := c43)) b s' = (.ok r', t')) : EnergiesDrop r r' := by
  refine C96_variational_partial ha hb hc hn hla hs hs' (ls := fun v => v % 2)
    (fun v hv _ => by rw [hl]; exact acm_lambda (hb.2.1.1.trans hv)) (by rw [hl, hl']) (fun v hv _ => ?_)
    (acm_nestable h1 h2 _ _ _ _ _ _ _ _ _ hv) hr hr'
  have : (0 : ℝ) ≤ ((v % 2 : Int) : ℝ) := by exact_mod_cast Int.emod_nonneg v (by decide)
  linarith

/-- Without harmonics the space is always diagonalised. -/
theorem radHam_dig {a : XArgs} (h : LegalRanges a) {env : XEnv} (hla : LinAlgOk env.la) (ha : a.anorm ≠ 0)
    {s : FState} (hs : MemoOk env s.xs) {ls : Int → Int} (hl : ∀ v, a.v_min ≤ v → v ≤ a.v_max → s.glb.lam_fun v = .ok (ls v))
    (hpos : ∀ v, a.v_min ≤ v → v ≤ a.v_max → 0 < a.lambda_base + ls v)
    (hne : ∀ v, a.v_min ≤ v → v ≤ a.v_max → a.lambda_base + ls v ≠ 1) (c11 c20 c21 c22 c23 : Coeff) :
    ∃ r s', DigXspace env (ACM_Hamiltonian (c11 := c11) (c20 := c20) (c21 := c21) (c22 := c22) (c23 := c23)) a s = (.ok r, s') := by
  have ht : Op_Tame (ACM_Hamiltonian (c11 := c11) (c20 := c20) (c21 := c21) (c22 := c22) (c23 := c23)) = true := by
    rw [C63_tame]
    intro t ht
    rcases radHam_terms _ _ _ _ _ t ht with e | e | e | e | e <;> rw [e] <;> simp
  obtain ⟨r, s', hr⟩ := digTame_total (ts := ACM_Hamiltonian (c11 := c11) (c20 := c20) (c21 := c21) (c22 := c22) (c23 := c23)) h _
    (range_nonneg h) s hs fun L hL => by
      obtain ⟨M, hM, _⟩ := radHam_matrix (legal_at h (range_nonneg h L hL)) hla (env := env) (lam := s.glb.lam_fun) ha hl
        hpos hne c11 c20 c21 c22 c23
      exact ⟨M, hM⟩
  refine ⟨r, s', ?_⟩
  unfold DigXspace
  rw [check_ok h, st_lift_ok, if_pos ht]
  exact hr

/-- The hypotheses of C96 are met, with any coefficients of the laplacian, the constant, beta^2 and 1/beta^2 (the basis need
not be matched to them): both spaces are diagonalised, and the second has more states. -/
example {env : XEnv} (hla : LinAlgOk env.la) (c11 c20 c21 c23 : Coeff) : ∃ (a b : XArgs) (s : FState) (r r' : List LEig)
    (t t' : FState), LegalRanges a ∧ LegalRanges b ∧ Contains b a ∧ a.nu_max < b.nu_max ∧ a.v_max < b.v_max ∧ a.anorm ≠ 0 ∧
      0 < a.lambda_base ∧ a.lambda_base ≠ 1 ∧ MemoOk env s.xs ∧ s.glb.lam_fun = lambda_acm_fun ∧
      DigXspace env (ACM_Hamiltonian (c11 := c11) (c20 := c20) (c21 := c21) (c23 := c23)) a s = (.ok r, t) ∧
      DigXspace env (ACM_Hamiltonian (c11 := c11) (c20 := c20) (c21 := c21) (c23 := c23)) b s = (.ok r', t') := by
  let a : XArgs := ⟨3, 5 / 2, 0, 4, 0, 6, 0, 4⟩
  let b : XArgs := ⟨3, 5 / 2, 0, 9, 0, 12, 0, 4⟩
  let s : FState := ⟨{ Glb.init with lam_fun := lambda_acm_fun }, fun _ => none, fun _ _ => none, fun _ => none, []⟩
  have hm : MemoOk env s.xs := memoOk_start env lambda_acm_fun
  have key : ∀ v : Int, 0 < (5 / 2 : ℝ) + ((v % 2 : Int) : ℝ) ∧ (5 / 2 : ℝ) + ((v % 2 : Int) : ℝ) ≠ 1 := by
    intro v
    have : (0 : ℝ) ≤ ((v % 2 : Int) : ℝ) := by exact_mod_cast Int.emod_nonneg v (by decide)
    exact ⟨by linarith, by intro hh; linarith⟩
  have la : LegalRanges a := by simp [LegalRanges, a]
  have lb : LegalRanges b := by simp [LegalRanges, b]
  obtain ⟨r, t, h1⟩ := radHam_dig la hla (by norm_num [a]) hm (fun v hv _ => acm_lambda hv) (fun v _ _ => (key v).1)
    (fun v _ _ => (key v).2) c11 c20 c21 0 c23
  obtain ⟨r', t', h2⟩ := radHam_dig lb hla (by norm_num [b]) hm (fun v hv _ => acm_lambda hv) (fun v _ _ => (key v).1)
    (fun v _ _ => (key v).2) c11 c20 c21 0 c23
  exact ⟨a, b, s, r, r', t, t', la, lb, by simp [Contains, a, b], by simp [a, b], by simp [a, b], by norm_num [a],
    by norm_num [a], by norm_num [a], hm, rfl, h1, h2⟩

/-- The Hamiltonian `-7 laplacian + beta^4` on the states with v = 0 and nu up to n. -/
theorem quartic_levels {n : ℕ} (hn : n ≤ 1) {env : XEnv} (hla : LinAlgOk env.la) {s : FState} (hs : MemoOk env s.xs)
    (hl : s.glb.lam_fun 0 = .ok 0) :
    ∃ x t, DigXspace env (ACM_Hamiltonian (c11 := kC (-7)) (c22 := kC 1)) ⟨1, 5 / 2, 0, n, 0, 0, 0, 0⟩ s = (.ok [x], t) ∧
      x.L = 0 ∧ x.vals.Perm (if n = 0 then [95 / 4] else [105 / 4, 217 / 4]) := by
  set a : XArgs := ⟨1, 5 / 2, 0, n, 0, 0, 0, 0⟩ with hadef
  have ha : LegalRanges a := by simp [LegalRanges, a]
  have hlam : ∀ v, a.v_min ≤ v → v ≤ a.v_max → s.glb.lam_fun v = .ok ((fun _ => 0 : Int → Int) v) := by
    intro v h1 h2
    have h1 : 0 ≤ v := h1
    have h2 : v ≤ 0 := h2
    obtain rfl : v = 0 := by omega
    exact hl
  have hpos : ∀ v, a.v_min ≤ v → v ≤ a.v_max → 0 < a.lambda_base + (((fun _ => 0 : Int → Int) v : Int) : ℝ) := by
    intro v _ _; norm_num [a]
  have hne : ∀ v, a.v_min ≤ v → v ≤ a.v_max → a.lambda_base + (((fun _ => 0 : Int → Int) v : Int) : ℝ) ≠ 1 := by
    intro v _ _; norm_num [a]
  obtain ⟨r, t, hr⟩ := radHam_dig ha hla (by norm_num [a]) hs hlam hpos hne (kC (-7)) 0 0 (kC 1) 0
  have ht : Op_Tame (ACM_Hamiltonian (c11 := kC (-7)) (c22 := kC 1)) = true := by
    rw [C63_tame]
    intro t ht
    rcases radHam_terms _ _ _ _ _ t ht with e | e | e | e | e <;> rw [e] <;> simp
  obtain ⟨ho, hx⟩ := C32_partial ht ha hs hr
  have h0 : (0 : Int) ∈ r.map LEig.L := by
    refine (ho.2 0).2 ⟨by simp [a], (n + 1 : ℕ), ?_, by exact_mod_cast Nat.succ_ne_zero n⟩
    rcases (by omega : n = 0 ∨ n = 1) with rfl | rfl <;> decide +kernel
  have hall : ∀ x ∈ r, x.L = 0 := by
    intro x hxr
    have := ((ho.2 x.L).1 (List.mem_map_of_mem hxr)).1
    have h1 : 0 ≤ x.L := this.1
    have h2 : x.L ≤ 0 := this.2
    omega
  have hr1 : ∃ x, r = [x] := by
    match r, h0, ho.1, hall with
    | [x], _, _, _ => exact ⟨x, rfl⟩
    | x :: y :: r, _, hp, hall =>
      have := (List.pairwise_cons.1 hp).1 y.L (by simp)
      rw [hall x (by simp), hall y (by simp)] at this
      omega
  obtain ⟨x, rfl⟩ := hr1
  refine ⟨x, t, hr, hall x (by simp), ?_⟩
  obtain ⟨_, M, v, e1, e2, e3⟩ := hx x (by simp)
  rw [hall x (by simp), rep_eq (legal_at ha (le_refl _)) hs] at e1
  obtain ⟨M', g1, g2, g3⟩ := radHam_matrix (legal_at ha (le_refl 0)) hla (env := env) (lam := s.glb.lam_fun)
    (show (a.at 0).anorm ≠ 0 by norm_num [a, XArgs.at]) hlam hpos hne (kC (-7)) 0 0 (kC 1) 0
  have g1' : allMat env (a.at 0) (ACM_Hamiltonian (c11 := kC (-7)) (c22 := kC 1)) s.xs.lam_fun = .ok M' := g1
  rw [e1] at g1'
  injection g1' with g1'
  subst g1'
  have h52 : Real.sqrt 5 / Real.sqrt 2 * (Real.sqrt 5 / Real.sqrt 2) = 5 / 2 := by
    rw [div_mul_div_comm, Real.mul_self_sqrt (by norm_num), Real.mul_self_sqrt (by norm_num)]
  have hel : ∀ p q, p < (a.at 0).dim → q < (a.at 0).dim → M.e p q = if p = q then
      (if n = 0 then [95 / 4] else [105 / 4, 217 / 4]).getD p 0 else 0 := by
    intro p q hp hq
    rcases (by omega : n = 0 ∨ n = 1) with rfl | rfl
    · have hd : (a.at 0).dim = 1 := by decide +kernel
      have hlb : (a.at 0).xlabels = [(0, 0, 1, 0)] := by decide +kernel
      rw [hd] at hp hq
      obtain rfl : p = 0 := by omega
      obtain rfl : q = 0 := by omega
      rw [g3 0 0 _ _ (by rw [hlb]; rfl) (by rw [hlb]; rfl)]
      simp [kC, radElem, vSp, vSm, vS0, a, XArgs.at]
      norm_num
    · have hd : (a.at 0).dim = 2 := by decide +kernel
      have hlb : (a.at 0).xlabels = [(0, 0, 1, 0), (1, 0, 1, 0)] := by decide +kernel
      rw [hd] at hp hq
      have hi : Finset.Icc 0 1 = {0, 1} := by decide
      interval_cases p <;> interval_cases q
      · rw [g3 0 0 _ _ (by rw [hlb]; rfl) (by rw [hlb]; rfl)]
        simp [kC, radElem, vSp, vSm, vS0, a, XArgs.at, hi]
        norm_num
        linarith
      · rw [g3 0 1 _ _ (by rw [hlb]; rfl) (by rw [hlb]; rfl)]
        simp [kC, radElem, vSp, vSm, vS0, a, XArgs.at, hi]
        ring
      · rw [g3 1 0 _ _ (by rw [hlb]; rfl) (by rw [hlb]; rfl)]
        simp [kC, radElem, vSp, vSm, vS0, a, XArgs.at, hi]
        ring
      · rw [g3 1 1 _ _ (by rw [hlb]; rfl) (by rw [hlb]; rfl)]
        simp [kC, radElem, vSp, vSm, vS0, a, XArgs.at, hi]
        norm_num
        linarith
  obtain ⟨k1, _⟩ := eig_diag hla g2.1 g2.2.1 hel e2
  rw [e3, g2.1]
  refine k1.trans (List.Perm.of_eq ?_)
  rcases (by omega : n = 0 ∨ n = 1) with rfl | rfl
  · have hd : (a.at 0).dim = 1 := by decide +kernel
    rw [hd]; rfl
  · have hd : (a.at 0).dim = 2 := by decide +kernel
    rw [hd]; rfl

/-- C96 does not hold for all Hamiltonians: `beta^4` is represented by the square of the truncated matrix of `beta^2`
(`RepXspace_Twin` sets `glb_nu_lap` to 0), and the lowest energy of `-7 laplacian + beta^4` on the states with v = 0 rises
from 95/4 to 105/4 when the space is enlarged from nu = 0 to nu = 0, 1. -/
theorem C96_fails {env : XEnv} (hla : LinAlgOk env.la) {s : FState} (hs : MemoOk env s.xs) (hl : s.glb.lam_fun 0 = .ok 0) :
    ∃ (a b : XArgs) (r r' : List LEig) (t t' : FState), LegalRanges a ∧ LegalRanges b ∧ Contains b a ∧ a.v_max = b.v_max ∧
      DigXspace env (ACM_Hamiltonian (c11 := kC (-7)) (c22 := kC 1)) a s = (.ok r, t) ∧
      DigXspace env (ACM_Hamiltonian (c11 := kC (-7)) (c22 := kC 1)) b s = (.ok r', t') ∧ ¬ EnergiesDrop r r' := by
  obtain ⟨x, t, h1, h2, h3⟩ := quartic_levels (n := 0) (by omega) hla hs hl
  obtain ⟨y, t', k1, k2, k3⟩ := quartic_levels (n := 1) (by omega) hla hs hl
  rw [if_pos rfl] at h3
  rw [if_neg (by decide)] at k3
  refine ⟨⟨1, 5 / 2, 0, 0, 0, 0, 0, 0⟩, ⟨1, 5 / 2, 0, 1, 0, 0, 0, 0⟩, [x], [y], t, t', by simp [LegalRanges],
    by simp [LegalRanges], by simp [Contains], rfl, h1, k1, fun hd => ?_⟩
  obtain ⟨z, hz, _, hz2⟩ := hd x (by simp)
  rw [List.mem_singleton] at hz
  subst hz
  have hx : x.vals = [95 / 4] := List.perm_singleton.1 h3
  obtain ⟨hk, hle⟩ := hz2 0 (by rw [hx]; simp)
  have : z.vals[0] ∈ [(105 / 4 : ℝ), 217 / 4] := k3.mem_iff.1 (List.getElem_mem _)
  simp only [hx, List.getElem_cons_zero] at hle
  simp only [List.mem_cons, List.not_mem_nil, or_false] at this
  rcases this with e | e <;> rw [e] at hle <;> norm_num at hle

end Acm.Props
