import Verif.Model.Paper
import Verif.Props.Ground
import Verif.Props.HamData
import Verif.Props.Spectrum
import Verif.Props.Zonal

/-!
# C115: the formulas of the paper, and the energy of the ground state
-/

namespace Acm.Props

open Acm.Spec

/-- C115: the formulas of papers/wr2015.py are the ones the library uses. -/
theorem C115_formulas : (∀ (l : ℝ) (v : ℕ), (∃ n, lambda_sho_fun v = .ok n ∧ lambdav_61 l v = l + n) ∧
      (∃ n, lambda_acm_fun v = .ok n ∧ lambdav_62 l v = l + n) ∧ ∃ n, lambda_fix_fun v = .ok n ∧ lambdav_63 l v = l + n) ∧
    (∀ a beta0, lambda0_B11 a beta0 = lam_dav a beta0 0) ∧ (∀ c1 c2, beta0_B15 c1 c2 = beta_dav c1 c2) ∧
    ∀ B c1 c2 kappa a l, RWC_expt B c1 c2 kappa a l =
      if a = 0 ∨ l = 1 then .error .valueError else if B = 0 then .error .zeroDivisionError else .ok (E_B16 a l B c1 c2 + kappa / 3) := by
  refine ⟨fun l v => ?_, fun a b => ?_, fun c1 c2 => ?_, fun B c1 c2 kappa a l => ?_⟩
  · obtain ⟨h1, h2, h3, _⟩ := C48_simple v
    refine ⟨⟨_, h2, rfl⟩, ⟨_, h3, ?_⟩, ⟨_, h1, ?_⟩⟩
    · unfold lambdav_62
      push_cast
      rfl
    · unfold lambdav_63
      simp
  · unfold lambda0_B11 lam_dav
    norm_num
  · unfold beta0_B15 beta_dav
    by_cases h : c1 < 0
    · rw [if_pos h, if_neg (by linarith), mul_comm]
    · rw [if_neg h, if_pos (by linarith)]
  · unfold RWC_expt E_B16
    by_cases ha : a = 0
    · rw [if_pos ha, if_pos (.inl ha)]
      rfl
    by_cases hl : l = 1
    · rw [if_neg ha, if_pos hl, if_pos (.inr hl)]
      rfl
    rw [if_neg ha, if_neg hl, if_neg (not_or.2 ⟨ha, hl⟩)]
    by_cases hB : B = 0
    · rw [if_pos hB, if_pos hB]
      rfl
    rw [if_neg hB, if_neg hB]
    refine congrArg Except.ok ?_
    have : l - 1 ≠ 0 := sub_ne_zero.2 hl
    field_simp
    ring

/-! ### the element of the Hamiltonian in the lowest basis state -/

theorem rad_lowest {a l : ℝ} (ha : a ≠ 0) (hl : 0 < l) (hl1 : l ≠ 1) {hi : ℕ} (hhi : 1 ≤ hi) :
    radElem 0 hi a l 0 0 [.rad .b2] = l / a ^ 2 ∧ radElem 0 hi a l 0 0 [.rad .b2, .rad .b2] = l * (l + 1) / a ^ 4 ∧
    radElem 0 hi a l 0 0 [.rad .bm2] = a ^ 2 / (l - 1) ∧
    radElem 0 hi a l 0 0 [.rad .D2b] = a ^ 2 * (-l + (l - 3 / 2) * (l - 1 / 2) / (l - 1)) := by
  have h1 : l - 1 ≠ 0 := sub_ne_zero.2 hl1
  have hN0 : hN l 0 ≠ 0 := by
    simp [hN, Real.sqrt_ne_zero'.2 (Real.Gamma_pos_of_pos hl)]
  have e2 : a ^ (-2 : Int) = 1 / a ^ 2 := by rw [zpow_neg, one_div]; rfl
  have e4 : a ^ (-4 : Int) = 1 / a ^ 4 := by rw [zpow_neg, one_div]; rfl
  have ep : a ^ (2 : Int) = a ^ 2 := rfl
  have hb : vbm2 l 0 0 = 1 / (l - 1) := by
    unfold vbm2
    simp [hN0]
  refine ⟨?_, ?_, ?_, ?_⟩
  · simp only [radElem, e2, vSp, vSm, vS0]
    norm_num
    field_simp
  · simp only [radElem, e4]
    rw [← Finset.sum_subset (s₁ := {0, 1}) (by
      intro k hk
      simp only [Finset.mem_insert, Finset.mem_singleton] at hk
      simp only [Finset.mem_Icc]
      omega) (by
      intro k _ hk
      simp only [Finset.mem_insert, Finset.mem_singleton, not_or] at hk
      have h1 : vSp l 0 k + vSm l 0 k + 2 * vS0 l 0 k = 0 := by
        unfold vSp vSm vS0
        rw [if_neg (by omega), if_neg (by omega), if_neg (by omega)]
        ring
      rw [h1, zero_mul]), Finset.sum_pair (by norm_num)]
    have s1 : vSm l 0 1 = Real.sqrt l := by simp [vSm]
    have s2 : vSp l 1 0 = Real.sqrt l := by simp [vSp]
    have z : vSp l 0 0 = 0 ∧ vSm l 0 0 = 0 ∧ vS0 l 0 0 = l / 2 ∧ vSp l 0 1 = 0 ∧ vS0 l 0 1 = 0 ∧ vSm l 1 0 = 0 ∧ vS0 l 1 0 = 0 := by
      simp [vSp, vSm, vS0]
    obtain ⟨z1, z2, z3, z4, z5, z6, z7⟩ := z
    rw [s1, s2, z1, z2, z3, z4, z5, z6, z7]
    have := Real.mul_self_sqrt hl.le
    have : (0 + 0 + 2 * (l / 2)) * (0 + 0 + 2 * (l / 2)) + (0 + √l + 2 * 0) * (√l + 0 + 2 * 0) = l * (l + 1) := by nlinarith
    rw [this]
    ring
  · simp only [radElem, ep, hb]
    ring
  · simp only [radElem, ep, hb, vSp, vSm, vS0]
    norm_num
    left
    ring

theorem y310_sq {fs : FileSys} {dir : Option (List Char)} {a : XArgs} (h : LegalRanges a) (hv0 : a.v_min = 0) (hv3 : 3 ≤ a.v_max)
    (hL0 : a.L_min = 0) (hL1 : a.L_max = 0) {c : ℝ} (hc : fileCG fs dir (0, 1, 0) (3, 1, 0) (3, 1, 0) = .ok c) {S : Arr}
    (hS : RepSO5r3_Prod_wrk (fileCG fs dir) (sphItems [.harm .y310, .harm .y310]) a.v_min a.v_max a.L_min a.L_max = .ok S) {i : ℕ}
    (hi : a.states[i]? = some (0, 1, 0)) : S.e i i = 3 * c ^ 2 := by
  have hY : ∃ Y, RepSO5_Y_rem (fileCG fs dir) SpHarm.y310.table a.v_min a.v_max a.L_min a.L_max = .ok Y ∧ S = Y.mul Y := by
    unfold RepSO5r3_Prod_wrk at hS
    rw [if_neg (by simp [sphItems])] at hS
    obtain ⟨r, hr, hS⟩ := py_bind_eq_ok hS
    cases r with
    | none => cases hS
    | some P =>
      injection hS with hS
      subst hS
      simp only [sphItems, List.map_cons, List.map_nil, RepSO5r3_loop, RepSO5r3_item] at hr
      obtain ⟨M, hM, hr⟩ := py_bind_eq_ok hr
      rw [hM, py_bind_ok] at hr
      injection hr with hr
      injection hr with hr
      exact ⟨M, hM, hr.symm⟩
  obtain ⟨Y, hY, rfl⟩ := hY
  have sq := (RepSO5_Y_rem_ok (states_ok h) hY).1
  have hsym := C97_y310 h fs dir hY
  have hin := (List.getElem?_eq_some_iff.1 hi).1
  have mem3 : ((3, 1, 0) : Label) ∈ a.states := by
    unfold XArgs.states
    rw [mem_labelsV, hL0, hL1, hv0]
    have : dimV 3 0 = 1 := by decide +kernel
    refine ⟨⟨by norm_num, hv3⟩, ?_, ?_⟩ <;> simp [this]
  obtain ⟨k, hk, ek⟩ := List.getElem_of_mem mem3
  have hk' : a.states[k]? = some (3, 1, 0) := by rw [List.getElem?_eq_getElem hk, ek]
  have ent : Y.e k i ^ 2 = 3 * c ^ 2 := by
    obtain ⟨c', m, k1, k2, k3⟩ := C72_entries (states_ok h) hY k i _ _ hk' hi
    rw [show SpHarm.y310.table = (3, 1, 0) from rfl, hc] at k1
    injection k1 with k1
    subst k1
    obtain ⟨m', j1, j2⟩ := ME_sq 3 3 0
    have j1' : ME_SO5red 3 3 0 = .ok m' := j1
    rw [show SpHarm.y310.table = (3, 1, 0) from rfl, j1'] at k2
    injection k2 with k2
    subst k2
    rw [k3, mul_pow]
    have : m' ^ 2 = 3 := by
      have hG : Acm.Zonal.G (3 : ℕ) (0 : ℕ) (3 : ℕ) = 1 := by
        rw [Acm.Zonal.G, if_pos (by norm_num)]
        norm_num [Acm.Zonal.tri, Acm.Zonal.Kap, Acm.Zonal.kap, Nat.factorial, show Int.toNat 3 = 3 from rfl]
      rw [hG] at j2
      have d3 : Acm.Spec.Sphere.dim 3 ≠ 0 := (dim_pos 3).ne'
      have d0 : Acm.Spec.Sphere.dim 0 = 1 := by norm_num [Acm.Spec.Sphere.dim]
      rw [d0] at j2
      field_simp at j2
      linarith
    rw [this]
    ring
  have zero : ∀ j, j < a.states.length → j ≠ k → Y.e j i = 0 := by
    intro j hj hjk
    by_contra hne
    have hj' := List.getElem?_eq_getElem hj
    obtain ⟨v, al, L, e, h1⟩ := state_nat h (List.getElem_mem hj)
    rw [e] at hj'
    obtain ⟨c', m, _, k2, k3⟩ := C72_entries (states_ok h) hY j i _ _ hj' hi
    obtain ⟨m', j1, _, j3⟩ := C65_selection v 3 0
    have j1' : ME_SO5red (v : Int) SpHarm.y310.table.1 0 = .ok m' := j1
    rw [j1'] at k2
    injection k2 with k2
    subst k2
    have hm : m' ≠ 0 := fun h0 => hne (by rw [k3, h0, mul_zero])
    have hv : v = 3 := by
      by_contra hv
      exact hm (j3 (by omega))
    subst hv
    have hmem := List.getElem_mem hj
    rw [e] at hmem
    unfold XArgs.states at hmem
    rw [mem_labelsV, hL0, hL1] at hmem
    obtain ⟨_, hal, hL⟩ := hmem
    have hL' : L = 0 := by omega
    subst hL'
    have : dimV 3 0 = 1 := by decide +kernel
    have hal' : al = 1 := by
      have h2 := hal.2
      have h3 : dimV ((3 : ℕ) : Int) ((0 : ℕ) : Int) = 1 := this
      rw [h3] at h2
      omega
    subst hal'
    exact hjk (states_inj hj' hk')
  have hmul := congrFun (congrFun (mat_mul sq.1 sq.2.1 sq.2.1) ⟨i, hin⟩) ⟨i, hin⟩
  rw [Matrix.mul_apply] at hmul
  refine hmul.trans ?_
  rw [Finset.sum_eq_single ⟨k, hk⟩]
  · show Y.e i k * Y.e k i = _
    rw [hsym i hin k hk, ← ent]
    ring
  · intro j _ hj
    show Y.e i j * Y.e j i = 0
    rw [zero j j.2 fun e => hj (Fin.ext e), mul_zero]
  · simp

/-- C115: on the first basis state the matrix of the Hamiltonian has the element that `RWC_expt` computes, if the space has at least two
radial functions and the seniority 3, and the Clebsch-Gordan coefficient for the seniorities 0, 3, 3 is 1 or -1. -/
theorem C115_element {fs : FileSys} {dir : Option (List Char)} {la : LinAlg} (hla : LinAlgOk la) {a : XArgs} (h : LegalRanges a)
    (hn0 : a.nu_min = 0) (hn1 : 1 ≤ a.nu_max) (hv0 : a.v_min = 0) (hv3 : 3 ≤ a.v_max) (hL0 : a.L_min = 0) (hL1 : a.L_max = 0)
    (ha : a.anorm ≠ 0) {s : XState} (hs : MemoOk ⟨fileCG fs dir, la⟩ s) {ls : Int → Int}
    (hl : ∀ v, a.v_min ≤ v → v ≤ a.v_max → s.lam_fun v = .ok (ls v)) (hl0 : ls 0 = 0)
    (hpos : ∀ v, a.v_min ≤ v → v ≤ a.v_max → 0 < a.lambda_base + ls v ∧ a.lambda_base + ls v ≠ 1) {c : ℝ}
    (hc : fileCG fs dir (0, 1, 0) (3, 1, 0) (3, 1, 0) = .ok c) (hc1 : c ^ 2 = 1) {B : ℝ} (hB : B ≠ 0) (c1 c2 chi kappa : ℝ) {M : Arr}
    (hM : (RepXspace ⟨fileCG fs dir, la⟩ (RWC_Ham (kC B) (kC c1) (kC c2) (kC chi) (kC kappa)) a s).1 = .ok M) {p : ℕ}
    (hp : a.xlabels[p]? = some (0, 0, 1, 0)) : RWC_expt B c1 c2 kappa a.anorm a.lambda_base = .ok (M.e p p) := by
  have hlab : ∀ v, a.v_min ≤ v → v ≤ a.v_max → 0 < a.lambda_base + ls v := fun v h1 h2 => (hpos v h1 h2).1
  have hlam := hpos 0 (by omega) (by omega)
  rw [hl0, Int.cast_zero, add_zero] at hlam
  have hlen := (List.getElem?_eq_some_iff.1 hp).1
  -- the three parts
  have exA : ∃ MA, allMat ⟨fileCG fs dir, la⟩ a (ACM_Hamiltonian (c11 := -1 / (2 * kC B)) (c21 := kC B * kC c1 / 2) (c22 := kC B * kC c2 / 2)) s.lam_fun =
      .ok MA ∧ MA.e p p = (-1 / (2 * B)) * (radElem 0 a.nu_max.toNat a.anorm a.lambda_base 0 0 [.rad .D2b] -
        2 * radElem 0 a.nu_max.toNat a.anorm a.lambda_base 0 0 [.rad .bm2]) +
        B * c1 / 2 * radElem 0 a.nu_max.toNat a.anorm a.lambda_base 0 0 [.rad .b2] +
        B * c2 / 2 * radElem 0 a.nu_max.toNat a.anorm a.lambda_base 0 0 [.rad .b2, .rad .b2] := by
    obtain ⟨MA, h1, _, h2⟩ := radHam_matrix (env := ⟨fileCG fs dir, la⟩) h hla ha hl hlab (fun v h1 h2 => (hpos v h1 h2).2)
      (-1 / (2 * kC B)) 0 (kC B * kC c1 / 2) (kC B * kC c2 / 2) 0
    refine ⟨MA, h1, ?_⟩
    rw [h2 p p _ _ hp hp, if_pos rfl]
    simp only [hl0, hn0, Pi.div_apply, Pi.mul_apply, Pi.neg_apply, kC, Pi.ofNat_apply, Int.toNat_zero]
    norm_num
  obtain ⟨MA, hA, eA⟩ := exA
  rw [← rep_eq h hs] at hA
  obtain ⟨r1, r2, r3, r4⟩ := rad_lowest ha hlam.1 hlam.2 (hi := a.nu_max.toNat) (by omega)
  rw [r1, r2, r3, r4] at eA
  have prods := (C30_exists h hs _).1 ⟨_, hM⟩
  have one : ∀ (op : OperatorSum) (k : Coeff) (w : OperatorProduct), addTerm op 0 k w = op := fun op k w => by
    unfold addTerm
    simp
  have mem : ∀ {op : OperatorSum} {c k : Coeff} {w : OperatorProduct}, ∀ t ∈ op, t ∈ addTerm op c k w := by
    intro op c k w t ht
    unfold addTerm
    split_ifs
    · exact List.mem_append_left _ ht
    · exact ht
  have self : ∀ {op : OperatorSum} {c k : Coeff} {w : OperatorProduct}, ∀ t ∈ addTerm [] c k w, t ∈ addTerm op c k w := by
    intro op c k w t ht
    unfold addTerm at ht ⊢
    split_ifs at ht ⊢
    · exact List.mem_append_right _ ht
    · cases ht
  have h30 : ∀ k : Coeff, ACM_Hamiltonian (c30 := k) = addTerm [] k (k * kC Convert_310) [.rad .b, .harm .y310] := fun k => by
    unfold ACM_Hamiltonian
    simp only [one, if_true]
  have h40 : ∀ k : Coeff, ACM_Hamiltonian (c40 := k) = addTerm [] k (k * kC Convert_310 ^ 2) [.harm .y310, .harm .y310] := fun k => by
    unfold ACM_Hamiltonian
    simp only [one, if_true]
  have ex3 : ∃ M3, (RepXspace ⟨fileCG fs dir, la⟩ (ACM_Hamiltonian (c30 := -kC chi)) a s).1 = .ok M3 := by
    refine (C30_exists h hs _).2 fun t ht => prods t ?_
    rw [h30] at ht
    unfold RWC_Ham ACM_Hamiltonian
    simp only [one]
    exact mem _ (self _ ht)
  have ex4 : ∃ M4, (RepXspace ⟨fileCG fs dir, la⟩ (ACM_Hamiltonian (c40 := kC kappa)) a s).1 = .ok M4 := by
    refine (C30_exists h hs _).2 fun t ht => prods t ?_
    rw [h40] at ht
    unfold RWC_Ham ACM_Hamiltonian
    simp only [one]
    exact self _ ht
  obtain ⟨M3, h3⟩ := ex3
  obtain ⟨M4, h4⟩ := ex4
  have k1 : kC 1 = 1 := rfl
  obtain ⟨N, hN, _, _, eN⟩ := C112_matrix h hs (C112_hamiltonian 1 1 _ _ _ _ _ _ _ _ _ _ _ _ _ _ _ _ _ _ _ _ _ _ _ _ _ _ _ _) hA h3
  simp only [k1, one_mul, add_zero, zero_add] at hN
  obtain ⟨M', hM', _, _, eM⟩ := C112_matrix h hs (C112_hamiltonian 1 1 _ _ _ _ _ _ _ _ _ _ _ _ _ _ _ _ _ _ _ _ _ _ _ _ _ _ _ _) hN h4
  simp only [k1, one_mul, add_zero, zero_add] at hM'
  have : M' = M := by
    have := hM'.symm.trans hM
    injection this
  subst this
  have hx := lbsXspace_ok h
  -- the cubic term changes the seniority
  have e3 : M3.e p p = 0 := by
    refine C102_seniority h hs h3 hx p p _ _ hp hp ?_
    rintro ⟨t, ht, _, h2⟩
    rw [h30] at ht
    unfold addTerm at ht
    split_ifs at ht
    · rw [List.nil_append, List.mem_singleton] at ht
      subst ht
      have : ¬ ((0 : Int) - 0 - (3 : ℕ)) % 2 = 0 := by decide
      exact this h2
    · cases ht
  have e4 : M4.e p p = kappa / 3 := by
    obtain ⟨Ps, hPs⟩ : ∃ Ps, List.Forall₂ (fun t P => (RepXspace_Prod ⟨fileCG fs dir, la⟩ t.2 a s).1 = .ok P) (ACM_Hamiltonian (c40 := kC kappa)) Ps := by
      have := (C30_exists h hs _).1 ⟨_, h4⟩
      rw [h40] at this ⊢
      unfold addTerm at this ⊢
      split_ifs at this ⊢
      · obtain ⟨P, hP⟩ := this _ (List.mem_append_right _ (List.mem_singleton.2 rfl))
        exact ⟨[P], .cons hP .nil⟩
      · exact ⟨[], .nil⟩
    have hsum := (C30_sum h hs h4 hx hPs).2 p p _ hlen hp
    rw [hsum]
    rw [h40] at hPs ⊢
    by_cases hk : kC kappa = 0
    · have : kappa = 0 := congrFun hk (0, 0, 1, 0)
      rw [this]
      rw [show kC (0 : ℝ) = 0 from rfl, one]
      simp
    · unfold addTerm at hPs ⊢
      rw [if_pos hk] at hPs ⊢
      rw [List.nil_append] at hPs ⊢
      cases hPs with
      | cons hP h0 =>
        cases h0
        rename_i P
        rw [prod_eq hs] at hP
        rw [show [OpSym.harm SpHarm.y310, OpSym.harm SpHarm.y310] = ([] : List RadSym).map OpSym.rad ++ List.replicate 2 (.harm .y310) from rfl,
          prodMat_word h (by simp)] at hP
        obtain ⟨_, S, hS, hel⟩ := C28_elements h _ _ _ _ hx (states_ok h) hP
        obtain ⟨i, j, lf, li, i1, i2, l1, l2, z, nz⟩ := hel p p _ _ _ _ hp hp
        have : i = j := states_inj i1 i2
        subst this
        have eS := y310_sq h hv0 hv3 hL0 hL1 hc hS i1
        rw [hc1, mul_one] at eS
        obtain ⟨R, hR, eP⟩ := nz (by rw [eS]; norm_num)
        have := l1.symm.trans l2
        injection this with this
        subst this
        have := (hl 0 (by omega) (by omega)).symm.trans l1
        injection this with this
        rw [hl0] at this
        subst this
        rw [sub_self, Int.cast_zero, add_zero, radial_empty _ _ _ hlam.1 _ _ (by omega)] at hR
        injection hR with hR
        subst hR
        simp only [List.zipWith_cons_cons, List.zipWith_nil_left, List.sum_cons, List.sum_nil, add_zero]
        rw [eP, eS, show harmonics (List.replicate 2 (OpSym.harm SpHarm.y310)) = 2 from rfl]
        have hI : (Arr.eye (a.nu_max - a.nu_min + 1).toNat).e (0 - a.nu_min).toNat (0 - a.nu_min).toNat = 1 := by
          rw [hn0]
          simp only [Arr.eye, Arr.of]
          rw [if_pos (by omega), if_pos trivial]
        rw [hI]
        simp only [Pi.mul_apply, Pi.pow_apply, kC, Convert_310, FourPi]
        have := Real.pi_ne_zero
        field_simp
  rw [eM p p, eN p p, e3, e4, eA]
  rw [RWC_expt, if_neg ha, if_neg hlam.2, if_neg hB]
  refine congrArg Except.ok ?_
  have : a.lambda_base - 1 ≠ 0 := sub_ne_zero.2 hlam.2
  field_simp
  ring

theorem hamiltonian_word {B c1 c2 chi kappa : Coeff} : ∀ t ∈ RWC_Ham B c1 c2 chi kappa, t.2 ∈ [[OpSym.rad .D2b], [.rad .bm2], [.rad .b2],
    [.rad .b2, .rad .b2], [.rad .b, .harm .y310], [.harm .y310, .harm .y310]] := by
  have one : ∀ (op : OperatorSum) (k : Coeff) (w : OperatorProduct), addTerm op 0 k w = op := fun op k w => by
    unfold addTerm
    simp
  have step : ∀ {op : OperatorSum} {c k : Coeff} {w : OperatorProduct} {W : List OperatorProduct}, (∀ t ∈ op, t.2 ∈ W) → w ∈ W →
      ∀ t ∈ addTerm op c k w, t.2 ∈ W := by
    intro op c k w W hop hw t ht
    unfold addTerm at ht
    split_ifs at ht
    · rcases List.mem_append.1 ht with h | h
      · exact hop t h
      · rw [List.mem_singleton.1 h]
        exact hw
    · exact hop t ht
  unfold RWC_Ham ACM_Hamiltonian
  simp only [one]
  refine step (step (step (step (fun t ht => ?_) (by simp)) (by simp)) (by simp)) (by simp)
  split_ifs at ht
  · cases ht
  · simp only [List.mem_cons, List.not_mem_nil, or_false] at ht
    rcases ht with rfl | rfl <;> simp

theorem hamiltonian_tame (B c1 c2 chi kappa : Coeff) : Op_Tame (RWC_Ham B c1 c2 chi kappa) = true := by
  rw [C63_tame]
  intro t ht
  have := hamiltonian_word t ht
  simp only [List.mem_cons, List.not_mem_nil, or_false] at this
  rcases this with h | h | h | h | h | h <;> rw [h] <;> simp

/-- C115: the energy of the ground state that the program finds for the Hamiltonian `RWC_Ham` is not above the value of `RWC_expt` for the
parameters of the basis, whatever `chi` is. -/
theorem C115_ground {fs : FileSys} {dir : Option (List Char)} {la : LinAlg} (hla : LinAlgOk la) {a : XArgs} (hn0 : a.nu_min = 0)
    (hn1 : 1 ≤ a.nu_max) (hv0 : a.v_min = 0) (hv3 : 3 ≤ a.v_max) (ha : a.anorm ≠ 0) {s s1 : FState} (hs : MemoOk ⟨fileCG fs dir, la⟩ s.xs)
    {ls : Int → Int} (hl : ∀ v, a.v_min ≤ v → v ≤ a.v_max → s.glb.lam_fun v = .ok (ls v)) (hl0 : ls 0 = 0)
    (hpos : ∀ v, a.v_min ≤ v → v ≤ a.v_max → 0 < a.lambda_base + ls v ∧ a.lambda_base + ls v ≠ 1) {c : ℝ}
    (hc : fileCG fs dir (0, 1, 0) (3, 1, 0) (3, 1, 0) = .ok c) (hc1 : c ^ 2 = 1) {B : ℝ} (hB : B ≠ 0) (c1 c2 chi kappa : ℝ) {r : List LEig}
    (hr : DigXspace ⟨fileCG fs dir, la⟩ (RWC_Ham (kC B) (kC c1) (kC c2) (kC chi) (kC kappa)) a s = (.ok r, s1)) {x : LEig} (hx : x ∈ r)
    (hx0 : x.L = 0) {e0 : ℝ} (he0 : x.vals.head? = some e0) :
    ∃ e, RWC_expt B c1 c2 kappa a.anorm a.lambda_base = .ok e ∧ e0 ≤ e := by
  have hleg : LegalRanges a := (dig_eig hs hr).1
  have ht := hamiltonian_tame (kC B) (kC c1) (kC c2) (kC chi) (kC kappa)
  obtain ⟨M, hM, hrow, _⟩ := C114_diagonal hla ht hs hr hx
  rw [hx0] at hM
  have h0 : LegalRanges (a.at 0) := legal_at hleg le_rfl
  have hmem : ((0, 0, 1, 0) : XspaceLabel) ∈ (a.at 0).xlabels := by
    unfold XArgs.xlabels
    rw [List.mem_flatMap]
    refine ⟨(0, 1, 0), ?_, ?_⟩
    · unfold XArgs.states
      rw [mem_labelsV]
      have : dimV 0 0 = 1 := by decide +kernel
      refine ⟨⟨hv0.le, by show (0 : Int) ≤ a.v_max; omega⟩, ?_, ?_⟩ <;> simp [this, XArgs.at]
    · rw [List.mem_map]
      refine ⟨0, ?_, rfl⟩
      unfold lbsRadial
      rw [mem_pyRange]
      exact ⟨hn0.le, by show (0 : Int) < a.nu_max + 1; omega⟩
  obtain ⟨p, hp, ep⟩ := List.getElem_of_mem hmem
  have hp' : (a.at 0).xlabels[p]? = some (0, 0, 1, 0) := by rw [List.getElem?_eq_getElem hp, ep]
  have key := C115_element hla h0 hn0 hn1 hv0 hv3 rfl rfl ha hs hl hl0 hpos hc hc1 hB c1 c2 chi kappa hM hp'
  refine ⟨_, key, ?_⟩
  have hne : x.vals ≠ [] := fun h => by rw [h] at he0; cases he0
  rw [← hx0] at hM
  refine (C114_between hla ht hs hr hx hM he0 (List.getLast?_eq_some_getLast hne) ?_).1
  rw [length_xlabels] at hp
  rw [hx0] at hM
  rw [rep_eq h0 hs] at hM
  rw [(allMat_square h0 hM).1]
  exact hp

/-- C115: so with the parameters that `RWC_alam` finds for the seniority 0, that energy is not above the value of `RWC_expt_link` for any
width. -/
theorem C115_alam {fs : FileSys} {dir : Option (List Char)} {la : LinAlg} (hla : LinAlgOk la) {sv : Solver} (hsv : SolverOk sv) {B c1 c2 : ℝ}
    (chi kappa : ℝ) (hB : 0 < B) (h2 : 0 < c2) {fuel : ℕ} {a : XArgs} (hal : RWC_alam sv fuel B c1 c2 0 = some (.ok (a.anorm, a.lambda_base)))
    (hn0 : a.nu_min = 0) (hn1 : 1 ≤ a.nu_max) (hv0 : a.v_min = 0) (hv3 : 3 ≤ a.v_max) {s s1 : FState} (hs : MemoOk ⟨fileCG fs dir, la⟩ s.xs)
    {ls : Int → Int} (hl : ∀ v, a.v_min ≤ v → v ≤ a.v_max → s.glb.lam_fun v = .ok (ls v)) (hl0 : ls 0 = 0)
    (hpos : ∀ v, a.v_min ≤ v → v ≤ a.v_max → 0 ≤ ls v) {c : ℝ} (hc : fileCG fs dir (0, 1, 0) (3, 1, 0) (3, 1, 0) = .ok c)
    (hc1 : c ^ 2 = 1) {r : List LEig}
    (hr : DigXspace ⟨fileCG fs dir, la⟩ (RWC_Ham (kC B) (kC c1) (kC c2) (kC chi) (kC kappa)) a s = (.ok r, s1)) {x : LEig} (hx : x ∈ r)
    (hx0 : x.L = 0) {e0 : ℝ} (he0 : x.vals.head? = some e0) {b : ℝ} (hb : b ≠ 0) :
    ∃ e, RWC_expt_link B c1 c2 kappa b = .ok e ∧ e0 ≤ e := by
  obtain ⟨h1, e, _, k2, k3⟩ := C74_link_partial hsv kappa hB h2 hal
  have hlam : 1 < a.lambda_base := by
    have e0 := RWC_dav_eq (c1 := c1) h2 0 a.anorm
    rw [Nat.cast_zero] at e0
    rw [h1, e0]
    exact lamOf_gt _ _ _ _
  have ha : a.anorm ≠ 0 := fun h => by
    rw [RWC_expt, if_pos h] at k2
    cases k2
  obtain ⟨e', g1, g2⟩ := C115_ground hla hn0 hn1 hv0 hv3 ha hs hl hl0 (fun v v1 v2 => by
    have : (0 : ℝ) ≤ ls v := by exact_mod_cast hpos v v1 v2
    exact ⟨by linarith, by linarith⟩) hc hc1 hB.ne' c1 c2 chi kappa hr hx hx0 he0
  rw [k2] at g1
  injection g1 with g1
  subst g1
  obtain ⟨e', f1, f2⟩ := k3 b hb
  exact ⟨e', f1, g2.trans f2⟩

/-! ### the hypotheses are met -/

/-- The basis of twoStates with two radial functions. -/
noncomputable def fourStates (an lb : ℝ) : XArgs := ⟨an, lb, 0, 1, 0, 3, 0, 0⟩

theorem four_meets {la : LinAlg} (hla : LinAlgOk la) {an lb : ℝ} (han : an ≠ 0) (hlb : 1 < lb) (B c1 c2 chi kappa : ℝ) :
    ∃ (s : FState) (r : List LEig) (t : FState) (x : LEig) (e0 : ℝ), MemoOk ⟨fileCG onesFS none, la⟩ s.xs ∧ s.glb.lam_fun = lambda_acm_fun ∧
      DigXspace ⟨fileCG onesFS none, la⟩ (RWC_Ham (kC B) (kC c1) (kC c2) (kC chi) (kC kappa)) (fourStates an lb) s = (.ok r, t) ∧ x ∈ r ∧
      x.L = 0 ∧ x.vals.head? = some e0 := by
  let s : FState := ⟨{ Glb.init with lam_fun := lambda_acm_fun }, fun _ => none, fun _ _ => none, fun _ => none, []⟩
  let env : XEnv := ⟨fileCG onesFS none, la⟩
  have hm : MemoOk env s.xs := memoOk_start env lambda_acm_fun
  have ha : LegalRanges (fourStates an lb) := by simp [LegalRanges, fourStates]
  have hst : (fourStates an lb).states = [(0, 1, 0), (3, 1, 0)] := (by decide +kernel : twoStates.states = [(0, 1, 0), (3, 1, 0)])
  obtain ⟨Y, m, hS, hmpos, hY10, hsy, hpar⟩ := two_states onesFS none onesFS_value
  obtain ⟨R, hR, _⟩ := C79_agrees la hla an han (some .b) 1 _ rfl lb (by linarith) (by push_cast; linarith) (by simp [Singular]) 0 1 0 (by omega)
  obtain ⟨R', hR', _⟩ := C79_agrees la hla an han (some .b) (-1) _ rfl (lb + 1) (by linarith) (by push_cast; linarith) (by simp [Singular]) 0 1 0 (by omega)
  have hR1 : RepRadialProd env.la an [.b] (lb + ((0 : Int) : ℝ)) (1 - 0) 0 1 0 = .ok R := by
    rw [Int.cast_zero, add_zero]; exact hR
  have hR1' : RepRadialProd env.la an [.b] (lb + ((1 : Int) : ℝ)) (0 - 1) 0 1 0 = .ok R' := by
    rw [Int.cast_one]; exact hR'
  have ex1 : ∃ P, prodMat env (fourStates an lb) [.rad .b, .harm .y310] lambda_acm_fun = .ok P := by
    obtain ⟨P, hP⟩ := C28_exists ha env hla han lambda_acm_fun [.b] (List.replicate 1 (.harm .y310)) (states_ok ha) hS
      (fun s => s.1 % 2) (fun f hf => acm_lambda (state_v hf).1) (by
      intro i j f k hi hj hne
      have hi' := (List.getElem?_eq_some_iff.1 hi).1
      have hj' := (List.getElem?_eq_some_iff.1 hj).1
      rw [hst] at hi hj hi' hj'
      have hi2 : i < 2 := hi'
      have hj2 : j < 2 := hj'
      interval_cases i <;> interval_cases j
      · exact absurd (hpar 0 (by omega)) hne
      · injection hi with hi; injection hj with hj; subst hi hj
        exact ⟨R', hR1'⟩
      · injection hi with hi; injection hj with hj; subst hi hj
        exact ⟨R, hR1⟩
      · exact absurd (hpar 1 (by omega)) hne)
    exact ⟨P, (prodMat_word ha (rs := [.b]) (by simp) 1 lambda_acm_fun).trans hP⟩
  have ex2 : ∃ P, prodMat env (fourStates an lb) [.harm .y310, .harm .y310] lambda_acm_fun = .ok P := by
    have hY : RepSO5_Y_rem (fileCG onesFS none) SpHarm.y310.table 0 3 0 0 = .ok Y := sph_one (a := fourStates an lb) hS
    have hsq : Square 2 Y := (RepSO5_Y_rem_ok (states_ok ha) hY).1
    have hS2 : RepSO5r3_Prod_wrk env.CG (sphItems (List.replicate 2 (.harm .y310))) 0 3 0 0 = .ok (Y.mul Y) := by
      unfold RepSO5r3_Prod_wrk
      rw [if_neg (by simp [sphItems])]
      simp only [sphItems, List.replicate, List.map_cons, List.map_nil, RepSO5r3_loop, RepSO5r3_item]
      rw [show RepSO5_Y_rem env.CG SpHarm.y310.table 0 3 0 0 = .ok Y from hY]
      rfl
    have hoff : (Y.mul Y).e 0 1 = 0 ∧ (Y.mul Y).e 1 0 = 0 := by
      have hm := mat_mul hsq.1 hsq.2.1 hsq.2.1
      have h1 := congrFun (congrFun hm 0) 1
      have h2 := congrFun (congrFun hm 1) 0
      simp only [Matrix.mul_apply, Fin.sum_univ_two, mat, Matrix.of_apply, Fin.val_zero, Fin.val_one, hpar 0 (by omega), hpar 1 (by omega), zero_mul,
        mul_zero, add_zero] at h1 h2
      exact ⟨h1, h2⟩
    obtain ⟨P, hP⟩ := C28_exists ha env hla han lambda_acm_fun [] (List.replicate 2 (.harm .y310)) (states_ok ha) hS2
      (fun s => s.1 % 2) (fun f hf => acm_lambda (state_v hf).1) (by
      intro i j f k hi hj hne
      have hi' := (List.getElem?_eq_some_iff.1 hi).1
      have hj' := (List.getElem?_eq_some_iff.1 hj).1
      rw [hst] at hi hj hi' hj'
      have hi2 : i < 2 := hi'
      have hj2 : j < 2 := hj'
      interval_cases i <;> interval_cases j
      · injection hi with hi; injection hj with hj; subst hi hj
        exact ⟨_, by rw [sub_self]; exact radial_empty _ _ _ (by show 0 < lb + ((0 : Int) : ℝ); push_cast; linarith) _ _ le_rfl⟩
      · exact absurd hoff.1 hne
      · exact absurd hoff.2 hne
      · injection hi with hi; injection hj with hj; subst hi hj
        exact ⟨_, by rw [sub_self]; exact radial_empty _ _ _ (by show 0 < lb + ((1 : Int) : ℝ); push_cast; linarith) _ _ le_rfl⟩)
    exact ⟨P, (prodMat_word ha (rs := []) (by simp) 2 lambda_acm_fun).trans hP⟩
  have k1 : kC 1 ≠ (0 : Coeff) := fun h => by have := congrFun h (0, 0, 0, 0); simp [kC] at this
  obtain ⟨N, hN, _⟩ := radHam_matrix ha (env := env) hla han (lam := lambda_acm_fun) (ls := fun v => v % 2)
    (fun v v1 _ => acm_lambda v1) (fun v _ _ => by
      have : (0 : ℝ) ≤ ((v % 2 : Int) : ℝ) := by exact_mod_cast Int.emod_nonneg v two_ne_zero
      show 0 < lb + ((v % 2 : Int) : ℝ)
      linarith) (fun v _ _ => by
      have : (0 : ℝ) ≤ ((v % 2 : Int) : ℝ) := by exact_mod_cast Int.emod_nonneg v two_ne_zero
      show lb + ((v % 2 : Int) : ℝ) ≠ 1
      linarith) (kC 1) 0 (kC 1) (kC 1) 0
  have hN' : (RepXspace env (ACM_Hamiltonian (c11 := kC 1) (c21 := kC 1) (c22 := kC 1)) (fourStates an lb) s.xs).1 = .ok N := by
    rw [rep_eq ha hm]
    exact hN
  have rad := (C30_exists ha hm _).1 ⟨_, hN'⟩
  have hop : ACM_Hamiltonian (c11 := kC 1) (c21 := kC 1) (c22 := kC 1) = [(kC 1, [.rad .D2b]), (-kC 1 * (2 + SENIORITY * (SENIORITY + 3)), [.rad .bm2]),
      (kC 1, [.rad .b2]), (kC 1, [.rad .b2, .rad .b2])] := by
    simp [ACM_Hamiltonian, addTerm, k1]
  rw [hop] at rad
  have hall : ∀ w ∈ [[OpSym.rad .D2b], [.rad .bm2], [.rad .b2], [.rad .b2, .rad .b2], [.rad .b, .harm .y310], [.harm .y310, .harm .y310]],
      ∃ P, (RepXspace_Prod env w (fourStates an lb) s.xs).1 = .ok P := by
    intro w hw
    simp only [List.mem_cons, List.not_mem_nil, or_false] at hw
    rcases hw with rfl | rfl | rfl | rfl | rfl | rfl
    · exact rad (kC 1, [.rad .D2b]) (by simp)
    · exact rad (-kC 1 * (2 + SENIORITY * (SENIORITY + 3)), [.rad .bm2]) (by simp)
    · exact rad (kC 1, [.rad .b2]) (by simp)
    · exact rad (kC 1, [.rad .b2, .rad .b2]) (by simp)
    · rw [prod_eq hm]
      exact ex1
    · rw [prod_eq hm]
      exact ex2
  obtain ⟨M, hM⟩ := (C30_exists ha hm (RWC_Ham (kC B) (kC c1) (kC c2) (kC chi) (kC kappa))).2 fun t ht => hall _ (hamiltonian_word t ht)
  have ht := hamiltonian_tame (kC B) (kC c1) (kC c2) (kC chi) (kC kappa)
  obtain ⟨r, t, hr⟩ : ∃ r t, DigXspace env (RWC_Ham (kC B) (kC c1) (kC c2) (kC chi) (kC kappa)) (fourStates an lb) s = (.ok r, t) := by
    unfold DigXspace
    rw [check_ok ha, st_lift_ok, if_pos ht]
    refine digTame_total ha _ (range_nonneg ha) s hm fun L hL => ?_
    have : L = 0 := by
      rw [mem_pyRange] at hL
      have h1 : (0 : Int) ≤ L := hL.1
      have h2 : L < 0 + 1 := hL.2
      omega
    subst this
    rw [rep_eq ha hm] at hM
    exact ⟨M, hM⟩
  obtain ⟨ho, hd⟩ := C32_partial ht ha hm hr
  have hdim : dimXspace 0 1 0 3 0 none = .ok 4 := by decide +kernel
  have h0 : (0 : Int) ∈ r.map LEig.L := (ho.2 0).2 ⟨⟨le_rfl, le_rfl⟩, 4, hdim, by decide⟩
  obtain ⟨x, hx, hx0⟩ := List.mem_map.1 h0
  have hlen : 0 < x.vals.length := by
    have := (hd x hx).1
    rw [hx0, show dimXspace (fourStates an lb).nu_min (fourStates an lb).nu_max (fourStates an lb).v_min (fourStates an lb).v_max 0 none = .ok 4 from
      hdim] at this
    injection this with this
    omega
  obtain ⟨e0, he0⟩ : ∃ e0, x.vals.head? = some e0 := by
    cases hv : x.vals with
    | nil => rw [hv] at hlen; cases hlen
    | cons e es => exact ⟨e, rfl⟩
  exact ⟨s, r, t, x, e0, hm, rfl, hr, hx, hx0, he0⟩

/-- The hypotheses of `C115_alam` are met, and with them those of `C115_ground`: the calculation on four states, with the widths that
`RWC_alam` finds, succeeds. -/
example {la : LinAlg} (hla : LinAlgOk la) : ∃ (sv : Solver) (fuel : ℕ) (a : XArgs) (s s1 : FState) (r : List LEig) (x : LEig) (e0 : ℝ),
    SolverOk sv ∧ RWC_alam sv fuel 50 (-2) 1.5 0 = some (.ok (a.anorm, a.lambda_base)) ∧ a.nu_min = 0 ∧ 1 ≤ a.nu_max ∧ a.v_min = 0 ∧ 3 ≤ a.v_max ∧
    MemoOk ⟨fileCG onesFS none, la⟩ s.xs ∧ (∀ v, a.v_min ≤ v → v ≤ a.v_max → s.glb.lam_fun v = .ok (v % 2)) ∧
    fileCG onesFS none (0, 1, 0) (3, 1, 0) (3, 1, 0) = .ok 1 ∧
    DigXspace ⟨fileCG onesFS none, la⟩ (RWC_Ham (kC 50) (kC (-2)) (kC 1.5) (kC 2) (kC 1)) a s = (.ok r, s1) ∧ x ∈ r ∧ x.L = 0 ∧
    x.vals.head? = some e0 := by
  obtain ⟨sv, fuel, an, lb, hsv, hal⟩ := alam_meets
  obtain ⟨h1, e, _, k2, _⟩ := C74_link_partial hsv 0 (by norm_num) (by norm_num) hal
  have hlam : 1 < lb := by
    have e0 := RWC_dav_eq (c1 := -2) (c2 := 1.5) (by norm_num) 0 an
    rw [Nat.cast_zero] at e0
    rw [h1, e0]
    exact lamOf_gt _ _ _ _
  have han : an ≠ 0 := fun h => by
    rw [RWC_expt, if_pos h] at k2
    cases k2
  obtain ⟨s, r, t, x, e0, q1, q2, q3, q4, q5, q6⟩ := four_meets hla han hlam 50 (-2) 1.5 2 1
  refine ⟨sv, fuel, fourStates an lb, s, t, r, x, e0, hsv, hal, rfl, le_rfl, rfl, le_rfl, q1, fun v v1 _ => ?_, onesFS_value, q3, q4, q5, q6⟩
  rw [q2]
  exact acm_lambda v1

end Acm.Props
