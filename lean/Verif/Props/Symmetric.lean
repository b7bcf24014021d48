import Verif.Spec.Symmetric
import Verif.Props.CGSO5
import Verif.Props.SO5Red
import Verif.Props.Variational

/-!
# Property C97: the matrix of the Hamiltonian is symmetric
-/

namespace Acm.Props

open Acm Acm.Spec

/-! ## The spherical matrices -/

theorem state_nat {a : XArgs} (ha : LegalRanges a) {s : Label} (h : s ∈ a.states) :
    ∃ v al L : ℕ, s = ((v : Int), (al : Int), (L : Int)) ∧ 1 ≤ al := by
  unfold XArgs.states at h
  obtain ⟨v, al, L⟩ := s
  rw [mem_labelsV] at h
  have := ha.2.1
  have := ha.2.2
  obtain ⟨v, rfl⟩ := Int.eq_ofNat_of_zero_le (a := v) (by omega)
  obtain ⟨al, rfl⟩ := Int.eq_ofNat_of_zero_le (a := al) (by omega)
  obtain ⟨L, rfl⟩ := Int.eq_ofNat_of_zero_le (a := L) (by omega)
  exact ⟨v, al, L, rfl, by omega⟩

/-- C97, a single harmonic: with the coefficients from any files, the matrix elements in the two directions between states of
different seniority agree up to the sign and the factors sqrt(2L+1) of the Wigner-Eckart theorem. -/
theorem C97_harmonic {a : XArgs} (ha : LegalRanges a) (fs : FileSys) (dir : Option (List Char)) {v2 a2 L2 : ℕ} (h2 : 1 ≤ a2) {A : Arr}
    (h : RepSO5_Y_rem (fileCG fs dir) (v2, a2, L2) a.v_min a.v_max a.L_min a.L_max = .ok A) {i j v1 a1 L1 v3 a3 L3 : ℕ}
    (hi : a.states[i]? = some ((v1 : Int), (a1 : Int), (L1 : Int))) (hj : a.states[j]? = some ((v3 : Int), (a3 : Int), (L3 : Int)))
    (hv : v1 ≠ v3) :
    A.e i j * Real.sqrt (2 * L1 + 1) = (-1) ^ ((L1 : ℤ) + L2 - L3) * (A.e j i * Real.sqrt (2 * L3 + 1)) := by
  obtain ⟨c, r, hc, hr, e⟩ := C72_entries (states_ok ha) h i j _ _ hi hj
  obtain ⟨c', r', hc', hr', e'⟩ := C72_entries (states_ok ha) h j i _ _ hj hi
  obtain ⟨m, m', du, dv, s1, s2, s3, s4, s5⟩ := C65_symmetry v1 v2 v3
  have e53 := C53_exchange fs dir [] v3 a3 L3 v2 a2 L2 v1 a1 L1
    (by obtain ⟨_, _, _, e, h⟩ := state_nat ha (List.mem_of_getElem? hj); simp only [Prod.mk.injEq] at e; omega) h2
    (by obtain ⟨_, _, _, e, h⟩ := state_nat ha (List.mem_of_getElem? hi); simp only [Prod.mk.injEq] at e; omega) hv.symm
  have hc1 : (CG_SO5r3 fs (v3, a3, L3) (v2, a2, L2) (v1, a1, L1) (runCGCalls fs [] (CGState.start dir))).1 = .ok c := hc
  have hc2 : (CG_SO5r3 fs (v1, a1, L1) (v2, a2, L2) (v3, a3, L3) (runCGCalls fs [] (CGState.start dir))).1 = .ok c' := hc'
  rw [hc1, hc2] at e53
  injection e53 with e53
  rw [hr] at s1
  rw [hr'] at s2
  injection s1 with s1
  injection s2 with s2
  subst s1 s2
  obtain ⟨d1, k1, k2⟩ := dim_ok v1
  obtain ⟨d3, k3, k4⟩ := dim_ok v3
  rw [s3] at k1
  rw [s4] at k3
  injection k1 with k1
  injection k3 with k3
  subst k1 k3
  have p1 : (0 : ℝ) < du := by rw [k2]; positivity
  have p3 : (0 : ℝ) < dv := by rw [k4]; positivity
  rw [e, e', e53]
  unfold exchangeFactor
  rw [← k2, ← k4, Real.sqrt_div (by positivity), Real.sqrt_div (by positivity), Real.sqrt_mul (by positivity)]
  have q1 : Real.sqrt (2 * (L1 : ℝ) + 1) ≠ 0 := (Real.sqrt_pos.2 (by positivity)).ne'
  have q3 : Real.sqrt dv ≠ 0 := (Real.sqrt_pos.2 p3).ne'
  field_simp
  linear_combination c' * s5

/-- C97, cos(3 gamma): with the coefficients from any files, the matrix of the harmonic `y310` is symmetric. -/
theorem C97_y310 {a : XArgs} (ha : LegalRanges a) (fs : FileSys) (dir : Option (List Char)) {A : Arr}
    (h : RepSO5_Y_rem (fileCG fs dir) SpHarm.y310.table a.v_min a.v_max a.L_min a.L_max = .ok A) :
    SymmetricOn a.states.length A := by
  intro i hi j hj
  obtain ⟨v1, a1, L1, e1, h1⟩ := state_nat ha (List.getElem_mem hi)
  obtain ⟨v3, a3, L3, e3, h3⟩ := state_nat ha (List.getElem_mem hj)
  have hi' := List.getElem?_eq_getElem hi
  have hj' := List.getElem?_eq_getElem hj
  rw [e1] at hi'
  rw [e3] at hj'
  have h' : RepSO5_Y_rem (fileCG fs dir) (((3 : ℕ) : Int), ((1 : ℕ) : Int), ((0 : ℕ) : Int)) a.v_min a.v_max a.L_min a.L_max = .ok A := h
  by_cases hv : v1 = v3
  · subst hv
    have z : ∀ {i j : ℕ} {f k : Label}, a.states[i]? = some f → a.states[j]? = some k → f.1 = k.1 → A.e i j = 0 := by
      intro i j f k hi hj hfk
      by_contra hne
      have := Y_parity ha h' hi hj hne
      simp only at this
      omega
    rw [z hi' hj' rfl, z hj' hi' rfl]
  · by_cases hL : L1 = L3
    · subst hL
      have := C97_harmonic ha fs dir (le_refl 1) h' hi' hj' hv
      simp only [Nat.cast_zero, add_zero, sub_self, zpow_zero, one_mul] at this
      exact mul_right_cancel₀ (Real.sqrt_pos.2 (by positivity)).ne' this
    · have z : ∀ {i j v1 a1 L1 v3 a3 L3 : ℕ}, a.states[i]? = some ((v1 : Int), (a1 : Int), (L1 : Int)) →
          a.states[j]? = some ((v3 : Int), (a3 : Int), (L3 : Int)) → 1 ≤ a1 → 1 ≤ a3 → L1 ≠ L3 → A.e i j = 0 := by
        intro i j v1 a1 L1 v3 a3 L3 hi hj h1 h3 hL
        obtain ⟨c, r, hc, _, e⟩ := C72_entries (states_ok ha) h' i j _ _ hi hj
        have hc1 : (CG_SO5r3 fs (v3, a3, L3) ((3 : ℕ), (1 : ℕ), (0 : ℕ)) (v1, a1, L1) (runCGCalls fs [] (CGState.start dir))).1 = .ok c := hc
        rw [CG_SO5r3_after] at hc1
        unfold cgValue at hc1
        rw [if_neg (by simp only [not_not]; exact ⟨tripleOk_nat h3, tripleOk_nat (le_refl _), tripleOk_nat h1⟩),
          if_pos (by unfold cgZero; simp only; omega)] at hc1
        injection hc1 with hc1
        rw [e, ← hc1, zero_mul]
      rw [z hi' hj' h1 h3 hL, z hj' hi' h3 h1 (Ne.symm hL)]

theorem loop_symm {CG : CGFun} {a : XArgs} (ha : LegalRanges a) {y : SpHarm} {M : Arr}
    (hM : RepSO5_Y_rem CG y.table a.v_min a.v_max a.L_min a.L_max = .ok M) (hMs : (mat a.states.length M).IsSymm) :
    ∀ (n : ℕ) (P : Arr) {S : Arr}, Square a.states.length P → (mat a.states.length P).IsSymm →
      Commute (mat a.states.length P) (mat a.states.length M) →
      RepSO5r3_loop CG a.v_min a.v_max a.L_min a.L_max (sphItems (List.replicate n (.harm y))) (some P) = .ok (some S) →
      (mat a.states.length S).IsSymm := by
  intro n
  induction n with
  | zero =>
    intro P S _ hP _ h
    injection h with h
    injection h with h
    subst h
    exact hP
  | succ n ih =>
    intro P S hsq hP hcom h
    simp only [sphItems, List.replicate_succ, List.map_cons, RepSO5r3_loop, RepSO5r3_item] at h
    rw [hM, py_bind_ok] at h
    have sqM : Square a.states.length M := (RepSO5_Y_rem_ok (states_ok ha) hM).1
    have e := mat_mul hsq.1 hsq.2.1 sqM.2.1
    refine ih (P.mul M) (square_mul hsq.1 sqM.2.1) ?_ ?_ h
    · rw [e]
      unfold Matrix.IsSymm
      rw [Matrix.transpose_mul, hP.eq, hMs.eq]
      exact hcom.symm.eq
    · rw [e]
      exact hcom.mul_left (Commute.refl _)

theorem mat_isSymm {n : ℕ} {A : Arr} : (mat n A).IsSymm ↔ SymmetricOn n A := by
  constructor
  · intro h p hp q hq
    have := congrFun (congrFun h.eq ⟨q, hq⟩) ⟨p, hp⟩
    simpa [mat] using this
  · intro h
    ext i j
    simpa [mat] using h j.1 j.2 i.1 i.2

theorem sph_symm {a : XArgs} (ha : LegalRanges a) (fs : FileSys) (dir : Option (List Char)) {n : ℕ} {S : Arr}
    (h : RepSO5r3_Prod_wrk (fileCG fs dir) (sphItems (List.replicate n (.harm .y310))) a.v_min a.v_max a.L_min a.L_max = .ok S) :
    SymmetricOn a.states.length S := by
  unfold RepSO5r3_Prod_wrk at h
  cases n with
  | zero =>
    rw [if_pos (show (sphItems (List.replicate 0 (.harm .y310))).length = 0 from rfl), sphDim_ok ha, py_bind_ok, Int.toNat_natCast] at h
    injection h with h
    subst h
    rw [← mat_isSymm, mat_eye]
    exact Matrix.isSymm_one
  | succ n =>
    rw [if_neg (by simp [sphItems])] at h
    obtain ⟨r, hr, h⟩ := py_bind_eq_ok h
    cases r with
    | none => cases h
    | some P =>
      injection h with h
      subst h
      simp only [sphItems, List.replicate_succ, List.map_cons, RepSO5r3_loop, RepSO5r3_item] at hr
      obtain ⟨M, hM, hr⟩ := py_bind_eq_ok hr
      have hMs := mat_isSymm.2 (C97_y310 ha fs dir hM)
      exact mat_isSymm.1 (loop_symm ha hM hMs n M (RepSO5_Y_rem_ok (states_ok ha) hM).1 hMs (Commute.refl _) hr)

/-! ## The radial matrices -/

theorem closed_shift {r : RadSym} {d : Int} {prim : Prim} (h : closedForm (some r) d = some prim) :
    ((r = .b ∨ r = .bm) → d = 1 ∨ d = -1) ∧ ((r = .b2 ∨ r = .bm2 ∨ r = .D2b ∨ r = .S0) → d = 0) := by
  unfold closedForm at h
  split at h <;> simp_all

theorem rad_adjoint {r : Option RadSym} (hr : SelfAdjoint r) {d : Int} {prim prim' : Prim} (h : closedForm r d = some prim)
    (h' : closedForm r (-d) = some prim') {lam : ℝ} (hl : 0 < lam) (hl' : 0 < lam + d) (hs : ¬ Singular r lam) (i j : ℕ) :
    primME prim' (lam + d) j i = primME prim lam i j := by
  have symm0 : ∀ {ME : ℝ → ℕ → ℕ → Py ℝ} {f : ℕ → ℕ → ℝ}, Entries (ME lam) f → Symm f →
      ME (lam + ((0 : Int) : ℝ)) j i = ME lam i j := by
    intro ME f he hf
    rw [Int.cast_zero, add_zero, he, he, hf]
  have hne : r = some .bm2 ∨ r = some .D2b → lam ≠ 1 := fun h1 h2 => hs ⟨h1, h2⟩
  have hm : ∀ {p : ℝ → Prop}, (∀ l, 0 < l → p (l + 1)) → 0 < lam + ((-1 : Int) : ℝ) → p lam := by
    intro p hp hl
    have := hp (lam - 1) (by push_cast at hl; linarith)
    rwa [sub_add_cancel] at this
  simp only [SelfAdjoint, List.mem_cons, List.not_mem_nil, or_false] at hr
  rcases hr with rfl | rfl | rfl | rfl | rfl | rfl | rfl
  · unfold closedForm at h h'
    simp only [] at h h'
    split_ifs at h h' with c1 c2 c3 c4 c5 <;> injection h with h <;> injection h' with h' <;> subst h h'
    · obtain rfl : d = 0 := by omega
      have k : ∀ i j, ME_Radial_id_pl lam i j 0 = .ok (opId i j) := C25_zero lam hl
      simp only [primME, Int.cast_zero, add_zero, neg_zero, EuclideanDomain.zero_div, Int.toNat_zero] at k ⊢
      rw [k j i, k i j]
      simp only [opId, eq_comm]
    · obtain ⟨n, rfl⟩ : ∃ n : ℕ, d = 2 * (n : Int) := ⟨(d / 2).toNat, by omega⟩
      have k1 : ME_Radial_id_pl lam i j n = .ok (vid_pl lam n i j) := id_pl_ok hl n i j
      have k2 : ME_Radial_id_ml (lam + 2 * n) j i n = .ok (vid_pl lam n i j) := id_ml_ok hl n j i
      simp only [primME]
      rw [show (-(-(2 * (n : Int))) / 2).toNat = n by omega, show (2 * (n : Int) / 2).toNat = n by omega]
      push_cast
      rw [k1, k2]
    · obtain ⟨n, rfl⟩ : ∃ n : ℕ, d = -(2 * (n : Int)) := ⟨(-d / 2).toNat, by omega⟩
      have hl2 : 0 < lam - 2 * n := by push_cast at hl'; linarith
      have k1 : ME_Radial_id_pl (lam - 2 * n) j i n = .ok (vid_pl (lam - 2 * n) n j i) := id_pl_ok hl2 n j i
      have k2 : ME_Radial_id_ml (lam - 2 * n + 2 * n) i j n = .ok (vid_pl (lam - 2 * n) n j i) := id_ml_ok hl2 n i j
      simp only [primME]
      rw [show (-(-(2 * (n : Int))) / 2).toNat = n by omega]
      push_cast
      rw [← sub_eq_add_neg, k1]
      rw [sub_add_cancel] at k2
      rw [k2]
    · omega
  · have hd : d = 1 ∨ d = -1 := (closed_shift h).1 (by simp)
    rcases hd with rfl | rfl <;> injection h with h <;> injection h' with h' <;> subst h h'
    · have := C21_adjoint lam j i
      simpa [primME, RadME.fn] using this
    · have := C21_adjoint (lam - 1) i j
      rw [sub_add_cancel] at this
      simpa [primME, RadME.fn, sub_eq_add_neg] using this.symm
  · have hd : d = 1 ∨ d = -1 := (closed_shift h).1 (by simp)
    rcases hd with rfl | rfl <;> injection h with h <;> injection h' with h' <;> subst h h'
    · obtain ⟨_, _, ip, im, _, _, k1, k2, k3, _⟩ := C22_inverse lam hl
      simp [primME, RadME.fn, k1 i j, k2 j i, k3 j i]
    · obtain ⟨_, _, ip, im, _, _, k1, k2, k3, _⟩ := C22_inverse (lam - 1) (by push_cast at hl'; linarith)
      rw [sub_add_cancel] at k2
      simp [primME, RadME.fn, ← sub_eq_add_neg, k1 j i, k2 i j, k3 i j]
  · have hd : d = 0 := (closed_shift h).2 (by simp)
    subst hd
    injection h with h
    injection h' with h'
    subst h h'
    obtain ⟨_, _, _, _, _, _, _, _, k1, _, _, k2, _⟩ := C20_b2_bDb lam hl
    exact symm0 (ME := ME_Radial_b2) k1 k2
  · have hd : d = 0 := (closed_shift h).2 (by simp)
    subst hd
    injection h with h
    injection h' with h'
    subst h h'
    obtain ⟨_, _, _, k1, k2, _⟩ := C23_bm2_inverse lam hl (hne (.inl rfl))
    exact symm0 (ME := ME_Radial_bm2) k1 k2
  · have hd : d = 0 := (closed_shift h).2 (by simp)
    subst hd
    injection h with h
    injection h' with h'
    subst h h'
    obtain ⟨_, _, _, _, _, _, _, _, _, k1, _, k2⟩ := C20_D2b lam hl (hne (.inr rfl))
    exact symm0 (ME := ME_Radial_D2b) k1 k2
  · have hd : d = 0 := (closed_shift h).2 (by simp)
    subst hd
    injection h with h
    injection h' with h'
    subst h h'
    refine symm0 (ME := ME_Radial_S0) (S0_ok lam) fun i j => ?_
    unfold vS0
    by_cases hij : i = j
    · rw [hij]
    · rw [if_neg hij, if_neg (Ne.symm hij)]

theorem opList_inj {r r' : Option RadSym} (h : opList r = opList r') : r = r' := by
  cases r <;> cases r' <;> simp_all [opList]

theorem good_symm {la : LinAlg} (hla : LinAlgOk la) {anorm : ℝ} (ha : anorm ≠ 0) {lb : ℝ} {l l' : Int} (h : 0 < lb + l)
    (h' : 0 < lb + l') {rs : List RadSym} (g : GoodRadial lb l l' rs) (g' : GoodRadial lb l' l rs) {n0 n1 : ℕ} (hn : n0 ≤ n1)
    {R R' : Arr} (hR : RepRadialProd la anorm rs (lb + l) (l' - l) n0 n1 0 = .ok R)
    (hR' : RepRadialProd la anorm rs (lb + l') (l - l') n0 n1 0 = .ok R') :
    ∀ f ∈ Finset.Icc n0 n1, ∀ i ∈ Finset.Icc n0 n1, R.e (f - n0) (i - n0) = R'.e (i - n0) (f - n0) := by
  intro f hf i hi
  rcases g with ⟨r, rfl, hr, ⟨prim, hprim⟩, hs⟩ | ⟨rfl, rfl⟩
  · rcases g' with ⟨r', e, _, ⟨prim', hprim'⟩, hs'⟩ | ⟨e, _⟩
    · obtain rfl := opList_inj e
      have e1 : lb + (l : ℝ) + ((l' - l : Int) : ℝ) = lb + l' := by push_cast; ring
      have e2 : lb + (l' : ℝ) + ((l - l' : Int) : ℝ) = lb + l := by push_cast; ring
      obtain ⟨y, y1, y2⟩ := C79_agrees la hla anorm ha r _ prim hprim _ h (by rw [e1]; exact h') hs n0 n1 0 (by omega)
      obtain ⟨z, z1, z2⟩ := C79_agrees la hla anorm ha r _ prim' hprim' _ h' (by rw [e2]; exact h) hs' n0 n1 0 (by omega)
      have y1' : RepRadialProd la anorm (opList r) (lb + l) (l' - l) n0 n1 0 = .ok y := y1
      have z1' : RepRadialProd la anorm (opList r) (lb + l') (l - l') n0 n1 0 = .ok z := z1
      rw [hR] at y1'
      rw [hR'] at z1'
      injection y1' with y1'
      injection z1' with z1'
      subst y1' z1'
      have k1 := y2 f hf i hi
      have k2 := z2 i hi f hf
      have adj := rad_adjoint hr hprim (by rw [neg_sub]; exact hprim') h (by rw [e1]; exact h') hs f i
      rw [e1] at adj
      rw [element_direct h hprim] at k1
      rw [element_direct h' hprim', adj, k1] at k2
      injection k2
    · exact absurd (congrArg List.length e) (by cases r <;> simp [opList])
  · obtain ⟨_, _, _, b2, _, _, _, _, k1, _, _, k2, _⟩ := C20_b2_bDb (lb + l') h
    obtain ⟨y, y1, _, y2⟩ := banded_window la hla ha (ops := [.b2, .b2]) h (nu_min := n0) (nu_max := n1) (nu_lap := 0) (by omega)
      (fs := [b2, b2]) (.cons ⟨.b2, rfl, k1⟩ (.cons ⟨.b2, rfl, k1⟩ .nil))
    have y1' : RepRadialProd la anorm [.b2, .b2] (lb + l') (l' - l') n0 n1 0 = .ok y := by rw [sub_self]; exact y1
    rw [hR] at y1'
    rw [hR] at hR'
    injection y1' with y1'
    injection hR' with hR'
    subst y1' hR'
    rw [Finset.mem_Icc] at hf hi
    rw [y2 _ (by omega) _ (by omega), y2 _ (by omega) _ (by omega)]
    congr 1
    simp only [windowProd.eq_2 _ _ b2 [b2], Nat.sub_zero, Nat.add_zero]
    refine Finset.sum_congr rfl fun k _ => ?_
    rw [windowProd_single b2 (Finset.mem_Icc.2 (by omega)), windowProd_single b2 (Finset.mem_Icc.2 (by omega)), mul_comm,
      k2 k, k2 (n0 + (f - n0)) k]

/-! ## The matrix of the Hamiltonian -/

theorem prodMat_word {env : XEnv} {a : XArgs} (h : LegalRanges a) {rs : List RadSym} (hr : RadSym.other ∉ rs)
    (n : ℕ) (lam : LambdaFunction) :
    prodMat env a (rs.map .rad ++ List.replicate n (.harm .y310)) lam =
      RepXspace_Twin env lam rs (List.replicate n (.harm .y310)) a := by
  have hsph : ∀ n rs ss, segsOf (List.replicate n (.harm .y310)) rs ss = [.twin rs (ss ++ List.replicate n (.harm .y310))] := by
    intro n
    induction n with
    | zero => intro rs ss; simp [segsOf]
    | succ n ih => intro rs ss; simp [segsOf, OpSym.radial?, OpSym.isSpherical, ih, List.replicate_succ]
  have hrad : ∀ (rs qs : List RadSym), RadSym.other ∉ rs →
      segsOf (rs.map .rad ++ List.replicate n (.harm .y310)) qs [] = [.twin (qs ++ rs) (List.replicate n (.harm .y310))] := by
    intro rs
    induction rs with
    | nil => intro qs _; simpa using hsph n qs []
    | cons r rs ih =>
      intro qs hr
      have : (OpSym.rad r).radial? = some r := by cases r <;> first | rfl | simp at hr
      simp only [List.map_cons, List.cons_append, segsOf, this]
      rw [ih _ (by simp_all)]
      simp
  unfold prodMat
  rw [check_ok h, py_bind_ok, hrad rs [] hr]
  simp only [List.nil_append, segMat, segsMat]
  cases RepXspace_Twin env lam rs (List.replicate n (.harm .y310)) a <;> rfl

theorem twin_symm {fs : FileSys} {dir : Option (List Char)} {la : LinAlg} (hla : LinAlgOk la) {a : XArgs} (ha : LegalRanges a)
    (hn : a.anorm ≠ 0) {lam : LambdaFunction} {ls : Int → Int}
    (hl : ∀ v, a.v_min ≤ v → v ≤ a.v_max → lam v = .ok (ls v))
    (hpos : ∀ v, a.v_min ≤ v → v ≤ a.v_max → 0 < a.lambda_base + ls v) {rs : List RadSym} {n : ℕ}
    (hg : ∀ v v', a.v_min ≤ v → v ≤ a.v_max → a.v_min ≤ v' → v' ≤ a.v_max → (v' - v - 3 * n) % 2 = 0 → (n = 0 → v' = v) →
      GoodRadial a.lambda_base (ls v) (ls v') rs) {M : Arr}
    (hM : RepXspace_Twin ⟨fileCG fs dir, la⟩ lam rs (List.replicate n (.harm .y310)) a = .ok M) {p q : ℕ} {x y : XspaceLabel}
    (hp : a.xlabels[p]? = some x) (hq : a.xlabels[q]? = some y) : M.e p q = M.e q p ∧ (n = 0 → x.2 ≠ y.2 → M.e p q = 0) := by
  obtain ⟨_, S, hS, hel⟩ := C28_elements ha _ lam _ _ (lbsXspace_ok ha) (states_ok ha) hM
  obtain ⟨nf, f⟩ := x
  obtain ⟨ni, k⟩ := y
  obtain ⟨i, j, lf, li, hi, hj, k1, k2, k3, k4⟩ := hel p q nf ni f k hp hq
  obtain ⟨j', i', li', lf', hj', hi', k2', k1', k3', k4'⟩ := hel q p ni nf k f hq hp
  obtain rfl := states_inj hi hi'
  obtain rfl := states_inj hj hj'
  have hST := sph_symm ha fs dir hS i (List.getElem?_eq_some_iff.1 hi).1 j (List.getElem?_eq_some_iff.1 hj).1
  by_cases h0 : S.e i j = 0
  · exact ⟨by rw [k3 h0, k3' (by rw [← hST]; exact h0)], fun _ _ => k3 h0⟩
  · obtain ⟨R, hR, k4⟩ := k4 h0
    obtain ⟨R', hR', k4'⟩ := k4' (by rw [← hST]; exact h0)
    have hvf := state_v (List.mem_of_getElem? hi)
    have hvk := state_v (List.mem_of_getElem? hj)
    have hrep : (List.replicate n (OpSym.harm .y310)) = (List.replicate n SpHarm.y310).map .harm := by simp
    have hcp : ∀ {i j : ℕ} {f k : Label}, a.states[i]? = some f → a.states[j]? = some k → S.e i j ≠ 0 →
        (f.1 - k.1 - 3 * n) % 2 = 0 ∧ (n = 0 → f.1 = k.1) := by
      intro i j f k hi hj h0
      have := sph_parity ha (hs := List.replicate n .y310) (by rw [← hrep]; exact hS) hi hj h0
      unfold MayCouple at this
      by_cases hz : n = 0
      · subst hz
        simp only [List.replicate_zero, if_true] at this
        simp [this]
      · rw [if_neg (by simp [hz])] at this
        simp only [List.map_replicate, SpHarm.table, List.sum_replicate] at this
        refine ⟨?_, fun h => absurd h hz⟩
        simp only [nsmul_eq_mul] at this
        rw [mul_comm]
        exact this
    have hd : n = 0 → i = j := by
      rintro rfl
      unfold RepSO5r3_Prod_wrk at hS
      rw [if_pos (show (sphItems (List.replicate 0 (.harm .y310))).length = 0 from rfl), sphDim_ok ha, py_bind_ok, Int.toNat_natCast] at hS
      injection hS with hS
      subst hS
      simp only [Arr.eye, Arr.of] at h0
      by_contra hh
      simp [hh] at h0
    refine ⟨?_, fun hz hxy => absurd ?_ hxy⟩
    · rw [k4, k4', hST]
      congr 1
      have el : lf = ls f.1 ∧ li = ls k.1 ∧ lf' = ls f.1 ∧ li' = ls k.1 := by
        have t1 := hl _ hvf.1 hvf.2
        have t2 := hl _ hvk.1 hvk.2
        rw [t1] at k1 k1'
        rw [t2] at k2 k2'
        injection k1 with k1; injection k1' with k1'; injection k2 with k2; injection k2' with k2'
        exact ⟨k1.symm, k2.symm, k1'.symm, k2'.symm⟩
      obtain ⟨rfl, rfl, rfl, rfl⟩ := el
      have c1 := hcp hi hj h0
      have c2 := hcp hj hi (by rw [← hST]; exact h0)
      have g1 := hg k.1 f.1 hvk.1 hvk.2 hvf.1 hvf.2 c1.1 c1.2
      have g2 := hg f.1 k.1 hvf.1 hvf.2 hvk.1 hvk.2 c2.1 c2.2
      obtain ⟨_, x1, _, hx1, _, hn1⟩ := xlabels_split hp
      obtain ⟨_, x2, _, hx2, _, hn2⟩ := xlabels_split hq
      unfold XArgs.rdim at hx1 hx2
      have l1 := ha.1
      obtain ⟨n0, en0⟩ := Int.eq_ofNat_of_zero_le l1.1
      obtain ⟨n1, en1⟩ := Int.eq_ofNat_of_zero_le (l1.1.trans l1.2)
      rw [en0, en1] at hR hR'
      have := good_symm hla hn (hpos _ hvk.1 hvk.2) (hpos _ hvf.1 hvf.2) g1 g2 (n0 := n0) (n1 := n1) (by omega) hR hR'
        nf.toNat (Finset.mem_Icc.2 (by omega)) ni.toNat (Finset.mem_Icc.2 (by omega))
      rw [show (nf - a.nu_min).toNat = nf.toNat - n0 by omega, show (ni - a.nu_min).toNat = ni.toNat - n0 by omega]
      exact this
    · have := hd hz
      subst this
      rw [hi] at hj
      injection hj

/-- C97, as far as it holds: the matrix of the Hamiltonian is symmetric, for every Hamiltonian built from self-adjoint radial
operators with exact matrices and powers of cos(3 gamma), any coefficients in the files, any legal space and any basis in which
the changes of lambda have closed forms.  Missing: products of radial operators other than beta^2 beta^2 without a change of
lambda (it is wrong for beta^2 beta with a change of lambda, C97_fails), the other harmonics (their matrices within a seniority
are whatever the files hold), the operators of the momenta, and coefficients that depend on the state beside a harmonic. -/
theorem C97_matrix_partial {a : XArgs} (ha : LegalRanges a) (hn : a.anorm ≠ 0) (fs : FileSys) (dir : Option (List Char)) {la : LinAlg}
    (hla : LinAlgOk la) {ham : OperatorSum} {s : XState} (hs : MemoOk ⟨fileCG fs dir, la⟩ s) {ls : Int → Int}
    (hl : ∀ v, a.v_min ≤ v → v ≤ a.v_max → s.lam_fun v = .ok (ls v))
    (hpos : ∀ v, a.v_min ≤ v → v ≤ a.v_max → 0 < a.lambda_base + ls v) (hham : BalancedHam a.lambda_base ls a ham) {M : Arr}
    (hM : (RepXspace ⟨fileCG fs dir, la⟩ ham a s).1 = .ok M) : SymmetricOn M.rows M := by
  set env : XEnv := ⟨fileCG fs dir, la⟩ with henv
  rw [rep_eq ha hs] at hM
  have sq := allMat_square ha hM
  rw [sq.1]
  intro p hp q hq
  let F : OperatorProduct → ℕ → ℕ → ℝ := fun w p q => match prodMat env a w s.lam_fun with | .ok P => P.e p q | .error _ => 0
  have hex : ∀ t ∈ ham, ∃ P, prodMat env a t.2 s.lam_fun = .ok P := by
    have := (C30_exists ha hs ham).1 ⟨M, by rw [rep_eq ha hs]; exact hM⟩
    intro t ht
    obtain ⟨P, hP⟩ := this t ht
    exact ⟨P, by rw [prod_eq hs] at hP; exact hP⟩
  obtain ⟨M', h1, _, h2⟩ := rep_sum (f := F) ha (ts := ham) (env := env) (lam := s.lam_fun) fun t ht => by
    obtain ⟨P, hP⟩ := hex t ht
    exact ⟨P, hP, fun p q _ _ => by simp only [F, hP]⟩
  rw [hM] at h1
  injection h1 with h1
  subst h1
  rw [← length_xlabels] at hp hq
  have hp' := List.getElem?_eq_getElem hp
  have hq' := List.getElem?_eq_getElem hq
  rw [h2 p q _ (by rw [← length_xlabels]; exact hp) hq', h2 q p _ (by rw [← length_xlabels]; exact hq) hp']
  congr 1
  refine List.map_congr_left fun t ht => ?_
  obtain ⟨P, hP⟩ := hex t ht
  obtain ⟨rs, n, e, hother, hco, hg⟩ := hham t ht
  simp only [F, hP]
  rw [e, prodMat_word ha hother] at hP
  obtain ⟨s1, s2⟩ := twin_symm hla ha hn hl hpos hg hP hp' hq'
  rw [← s1]
  by_cases hz : n = 0
  · by_cases hxy : a.xlabels[p].2 = a.xlabels[q].2
    · rw [hco _ _ (.inr hxy.symm)]
    · rw [s2 hz hxy, mul_zero, mul_zero]
  · rw [hco a.xlabels[p] a.xlabels[q] (.inl hz)]

/-- C97: for these Hamiltonians the computed states are eigenvectors of the matrix of the Hamiltonian itself, with the computed
energies as eigenvalues: the symmetrisation in `Eigenfiddle` changes nothing.  Missing: as for C97_matrix_partial. -/
theorem C97_energies_partial {a : XArgs} (ha : LegalRanges a) (hn : a.anorm ≠ 0) (fs : FileSys) (dir : Option (List Char))
    {la : LinAlg} (hla : LinAlgOk la) {ham : OperatorSum} {s : FState} (hs : MemoOk ⟨fileCG fs dir, la⟩ s.xs) {ls : Int → Int}
    (hl : ∀ v, a.v_min ≤ v → v ≤ a.v_max → s.glb.lam_fun v = .ok (ls v))
    (hpos : ∀ v, a.v_min ≤ v → v ≤ a.v_max → 0 < a.lambda_base + ls v) (hham : BalancedHam a.lambda_base ls a ham)
    {r : List LEig} {t : FState} (hr : DigXspace ⟨fileCG fs dir, la⟩ ham a s = (.ok r, t)) :
    ∀ x ∈ r, ∃ M, (RepXspace ⟨fileCG fs dir, la⟩ ham (a.at x.L) s.xs).1 = .ok M ∧
      ∀ k (hk : k < x.vals.length), ∀ p < M.rows,
        ∑ q ∈ Finset.range M.rows, M.e p q * x.basis.e q k = x.vals[k] * x.basis.e p k := by
  have ht : Op_Tame ham = true := by
    rw [C63_tame]
    intro t ht
    obtain ⟨rs, n, e, _⟩ := hham t ht
    rw [e]
    simp
  obtain ⟨ho, hx⟩ := C32_partial ht ha hs hr
  intro x hxr
  obtain ⟨_, M, v, e1, e2, e3⟩ := hx x hxr
  have hL := ((ho.2 x.L).1 (List.mem_map_of_mem hxr))
  have hL0 : 0 ≤ x.L := by have := hL.1; have := ha.2.2.1; omega
  have hla' := legal_at ha hL0
  refine ⟨M, e1, ?_⟩
  have hsym := C97_matrix_partial hla' hn fs dir hla hs hl hpos hham e1
  rw [rep_eq hla' hs] at e1
  have sq := allMat_square hla' e1
  have hs' := mat_isSymm.2 hsym
  have hcols : M.cols = M.rows := by rw [sq.1, sq.2.1]
  obtain ⟨v', P, f1, f2, f3⟩ := C70_symmetric la hla M.rows M rfl hcols hs'
  have e2' : Eigenfiddle la M = .ok (v, x.basis) := e2
  rw [f1] at e2'
  injection e2' with e2'
  injection e2' with e2' e4
  subst e2' e4
  have hPP := mul_eq_one_comm.1 f2
  have hAP : mat M.rows M * mat M.rows x.basis = mat M.rows x.basis * Matrix.diagonal (fun i : Fin M.rows => v' i) := by
    rw [← f3, Matrix.mul_assoc, ← Matrix.mul_assoc, hPP, Matrix.one_mul]
  intro k hk p hp
  have hk' : k < M.rows := by rw [e3] at hk; simpa using hk
  have := congrFun (congrFun hAP ⟨p, hp⟩) ⟨k, hk'⟩
  rw [Matrix.mul_diagonal] at this
  simp only [Matrix.mul_apply, mat, Matrix.of_apply] at this
  rw [Finset.sum_range]
  simp only [e3, List.getElem_map, List.getElem_range]
  rw [this, mul_comm]

theorem acm_balanced {a : XArgs} (h1 : 0 < a.lambda_base) (h2 : a.lambda_base ≠ 1)
    (c11 c20 c21 c22 c23 c30 c33 c40 c41 c42 c43 : ℝ) :
    BalancedHam a.lambda_base (fun v => v % 2) a (ACM_Hamiltonian (c11 := kC c11) (c20 := kC c20) (c21 := kC c21) (c22 := kC c22)
      (c23 := kC c23) (c30 := kC c30) (c33 := kC c33) (c40 := kC c40) (c41 := kC c41) (c42 := kC c42) (c43 := kC c43)) := by
  have hS : ∀ v, a.lambda_base + ((v % 2 : Int) : ℝ) ≠ 1 := by
    intro v
    rcases Int.emod_two_eq_zero_or_one v with h | h <;> rw [h]
    · simpa using h2
    · push_cast
      intro hh
      linarith
  have even : ∀ (r : Option RadSym) (n : ℕ), n % 2 = 0 → SelfAdjoint r → (∃ prim, closedForm r 0 = some prim) → ∀ v v',
      a.v_min ≤ v → v ≤ a.v_max → a.v_min ≤ v' → v' ≤ a.v_max → (v' - v - 3 * (n : Int)) % 2 = 0 → (n = 0 → v' = v) →
      GoodRadial a.lambda_base (v % 2) (v' % 2) (opList r) := by
    intro r n hn hr hc v v' _ _ _ _ hm _
    have : v' % 2 - v % 2 = 0 := by omega
    exact .inl ⟨r, rfl, hr, by rw [this]; exact hc, fun h => hS v h.2⟩
  have quart : ∀ (n : ℕ), n % 2 = 0 → ∀ v v',
      a.v_min ≤ v → v ≤ a.v_max → a.v_min ≤ v' → v' ≤ a.v_max → (v' - v - 3 * (n : Int)) % 2 = 0 → (n = 0 → v' = v) →
      GoodRadial a.lambda_base (v % 2) (v' % 2) [.b2, .b2] := by
    intro n hn v v' _ _ _ _ hm _
    exact .inr ⟨rfl, by omega⟩
  have odd : ∀ (r : Option RadSym), SelfAdjoint r → (∃ prim, closedForm r 1 = some prim) → (∃ prim, closedForm r (-1) = some prim) →
      ∀ v v', a.v_min ≤ v → v ≤ a.v_max → a.v_min ≤ v' → v' ≤ a.v_max → (v' - v - 3 * ((1 : ℕ) : Int)) % 2 = 0 → (1 = 0 → v' = v) →
      GoodRadial a.lambda_base (v % 2) (v' % 2) (opList r) := by
    intro r hr hc hc' v v' _ _ _ _ hm _
    have : v' % 2 - v % 2 = 1 ∨ v' % 2 - v % 2 = -1 := by omega
    refine .inl ⟨r, rfl, hr, ?_, fun h => hS v h.2⟩
    rcases this with h | h <;> rw [h] <;> assumption
  unfold BalancedHam ACM_Hamiltonian
  simp only []
  have kk : ∀ (c : Coeff), (∃ k, c = kC k) → ∀ (n : ℕ) (x y : Int × Int × Int × Int), n ≠ 0 ∨ x.2 = y.2 → c x = c y := by
    rintro _ ⟨k, rfl⟩ n x y _; rfl
  have mulk : ∀ (c : ℝ), ∃ k, kC c * kC Convert_310 = kC k := fun c => ⟨c * Convert_310, rfl⟩
  have mulk2 : ∀ (c : ℝ), ∃ k, kC c * kC Convert_310 ^ 2 = kC k := fun c => ⟨c * Convert_310 ^ 2, rfl⟩
  refine mem_addTerm (fun h => absurd rfl h) ?_
  refine mem_addTerm (fun _ => ⟨[.bm2], 2, rfl, by simp, kk _ (mulk2 _) 2, even (some .bm2) 2 rfl (by simp [SelfAdjoint]) ⟨_, rfl⟩⟩) ?_
  refine mem_addTerm (fun _ => ⟨[.b2, .b2], 2, rfl, by simp, kk _ (mulk2 _) 2, quart 2 rfl⟩) ?_
  refine mem_addTerm (fun _ => ⟨[.b2], 2, rfl, by simp, kk _ (mulk2 _) 2, even (some .b2) 2 rfl (by simp [SelfAdjoint]) ⟨_, rfl⟩⟩) ?_
  refine mem_addTerm (fun _ => ⟨[], 2, rfl, by simp, kk _ (mulk2 _) 2, even none 2 rfl (by simp [SelfAdjoint]) ⟨_, rfl⟩⟩) ?_
  refine mem_addTerm (fun _ => ⟨[.bm], 1, rfl, by simp, kk _ (mulk _) 1, odd (some .bm) (by simp [SelfAdjoint]) ⟨_, rfl⟩ ⟨_, rfl⟩⟩) ?_
  refine mem_addTerm (fun h => absurd rfl h) ?_
  refine mem_addTerm (fun h => absurd rfl h) ?_
  refine mem_addTerm (fun _ => ⟨[.b], 1, rfl, by simp, kk _ (mulk _) 1, odd (some .b) (by simp [SelfAdjoint]) ⟨_, rfl⟩ ⟨_, rfl⟩⟩) ?_
  refine mem_addTerm (fun _ => ⟨[.bm2], 0, rfl, by simp, kk _ ⟨_, rfl⟩ 0, even (some .bm2) 0 rfl (by simp [SelfAdjoint]) ⟨_, rfl⟩⟩) ?_
  refine mem_addTerm (fun _ => ⟨[.b2, .b2], 0, rfl, by simp, kk _ ⟨_, rfl⟩ 0, quart 0 rfl⟩) ?_
  refine mem_addTerm (fun _ => ⟨[.b2], 0, rfl, by simp, kk _ ⟨_, rfl⟩ 0, even (some .b2) 0 rfl (by simp [SelfAdjoint]) ⟨_, rfl⟩⟩) ?_
  refine mem_addTerm (fun _ => ⟨[], 0, rfl, by simp, kk _ ⟨_, rfl⟩ 0, even none 0 rfl (by simp [SelfAdjoint]) ⟨_, rfl⟩⟩) ?_
  split_ifs
  · intro t ht; cases ht
  · intro t ht
    simp only [List.mem_cons, List.not_mem_nil, or_false] at ht
    rcases ht with rfl | rfl
    · exact ⟨[.D2b], 0, rfl, by simp, kk _ ⟨_, rfl⟩ 0, even (some .D2b) 0 rfl (by simp [SelfAdjoint]) ⟨_, rfl⟩⟩
    · refine ⟨[.bm2], 0, rfl, by simp, fun x y h => ?_, even (some .bm2) 0 rfl (by simp [SelfAdjoint]) ⟨_, rfl⟩⟩
      rcases h with h | h
      · exact absurd rfl h
      · simp only [Pi.mul_apply, Pi.add_apply, Pi.neg_apply, SENIORITY, kC, h]
        rfl

/-- C97 for the Hamiltonians of `ACM_Hamiltonian` with constant coefficients in the basis of `lambda_acm_fun` (laplacian, constant,
powers of beta, cos(3 gamma) times beta or 1/beta, and the square of cos(3 gamma)).  Missing: `c31` and `c32`, for which
it is wrong (C97_fails, C122_acm), `c50`, and coefficients that are not constants. -/
theorem C97_acm_partial {a : XArgs} (ha : LegalRanges a) (hn : a.anorm ≠ 0) (h1 : 0 < a.lambda_base) (h2 : a.lambda_base ≠ 1)
    (fs : FileSys) (dir : Option (List Char)) {la : LinAlg} (hla : LinAlgOk la) {s : XState}
    (hs : MemoOk ⟨fileCG fs dir, la⟩ s) (hl : s.lam_fun = lambda_acm_fun)
    (c11 c20 c21 c22 c23 c30 c33 c40 c41 c42 c43 : ℝ) {M : Arr}
    (hM : (RepXspace ⟨fileCG fs dir, la⟩ (ACM_Hamiltonian (c11 := kC c11) (c20 := kC c20) (c21 := kC c21) (c22 := kC c22)
      (c23 := kC c23) (c30 := kC c30) (c33 := kC c33) (c40 := kC c40) (c41 := kC c41) (c42 := kC c42) (c43 := kC c43)) a s).1 = .ok M) :
    SymmetricOn M.rows M := by
  refine C97_matrix_partial ha hn fs dir hla hs (ls := fun v => v % 2)
    (fun v hv _ => by rw [hl]; exact acm_lambda (ha.2.1.1.trans hv)) (fun v hv _ => ?_)
    (acm_balanced h1 h2 c11 c20 c21 c22 c23 c30 c33 c40 c41 c42 c43) hM
  have : (0 : ℝ) ≤ ((v % 2 : Int) : ℝ) := by exact_mod_cast Int.emod_nonneg v (by decide)
  linarith

theorem cubic_up {F M : Type} [Field F] [LinearOrder F] (A : RadAlg F M) {lam : F} (h : 0 < lam) (h' : 0 < lam + 1) {x y : M}
    (hx : A.rep .b_pl lam = .ok x) (hy : A.rep .b2 (lam + 1) = .ok y) :
    ∃ z, RepRadialshfs_Prod A [.KT 3 0] lam [1] = .ok z ∧ Denotes A ⟨[(.me .b2, lam + 1), (.me .b_pl, lam)], -3⟩ z := by
  refine ⟨A.mul (A.scale (-2) y) (A.scale (-1) x), ?_, ?_⟩
  · unfold RepRadialshfs_Prod RepRadialshfs_loop RepRadialshfs_loop KTSOp.representation
    simp only [py_pure, py_bind_ok]
    rw [bS_DS_run A (spl := [0, 0, 1]) (n := 3) h (by simpa using h') (by decide) (by decide +kernel) (by decide +kernel) rfl]
    simp [bS_DS_loop, bS_DS_select, bS_DS_update, pyGet, pyAssert, hx, hy, py_pure, py_bind_ok, bS_DS_finish, readVar]
  · simpa using Denotes.mul (Denotes.scale (-2) (Denotes.rep hy)) (Denotes.scale (-1) (Denotes.rep hx))

theorem cubic_down {F M : Type} [Field F] [LinearOrder F] (A : RadAlg F M) {lam : F} (h : 0 < lam) (h' : 0 < lam + -1) {x y : M}
    (hx : A.rep .b_ml lam = .ok x) (hy : A.rep .b2 (lam + -1) = .ok y) :
    ∃ z, RepRadialshfs_Prod A [.KT 3 0] lam [-1] = .ok z ∧ Denotes A ⟨[(.me .b2, lam + -1), (.me .b_ml, lam)], -3⟩ z := by
  refine ⟨A.mul (A.scale (-2) y) (A.scale (-1) x), ?_, ?_⟩
  · unfold RepRadialshfs_Prod RepRadialshfs_loop RepRadialshfs_loop KTSOp.representation
    simp only [py_pure, py_bind_ok]
    rw [bS_DS_run A (spl := [0, 0, -1]) (n := 3) h (by simpa using h') (by decide) (by decide +kernel) (by decide +kernel) rfl]
    simp [bS_DS_loop, bS_DS_select, bS_DS_update, pyGet, pyAssert, hx, hy, py_pure, py_bind_ok, bS_DS_finish, readVar]
  · simpa using Denotes.mul (Denotes.scale (-2) (Denotes.rep hy)) (Denotes.scale (-1) (Denotes.rep hx))

theorem rep_exists {la : LinAlg} {anorm : ℝ} {lo hi : ℕ} {m : RadME} {lam : ℝ} {f : ℕ → ℕ → ℝ} (hf : Entries (m.fn lam) f) :
    ∃ y, (radMat la anorm (lo : Int) (hi : Int)).rep m lam = .ok y := ⟨_, ofM_eq fun _ _ _ _ => hf _ _⟩

/-- The matrix of `beta^3` between the lowest radial states, which depends on the direction. -/
theorem cubic_corner {la : LinAlg} (hla : LinAlgOk la) {anorm lam : ℝ} (ha : anorm ≠ 0) (h : 0 < lam) :
    (∃ R, RepRadialProd la anorm [.b2, .b] lam 1 0 0 0 = .ok R ∧ R.e 0 0 = anorm ^ (-3 : Int) * ((lam + 1) * Real.sqrt lam)) ∧
    ∃ R, RepRadialProd la anorm [.b2, .b] (lam + 1) (-1) 0 0 0 = .ok R ∧ R.e 0 0 = anorm ^ (-3 : Int) * (lam * Real.sqrt lam) := by
  have p1 : (0 : ℝ) < lam + 1 := by linarith
  have corner : ∀ {m1 m2 : RadME} {l1 l2 : ℝ} {f1 f2 : ℕ → ℕ → ℝ} {gs : List (ℕ → ℕ → ℝ)}, Entries (m1.fn l1) f1 → Entries (m2.fn l2) f2 →
      List.Forall₂ (PrimElement la 0 0) [(.me m1, l1), (.me m2, l2)] gs → windowProd 0 0 gs 0 0 = f1 0 0 * f2 0 0 := by
    intro m1 m2 l1 l2 f1 f2 gs e1 e2 hg
    cases hg with
    | @cons _ g1 _ _ h1 hg =>
      cases hg with
      | @cons _ g2 _ _ h2 hg =>
        cases hg
        have k1 := h1 0 (by simp) 0 (by simp)
        have k2 := h2 0 (by simp) 0 (by simp)
        rw [e1] at k1
        rw [e2] at k2
        injection k1 with k1
        injection k2 with k2
        simp [windowProd, opId, k1, k2]
  constructor
  · obtain ⟨x, hx⟩ := rep_exists (la := la) (anorm := anorm) (lo := 0) (hi := 0) (m := .b_pl) (b_pl_ok h)
    obtain ⟨y, hy⟩ := rep_exists (la := la) (anorm := anorm) (lo := 0) (hi := 0) (m := .b2) (b2_ok p1)
    obtain ⟨z, z1, z2⟩ := cubic_up _ h p1 hx hy
    obtain ⟨R, gs, r1, _, r2, r3⟩ := prod_window hla ha (ops := [.b2, .b]) h (v := 1) (by push_cast; exact p1) (nu_min := 0) (nu_max := 0) (nu_lap := 0)
      (by omega) (by decide +kernel) z1 z2
    refine ⟨R, r1, ?_⟩
    rw [r3 0 (by omega) 0 (by omega), corner (m1 := .b2) (m2 := .b_pl) (b2_ok p1) (b_pl_ok h) r2]
    simp [vSp, vSm, vS0, vb_pl]
    exact .inl (.inl (by ring))
  · have p2 : 0 < lam + 1 + -1 := by linarith
    obtain ⟨x, hx⟩ := rep_exists (la := la) (anorm := anorm) (lo := 0) (hi := 0) (m := .b_ml) (b_ml_ok h)
    obtain ⟨y, hy⟩ := rep_exists (la := la) (anorm := anorm) (lo := 0) (hi := 0) (m := .b2) (b2_ok p2)
    obtain ⟨z, z1, z2⟩ := cubic_down _ p1 p2 hx hy
    obtain ⟨R, gs, r1, _, r2, r3⟩ := prod_window hla ha (ops := [.b2, .b]) p1 (v := -1) (by push_cast; exact p2) (nu_min := 0) (nu_max := 0) (nu_lap := 0)
      (by omega) (by decide +kernel) z1 z2
    refine ⟨R, r1, ?_⟩
    rw [r3 0 (by omega) 0 (by omega), corner (m1 := .b2) (m2 := .b_ml) (b2_ok p2) (b_ml_ok h) r2]
    simp [vSp, vSm, vS0, vb_pl]
    exact .inl (.inl (by ring))

/-- The space of the example: the lowest radial state with L = 0 and v = 0 or 3. -/
noncomputable def twoStates : XArgs := ⟨1, 5 / 2, 0, 0, 0, 3, 0, 0⟩

theorem two_states (fs : FileSys) (dir : Option (List Char)) {c : ℝ}
    (hc : fileCG fs dir (0, 1, 0) (3, 1, 0) (3, 1, 0) = .ok c) :
    ∃ (Y : Arr) (m : ℝ), RepSO5r3_Prod_wrk (fileCG fs dir) (sphItems (List.replicate 1 (.harm .y310))) twoStates.v_min
      twoStates.v_max twoStates.L_min twoStates.L_max = .ok Y ∧ 0 < m ∧ Y.e 1 0 = c * m ∧ Y.e 0 1 = Y.e 1 0 ∧
      ∀ i, i < 2 → Y.e i i = 0 := by
  have ha : LegalRanges twoStates := by simp [LegalRanges, twoStates]
  have hst : twoStates.states = [(0, 1, 0), (3, 1, 0)] := by decide +kernel
  have hz : ∀ v : ℕ, v = 0 ∨ v = 3 → fileCG fs dir (v, (1 : ℕ), (0 : ℕ)) ((3 : ℕ), (1 : ℕ), (0 : ℕ)) (v, (1 : ℕ), (0 : ℕ)) = .ok 0 := by
    intro v hv
    unfold fileCG
    rw [C51_selection_rules fs _ v 1 0 3 1 0 v 1 0 (le_refl _) (le_refl _) (le_refl _) (by
      unfold CG5Rules Triangle IsState
      rcases hv with rfl | rfl <;> decide +kernel)]
  have hex := C53_exchange fs dir [] 3 1 0 3 1 0 0 1 0 (by omega) (by omega) (by omega) (by omega)
  have hc1 : (CG_SO5r3 fs ((0 : ℕ), (1 : ℕ), (0 : ℕ)) ((3 : ℕ), (1 : ℕ), (0 : ℕ)) ((3 : ℕ), (1 : ℕ), (0 : ℕ)) (runCGCalls fs [] (CGState.start dir))).1 = .ok c := hc
  rw [hc1] at hex
  have hc2 : fileCG fs dir (3, 1, 0) (3, 1, 0) (0, 1, 0) = .ok (exchangeFactor 3 0 0 0 0 * c) := hex
  obtain ⟨m, hm, hmpos, _⟩ := C65_selection 3 3 0
  have hmpos := hmpos (by omega)
  have h30 : ME_SO5r3 (fileCG fs dir) (3, 1, 0) (3, 1, 0) (0, 1, 0) = .ok (c * m) := by
    have hm' : ME_SO5red 3 3 0 = .ok m := hm
    unfold ME_SO5r3
    simp only
    rw [hc, py_bind_ok, hm', py_bind_ok]
    rfl
  have hred : ∀ u v : ℕ, ∃ m, ME_SO5red u 3 v = .ok m := fun u v => by
    obtain ⟨m, hm, _⟩ := C65_selection u 3 v
    exact ⟨m, hm⟩
  have h03 : ∃ x, ME_SO5r3 (fileCG fs dir) (0, 1, 0) (3, 1, 0) (3, 1, 0) = .ok x := by
    obtain ⟨m, hm⟩ := hred 0 3
    have hm' : ME_SO5red 0 3 3 = .ok m := hm
    unfold ME_SO5r3
    simp only
    rw [hc2, py_bind_ok, hm', py_bind_ok]
    exact ⟨_, rfl⟩
  have h00 : ∃ x, ME_SO5r3 (fileCG fs dir) (0, 1, 0) (3, 1, 0) (0, 1, 0) = .ok x := by
    obtain ⟨m, hm⟩ := hred 0 0
    have hm' : ME_SO5red 0 3 0 = .ok m := hm
    have : fileCG fs dir (0, 1, 0) (3, 1, 0) (0, 1, 0) = .ok 0 := hz 0 (.inl rfl)
    unfold ME_SO5r3
    simp only
    rw [this, py_bind_ok, hm', py_bind_ok]
    exact ⟨_, rfl⟩
  have h33 : ∃ x, ME_SO5r3 (fileCG fs dir) (3, 1, 0) (3, 1, 0) (3, 1, 0) = .ok x := by
    obtain ⟨m, hm⟩ := hred 3 3
    have hm' : ME_SO5red 3 3 3 = .ok m := hm
    have : fileCG fs dir (3, 1, 0) (3, 1, 0) (3, 1, 0) = .ok 0 := hz 3 (.inr rfl)
    unfold ME_SO5r3
    simp only
    rw [this, py_bind_ok, hm', py_bind_ok]
    exact ⟨_, rfl⟩
  obtain ⟨x03, h03⟩ := h03
  obtain ⟨x00, h00⟩ := h00
  obtain ⟨x33, h33⟩ := h33
  have hY : RepSO5_Y_rem (fileCG fs dir) SpHarm.y310.table twoStates.v_min twoStates.v_max twoStates.L_min twoStates.L_max = .ok (Arr.ofLists [[x00, x03], [c * m, x33]]) := by
    unfold RepSO5_Y_rem
    rw [states_ok ha, py_bind_ok, hst]
    simp only [List.mapM_cons, List.mapM_nil, SpHarm.table]
    rw [h00, h03, h33, h30]
    rfl
  have hsy := C97_y310 ha fs dir hY 0 (by rw [hst]; decide) 1 (by rw [hst]; decide)
  set Y := Arr.ofLists [[x00, x03], [c * m, x33]] with hYdef
  have hY10 : Y.e 1 0 = c * m := by simp [hYdef, Arr.ofLists, Arr.of]
  have hS : RepSO5r3_Prod_wrk (fileCG fs dir) (sphItems (List.replicate 1 (.harm .y310))) twoStates.v_min twoStates.v_max twoStates.L_min twoStates.L_max = .ok Y := by
    unfold RepSO5r3_Prod_wrk
    rw [if_neg (by simp [sphItems])]
    simp only [sphItems, List.replicate_one, List.map_cons, List.map_nil, RepSO5r3_loop, RepSO5r3_item]
    rw [show RepSO5_Y_rem (fileCG fs dir) SpHarm.y310.table twoStates.v_min twoStates.v_max twoStates.L_min twoStates.L_max = .ok Y from hY]
    rfl
  refine ⟨Y, m, hS, hmpos, hY10, hsy, ?_⟩
  intro i hi
  by_contra hne
  have hi' := List.getElem?_eq_getElem (l := twoStates.states) (i := i) (by rw [hst]; exact hi)
  have := Y_parity ha hY hi' hi' hne
  simp [SpHarm.table] at this

/-- A file system in which every data file holds 100 ones. -/
noncomputable def onesFS : FileSys := ⟨fun _ => some (List.replicate 100 1), []⟩

theorem onesFS_value : fileCG onesFS none (0, 1, 0) (3, 1, 0) (3, 1, 0) = .ok 1 := by
  have hl : (cgLabels (0 : ℕ) (0 : ℕ) (3 : ℕ)).length ≤ 100 := by decide +kernel
  obtain ⟨i, x, _, h2, h3⟩ := C52_lookup onesFS none [] 0 1 0 3 1 0 3 1 0
    (by unfold CG5Rules Triangle IsState; decide +kernel) (by omega) (by omega) (List.replicate 100 1) _ rfl rfl
    (cgLabels (0 : ℕ) (0 : ℕ) (3 : ℕ)) (cgLines_cgLabels 0 0 3) (by rw [List.length_replicate]; exact hl)
  have : x = 1 := List.eq_of_mem_replicate (List.mem_of_getElem? h2)
  subst this
  exact h3

/-- With these files the Hamiltonian `cos(3 gamma) beta` has a matrix on the two states, which
is not diagonal, and the space is diagonalised. -/
theorem twoStates_meets {la : LinAlg} (hla : LinAlgOk la) : ∃ (s : FState) (M : Arr) (r : List LEig) (t : FState),
    MemoOk ⟨fileCG onesFS none, la⟩ s.xs ∧ s.glb.lam_fun = lambda_acm_fun ∧ LegalRanges twoStates ∧ twoStates.anorm ≠ 0 ∧
    0 < twoStates.lambda_base ∧ twoStates.lambda_base ≠ 1 ∧
    (RepXspace ⟨fileCG onesFS none, la⟩ (ACM_Hamiltonian (c30 := kC 1)) twoStates s.xs).1 = .ok M ∧ M.e 1 0 ≠ 0 ∧
    DigXspace ⟨fileCG onesFS none, la⟩ (ACM_Hamiltonian (c30 := kC 1)) twoStates s = (.ok r, t) := by
  let s : FState := ⟨{ Glb.init with lam_fun := lambda_acm_fun }, fun _ => none, fun _ _ => none, fun _ => none, []⟩
  let env : XEnv := ⟨fileCG onesFS none, la⟩
  have hm : MemoOk env s.xs := memoOk_start env lambda_acm_fun
  have ha : LegalRanges twoStates := by simp [LegalRanges, twoStates]
  have hst : twoStates.states = [(0, 1, 0), (3, 1, 0)] := by decide +kernel
  have hlb : twoStates.xlabels = [(0, 0, 1, 0), (0, 3, 1, 0)] := by decide +kernel
  obtain ⟨Y, m, hS, hmpos, hY10, hsy, hpar⟩ := two_states onesFS none onesFS_value
  have hY0 : Y.e 1 0 ≠ 0 := by rw [hY10]; exact mul_ne_zero one_ne_zero hmpos.ne'
  obtain ⟨R, hR, hRe⟩ := C79_agrees la hla 1 one_ne_zero (some .b) 1 _ rfl (5 / 2) (by norm_num) (by norm_num) (by simp [Singular]) 0 0 0 (by omega)
  obtain ⟨R', hR', _⟩ := C79_agrees la hla 1 one_ne_zero (some .b) (-1) _ rfl (5 / 2 + 1) (by norm_num) (by norm_num) (by simp [Singular]) 0 0 0 (by omega)
  have hR1 : RepRadialProd env.la twoStates.anorm [.b] (twoStates.lambda_base + ((0 : Int) : ℝ)) (1 - 0) twoStates.nu_min twoStates.nu_max 0 = .ok R := by
    rw [Int.cast_zero, add_zero]; exact hR
  have hR1' : RepRadialProd env.la twoStates.anorm [.b] (twoStates.lambda_base + ((1 : Int) : ℝ)) (0 - 1) twoStates.nu_min twoStates.nu_max 0 = .ok R' := by
    rw [Int.cast_one]; exact hR'
  obtain ⟨P, hP⟩ := C28_exists ha env hla (by norm_num [twoStates]) lambda_acm_fun [.b] (List.replicate 1 (.harm .y310)) (states_ok ha) hS
    (fun s => s.1 % 2) (fun f hf => acm_lambda (state_v hf).1) (by
      intro i j f k hi hj hne
      have hi' := (List.getElem?_eq_some_iff.1 hi).1
      have hj' := (List.getElem?_eq_some_iff.1 hj).1
      rw [hst] at hi hj hi' hj'
      have hi2 : i < 2 := hi'
      have hj2 : j < 2 := hj'
      interval_cases i <;> interval_cases j
      · exact absurd (hpar 0 (by omega)) hne
      · injection hi with hi; injection hj with hj; subst hi hj
        exact ⟨R', hR1'⟩
      · injection hi with hi; injection hj with hj; subst hi hj
        exact ⟨R, hR1⟩
      · exact absurd (hpar 1 (by omega)) hne)
  have hprod : prodMat env twoStates [.rad .b, .harm .y310] lambda_acm_fun = .ok P := by
    rw [← hP]; exact prodMat_word ha (rs := [.b]) (by simp) 1 lambda_acm_fun
  obtain ⟨_, S, hS', hel⟩ := C28_elements ha env lambda_acm_fun _ _ (lbsXspace_ok ha) (states_ok ha) hP
  have hS2 : RepSO5r3_Prod_wrk env.CG (sphItems (List.replicate 1 (.harm .y310))) twoStates.v_min
      twoStates.v_max twoStates.L_min twoStates.L_max = .ok Y := hS
  rw [hS2] at hS'
  injection hS' with hS'
  subst hS'
  obtain ⟨i, j, lf, li, hi, hj, t1, t2, _, t4⟩ := hel 1 0 0 0 (3, 1, 0) (0, 1, 0) (by rw [hlb]; rfl) (by rw [hlb]; rfl)
  obtain rfl := states_inj hi (show twoStates.states[1]? = _ by rw [hst]; rfl)
  obtain rfl := states_inj hj (show twoStates.states[0]? = _ by rw [hst]; rfl)
  rw [show lambda_acm_fun (3, 1, 0).1 = .ok 1 from acm_lambda (v := 3) (by decide)] at t1
  rw [show lambda_acm_fun (0, 1, 0).1 = .ok 0 from acm_lambda (v := 0) (by decide)] at t2
  injection t1 with t1
  injection t2 with t2
  subst t1 t2
  obtain ⟨R2, hR2, t4⟩ := t4 hY0
  rw [hR1] at hR2
  injection hR2 with hR2
  subst hR2
  have hR00 : R.e 0 0 ≠ 0 := by
    have := hRe 0 (by simp) 0 (by simp)
    rw [element_direct (by norm_num) rfl, show primME (.me .b_pl) (5 / 2) 0 0 = .ok _ from b_pl_ok (lam := 5 / 2) (by norm_num) 0 0] at this
    injection this with this
    simp only [vb_pl, if_true] at this
    rw [show (0 - 0 : ℕ) = 0 from rfl] at this
    rw [← this]
    have : (0 : ℝ) < Real.sqrt (5 / 2 + (0 : ℕ)) := Real.sqrt_pos.2 (by norm_num)
    positivity
  have hham : ACM_Hamiltonian (c30 := kC 1) = [(kC 1 * kC Convert_310, [.rad .b, .harm .y310])] := by
    have : kC 1 ≠ 0 := fun h => one_ne_zero (congrFun h (0, 0, 0, 0))
    simp [ACM_Hamiltonian, addTerm, this]
  obtain ⟨M, h1, h2, h3⟩ := rep_sum (f := fun _ p q => P.e p q) ha (ts := ACM_Hamiltonian (c30 := kC 1)) (env := env) (lam := lambda_acm_fun) fun t ht => by
    rw [hham, List.mem_singleton] at ht
    subst ht
    exact ⟨P, hprod, fun p q _ _ => rfl⟩
  have hdim : twoStates.dim = 2 := by rw [← length_xlabels, hlb]; rfl
  have hat : twoStates.at 0 = twoStates := rfl
  obtain ⟨r, t, hr⟩ := digTame_total (ts := ACM_Hamiltonian (c30 := kC 1)) ha _ (range_nonneg ha) s hm fun L hL => by
    rw [mem_pyRange] at hL
    obtain rfl : L = 0 := by simp only [twoStates] at hL; omega
    exact ⟨M, h1⟩
  refine ⟨s, M, r, t, hm, rfl, ha, by norm_num [twoStates], by norm_num [twoStates], by norm_num [twoStates],
    by rw [rep_eq ha hm]; exact h1, ?_, ?_⟩
  · rw [h3 1 0 _ (by rw [hdim]; decide) (by rw [hlb]; rfl), hham]
    have hconv : Convert_310 ≠ 0 := by unfold Convert_310 FourPi; positivity
    simp only [List.map_cons, List.map_nil, List.sum_cons, List.sum_nil, add_zero, Pi.mul_apply, kC, one_mul, t4]
    exact mul_ne_zero hconv (mul_ne_zero (mul_ne_zero (pow_ne_zero _ (by positivity)) hY0) hR00)
  · unfold DigXspace
    rw [check_ok ha, st_lift_ok, if_pos (by rw [hham]; decide)]
    exact hr

/-- The hypotheses of C97 are met. -/
example {la : LinAlg} (hla : LinAlgOk la) : ∃ (s : FState) (M : Arr) (r : List LEig) (t : FState),
    MemoOk ⟨fileCG onesFS none, la⟩ s.xs ∧ s.glb.lam_fun = lambda_acm_fun ∧ LegalRanges twoStates ∧ twoStates.anorm ≠ 0 ∧
    0 < twoStates.lambda_base ∧ twoStates.lambda_base ≠ 1 ∧
    (RepXspace ⟨fileCG onesFS none, la⟩ (ACM_Hamiltonian (c30 := kC 1)) twoStates s.xs).1 = .ok M ∧ M.e 1 0 ≠ 0 ∧
    DigXspace ⟨fileCG onesFS none, la⟩ (ACM_Hamiltonian (c30 := kC 1)) twoStates s = (.ok r, t) :=
  twoStates_meets hla

/-- C97 does not hold for all Hamiltonians: beta^3 cos(3 gamma), the term of `c31` in `ACM_Hamiltonian`, has a matrix that is
not symmetric, whenever the coefficient (0; 3 || 3) in the files is not 0.  The matrix of beta^3 is the
product of the truncated matrices of beta and beta^2.  In both directions beta acts first, so that beta^2 is taken at the lambda
of the final state, which is another one for the transposed element.  `Eigenfiddle` replaces the matrix by its symmetric part. -/
theorem C97_fails (fs : FileSys) (dir : Option (List Char)) {la : LinAlg} (hla : LinAlgOk la) {s : XState}
    (hs : MemoOk ⟨fileCG fs dir, la⟩ s) (hl : s.lam_fun = lambda_acm_fun) {c : ℝ}
    (hc : fileCG fs dir (0, 1, 0) (3, 1, 0) (3, 1, 0) = .ok c) (hc0 : c ≠ 0) :
    ∃ (a : XArgs) (M : Arr), LegalRanges a ∧ (RepXspace ⟨fileCG fs dir, la⟩ (ACM_Hamiltonian (c31 := kC 1)) a s).1 = .ok M ∧
      ¬ SymmetricOn M.rows M := by
  let a : XArgs := twoStates
  have ha : LegalRanges a := by simp [LegalRanges, a, twoStates]
  set env : XEnv := ⟨fileCG fs dir, la⟩ with henv
  have hst : a.states = [(0, 1, 0), (3, 1, 0)] := by decide +kernel
  have hlb : a.xlabels = [(0, 0, 1, 0), (0, 3, 1, 0)] := by decide +kernel
  obtain ⟨Y, m, hS, hmpos, hY10, hsy, hpar⟩ := two_states fs dir hc
  have hY0 : Y.e 1 0 ≠ 0 := by rw [hY10]; exact mul_ne_zero hc0 hmpos.ne'
  obtain ⟨⟨R, hR, hRe⟩, ⟨R', hR', hRe'⟩⟩ := cubic_corner hla (anorm := 1) (lam := 5 / 2) (by norm_num) (by norm_num)
  have l0 : s.lam_fun 0 = .ok 0 := by rw [hl]; exact acm_lambda (v := 0) (by decide)
  have l3 : s.lam_fun 3 = .ok 1 := by rw [hl]; exact acm_lambda (v := 3) (by decide)
  have hR1 : RepRadialProd env.la a.anorm [.b2, .b] (a.lambda_base + ((0 : Int) : ℝ)) (1 - 0) a.nu_min a.nu_max 0 = .ok R := by
    rw [Int.cast_zero, add_zero]; exact hR
  have hR1' : RepRadialProd env.la a.anorm [.b2, .b] (a.lambda_base + ((1 : Int) : ℝ)) (0 - 1) a.nu_min a.nu_max 0 = .ok R' := by
    rw [Int.cast_one]; exact hR'
  obtain ⟨P, hP⟩ := C28_exists ha env hla (by norm_num [a, twoStates]) s.lam_fun [.b2, .b] (List.replicate 1 (.harm .y310)) (states_ok ha) hS
    (fun s => s.1 % 2) (by
      intro f hf
      rw [hl]
      exact acm_lambda (state_v hf).1) (by
      intro i j f k hi hj hne
      have hi' := (List.getElem?_eq_some_iff.1 hi).1
      have hj' := (List.getElem?_eq_some_iff.1 hj).1
      rw [hst] at hi hj hi' hj'
      have hi2 : i < 2 := hi'
      have hj2 : j < 2 := hj'
      interval_cases i <;> interval_cases j
      · exact absurd (hpar 0 (by omega)) hne
      · injection hi with hi; injection hj with hj; subst hi hj
        exact ⟨R', hR1'⟩
      · injection hi with hi; injection hj with hj; subst hi hj
        exact ⟨R, hR1⟩
      · exact absurd (hpar 1 (by omega)) hne)
  have hprod : prodMat env a [.rad .b2, .rad .b, .harm .y310] s.lam_fun = .ok P := by
    rw [← hP]; exact prodMat_word ha (rs := [.b2, .b]) (by simp) 1 s.lam_fun
  obtain ⟨_, S, hS', hel⟩ := C28_elements ha env s.lam_fun _ _ (lbsXspace_ok ha) (states_ok ha) hP
  rw [hS] at hS'
  injection hS' with hS'
  subst hS'
  have pos : ∀ {i : ℕ} {f : Label}, a.states[i]? = some f → (f = (0, 1, 0) → i = 0) ∧ (f = (3, 1, 0) → i = 1) := by
    intro i f hi
    constructor <;> rintro rfl
    · exact states_inj hi (by rw [hst]; rfl)
    · exact states_inj hi (by rw [hst]; rfl)
  obtain ⟨i, j, lf, li, hi, hj, t1, t2, _, t4⟩ := hel 1 0 0 0 (3, 1, 0) (0, 1, 0) (by rw [hlb]; rfl) (by rw [hlb]; rfl)
  obtain rfl := (pos hi).2 rfl
  obtain rfl := (pos hj).1 rfl
  obtain ⟨i', j', lf', li', hi', hj', t1', t2', _, t4'⟩ := hel 0 1 0 0 (0, 1, 0) (3, 1, 0) (by rw [hlb]; rfl) (by rw [hlb]; rfl)
  obtain rfl := (pos hi').1 rfl
  obtain rfl := (pos hj').2 rfl
  simp only [l0, l3, Except.ok.injEq] at t1 t2 t1' t2'
  subst t1 t2 t1' t2'
  obtain ⟨R2, hR2, t4⟩ := t4 hY0
  obtain ⟨R2', hR2', t4'⟩ := t4' (by rw [hsy]; exact hY0)
  rw [hR1] at hR2
  rw [hR1'] at hR2'
  injection hR2 with hR2
  injection hR2' with hR2'
  subst hR2 hR2'
  have hham : ACM_Hamiltonian (c31 := kC 1) = [(kC 1 * kC Convert_310, [.rad .b2, .rad .b, .harm .y310])] := by
    have : kC 1 ≠ 0 := fun h => one_ne_zero (congrFun h (0, 0, 0, 0))
    simp [ACM_Hamiltonian, addTerm, this]
  obtain ⟨M, h1, h2, h3⟩ := rep_sum (f := fun _ p q => P.e p q) ha (ts := ACM_Hamiltonian (c31 := kC 1)) (env := env) (lam := s.lam_fun) fun t ht => by
    rw [hham, List.mem_singleton] at ht
    subst ht
    exact ⟨P, hprod, fun p q _ _ => rfl⟩
  have hdim : a.dim = 2 := by rw [← length_xlabels, hlb]; rfl
  refine ⟨a, M, ha, by rw [rep_eq ha hs]; exact h1, fun hsym => ?_⟩
  have h01 := hsym 1 (by rw [h2.1, hdim]; decide) 0 (by rw [h2.1, hdim]; decide)
  rw [h3 1 0 _ (by rw [hdim]; decide) (by rw [hlb]; rfl), h3 0 1 _ (by rw [hdim]; decide) (by rw [hlb]; rfl), hham] at h01
  have hconv : Convert_310 ≠ 0 := by unfold Convert_310 FourPi; positivity
  simp only [List.map_cons, List.map_nil, List.sum_cons, List.sum_nil, add_zero, Pi.mul_apply, kC, one_mul] at h01
  have h01 := mul_left_cancel₀ hconv h01
  rw [t4, t4', hsy] at h01
  have h01 := mul_left_cancel₀ (mul_ne_zero (pow_ne_zero _ (by positivity)) hY0) h01
  have hnu : (0 - a.nu_min).toNat = 0 := rfl
  rw [hnu, hRe, hRe'] at h01
  have : (0 : ℝ) < Real.sqrt (5 / 2) := Real.sqrt_pos.2 (by norm_num)
  norm_num at h01

/-- The hypothesis of `C97_fails` on the coefficient is met. -/
example : ∃ fs dir c, fileCG fs dir (0, 1, 0) (3, 1, 0) (3, 1, 0) = .ok c ∧ c ≠ 0 := ⟨onesFS, none, 1, onesFS_value, one_ne_zero⟩

/-- The hypotheses of `C97_harmonic` and `C97_y310` are met: with these files the matrix on the two states exists. -/
example : ∃ A, RepSO5_Y_rem (fileCG onesFS none) SpHarm.y310.table twoStates.v_min twoStates.v_max twoStates.L_min
    twoStates.L_max = .ok A ∧ A.e 1 0 ≠ 0 := by
  obtain ⟨Y, m, h, h1, h2, _⟩ := two_states onesFS none onesFS_value
  unfold RepSO5r3_Prod_wrk at h
  rw [if_neg (by simp [sphItems])] at h
  simp only [sphItems, List.replicate_one, List.map_cons, List.map_nil, RepSO5r3_loop, RepSO5r3_item] at h
  cases hM : RepSO5_Y_rem (fileCG onesFS none) SpHarm.y310.table twoStates.v_min twoStates.v_max twoStates.L_min
      twoStates.L_max with
  | error e => rw [hM] at h; cases h
  | ok M =>
    rw [hM] at h
    injection h with h
    exact ⟨M, rfl, by rw [h, h2]; exact mul_ne_zero one_ne_zero h1.ne'⟩

end Acm.Props
