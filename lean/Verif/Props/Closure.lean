import Verif.Props.Perturb
import Verif.Props.Balance
import Verif.Props.SO5Items
import Verif.Spec.Closure

/-!
# C128: sums over intermediate states
-/

namespace Acm.Props

open Acm.Spec

/-! ### the matrices -/

theorem prodMat_ordinary {env : XEnv} {a : XArgs} (h : LegalRanges a) {rs : List RadSym} (hr : RadSym.other ∉ rs)
    (hs : List SpHarm) (lam : LambdaFunction) :
    prodMat env a (rs.map .rad ++ hs.map .harm) lam = RepXspace_Twin env lam rs (hs.map .harm) a := by
  have hsph : ∀ (hs : List SpHarm) rs ss, segsOf (hs.map .harm) rs ss = [.twin rs (ss ++ hs.map .harm)] := by
    intro hs
    induction hs with
    | nil => intro rs ss; simp [segsOf]
    | cons y hs ih => intro rs ss; simp [segsOf, OpSym.radial?, OpSym.isSpherical, ih]
  have hrad : ∀ (rs qs : List RadSym), RadSym.other ∉ rs →
      segsOf (rs.map .rad ++ hs.map .harm) qs [] = [.twin (qs ++ rs) (hs.map .harm)] := by
    intro rs
    induction rs with
    | nil =>
      intro qs _
      rw [List.map_nil, List.nil_append, List.append_nil]
      exact hsph hs qs []
    | cons r rs ih =>
      intro qs hr
      have : (OpSym.rad r).radial? = some r := by cases r <;> first | rfl | simp at hr
      simp only [List.map_cons, List.cons_append, segsOf, this]
      rw [ih _ (by simp_all)]
      simp
  unfold prodMat
  rw [check_ok h, py_bind_ok, hrad rs [] hr]
  simp only [List.nil_append, segMat, segsMat]
  cases RepXspace_Twin env lam rs (hs.map .harm) a <;> rfl

theorem sum_flat (n m : ℕ) (f : ℕ → ℝ) : ∑ k ∈ Finset.range (n * m), f k = ∑ i ∈ Finset.range n, ∑ w ∈ Finset.range m, f (i * m + w) := by
  induction n with
  | zero => simp
  | succ n ih => rw [Nat.succ_mul, Finset.sum_range_add, ih, Finset.sum_range_succ]

theorem sph_append {CG : CGFun} {a : XArgs} (h : LegalRanges a) {ys zs : List YSym} {S T : Arr}
    (hS : RepSO5r3_Prod_wrk CG ys a.v_min a.v_max a.L_min a.L_max = .ok S)
    (hT : RepSO5r3_Prod_wrk CG zs a.v_min a.v_max a.L_min a.L_max = .ok T) :
    ∃ U, RepSO5r3_Prod_wrk CG (ys ++ zs) a.v_min a.v_max a.L_min a.L_max = .ok U ∧ ∀ i < a.states.length, ∀ j < a.states.length,
      U.e i j = ∑ k ∈ Finset.range a.states.length, S.e i k * T.e k j := by
  have hst := states_ok h
  obtain ⟨⟨-, -⟩, ⟨v1, v2⟩, l1, l2⟩ := h
  obtain ⟨v0, e0⟩ := Int.eq_ofNat_of_zero_le v1
  obtain ⟨v3, e1⟩ := Int.eq_ofNat_of_zero_le (v1.trans v2)
  obtain ⟨l0, e2⟩ := Int.eq_ofNat_of_zero_le l1
  obtain ⟨l3, e3⟩ := Int.eq_ofNat_of_zero_le (l1.trans l2)
  rw [e0, e1] at v2
  rw [e2, e3] at l2
  rw [e0, e1, e2, e3] at hS hT hst ⊢
  have v2 : v0 ≤ v3 := by exact_mod_cast v2
  have l2 : l0 ≤ l3 := by exact_mod_cast l2
  obtain ⟨Ms, m1, m2⟩ := C72_only v2 l2 hst ys S hS
  obtain ⟨Ns, n1, n2⟩ := C72_only v2 l2 hst zs T hT
  obtain ⟨U, u1, -, u3⟩ := C72_matrices v2 l2 hst (ys ++ zs) (Ms ++ Ns) (List.rel_append m1 n1)
  refine ⟨U, u1, fun i hi j hj => ?_⟩
  rw [List.prod_append, ← m2, ← n2] at u3
  have := congrFun (congrFun u3 ⟨i, hi⟩) ⟨j, hj⟩
  rw [Matrix.mul_apply] at this
  rw [Finset.sum_range]
  exact this

/-- The elements of a product in a basis of constant `lambda`. -/
theorem twin_const {a : XArgs} (h : LegalRanges a) {env : XEnv} {lam : LambdaFunction} {l : Int}
    (hl : ∀ v, a.v_min ≤ v → v ≤ a.v_max → lam v = .ok l) {rs : List RadSym} {ss : List OpSym} {M S : Arr}
    (hM : RepXspace_Twin env lam rs ss a = .ok M)
    (hS : RepSO5r3_Prod_wrk env.CG (sphItems ss) a.v_min a.v_max a.L_min a.L_max = .ok S) {i j x y : ℕ} (hi : i < a.states.length)
    (hj : j < a.states.length) (hx : x < a.rdim) (hy : y < a.rdim) :
    (S.e i j = 0 → M.e (i * a.rdim + x) (j * a.rdim + y) = 0) ∧
    (S.e i j ≠ 0 → ∃ R, RepRadialProd env.la a.anorm rs (a.lambda_base + l) 0 a.nu_min a.nu_max 0 = .ok R ∧
      M.e (i * a.rdim + x) (j * a.rdim + y) = (1 / (4 * Real.pi)) ^ harmonics ss * S.e i j * R.e x y) := by
  obtain ⟨-, S', hS', g⟩ := C28_elements h env lam rs ss (lbsXspace_ok h) (states_ok h) hM
  rw [hS] at hS'
  injection hS' with hS'
  subst hS'
  have gi := List.getElem?_eq_getElem hi
  have gj := List.getElem?_eq_getElem hj
  obtain ⟨i', j', lf, li, k1, k2, k3, k4, k5, k6⟩ := g (i * a.rdim + x) (j * a.rdim + y) _ _ _ _
    (by rw [getElem?_xlabels a i x hx, gi]; rfl) (by rw [getElem?_xlabels a j y hy, gj]; rfl)
  obtain rfl := states_inj gi k1
  obtain rfl := states_inj gj k2
  have lam' : ∀ s ∈ a.states, lam s.1 = .ok l := fun s hs => hl _ (state_v hs).1 (state_v hs).2
  rw [lam' _ (List.getElem_mem hi)] at k3
  rw [lam' _ (List.getElem_mem hj)] at k4
  injection k3 with k3
  injection k4 with k4
  subst k3 k4
  refine ⟨k5, fun hne => ?_⟩
  obtain ⟨R, r1, r2⟩ := k6 hne
  rw [sub_self] at r1
  rw [show (a.nu_min + (x : Int) - a.nu_min).toNat = x by omega, show (a.nu_min + (y : Int) - a.nu_min).toNat = y by omega] at r2
  exact ⟨R, r1, r2⟩

theorem harmonics_append (ss ts : List OpSym) : harmonics (ss ++ ts) = harmonics ss + harmonics ts := by
  induction ss with
  | nil => simp [harmonics]
  | cons s ss ih =>
    rw [List.cons_append]
    cases s <;> first | (simp only [harmonics, ih]; done) | (simp only [harmonics, ih]; omega)

theorem twin_mul {a : XArgs} (h : LegalRanges a) {env : XEnv} (hla : LinAlgOk env.la) (ha : a.anorm ≠ 0) {lam : LambdaFunction} {l : Int}
    (hl : ∀ v, a.v_min ≤ v → v ≤ a.v_max → lam v = .ok l) (hpos : 0 < a.lambda_base + l) {rs : List RadSym} {ss ts : List OpSym}
    {M N : Arr} (hM : RepXspace_Twin env lam rs ss a = .ok M) (hN : RepXspace_Twin env lam [] ts a = .ok N) :
    ∃ P, RepXspace_Twin env lam rs (ss ++ ts) a = .ok P ∧ ∀ p < a.dim, ∀ q < a.dim,
      P.e p q = ∑ k ∈ Finset.range a.dim, M.e p k * N.e k q := by
  obtain ⟨S, hS⟩ := Twin_sph h hM
  obtain ⟨T, hT⟩ := Twin_sph h hN
  obtain ⟨U, hU, e⟩ := sph_append h hS hT
  rw [show sphItems ss ++ sphItems ts = sphItems (ss ++ ts) by unfold sphItems; rw [List.map_append]] at hU
  have lam' : ∀ s ∈ a.states, lam s.1 = .ok l := fun s hs => hl _ (state_v hs).1 (state_v hs).2
  have hN' : ∀ {i j x y : ℕ}, i < a.states.length → j < a.states.length → x < a.rdim → y < a.rdim →
      N.e (i * a.rdim + x) (j * a.rdim + y) = (1 / (4 * Real.pi)) ^ harmonics ts * T.e i j * if x = y then 1 else 0 := by
    intro i j x y hi hj hx hy
    obtain ⟨g1, g2⟩ := twin_const h hl hN hT hi hj hx hy
    by_cases h0 : T.e i j = 0
    · rw [g1 h0, h0, mul_zero, zero_mul]
    · obtain ⟨R, r1, r2⟩ := g2 h0
      rw [radial_empty _ _ _ hpos _ _ h.1.1] at r1
      injection r1 with r1
      subst r1
      rw [r2]
      unfold Arr.eye Arr.of
      dsimp only
      unfold XArgs.rdim at hx hy
      rw [if_pos ⟨by omega, by omega⟩]
  by_cases hR : ∃ R, RepRadialProd env.la a.anorm rs (a.lambda_base + l) 0 a.nu_min a.nu_max 0 = .ok R
  · obtain ⟨R, hR⟩ := hR
    obtain ⟨P, hP⟩ := C28_exists h env hla ha lam rs (ss ++ ts) (states_ok h) hU (fun _ => l) lam' fun i j f k _ _ _ =>
      ⟨R, by rw [sub_self]; exact hR⟩
    have all : ∀ {ss : List OpSym} {M S : Arr}, RepXspace_Twin env lam rs ss a = .ok M →
        RepSO5r3_Prod_wrk env.CG (sphItems ss) a.v_min a.v_max a.L_min a.L_max = .ok S → ∀ {i j x y : ℕ}, i < a.states.length →
        j < a.states.length → x < a.rdim → y < a.rdim →
        M.e (i * a.rdim + x) (j * a.rdim + y) = (1 / (4 * Real.pi)) ^ harmonics ss * S.e i j * R.e x y := by
      intro ss M S hM hS i j x y hi hj hx hy
      obtain ⟨g1, g2⟩ := twin_const h hl hM hS hi hj hx hy
      by_cases h0 : S.e i j = 0
      · rw [g1 h0, h0, mul_zero, zero_mul]
      · obtain ⟨R', r1, r2⟩ := g2 h0
        rw [hR] at r1
        injection r1 with r1
        subst r1
        exact r2
    refine ⟨P, hP, fun p hp q hq => ?_⟩
    have hr := rdim_pos h
    have split : ∀ {p : ℕ}, p < a.dim → ∃ i x, p = i * a.rdim + x ∧ i < a.states.length ∧ x < a.rdim := fun {p} hp =>
      ⟨p / a.rdim, p % a.rdim, (Nat.div_add_mod' _ _).symm, (Nat.div_lt_iff_lt_mul hr).2 hp, Nat.mod_lt _ hr⟩
    obtain ⟨i, x, rfl, hi, hx⟩ := split hp
    obtain ⟨j, y, rfl, hj, hy⟩ := split hq
    rw [show a.dim = a.states.length * a.rdim from rfl, sum_flat, all hP hU hi hj hx hy, e i hi j hj, harmonics_append, pow_add,
      Finset.mul_sum, Finset.sum_mul]
    refine Finset.sum_congr rfl fun k hk => ?_
    rw [Finset.sum_eq_single_of_mem y (Finset.mem_range.2 hy) fun w hw hne => by
      rw [hN' (Finset.mem_range.1 hk) hj (Finset.mem_range.1 hw) hy, if_neg hne, mul_zero, mul_zero]]
    rw [all hM hS hi (Finset.mem_range.1 hk) hx hy, hN' (Finset.mem_range.1 hk) hj hy hy, if_pos rfl]
    ring
  · have hz : ∀ {ss : List OpSym} {M S : Arr}, RepXspace_Twin env lam rs ss a = .ok M →
        RepSO5r3_Prod_wrk env.CG (sphItems ss) a.v_min a.v_max a.L_min a.L_max = .ok S → ∀ {i j : ℕ}, i < a.states.length →
        j < a.states.length → S.e i j = 0 := by
      intro ss M S hM hS i j hi hj
      by_contra h0
      obtain ⟨R, r1, _⟩ := (twin_const h hl hM hS hi hj (rdim_pos h) (rdim_pos h)).2 h0
      exact hR ⟨R, r1⟩
    have hU0 : ∀ i < a.states.length, ∀ j < a.states.length, U.e i j = 0 := fun i hi j hj => by
      rw [e i hi j hj]
      exact Finset.sum_eq_zero fun k hk => by rw [hz hM hS hi (Finset.mem_range.1 hk), zero_mul]
    obtain ⟨P, hP⟩ := C28_exists h env hla ha lam rs (ss ++ ts) (states_ok h) hU (fun _ => l) lam' fun i j f k hi hj hne =>
      absurd (hU0 i (List.getElem?_eq_some_iff.1 hi).1 j (List.getElem?_eq_some_iff.1 hj).1) hne
    refine ⟨P, hP, fun p hp q hq => ?_⟩
    have hr := rdim_pos h
    have split : ∀ {p : ℕ}, p < a.dim → ∃ i x, p = i * a.rdim + x ∧ i < a.states.length ∧ x < a.rdim := fun {p} hp =>
      ⟨p / a.rdim, p % a.rdim, (Nat.div_add_mod' _ _).symm, (Nat.div_lt_iff_lt_mul hr).2 hp, Nat.mod_lt _ hr⟩
    obtain ⟨i, x, rfl, hi, hx⟩ := split hp
    obtain ⟨j, y, rfl, hj, hy⟩ := split hq
    rw [(twin_const h hl hP hU hi hj hx hy).1 (hU0 i hi j hj), Finset.sum_eq_zero]
    intro k hk
    obtain ⟨m, w, rfl, hm, hw⟩ := split (Finset.mem_range.1 hk)
    rw [(twin_const h hl hM hS hi hm hx hw).1 (hz hM hS hi hm), zero_mul]

theorem sum_flatMap {α : Type} (l : List α) (g : α → List ℝ) : (l.flatMap g).sum = (l.map fun t => (g t).sum).sum := by
  induction l with
  | nil => rfl
  | cons t l ih => rw [List.flatMap_cons, List.sum_append, ih, List.map_cons, List.sum_cons]

theorem list_swap {α : Type} (n : ℕ) (l : List α) (g : ℕ → α → ℝ) :
    ∑ k ∈ Finset.range n, (l.map (g k)).sum = (l.map fun t => ∑ k ∈ Finset.range n, g k t).sum := by
  induction l with
  | nil => simp
  | cons t l ih => simp only [List.map_cons, List.sum_cons, Finset.sum_add_distrib, ih]

theorem prods_of_all {env : XEnv} {a : XArgs} (h : LegalRanges a) {lam : LambdaFunction} {ts : OperatorSum} {M : Arr}
    (hM : allMat env a ts lam = .ok M) : ∀ t ∈ ts, ∃ P, prodMat env a t.2 lam = .ok P := by
  have hs := memoOk_start env lam
  intro t ht
  obtain ⟨P, hP⟩ := (C30_exists h hs ts).1 ⟨M, by rw [rep_eq h hs]; exact hM⟩ t ht
  exact ⟨P, by rw [prod_eq hs] at hP; exact hP⟩

theorem all_mul {a : XArgs} (h : LegalRanges a) {env : XEnv} (hla : LinAlgOk env.la) (ha : a.anorm ≠ 0) {lam : LambdaFunction} {l : Int}
    (hl : ∀ v, a.v_min ≤ v → v ≤ a.v_max → lam v = .ok l) (hpos : 0 < a.lambda_base + l) {A B : OperatorSum} (hA : Ordinary A)
    (hB : Angular B) {M N : Arr} (hM : allMat env a A lam = .ok M) (hN : allMat env a B lam = .ok N) :
    ∃ P, allMat env a (opTimes A B) lam = .ok P ∧ ∀ p < a.dim, ∀ q < a.dim, P.e p q = ∑ k ∈ Finset.range a.dim, M.e p k * N.e k q := by
  let F : OperatorProduct → ℕ → ℕ → ℝ := fun w p q => match prodMat env a w lam with
    | .ok P => P.e p q
    | .error _ => 0
  have hF : ∀ {w : OperatorProduct} {P : Arr}, prodMat env a w lam = .ok P → ∀ p q, P.e p q = F w p q := by
    intro w P hP p q
    simp only [F, hP]
  have one : ∀ {ts : OperatorSum}, (∀ t ∈ ts, ∃ P, prodMat env a t.2 lam = .ok P) → ∀ t ∈ ts, ∃ P, prodMat env a t.2 lam = .ok P ∧
      ∀ p q, p < a.dim → q < a.dim → P.e p q = F t.2 p q := fun h t ht => by
    obtain ⟨P, hP⟩ := h t ht
    exact ⟨P, hP, fun p q _ _ => hF hP p q⟩
  have pA := prods_of_all h hM
  have pB := prods_of_all h hN
  have pAB : ∀ t ∈ A, ∀ u ∈ B, ∃ P, prodMat env a (t.2 ++ u.2) lam = .ok P ∧ ∀ p < a.dim, ∀ q < a.dim,
      P.e p q = ∑ k ∈ Finset.range a.dim, F t.2 p k * F u.2 k q := by
    intro t ht u hu
    obtain ⟨P, hP⟩ := pA t ht
    obtain ⟨Q, hQ⟩ := pB u hu
    obtain ⟨c, rs, hs, hr, rfl⟩ := hA t ht
    obtain ⟨gs, hg⟩ := hB u hu
    have hP' := hP
    have hQ' := hQ
    dsimp only at hP' ⊢
    rw [prodMat_ordinary h hr] at hP'
    rw [hg, ← List.nil_append (gs.map OpSym.harm), ← List.map_nil (f := OpSym.rad), prodMat_ordinary h (by simp)] at hQ'
    obtain ⟨X, hX, e⟩ := twin_mul h hla ha hl hpos hP' hQ'
    refine ⟨X, ?_, fun p hp q hq => ?_⟩
    · rw [hg, List.append_assoc, ← List.map_append, prodMat_ordinary h hr, List.map_append]
      exact hX
    · rw [e p hp q hq]
      exact Finset.sum_congr rfl fun k _ => by rw [hF hP, hF hQ]
  obtain ⟨M', m1, -, m2⟩ := rep_sum h (one pA)
  obtain ⟨N', n1, -, n2⟩ := rep_sum h (one pB)
  rw [hM] at m1
  rw [hN] at n1
  injection m1 with m1
  injection n1 with n1
  subst m1 n1
  obtain ⟨P, p1, -, p2⟩ := rep_sum (ts := opTimes A B) h (one fun w hw => by
    obtain ⟨t, ht, hw⟩ := List.mem_flatMap.1 hw
    obtain ⟨u, hu, rfl⟩ := List.mem_map.1 hw
    obtain ⟨P, hP, _⟩ := pAB t ht u hu
    exact ⟨P, hP⟩)
  refine ⟨P, p1, fun p hp q hq => ?_⟩
  have gq := List.getElem?_eq_getElem (l := a.xlabels) (i := q) (by rw [length_xlabels]; exact hq)
  rw [p2 p q _ hp gq]
  have hMN : ∀ k ∈ Finset.range a.dim, M.e p k * N.e k q = (A.map fun t => (B.map fun u =>
      t.1 (a.xlabels[q]'(by rw [length_xlabels]; exact hq)) * F t.2 p k *
        (u.1 (a.xlabels[q]'(by rw [length_xlabels]; exact hq)) * F u.2 k q)).sum).sum := by
    intro k hk
    have hk := Finset.mem_range.1 hk
    have gk := List.getElem?_eq_getElem (l := a.xlabels) (i := k) (by rw [length_xlabels]; exact hk)
    rw [m2 p k _ hp gk, n2 k q _ hk gq]
    simp only [List.sum_map_mul_left]
    rw [List.sum_map_mul_right]
    congr 2
    refine List.map_congr_left fun t ht => ?_
    obtain ⟨c, rs, hs, hr, rfl⟩ := hA t ht
    rfl
  rw [Finset.sum_congr rfl hMN, list_swap]
  unfold opTimes
  rw [List.map_flatMap, sum_flatMap]
  congr 1
  refine List.map_congr_left fun t ht => ?_
  rw [list_swap, List.map_map]
  congr 1
  refine List.map_congr_left fun u hu => ?_
  obtain ⟨X, hX, e⟩ := pAB t ht u hu
  show (t.1 * u.1) _ * F (t.2 ++ u.2) p q = _
  rw [← hF hX, e p hp q hq, Finset.mul_sum]
  refine Finset.sum_congr rfl fun k _ => ?_
  rw [Pi.mul_apply]
  ring

/-- C128: in a basis of constant `lambda` the matrix of the product of two operators, the second of which has no radial factors, is the product of
their matrices, whatever the coefficients of the second are. -/
theorem C128_matrix {env : XEnv} (hla : LinAlgOk env.la) {a : XArgs} (h : LegalRanges a) (ha : a.anorm ≠ 0) {s : XState} (hs : MemoOk env s)
    {l : Int} (hl : ∀ v, a.v_min ≤ v → v ≤ a.v_max → s.lam_fun v = .ok l) (hpos : 0 < a.lambda_base + l) {A B : OperatorSum}
    (hA : Ordinary A) (hB : Angular B) {M N : Arr} (hM : (RepXspace env A a s).1 = .ok M) (hN : (RepXspace env B a s).1 = .ok N)
    {n : ℕ} (hn : dimXspace a.nu_min a.nu_max a.v_min a.v_max a.L_min (some a.L_max) = .ok (n : Int)) :
    ∃ P, (RepXspace env (opTimes A B) a s).1 = .ok P ∧ ∀ p < n, ∀ q < n, P.e p q = ∑ k ∈ Finset.range n, M.e p k * N.e k q := by
  rw [dimXspace_ok h] at hn
  injection hn with hn
  obtain rfl : a.dim = n := by exact_mod_cast hn
  rw [rep_eq h hs] at hM hN ⊢
  exact all_mul h hla ha hl hpos hA hB hM hN

/-! ### the amplitudes -/

/-- The sum over all states is that over the blocks. -/
theorem sum_blocks (d : Int → ℕ) (f : ℕ → ℝ) : ∀ (Ls : List Int) (acc : ℕ), ∑ k ∈ Finset.range (Ls.map d).sum, f (acc + k) =
    ((blocksFrom d acc Ls).map fun b => ∑ i ∈ Finset.range (d b.1), f (b.2.1.toNat + i)).sum := by
  intro Ls
  induction Ls with
  | nil => intro acc; simp [blocksFrom]
  | cons L Ls ih =>
    intro acc
    rw [List.map_cons, List.sum_cons, Finset.sum_range_add, blocksFrom, List.map_cons, List.sum_cons, ← ih]
    simp only [Int.toNat_natCast]
    congr 1
    exact Finset.sum_congr rfl fun k _ => by rw [Nat.add_assoc]

/-- The blocks of the amplitudes: the blocks of the matrix, between the eigenvectors. -/
theorem amp_blocks {env : FEnv} (hla : LinAlgOk env.x.la) {ham : OperatorSum} (ht : Op_Tame ham = true) {a : XArgs} {s s1 t : FState}
    (hs : MemoOk env.x s.xs) (hm : MemoOk env.x t.xs) {r : List LEig} (hr : DigXspace env.x ham a s = (.ok r, s1)) {l0 l1 : Int}
    (h0 : (r.map LEig.L).head? = some l0) (h1 : (r.map LEig.L).getLast? = some l1) {op : OperatorSum} {T : Arr}
    (hT : allMat env.x (XArgs.narrow a l0 l1) op t.glb.lam_fun = .ok T) :
    ∃ R, (AmpXspeig env op (r.map LEig.basis) a (r.map LEig.L) t).1 = .ok R ∧ ∀ x ∈ r, ∀ y ∈ r, ∀ k m : ℕ, ∀ e e' : Int,
      (x.L, (k : Int), e) ∈ blocksFrom (ldim a.nu_min a.nu_max a.v_min a.v_max) 0 (r.map LEig.L) →
      (y.L, (m : Int), e') ∈ blocksFrom (ldim a.nu_min a.nu_max a.v_min a.v_max) 0 (r.map LEig.L) →
      ∀ (f : Fin x.vals.length) (i : Fin y.vals.length), element R x.L f y.L i =
        ((mat x.vals.length x.basis).transpose * (Matrix.of fun (i : Fin x.vals.length) (j : Fin y.vals.length) => T.e (k + i) (m + j)) *
          mat y.vals.length y.basis) f i := by
  obtain ⟨⟨CG, la⟩, jn⟩ := env
  have hleg : LegalRanges a := (dig_eig hs hr).1
  obtain ⟨ho, hd⟩ := C32_partial ht hleg hs hr
  have hle := narrow_legal hleg ho h0 h1
  have hT1 : (RepXspace ⟨CG, la⟩ op (XArgs.narrow a l0 l1) t.xs).1 = .ok T := by
    rw [rep_eq hle hm]
    exact hT
  have hb : List.Forall₂ (fun P L => P.cols = P.rows ∧ dimXspace a.nu_min a.nu_max a.v_min a.v_max L none = .ok (P.rows : Int))
      (r.map LEig.basis) (r.map LEig.L) := by
    rw [List.forall₂_map_left_iff, List.forall₂_map_right_iff, List.forall₂_same]
    intro x hx
    obtain ⟨k1, k2, _⟩ := basis_shape hla ht hs hr hx
    exact ⟨by rw [k1, k2], by rw [k1]; exact (hd x hx).1⟩
  obtain ⟨R, e1, n1, r1, c1, b1⟩ := C73_blocks (env := ⟨⟨CG, la⟩, jn⟩) hla hleg ho h0 h1 hb hm hT1
  refine ⟨R, e1, fun x hx y hy k m e e' hk hm' f i => ?_⟩
  obtain ⟨Bk, t1, G, g1, g2, g3, g4⟩ := b1 _ _ _ _ (pair_mem hx) (pair_mem hy)
  obtain ⟨p1, p2, p3⟩ := basis_shape hla ht hs hr hx
  obtain ⟨q1, q2, q3⟩ := basis_shape hla ht hs hr hy
  have i1 := hla.inv_shape _ _ p1 p2
  have hBc : Bk.cols = y.vals.length := by
    rw [get_block_cols t1 g1 c1, g3]
    exact q2
  have hel : element R x.L f y.L i = G.e f i := by
    unfold element
    rw [g1]
  rw [hel, g4 f i (lt_of_lt_of_eq f.2 i1.1.symm) (lt_of_lt_of_eq i.2 q2.symm), block_entry hla p1 p2 p3 hBc q2 f i]
  suffices key : (Matrix.of fun (i : Fin x.vals.length) (j : Fin y.vals.length) => Bk.e i j) =
      Matrix.of fun (i : Fin x.vals.length) (j : Fin y.vals.length) => T.e (k + i) (m + j) by rw [key]
  ext p q
  show Bk.e p q = T.e (k + p) (m + q)
  obtain ⟨_, _, hSe⟩ := new_iff.1 n1
  have hn : (R.full_space.Lblocks.map Prod.fst).Nodup := by
    rw [hSe]
    dsimp only
    rw [blocksFrom_key]
    exact ho.1.imp fun hlt => ne_of_lt hlt
  have hk' := get_block_nodup hn (L := x.L) (b := (k, e)) (by rw [hSe]; exact hk)
  have hm'' := get_block_nodup hn (L := y.L) (b := (m, e')) (by rw [hSe]; exact hm')
  have hdim : ∀ z ∈ r, ldim a.nu_min a.nu_max a.v_min a.v_max z.L = z.vals.length := fun z hz => by
    obtain ⟨_, _, _, _, k, _⟩ := level_basis hla ht hs hr hz
    rw [← k]
    rfl
  obtain ⟨k', a1, a2, -, a4⟩ := mem_blocksFrom hk
  obtain ⟨m', b1, b2, -, b4⟩ := mem_blocksFrom hm'
  have a1 : k = k' := by exact_mod_cast a1
  have b1 : m = m' := by exact_mod_cast b1
  subst a1 b1 a2 b2
  have hsqT := allMat_square hle hT
  have htot : ((r.map LEig.L).map (ldim a.nu_min a.nu_max a.v_min a.v_max)).sum = (XArgs.narrow a l0 l1).dim := by
    rw [← length_xlabels, narrow_xlabels hleg ho h0 h1, xlabels_flat, ← occupied_eq hleg ho, length_flatMap_sum]
    congr 1
    exact List.map_congr_left fun L _ => by rw [length_xlabels, ldim_eq]
  rw [htot, Nat.zero_add] at a4 b4
  unfold LBlockArray.get_block at t1
  rw [hk', hm'', py_bind_ok, py_bind_ok] at t1
  injection t1 with t1
  rw [hdim x hx] at a4 t1
  rw [hdim y hy] at b4 t1
  rw [← t1, slice_nat, hsqT.1, hsqT.2.1]
  unfold Arr.of
  dsimp only
  rw [min_eq_left a4, min_eq_left b4, min_eq_left (by omega), min_eq_left (by omega), if_pos ⟨by omega, by omega⟩]

theorem forall₂_sum {α β : Type} {Q : α → β → Prop} {g : α → ℝ} {h : β → ℝ} : ∀ {as : List α} {bs : List β}, List.Forall₂ Q as bs →
    (∀ x ∈ as, ∀ y ∈ bs, Q x y → g x = h y) → (as.map g).sum = (bs.map h).sum := by
  intro as bs hf
  induction hf with
  | nil => intro _; rfl
  | cons hq _ ih =>
    intro H
    rw [List.map_cons, List.map_cons, List.sum_cons, List.sum_cons, H _ List.mem_cons_self _ List.mem_cons_self hq,
      ih fun x hx y hy => H x (List.mem_cons_of_mem _ hx) y (List.mem_cons_of_mem _ hy)]

/-- C128: sums over intermediate states.  The basis has constant `lambda`; `A` is a sum of numbers times radial operators times harmonics, and `B`
contains harmonics only.  If the amplitudes of `A` and of `B` between the eigenstates of a Hamiltonian exist, so do those of the product `A B`, and
each is the sum, over all eigenstates of all angular momenta, of the amplitude of `B` to that state times the amplitude of `A` from it. -/
theorem C128_amplitudes {env : FEnv} (hla : LinAlgOk env.x.la) {ham : OperatorSum} (ht : Op_Tame ham = true) {a : XArgs} (ha : a.anorm ≠ 0)
    {s s1 t : FState} (hs : MemoOk env.x s.xs) (hm : MemoOk env.x t.xs) {r : List LEig} (hr : DigXspace env.x ham a s = (.ok r, s1))
    {l : Int} (hl : ∀ v, a.v_min ≤ v → v ≤ a.v_max → t.glb.lam_fun v = .ok l) (hpos : 0 < a.lambda_base + l) {A B : OperatorSum}
    (hA : Ordinary A) (hB : Angular B) {RA RB : LBlockArray} (hRA : (AmpXspeig env A (r.map LEig.basis) a (r.map LEig.L) t).1 = .ok RA)
    (hRB : (AmpXspeig env B (r.map LEig.basis) a (r.map LEig.L) t).1 = .ok RB) :
    ∃ R, (AmpXspeig env (opTimes A B) (r.map LEig.basis) a (r.map LEig.L) t).1 = .ok R ∧
      ∀ x ∈ r, ∀ y ∈ r, ∀ f < x.vals.length, ∀ i < y.vals.length, element R x.L f y.L i =
        (r.map fun z => ∑ k ∈ Finset.range z.vals.length, element RA x.L f z.L k * element RB z.L k y.L i).sum := by
  have hleg : LegalRanges a := (dig_eig hs hr).1
  obtain ⟨ho, hd⟩ := C32_partial ht hleg hs hr
  have hne := amp_some hRA
  obtain ⟨l0, h0⟩ : ∃ l0, (r.map LEig.L).head? = some l0 := by
    cases hh : r.map LEig.L with
    | nil => exact absurd hh hne
    | cons l ls => exact ⟨l, rfl⟩
  obtain ⟨l1, h1⟩ : ∃ l1, (r.map LEig.L).getLast? = some l1 := ⟨_, List.getLast?_eq_some_getLast hne⟩
  have hle := narrow_legal hleg ho h0 h1
  have get : ∀ {op : OperatorSum} {R : LBlockArray}, (AmpXspeig env op (r.map LEig.basis) a (r.map LEig.L) t).1 = .ok R →
      ∃ T, allMat env.x (XArgs.narrow a l0 l1) op t.glb.lam_fun = .ok T := fun h => by
    rw [(amp_eq hleg ho h0 h1 hm _).1] at h
    obtain ⟨T, hT, _⟩ := py_bind_eq_ok h
    exact ⟨T, hT⟩
  obtain ⟨TA, hTA⟩ := get hRA
  obtain ⟨TB, hTB⟩ := get hRB
  obtain ⟨TC, hTC, hmul⟩ := all_mul (a := XArgs.narrow a l0 l1) hle hla ha hl hpos hA hB hTA hTB
  obtain ⟨RA', a1, bA⟩ := amp_blocks hla ht hs hm hr h0 h1 hTA
  obtain ⟨RB', a2, bB⟩ := amp_blocks hla ht hs hm hr h0 h1 hTB
  obtain ⟨R, a3, bC⟩ := amp_blocks hla ht hs hm hr h0 h1 hTC
  rw [hRA] at a1
  rw [hRB] at a2
  injection a1 with a1
  injection a2 with a2
  subst a1 a2
  refine ⟨R, a3, fun x hx y hy f hf i hi => ?_⟩
  have pos : ∀ z ∈ r, ∃ (k : ℕ) (e : Int), (z.L, (k : Int), e) ∈ blocksFrom (ldim a.nu_min a.nu_max a.v_min a.v_max) 0 (r.map LEig.L) :=
      fun z hz => by
    have : z.L ∈ (blocksFrom (ldim a.nu_min a.nu_max a.v_min a.v_max) 0 (r.map LEig.L)).map Prod.fst := by
      rw [blocksFrom_key]
      exact List.mem_map_of_mem hz
    obtain ⟨⟨L, s, e⟩, hb, rfl⟩ := List.mem_map.1 this
    obtain ⟨k, rfl, _⟩ := mem_blocksFrom hb
    exact ⟨k, e, hb⟩
  have hdim : ∀ z ∈ r, ldim a.nu_min a.nu_max a.v_min a.v_max z.L = z.vals.length := fun z hz => by
    obtain ⟨_, _, _, _, k, _⟩ := level_basis hla ht hs hr hz
    rw [← k]
    rfl
  have htot : (XArgs.narrow a l0 l1).dim = ((r.map LEig.L).map (ldim a.nu_min a.nu_max a.v_min a.v_max)).sum := by
    rw [← length_xlabels, narrow_xlabels hleg ho h0 h1, xlabels_flat, ← occupied_eq hleg ho, length_flatMap_sum]
    congr 1
    exact List.map_congr_left fun L _ => length_xlabels _
  have inside : ∀ z ∈ r, ∀ (k : ℕ) (e : Int), (z.L, (k : Int), e) ∈ blocksFrom (ldim a.nu_min a.nu_max a.v_min a.v_max) 0 (r.map LEig.L) →
      ∀ i < z.vals.length, k + i < (XArgs.narrow a l0 l1).dim := fun z hz k e hk i hi => by
    obtain ⟨k', h2, -, -, h4⟩ := mem_blocksFrom hk
    have h2 : k = k' := by exact_mod_cast h2
    subst h2
    rw [hdim z hz, ← htot] at h4
    omega
  obtain ⟨kx, ex, hkx⟩ := pos x hx
  obtain ⟨ky, ey, hky⟩ := pos y hy
  rw [bC x hx y hy kx ky ex ey hkx hky ⟨f, hf⟩ ⟨i, hi⟩]
  set Px := mat x.vals.length x.basis
  set Py := mat y.vals.length y.basis
  have hrel : List.Forall₂ (fun b z => b.1 = z.L) (blocksFrom (ldim a.nu_min a.nu_max a.v_min a.v_max) 0 (r.map LEig.L)) r := by
    have h := blocksFrom_key (d := ldim a.nu_min a.nu_max a.v_min a.v_max) (r.map LEig.L) 0
    rw [← List.forall₂_eq_eq_eq, List.forall₂_map_left_iff, List.forall₂_map_right_iff] at h
    exact h
  have entry : ∀ (p : Fin x.vals.length) (q : Fin y.vals.length), TC.e (kx + p) (ky + q) =
      ((blocksFrom (ldim a.nu_min a.nu_max a.v_min a.v_max) 0 (r.map LEig.L)).map fun b =>
        ∑ w ∈ Finset.range (ldim a.nu_min a.nu_max a.v_min a.v_max b.1), TA.e (kx + p) (b.2.1.toNat + w) * TB.e (b.2.1.toNat + w) (ky + q)).sum := by
    intro p q
    rw [hmul _ (inside x hx kx ex hkx p p.2) _ (inside y hy ky ey hky q q.2), htot]
    have := sum_blocks (ldim a.nu_min a.nu_max a.v_min a.v_max) (fun k => TA.e (kx + p) k * TB.e k (ky + q)) (r.map LEig.L) 0
    simp only [Nat.zero_add] at this
    exact this
  have lhs : (Px.transpose * (Matrix.of fun (i : Fin x.vals.length) (j : Fin y.vals.length) => TC.e (kx + i) (ky + j)) * Py) ⟨f, hf⟩ ⟨i, hi⟩ =
      ((blocksFrom (ldim a.nu_min a.nu_max a.v_min a.v_max) 0 (r.map LEig.L)).map fun b =>
        ∑ q : Fin y.vals.length, ∑ p : Fin x.vals.length, Px p ⟨f, hf⟩ *
          (∑ w ∈ Finset.range (ldim a.nu_min a.nu_max a.v_min a.v_max b.1), TA.e (kx + p) (b.2.1.toNat + w) * TB.e (b.2.1.toNat + w) (ky + q)) *
          Py q ⟨i, hi⟩).sum := by
    rw [Matrix.mul_apply]
    simp only [Matrix.mul_apply, Matrix.transpose_apply, Matrix.of_apply, entry, Finset.sum_mul]
    generalize blocksFrom (ldim a.nu_min a.nu_max a.v_min a.v_max) 0 (r.map LEig.L) = bs
    induction bs with
    | nil => simp
    | cons b bs ih =>
      simp only [List.map_cons, List.sum_cons, mul_add, add_mul, Finset.sum_add_distrib, ih]
  rw [lhs]
  refine forall₂_sum hrel fun b hb z hz hbz => ?_
  obtain ⟨L, st, e⟩ := b
  dsimp only at hbz ⊢
  subst hbz
  obtain ⟨kz, rfl, -⟩ := mem_blocksFrom hb
  obtain ⟨_, _, pz⟩ := basis_shape hla ht hs hr hz
  have pz' := mul_eq_one_comm.1 pz
  rw [Int.toNat_natCast, hdim z hz, Finset.sum_range]
  have e1 : ∀ k : Fin z.vals.length, element RA x.L f z.L k * element RB z.L k y.L i =
      (Px.transpose * (Matrix.of fun (i : Fin x.vals.length) (j : Fin z.vals.length) => TA.e (kx + i) (kz + j)) *
        mat z.vals.length z.basis) ⟨f, hf⟩ k * ((mat z.vals.length z.basis).transpose *
        (Matrix.of fun (i : Fin z.vals.length) (j : Fin y.vals.length) => TB.e (kz + i) (ky + j)) * Py) k ⟨i, hi⟩ := fun k => by
    rw [← bA x hx z hz kx kz ex e hkx hb ⟨f, hf⟩ k, ← bB z hz y hy kz ky e ey hb hky k ⟨i, hi⟩]
  rw [Finset.sum_congr rfl fun k _ => e1 k, ← Matrix.mul_apply]
  rw [show ∀ (X : Matrix (Fin x.vals.length) (Fin z.vals.length) ℝ) (Y : Matrix (Fin z.vals.length) (Fin y.vals.length) ℝ),
      Px.transpose * X * mat z.vals.length z.basis * ((mat z.vals.length z.basis).transpose * Y * Py) = Px.transpose * (X * Y) * Py from
    fun X Y => by
      rw [show Px.transpose * X * mat z.vals.length z.basis * ((mat z.vals.length z.basis).transpose * Y * Py) =
        Px.transpose * (X * (mat z.vals.length z.basis * (mat z.vals.length z.basis).transpose) * Y) * Py by simp only [Matrix.mul_assoc],
        pz', Matrix.mul_one]]
  rw [Matrix.mul_apply]
  refine Finset.sum_congr rfl fun q _ => ?_
  rw [Matrix.mul_apply, Finset.sum_mul]
  refine Finset.sum_congr rfl fun p _ => ?_
  rw [Matrix.mul_apply, Finset.sum_range]
  rfl

/-- The hypotheses of C128 are met by the harmonic `cos(3 gamma)`, taken as Hamiltonian and as both factors of the product, in the basis of
constant `lambda`: its matrix on two states is not diagonal, and it has amplitudes. -/
theorem closure_meets {la : LinAlg} (hla : LinAlgOk la) : ∃ (op : OperatorSum) (a : XArgs) (s s1 : FState) (M : Arr) (r : List LEig)
    (R : LBlockArray), Op_Tame op = true ∧ Ordinary op ∧ Angular op ∧ LegalRanges a ∧ a.anorm ≠ 0 ∧ MemoOk ⟨fileCG onesFS none, la⟩ s.xs ∧
    (∀ v, a.v_min ≤ v → v ≤ a.v_max → s.glb.lam_fun v = .ok 0) ∧ 0 < a.lambda_base + ((0 : Int) : ℝ) ∧
    (RepXspace ⟨fileCG onesFS none, la⟩ op a s.xs).1 = .ok M ∧ M.e 1 0 ≠ 0 ∧
    DigXspace ⟨fileCG onesFS none, la⟩ op a s = (.ok r, s1) ∧ r ≠ [] ∧
    (AmpXspeig ⟨⟨fileCG onesFS none, la⟩, fun _ _ => 0⟩ op (r.map LEig.basis) a (r.map LEig.L) s).1 = .ok R := by
  let s : FState := ⟨{ Glb.init with lam_fun := lambda_fix_fun }, fun _ => none, fun _ _ => none, fun _ => none, []⟩
  let env : XEnv := ⟨fileCG onesFS none, la⟩
  have hm : MemoOk env s.xs := memoOk_start env lambda_fix_fun
  have ha : LegalRanges twoStates := by simp [LegalRanges, twoStates]
  have hst : twoStates.states = [(0, 1, 0), (3, 1, 0)] := by decide +kernel
  have hlb : twoStates.xlabels = [(0, 0, 1, 0), (0, 3, 1, 0)] := by decide +kernel
  have hdim : twoStates.dim = 2 := by rw [← length_xlabels, hlb]; rfl
  have hrd : twoStates.rdim = 1 := rfl
  have hlam : ∀ v, twoStates.v_min ≤ v → v ≤ twoStates.v_max → lambda_fix_fun v = .ok 0 := fun v h1 _ => by
    unfold lambda_fix_fun
    rw [require_nonnegint_ok (show 0 ≤ v from h1)]
    rfl
  have hpos : 0 < twoStates.lambda_base + ((0 : Int) : ℝ) := by norm_num [twoStates]
  obtain ⟨Y, m, hS, hmpos, hY10, hsy, hpar⟩ := two_states onesFS none onesFS_value
  have hY0 : Y.e 1 0 ≠ 0 := by rw [hY10]; exact mul_ne_zero one_ne_zero hmpos.ne'
  have hR := radial_empty env.la twoStates.anorm (twoStates.lambda_base + ((0 : Int) : ℝ)) hpos twoStates.nu_min twoStates.nu_max ha.1.1
  obtain ⟨P, hP⟩ := C28_exists ha env hla (by norm_num [twoStates]) lambda_fix_fun [] (List.replicate 1 (.harm .y310)) (states_ok ha) hS
    (fun _ => 0) (fun f hf => hlam _ (state_v hf).1 (state_v hf).2) (fun i j f k _ _ _ => ⟨_, hR⟩)
  have hprod : prodMat env twoStates [.harm .y310] lambda_fix_fun = .ok P := by
    rw [← hP]; exact prodMat_word ha (rs := []) (by simp) 1 lambda_fix_fun
  obtain ⟨R, hR1, hPe⟩ := (twin_const ha hlam hP hS (i := 1) (j := 0) (x := 0) (y := 0) (by rw [hst]; decide) (by rw [hst]; decide)
    (by rw [hrd]; decide) (by rw [hrd]; decide)).2 hY0
  rw [hR] at hR1
  injection hR1 with hR1
  subst hR1
  obtain ⟨M, h1, h2, h3⟩ := rep_sum (f := fun _ p q => P.e p q) ha (ts := [(kC 1, [.harm .y310])]) (env := env) (lam := lambda_fix_fun) fun t ht => by
    rw [List.mem_singleton] at ht
    subst ht
    exact ⟨P, hprod, fun p q _ _ => rfl⟩
  obtain ⟨r, t, hr⟩ := digTame_total (ts := [(kC 1, [.harm .y310])]) ha _ (range_nonneg ha) s hm fun L hL => by
    rw [mem_pyRange] at hL
    obtain rfl : L = 0 := by simp only [twoStates] at hL; omega
    exact ⟨M, h1⟩
  have hr' : DigXspace env [(kC 1, [.harm .y310])] twoStates s = (.ok r, t) := by
    unfold DigXspace
    rw [check_ok ha, st_lift_ok, if_pos (by decide)]
    exact hr
  have ht : Op_Tame [(kC 1, [OpSym.harm .y310])] = true := rfl
  obtain ⟨ho, -⟩ := C32_partial ht ha hm hr'
  have hLs : r.map LEig.L = [0] := by rw [occupied_eq ha ho]; decide +kernel
  obtain ⟨R, hR, -⟩ := amp_blocks (env := ⟨env, fun _ _ => 0⟩) hla ht hm hm hr' (l0 := 0) (l1 := 0) (by rw [hLs]; rfl) (by rw [hLs]; rfl) h1
  refine ⟨_, twoStates, s, t, M, r, R, ht, ?_, ?_, ha, by norm_num [twoStates], hm, hlam, hpos, by rw [rep_eq ha hm]; exact h1, ?_, hr', ?_, hR⟩
  · intro u hu
    rw [List.mem_singleton.1 hu]
    exact ⟨1, [], [.y310], by simp, rfl⟩
  · intro u hu
    rw [List.mem_singleton.1 hu]
    exact ⟨[.y310], rfl⟩
  · rw [h3 1 0 _ (by rw [hdim]; decide) (by rw [hlb]; rfl)]
    have hP10 : P.e 1 0 ≠ 0 := by
      rw [hrd] at hPe
      rw [show P.e 1 0 = _ from hPe]
      refine mul_ne_zero (mul_ne_zero (pow_ne_zero _ (by positivity)) hY0) ?_
      unfold Arr.eye Arr.of
      simp [twoStates]
    simpa [kC] using hP10
  · intro hh
    rw [hh] at hLs
    cases hLs

-- C128: all hypotheses of the two theorems are met.
example {la : LinAlg} (hla : LinAlgOk la) := closure_meets hla

end Acm.Props
