import Mathlib.Analysis.SpecificLimits.Normed
import Verif.Props.Converge

/-!
# The lowest energy converges to the exact one (C133)
-/

namespace Acm.Props

open Acm Acm.Spec

/-- The expansion of the exact ground state in the basis of another width. -/
noncomputable def gw (lam t : ℝ) : ℕ → ℝ
  | 0 => 1
  | n + 1 => gw lam t n * (t * √((lam + n) / (n + 1)))

theorem gw_sq {lam : ℝ} (h : 0 < lam) (t : ℝ) (n : ℕ) : (n + 1) * gw lam t (n + 1) ^ 2 = t ^ 2 * ((lam + n) * gw lam t n ^ 2) := by
  have h1 : 0 ≤ (lam + n) / (n + 1) := by positivity
  have h2 : (n + 1 : ℝ) ≠ 0 := by positivity
  rw [gw, mul_pow, mul_pow, Real.sq_sqrt h1]
  field_simp

theorem gw_off {lam : ℝ} (h : 0 < lam) (t : ℝ) (n : ℕ) : √((lam + n) * (n + 1)) * gw lam t (n + 1) = t * ((lam + n) * gw lam t n) := by
  have h1 : √((lam + n) * (n + 1)) * √((lam + n) / (n + 1)) = lam + n := by
    rw [← Real.sqrt_mul (by positivity), show (lam + n) * (n + 1) * ((lam + n) / (n + 1)) = (lam + n) ^ 2 by field_simp,
      Real.sqrt_sq (by positivity)]
  rw [gw]
  linear_combination gw lam t n * t * h1

/-- The radial Hamiltonian for matched `lambda`. -/
noncomputable def oscMat (lam P Q : ℝ) (i j : ℕ) : ℝ :=
  P ^ 2 * (2 * vS0 lam i j - vSp lam i j - vSm lam i j) + Q ^ 2 * (vSp lam i j + vSm lam i j + 2 * vS0 lam i j)

theorem oscMat_diag (lam P Q : ℝ) (i : ℕ) : oscMat lam P Q i i = (P ^ 2 + Q ^ 2) * (lam + 2 * i) := by
  simp [oscMat, vS0, vSp, vSm]
  ring

theorem oscMat_next (lam P Q : ℝ) (i : ℕ) : oscMat lam P Q i (i + 1) = (Q ^ 2 - P ^ 2) * √((lam + i) * (i + 1)) := by
  unfold oscMat vS0 vSp vSm
  rw [if_neg (by omega), if_neg (by omega), if_pos rfl]
  ring

theorem oscMat_symm (lam P Q : ℝ) (i j : ℕ) : oscMat lam P Q i j = oscMat lam P Q j i := by
  have e1 : vSm lam j i = vSp lam i j := rfl
  have e2 : vSp lam j i = vSm lam i j := rfl
  have e3 : vS0 lam i j = vS0 lam j i := by unfold vS0; split_ifs with h1 h2 h3 <;> first | rfl | (subst h1; rfl) | omega
  unfold oscMat
  rw [e1, e2, e3]
  ring

theorem oscMat_far (lam P Q : ℝ) {i j : ℕ} (h : i + 1 < j) : oscMat lam P Q i j = 0 := by
  unfold oscMat vS0 vSp vSm
  rw [if_neg (by omega), if_neg (by omega), if_neg (by omega)]
  ring

/-- The energy of the truncated exact ground state. -/
theorem ground_form {lam P Q t : ℝ} (h : 0 < lam) (ht : t * (P + Q) = P - Q) (N : ℕ) :
    ∑ i ∈ Finset.range (N + 1), ∑ j ∈ Finset.range (N + 1), gw lam t i * gw lam t j * oscMat lam P Q i j =
      2 * P * Q * lam * ∑ i ∈ Finset.range (N + 1), gw lam t i ^ 2 + (P - Q) ^ 2 * ((lam + N) * gw lam t N ^ 2) := by
  induction N with
  | zero =>
    simp [oscMat_diag, gw]
    ring
  | succ N ih =>
    have cross : ∑ i ∈ Finset.range (N + 1), gw lam t i * gw lam t (N + 1) * oscMat lam P Q i (N + 1) =
        (Q ^ 2 - P ^ 2) * (t * ((lam + N) * gw lam t N ^ 2)) := by
      rw [Finset.sum_eq_single N]
      · rw [oscMat_next]
        linear_combination gw lam t N * (Q ^ 2 - P ^ 2) * gw_off h t N
      · intro i hi hne
        rw [oscMat_far _ _ _ (by have := Finset.mem_range.1 hi; omega), mul_zero]
      · intro hN
        exact absurd (Finset.mem_range.2 (Nat.lt_succ_self N)) hN
    have cross' : ∑ j ∈ Finset.range (N + 1), gw lam t (N + 1) * gw lam t j * oscMat lam P Q (N + 1) j =
        (Q ^ 2 - P ^ 2) * (t * ((lam + N) * gw lam t N ^ 2)) := by
      rw [← cross]
      exact Finset.sum_congr rfl fun i _ => by rw [oscMat_symm]; ring
    rw [Finset.sum_range_succ, Finset.sum_range_succ _ (N + 1), cross']
    simp only [Finset.sum_range_succ _ (N + 1)]
    rw [Finset.sum_add_distrib, ih, cross, oscMat_diag]
    have h2 := gw_sq h t N
    push_cast
    linear_combination (P + Q) ^ 2 * h2 + (lam + N) * gw lam t N ^ 2 * (t * (P + Q) - (P - Q)) * ht

theorem gw_tail {lam t : ℝ} (h : 0 < lam) (ht : t ^ 2 < 1) :
    Filter.Tendsto (fun n : ℕ => (lam + n) * gw lam t n ^ 2) Filter.atTop (nhds 0) := by
  have h1 : Filter.Tendsto (fun n : ℕ => t ^ 2 * (1 + lam / ((n + 1 : ℕ) : ℝ))) Filter.atTop (nhds (t ^ 2 * (1 + 0))) :=
    (((tendsto_const_div_atTop_nhds_zero_nat lam).comp (Filter.tendsto_add_atTop_nat 1)).const_add 1).const_mul (t ^ 2)
  have h2 := h1.eventually_lt_const (show t ^ 2 * (1 + 0) < (1 + t ^ 2) / 2 by linarith)
  refine (summable_of_ratio_norm_eventually_le (r := (1 + t ^ 2) / 2) (by linarith) (h2.mono fun n hn => ?_)).tendsto_atTop_zero
  have h3 : 0 ≤ (lam + n) * gw lam t n ^ 2 := by positivity
  have h4 : 0 ≤ (lam + (n + 1 : ℕ)) * gw lam t (n + 1) ^ 2 := by positivity
  rw [Real.norm_of_nonneg h3, Real.norm_of_nonneg h4]
  have h5 : (lam + (n + 1 : ℕ)) * gw lam t (n + 1) ^ 2 = t ^ 2 * (1 + lam / ((n + 1 : ℕ) : ℝ)) * ((lam + n) * gw lam t n ^ 2) := by
    have := gw_sq h t n
    have h6 : ((n + 1 : ℕ) : ℝ) ≠ 0 := by positivity
    push_cast at h6 ⊢
    field_simp
    linear_combination (lam + (n + 1)) * this
  rw [h5]
  exact mul_le_mul_of_nonneg_right hn.le h3

theorem one_le_gw (lam t : ℝ) (N : ℕ) : 1 ≤ ∑ i ∈ Finset.range (N + 1), gw lam t i ^ 2 := by
  refine le_trans ?_ (Finset.single_le_sum (f := fun i => gw lam t i ^ 2) (fun _ _ => sq_nonneg _) (Finset.mem_range.2 (Nat.succ_pos N)))
  simp [gw]

/-- The lowest eigenvalue is not above the energy of any vector. -/
theorem lowest_le {n : ℕ} {A P : Matrix (Fin n) (Fin n) ℝ} {v : ℕ → ℝ} (h1 : P.transpose * P = 1)
    (h2 : P.transpose * ((1 / 2 : ℝ) • (A + A.transpose)) * P = Matrix.diagonal fun i : Fin n => v i)
    (h3 : ∀ i j, i ≤ j → j < n → v i ≤ v j) (z : Fin n → ℝ) : v 0 * ∑ i, z i ^ 2 ≤ ∑ i, ∑ j, z i * z j * A i j := by
  set x := P.transpose.mulVec z with hx
  have hPx : P.mulVec x = z := by rw [hx, Matrix.mulVec_mulVec, mul_eq_one_comm.1 h1, Matrix.one_mulVec]
  have q1 := quad_diag h2 x
  have q2 := quad_diag (A := 1) (Q := P) (α := 1) (by rw [Matrix.mul_one, h1]; exact Matrix.diagonal_one.symm) x
  rw [Matrix.one_mulVec, hPx] at q2
  rw [hPx] at q1
  have e1 : ∑ i, z i ^ 2 = ∑ i, x i ^ 2 := by
    have : z ⬝ᵥ z = ∑ i, z i ^ 2 := Finset.sum_congr rfl fun i _ => by ring
    rw [← this, q2]
    simp
  have e2 : ∑ i, ∑ j, z i * z j * A i j = ∑ i : Fin n, v i * x i ^ 2 := by
    rw [← q1]
    have s1 : ∑ i, ∑ j, z i * z j * A j i = ∑ i, ∑ j, z i * z j * A i j := by
      rw [Finset.sum_comm]
      exact Finset.sum_congr rfl fun i _ => Finset.sum_congr rfl fun j _ => by ring
    have s2 : z ⬝ᵥ (((1 / 2 : ℝ) • (A + A.transpose)).mulVec z) = 1 / 2 * ∑ i, ∑ j, z i * z j * A i j + 1 / 2 * ∑ i, ∑ j, z i * z j * A j i := by
      unfold dotProduct Matrix.mulVec dotProduct
      rw [Finset.mul_sum, Finset.mul_sum, ← Finset.sum_add_distrib]
      refine Finset.sum_congr rfl fun i _ => ?_
      rw [Finset.mul_sum, Finset.mul_sum, Finset.mul_sum, ← Finset.sum_add_distrib]
      refine Finset.sum_congr rfl fun j _ => ?_
      simp only [Matrix.smul_apply, Matrix.add_apply, Matrix.transpose_apply, smul_eq_mul]
      ring
    rw [s2, s1]
    ring
  rw [e1, e2, Finset.mul_sum]
  exact Finset.sum_le_sum fun i _ => mul_le_mul_of_nonneg_right (h3 0 i (Nat.zero_le _) i.2) (sq_nonneg _)

/-- The same for vectors in a block. -/
theorem lowest_block {n m : ℕ} {A P : Matrix (Fin n) (Fin n) ℝ} {v : ℕ → ℝ} (h1 : P.transpose * P = 1)
    (h2 : P.transpose * ((1 / 2 : ℝ) • (A + A.transpose)) * P = Matrix.diagonal fun i : Fin n => v i)
    (h3 : ∀ i j, i ≤ j → j < n → v i ≤ v j) (ι : Fin m → Fin n) (hι : Function.Injective ι) (w : Fin m → ℝ) :
    v 0 * ∑ i, w i ^ 2 ≤ ∑ i, ∑ j, w i * w j * A (ι i) (ι j) := by
  have hz := fun i => hι.extend_apply w 0 i
  have hz0 : ∀ i, i ∉ Set.range ι → Function.extend ι w 0 i = 0 := fun i hi => by
    rw [Function.extend_apply' _ _ _ (by simpa using hi)]
    rfl
  have key := lowest_le h1 h2 h3 (Function.extend ι w 0)
  have e1 : ∑ i, w i ^ 2 = ∑ i, Function.extend ι w 0 i ^ 2 :=
    Fintype.sum_of_injective ι hι _ _ (fun i hi => by rw [hz0 i hi]; ring) fun i => by rw [hz]
  have e2 : ∑ i, ∑ j, w i * w j * A (ι i) (ι j) = ∑ i, ∑ j, Function.extend ι w 0 i * Function.extend ι w 0 j * A i j :=
    Fintype.sum_of_injective ι hι _ _ (fun i hi => by simp [hz0 i hi]) fun i =>
      Fintype.sum_of_injective ι hι _ _ (fun j hj => by simp [hz0 j hj]) fun j => by rw [hz, hz]
  rw [e1, e2]
  exact key

/-- The matrix elements of the Hamiltonian for matched `lambda`. -/
theorem radHam_osc {c11 c20 c21 c23 a l v P Q : ℝ} (h11 : c11 ≠ 0) (hP : P ^ 2 = -c11 * a ^ 2) (hQ : Q ^ 2 = c21 / a ^ 2)
    (hd : (l - 1) ^ 2 = (v + 3 / 2) ^ 2 - c23 / c11) (lo hi i j : ℕ) :
    c11 * (radElem lo hi a l i j [.rad .D2b] - (2 + v * (v + 3)) * radElem lo hi a l i j [.rad .bm2]) + c20 * radElem lo hi a l i j []
      + c21 * radElem lo hi a l i j [.rad .b2] + 0 * radElem lo hi a l i j [.rad .b2, .rad .b2] + c23 * radElem lo hi a l i j [.rad .bm2]
      = c20 * (if i = j then 1 else 0) + oscMat l P Q i j := by
  have hd' : c11 * (l - 1) ^ 2 = c11 * (v + 3 / 2) ^ 2 - c23 := by rw [hd]; field_simp
  have e2 : c11 * ((l - 3 / 2) * (l - 1 / 2) - (2 + v * (v + 3))) + c23 = 0 := by linear_combination hd'
  have e3 : a ^ (2 : Int) = a ^ 2 := by norm_cast
  have e4 : a ^ (-2 : Int) = 1 / a ^ 2 := by rw [zpow_neg, e3, one_div]
  simp only [radElem, e3, e4, oscMat, hP, hQ]
  linear_combination a ^ 2 * vbm2 l i j * e2

/-- The lowest energy for `L` is at most the exact one for any of the states, up to a term that vanishes when `nu_max` grows. -/
theorem ground_upper {a : XArgs} (h : LegalRanges a) (h0 : a.nu_min = 0) {env : XEnv} (hla : LinAlgOk env.la) {c11 c20 c21 c23 : ℝ}
    (h11 : c11 < 0) (ha : a.anorm ≠ 0) {s s' : FState} (hs : MemoOk env s.xs) {ls : Int → Int}
    (hl : ∀ v, a.v_min ≤ v → v ≤ a.v_max → s.glb.lam_fun v = .ok (ls v))
    (h1 : ∀ v, a.v_min ≤ v → v ≤ a.v_max → 1 < a.lambda_base + ls v)
    (hd : ∀ v : Int, a.v_min ≤ v → v ≤ a.v_max → (a.lambda_base + ls v - 1) ^ 2 = (v + 3 / 2) ^ 2 - c23 / c11)
    {P Q t : ℝ} (hP : P ^ 2 = -c11 * a.anorm ^ 2) (hQ : Q ^ 2 = c21 / a.anorm ^ 2) (ht : t * (P + Q) = P - Q)
    {r : List LEig} (hr : DigXspace env (ACM_Hamiltonian (c11 := kC c11) (c20 := kC c20) (c21 := kC c21) (c23 := kC c23)) a s = (.ok r, s'))
    {x : LEig} (hx : x ∈ r) {f : Label} (hf : f ∈ labelsV a.v_min a.v_max x.L x.L) {e : ℝ} (he : x.vals[0]? = some e) :
    e ≤ c20 + 2 * P * Q * (a.lambda_base + ls f.1) +
      (P - Q) ^ 2 * ((a.lambda_base + ls f.1 + a.nu_max.toNat) * gw (a.lambda_base + ls f.1) t a.nu_max.toNat ^ 2) := by
  have hg := C130_acm c11 c20 c21 0 c23
  have ht' : Op_Tame (ACM_Hamiltonian (c11 := kC c11) (c20 := kC c20) (c21 := kC c21) (c22 := kC 0) (c23 := kC c23)) = true := gammaFree_tame hg
  obtain ⟨ho, hx'⟩ := C32_partial ht' h hs hr
  obtain ⟨_, M, v, m1, m2, m3⟩ := hx' x hx
  have hL : 0 ≤ x.L := by
    have := ((ho.2 x.L).1 (List.mem_map_of_mem hx)).1; have := h.2.2.1; omega
  have hle := legal_at h hL
  obtain ⟨M', hM', hsq, hMe⟩ := radHam_matrix hle hla (env := env) (lam := s.glb.lam_fun) (ls := ls) ha hl
    (fun v k1 k2 => lt_trans one_pos (h1 v k1 k2)) (fun v k1 k2 => (h1 v k1 k2).ne') (kC c11) (kC c20) (kC c21) (kC 0) (kC c23)
  have hMM : M = M' := by
    rw [rep_eq hle hs] at m1
    have := m1.symm.trans hM'
    injection this
  subst hMM
  obtain ⟨v', B, g1, _, _, g2, g3, g4⟩ := C70_eigen env.la hla _ M hsq.1 hsq.2.1
  rw [m2] at g1
  injection g1 with g1
  injection g1 with g1 gB
  subst g1 gB
  have hv0 : e = v 0 := by
    rw [m3, List.getElem?_map] at he
    cases hh : (List.range M.rows)[0]? with
    | none => rw [hh] at he; cases he
    | some k =>
      rw [hh] at he
      obtain ⟨_, hk⟩ := List.getElem?_eq_some_iff.1 hh
      rw [List.getElem_range] at hk
      subst hk
      exact (Option.some.inj he).symm
  obtain ⟨j, hj, hjf⟩ := List.getElem_of_mem hf
  have hj' : (a.at x.L).states[j]? = some f := by
    rw [← hjf]
    exact List.getElem?_eq_getElem hj
  have hj2 : j < (a.at x.L).states.length := hj
  have hv := state_v (a := a.at x.L) hf
  have hN : (a.at x.L).rdim = a.nu_max.toNat + 1 := by
    have := h.1.2
    show (a.nu_max - a.nu_min + 1).toNat = _
    omega
  have hidx : ∀ p : Fin (a.nu_max.toNat + 1), j * (a.at x.L).rdim + p < (a.at x.L).dim := fun p => by
    have h5 : (j + 1) * (a.at x.L).rdim ≤ (a.at x.L).states.length * (a.at x.L).rdim := Nat.mul_le_mul_right _ hj2
    have h6 := p.2
    show j * (a.at x.L).rdim + p < (a.at x.L).states.length * (a.at x.L).rdim
    rw [hN] at h5 ⊢
    rw [Nat.add_mul, Nat.one_mul] at h5
    omega
  set l := a.lambda_base + ls f.1 with hldef
  have hl0 : 0 < l := lt_trans one_pos (h1 f.1 hv.1 hv.2)
  have key := lowest_block g2 g3 g4 (fun p : Fin (a.nu_max.toNat + 1) => ⟨j * (a.at x.L).rdim + p, hidx p⟩)
    (fun p q hpq => by
      have := congrArg Fin.val hpq
      exact Fin.ext (by simpa using this)) fun p => gw l t p
  have hel : ∀ p q : Fin (a.nu_max.toNat + 1), mat (a.at x.L).dim M ⟨j * (a.at x.L).rdim + p, hidx p⟩ ⟨j * (a.at x.L).rdim + q, hidx q⟩ =
      c20 * (if p.1 = q.1 then 1 else 0) + oscMat l P Q p q := fun p q => by
    have xl : ∀ p : Fin (a.nu_max.toNat + 1), (a.at x.L).xlabels[j * (a.at x.L).rdim + p]? = some (((p : ℕ) : Int), f) := fun p => by
      rw [getElem?_xlabels (a.at x.L) j p (by rw [hN]; exact p.2), hj']
      show some (a.nu_min + ((p : ℕ) : Int), f) = _
      rw [h0, zero_add]
    refine Eq.trans (hMe _ _ _ _ (xl p) (xl q)) ?_
    rw [if_pos rfl, ← radHam_osc (c20 := c20) h11.ne hP hQ (hd f.1 hv.1 hv.2) a.nu_min.toNat a.nu_max.toNat p q]
    rfl
  simp only [hel] at key
  have gf := ground_form (P := P) (Q := Q) hl0 ht a.nu_max.toNat
  have s1 : ∑ i : Fin (a.nu_max.toNat + 1), gw l t i ^ 2 = ∑ i ∈ Finset.range (a.nu_max.toNat + 1), gw l t i ^ 2 :=
    Fin.sum_univ_eq_sum_range (fun i => gw l t i ^ 2) _
  have s2 : ∑ i : Fin (a.nu_max.toNat + 1), ∑ j : Fin (a.nu_max.toNat + 1), gw l t i * gw l t j * (c20 * (if i.1 = j.1 then 1 else 0) + oscMat l P Q i j) =
      c20 * ∑ i ∈ Finset.range (a.nu_max.toNat + 1), gw l t i ^ 2 +
        ∑ i ∈ Finset.range (a.nu_max.toNat + 1), ∑ j ∈ Finset.range (a.nu_max.toNat + 1), gw l t i * gw l t j * oscMat l P Q i j := by
    rw [← s1, Finset.mul_sum, Finset.sum_range, ← Finset.sum_add_distrib]
    refine Finset.sum_congr rfl fun i _ => ?_
    rw [Finset.sum_range]
    simp only [mul_add]
    rw [Finset.sum_add_distrib]
    congr 1
    rw [Finset.sum_eq_single i]
    · simp; ring
    · intro j _ hji
      rw [if_neg fun e => hji (Fin.ext e.symm)]
      ring
    · simp
  rw [s1, s2, gf] at key
  have hpos := one_le_gw l t a.nu_max.toNat
  have hrest : 0 ≤ (P - Q) ^ 2 * ((l + a.nu_max.toNat) * gw l t a.nu_max.toNat ^ 2) := by positivity
  rw [hv0]
  by_contra hcon
  push Not at hcon
  nlinarith

/-- C133: the lowest energies converge to the exact ones.  For `c11 < 0`, `c21 > 0`, any `c20` and `c23`, with lambdas of the basis
that are matched to the Hamiltonian, `(lambda_v - 1)^2 = (v + 3/2)^2 - c23 / c11`, but with any width, and with `nu` from 0: for
every angular momentum `L` that has states, the lowest energy that is reported for it tends, when `nu_max` grows and all else is
kept, to the least of the exact energies `c20 + 2 sqrt(-c11 c21) lambda_v` over the states on the sphere with this `L`. -/
theorem C133_ground {a : XArgs} (h : LegalRanges a) (h0 : a.nu_min = 0) {env : XEnv} (hla : LinAlgOk env.la) {c11 c20 c21 c23 : ℝ}
    (h11 : c11 < 0) (h21 : 0 < c21) (ha : a.anorm ≠ 0) {lam : LambdaFunction} {ls : Int → Int}
    (hl : ∀ v, a.v_min ≤ v → v ≤ a.v_max → lam v = .ok (ls v))
    (h1 : ∀ v, a.v_min ≤ v → v ≤ a.v_max → 1 < a.lambda_base + ls v)
    (hd : ∀ v : Int, a.v_min ≤ v → v ≤ a.v_max → (a.lambda_base + ls v - 1) ^ 2 = (v + 3 / 2) ^ 2 - c23 / c11)
    {L : Int} (hL : a.L_min ≤ L ∧ L ≤ a.L_max) {states : List Label} (hst : lbsSO5r3_rngV a.v_min a.v_max L = .ok states)
    (hne : states ≠ []) {ε : ℝ} (hε : 0 < ε) :
    ∃ N : Int, ∀ n, N ≤ n → ∀ s : FState, MemoOk env s.xs → s.glb.lam_fun = lam →
      ∃ r s', DigXspace env (ACM_Hamiltonian (c11 := kC c11) (c20 := kC c20) (c21 := kC c21) (c23 := kC c23))
          { a with nu_max := n } s = (.ok r, s') ∧
        ∃ x ∈ r, x.L = L ∧ ∃ e, x.vals[0]? = some e ∧ (∃ f ∈ states, c20 + 2 * √(-c11 * c21) * (a.lambda_base + ls f.1) ≤ e) ∧
          ∀ f ∈ states, e < c20 + 2 * √(-c11 * c21) * (a.lambda_base + ls f.1) + ε := by
  have hL0 : 0 ≤ L := le_trans h.2.2.1 hL.1
  have hst' : states = labelsV a.v_min a.v_max L L := by
    have := lbsSO5r3_rngV_ok (L := L) h.2.1.1 h.2.1.2 hL0
    rw [hst] at this
    injection this
  obtain ⟨E, ⟨f0, hf0, hb⟩, hE⟩ := C132_converges (mu := fun v => a.lambda_base + ls v) (c20 := c20) h hla h11 h21.le ha hl h1 hd hL hst hne 0
  obtain ⟨N0, hN0⟩ := hE 1 one_pos
  have ha' : 0 < |a.anorm| := abs_pos.2 ha
  set P := √(-c11) * |a.anorm| with hPdef
  set Q := √c21 / |a.anorm| with hQdef
  have hP0 : 0 < P := mul_pos (Real.sqrt_pos.2 (by linarith)) ha'
  have hQ0 : 0 < Q := div_pos (Real.sqrt_pos.2 h21) ha'
  have hP : P ^ 2 = -c11 * a.anorm ^ 2 := by rw [hPdef, mul_pow, Real.sq_sqrt (by linarith), sq_abs]
  have hQ : Q ^ 2 = c21 / a.anorm ^ 2 := by rw [hQdef, div_pow, Real.sq_sqrt h21.le, sq_abs]
  have hPQ : P * Q = √(-c11 * c21) := by
    rw [hPdef, hQdef, Real.sqrt_mul (by linarith)]
    field_simp
  have ht : (P - Q) / (P + Q) * (P + Q) = P - Q := div_mul_cancel₀ _ (by positivity)
  have ht1 : ((P - Q) / (P + Q)) ^ 2 < 1 := by
    rw [div_pow, div_lt_one (by positivity)]
    nlinarith [mul_pos hP0 hQ0]
  have hev : ∀ᶠ n : ℕ in Filter.atTop, ∀ f ∈ states.toFinset, (P - Q) ^ 2 * ((a.lambda_base + ls f.1 + n) *
      gw (a.lambda_base + ls f.1) ((P - Q) / (P + Q)) n ^ 2) < ε := by
    rw [Filter.eventually_all_finset]
    intro f hf
    rw [List.mem_toFinset, hst'] at hf
    have hv := state_v (a := a.at L) hf
    have := (gw_tail (lt_trans one_pos (h1 f.1 hv.1 hv.2)) ht1).const_mul ((P - Q) ^ 2)
    rw [mul_zero] at this
    exact this.eventually_lt_const hε
  obtain ⟨N1, hN1⟩ := Filter.eventually_atTop.1 hev
  refine ⟨max (max N0 N1) 0, fun n hn s hs hs2 => ?_⟩
  have hn0 : N0 ≤ n := le_trans (le_max_left _ _) (le_trans (le_max_left _ _) hn)
  have hn1 : (N1 : Int) ≤ n := le_trans (le_max_right _ _) (le_trans (le_max_left _ _) hn)
  have hn2 : 0 ≤ n := le_trans (le_max_right _ _) hn
  obtain ⟨r, s', hr, x, hx, hxL, e, he, hEe, _⟩ := hN0 n hn0 s hs hs2
  refine ⟨r, s', hr, x, hx, hxL, e, he, ⟨f0, hf0, hb.trans hEe⟩, fun f hf => ?_⟩
  have hup := ground_upper (a := { a with nu_max := n }) ⟨⟨h.1.1, h0.trans_le hn2⟩, h.2⟩ h0 hla h11 ha hs (ls := ls) (by rw [hs2]; exact hl) h1 hd
    hP hQ ht hr hx (f := f) (by rw [hxL, ← hst']; exact hf) he
  have := hN1 n.toNat (by omega) f (List.mem_toFinset.2 hf)
  rw [mul_assoc 2, hPQ] at hup
  exact lt_of_le_of_lt hup (by linarith)

/-- The exact ground energy of the oscillator, found in a basis of the wrong width. -/
example (env : XEnv) (hla : LinAlgOk env.la) {ε : ℝ} (hε : 0 < ε) : ∃ N : Int, ∀ n, N ≤ n →
    ∀ s : FState, MemoOk env s.xs → s.glb.lam_fun = lambda_sho_fun →
      ∃ r s', DigXspace env (ACM_Hamiltonian (c11 := kC (-1 / 2)) (c20 := kC 3) (c21 := kC (1 / 2)) (c23 := kC 0))
          ⟨3, 5 / 2, 0, n, 0, 12, 0, 8⟩ s = (.ok r, s') ∧
        ∃ x ∈ r, x.L = 0 ∧ ∃ e, x.vals[0]? = some e ∧ 11 / 2 ≤ e ∧ e < 11 / 2 + ε := by
  have hst := lbsSO5r3_rngV_ok (v_min := 0) (v_max := 12) (L := 0) (by decide) (by decide) (by decide)
  have hmem : ((0, 1, 0) : Label) ∈ labelsV 0 12 0 0 := by decide +kernel
  have hq : √(-(-1 / 2) * (1 / 2) : ℝ) = 1 / 2 := by
    rw [show (-(-1 / 2) * (1 / 2) : ℝ) = (1 / 2) ^ 2 by norm_num]
    exact Real.sqrt_sq (by norm_num)
  obtain ⟨N, hN⟩ := C133_ground (a := ⟨3, 5 / 2, 0, 10, 0, 12, 0, 8⟩) (by unfold LegalRanges; simp) rfl hla (c11 := -1 / 2) (c20 := 3) (c21 := 1 / 2)
    (c23 := 0) (by norm_num) (by norm_num) (by norm_num) (lam := lambda_sho_fun) (ls := fun v => v)
    (fun v h1 _ => by
      unfold lambda_sho_fun
      rw [require_nonnegint_ok h1]
      rfl)
    (fun v h1 _ => by
      have : (0 : ℝ) ≤ v := by exact_mod_cast h1
      show (1 : ℝ) < 5 / 2 + v
      linarith)
    (fun v _ _ => by
      show (5 / 2 + (v : ℝ) - 1) ^ 2 = _
      ring)
    (L := 0) (by simp) hst (List.ne_nil_of_mem hmem) hε
  refine ⟨N, fun n hn s hs hs2 => ?_⟩
  obtain ⟨r, s', hr, x, hx, hxL, e, he, ⟨f, hf, e1⟩, e2⟩ := hN n hn s hs hs2
  refine ⟨r, s', hr, x, hx, hxL, e, he, ?_, ?_⟩
  · rw [hq] at e1
    have : (0 : ℝ) ≤ (f.1 : ℝ) := by exact_mod_cast (state_v (a := ⟨3, 5 / 2, 0, 10, 0, 12, 0, 0⟩) hf).1
    change 3 + 2 * (1 / 2) * (5 / 2 + (f.1 : ℝ)) ≤ e at e1
    linarith
  · have := e2 _ hmem
    rw [hq] at this
    norm_num at this
    linarith

end Acm.Props
