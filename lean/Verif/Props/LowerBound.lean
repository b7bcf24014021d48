import Verif.Props.Multiplets

/-!
# No computed energy is below the exact ground state (C131)
-/

namespace Acm.Props

open Acm Acm.Spec

/-- `s (d/dbeta - (mu - 1/2)/beta) + t beta`, which annihilates the exact ground state, from the basis for `lambda` to that for `lambda + 1`. -/
noncomputable def vLow (lam mu s t : ℝ) (k i : ℕ) : ℝ := s * vw lam k i + t * vb_pl lam k i + s * (lam - mu) * vbm_pl lam k i

theorem vLow_gram {lam : ℝ} (h : 1 < lam) (mu s t : ℝ) (i j : ℕ) :
    HasSum (fun k => vLow lam mu s t k i * vLow lam mu s t k j)
      (s ^ 2 * (2 * vS0 lam i j - vSp lam i j - vSm lam i j + ((mu - 1) ^ 2 - (lam - 1) ^ 2) * vbm2 lam i j)
        + t ^ 2 * (vSp lam i j + vSm lam i j + 2 * vS0 lam i j) - 2 * s * t * mu * opId i j) := by
  have h0 : 0 < lam := by linarith
  have a1 := vwT_vw h0 i j
  have a2 := b_ml_b_pl h0 i j
  have a3 := bm_ml_bm_pl h i j
  have a4 := b_ml_vw h0 i j
  have a5 := opProd_transpose (b_ml_vw h0) i j
  have a6 := vwT_bm h0 i j
  have a7 := opProd_transpose (vwT_bm h0) i j
  have a8 := b_ml_bm_pl h0 i j
  have a9 := opProd_transpose (b_ml_bm_pl h0) i j
  have e := vmix_symm h0 (ne_of_gt h) i j
  have key := ((((((((a1.mul_left (s ^ 2)).add (a2.mul_left (t ^ 2))).add (a3.mul_left ((s * (lam - mu)) ^ 2))).add
    (a4.mul_left (s * t))).add (a5.mul_left (s * t))).add (a6.mul_left (s * (s * (lam - mu))))).add (a7.mul_left (s * (s * (lam - mu))))).add
    (a8.mul_left (t * (s * (lam - mu))))).add (a9.mul_left (t * (s * (lam - mu))))
  have e1 : vSm lam j i = vSp lam i j := rfl
  have e2 : vSp lam j i = vSm lam i j := rfl
  have e3 : opId j i = opId i j := by simp [opId, eq_comm]
  have key' : HasSum (fun k => s ^ 2 * (vw lam k i * vw lam k j) + t ^ 2 * (vb_pl lam k i * vb_pl lam k j)
      + (s * (lam - mu)) ^ 2 * (vbm_pl lam k i * vbm_pl lam k j) + s * t * (vb_pl lam k i * vw lam k j)
      + s * t * (vw lam k i * vb_pl lam k j) + s * (s * (lam - mu)) * (vw lam k i * vbm_pl lam k j)
      + s * (s * (lam - mu)) * (vbm_pl lam k i * vw lam k j) + t * (s * (lam - mu)) * (vb_pl lam k i * vbm_pl lam k j)
      + t * (s * (lam - mu)) * (vbm_pl lam k i * vb_pl lam k j))
      (s ^ 2 * (-(vSp lam i j + vSm lam i j - 2 * vS0 lam i j)) + t ^ 2 * (vSp lam i j + vSm lam i j + 2 * vS0 lam i j)
      + (s * (lam - mu)) ^ 2 * vbm2 lam i j + s * t * (vSm lam i j - vSp lam i j - lam * opId i j)
      + s * t * (vSm lam j i - vSp lam j i - lam * opId j i) + s * (s * (lam - mu)) * vmix lam i j + s * (s * (lam - mu)) * vmix lam j i
      + t * (s * (lam - mu)) * opId i j + t * (s * (lam - mu)) * opId j i) := key
  rw [e1, e2, e3] at key'
  convert key' using 2
  · unfold vLow
    ring
  · linear_combination -(s ^ 2 * (lam - mu)) * e

/-- The quadratic form of the radial Hamiltonian without `beta^4`. -/
theorem radial_form {lam : ℝ} (h : 1 < lam) (mu s t : ℝ) (lo n : ℕ) (z : Fin n → ℝ) :
    2 * s * t * mu * ∑ i, z i ^ 2 ≤ ∑ i, ∑ j, z i * z j *
      (s ^ 2 * (2 * vS0 lam (lo + i) (lo + j) - vSp lam (lo + i) (lo + j) - vSm lam (lo + i) (lo + j)
          + ((mu - 1) ^ 2 - (lam - 1) ^ 2) * vbm2 lam (lo + i) (lo + j))
        + t ^ 2 * (vSp lam (lo + i) (lo + j) + vSm lam (lo + i) (lo + j) + 2 * vS0 lam (lo + i) (lo + j))) := by
  have key := hasSum_sum (s := Finset.univ) fun (i : Fin n) _ => hasSum_sum (s := Finset.univ) fun (j : Fin n) _ =>
    (vLow_gram h mu s t (lo + i) (lo + j)).mul_left (z i * z j)
  have hnn := key.nonneg fun k => by
    have : ∑ i, ∑ j, z i * z j * (vLow lam mu s t k (lo + i) * vLow lam mu s t k (lo + j)) = (∑ i, z i * vLow lam mu s t k (lo + i)) ^ 2 := by
      rw [sq, Finset.sum_mul_sum]
      exact Finset.sum_congr rfl fun i _ => Finset.sum_congr rfl fun j _ => by ring
    rw [this]
    exact sq_nonneg _
  have hid : ∑ i : Fin n, z i ^ 2 = ∑ i : Fin n, ∑ j : Fin n, z i * z j * opId (lo + i) (lo + j) := by
    refine Finset.sum_congr rfl fun i _ => ?_
    rw [Finset.sum_eq_single i]
    · simp [opId, sq]
    · intro j _ hj
      rw [opId, if_neg fun e => hj (Fin.ext (by omega)), mul_zero]
    · simp
  rw [hid, Finset.mul_sum, ← sub_nonneg, ← Finset.sum_sub_distrib]
  refine hnn.trans_eq (Finset.sum_congr rfl fun i _ => ?_)
  rw [Finset.mul_sum, ← Finset.sum_sub_distrib]
  exact Finset.sum_congr rfl fun j _ => by ring

/-- The quadratic form of `beta^4`, as the square of a symmetric matrix. -/
theorem square_form (Q : ℕ → ℕ → ℝ) (hQ : ∀ i j, Q i j = Q j i) (lo hi n : ℕ) (z : Fin n → ℝ) :
    0 ≤ ∑ i : Fin n, ∑ j : Fin n, z i * z j * ∑ k ∈ Finset.Icc lo hi, Q (lo + i) k * Q k (lo + j) := by
  have : ∑ i : Fin n, ∑ j : Fin n, z i * z j * ∑ k ∈ Finset.Icc lo hi, Q (lo + i) k * Q k (lo + j) =
      ∑ k ∈ Finset.Icc lo hi, (∑ i : Fin n, z i * Q k (lo + i)) ^ 2 := by
    have e : ∀ k, (∑ i : Fin n, z i * Q k (lo + i)) ^ 2 = ∑ i : Fin n, ∑ j : Fin n, z i * z j * (Q (lo + i) k * Q k (lo + j)) := fun k => by
      rw [sq, Finset.sum_mul_sum]
      exact Finset.sum_congr rfl fun i _ => Finset.sum_congr rfl fun j _ => by rw [hQ (lo + i) k]; ring
    simp only [e, Finset.mul_sum]
    rw [Finset.sum_comm (s := Finset.Icc lo hi)]
    exact Finset.sum_congr rfl fun i _ => Finset.sum_comm
  rw [this]
  exact Finset.sum_nonneg fun k _ => sq_nonneg _

/-- Levels are bounded from below by the quadratic form. -/
theorem levels_bound {n : ℕ} {A : Matrix (Fin n) (Fin n) ℝ} {es : List ℝ} (h : IsLevels A es) {m : ℝ}
    (hm : ∀ z : Fin n → ℝ, m * ∑ i, z i ^ 2 ≤ ∑ i, ∑ j, z i * z j * A i j) {e : ℝ} (he : e ∈ es) : m ≤ e := by
  set S := (1 / 2 : ℝ) • (A + A.transpose) with hS
  have h1 : S.charpoly.eval e = 0 := by
    rw [h.1, Polynomial.eval_list_prod, List.prod_eq_zero_iff, List.map_map, List.mem_map]
    exact ⟨e, he, by simp⟩
  rw [Matrix.eval_charpoly] at h1
  obtain ⟨w, hw, hw0⟩ := Matrix.exists_mulVec_eq_zero_iff.2 h1
  have hq : ∀ i, ∑ j, S i j * w j = e * w i := fun i => by
    have := congrFun hw0 i
    rw [Matrix.sub_mulVec, Pi.sub_apply, Pi.zero_apply, sub_eq_zero] at this
    rw [show (Matrix.scalar (Fin n)) e = Matrix.diagonal fun _ => e from rfl, Matrix.mulVec_diagonal] at this
    exact this.symm
  have hf : ∑ i, ∑ j, w i * w j * A i j = e * ∑ i, w i ^ 2 := by
    have e1 : ∑ i, ∑ j, w i * w j * A i j = ∑ i, w i * ∑ j, S i j * w j := by
      have e2 : ∑ i, ∑ j, w i * w j * A j i = ∑ i, ∑ j, w i * w j * A i j := by
        rw [Finset.sum_comm]
        exact Finset.sum_congr rfl fun i _ => Finset.sum_congr rfl fun j _ => by ring
      have e3 : ∑ i, w i * ∑ j, S i j * w j = 1 / 2 * ∑ i, ∑ j, w i * w j * A i j + 1 / 2 * ∑ i, ∑ j, w i * w j * A j i := by
        rw [Finset.mul_sum, Finset.mul_sum, ← Finset.sum_add_distrib]
        refine Finset.sum_congr rfl fun i _ => ?_
        rw [Finset.mul_sum, Finset.mul_sum, Finset.mul_sum, ← Finset.sum_add_distrib]
        refine Finset.sum_congr rfl fun j _ => ?_
        rw [hS]
        simp only [Matrix.smul_apply, Matrix.add_apply, Matrix.transpose_apply, smul_eq_mul]
        ring
      rw [e3, e2]
      ring
    rw [e1, Finset.mul_sum]
    exact Finset.sum_congr rfl fun i _ => by rw [hq i]; ring
  have hpos : 0 < ∑ i, w i ^ 2 := by
    obtain ⟨i, hi⟩ := Function.ne_iff.1 hw
    exact lt_of_lt_of_le (sq_pos_of_ne_zero hi) (Finset.single_le_sum (f := fun i => w i ^ 2) (fun _ _ => sq_nonneg _) (Finset.mem_univ i))
  have := hm w
  rw [hf] at this
  exact le_of_mul_le_mul_right this hpos

theorem radHam_ne_nil {c11 : ℝ} (h : c11 ≠ 0) (c20 c21 c22 c23 : ℝ) :
    ACM_Hamiltonian (c11 := kC c11) (c20 := kC c20) (c21 := kC c21) (c22 := kC c22) (c23 := kC c23) ≠ [] := by
  intro e
  have := radHam_sum (kC c11) (kC c20) (kC c21) (kC c22) (kC c23) (0, 0, 0, 0) fun w => if w = [.rad .D2b] then 1 else 0
  rw [e] at this
  simp [kC] at this
  exact h this.symm

/-- The quadratic form of the matrix of the Hamiltonian. -/
theorem radHam_form {c11 c21 c22 c23 a l mu v : ℝ} (c20 : ℝ) (h11 : c11 < 0) (h21 : 0 ≤ c21) (h22 : 0 ≤ c22) (ha : a ≠ 0) (hl : 1 < l)
    (hmu : (mu - 1) ^ 2 = (v + 3 / 2) ^ 2 - c23 / c11) (lo hi n : ℕ) (z : Fin n → ℝ) :
    (c20 + 2 * √(-c11 * c21) * mu) * ∑ i, z i ^ 2 ≤ ∑ i : Fin n, ∑ j : Fin n, z i * z j *
      (c11 * (radElem lo hi a l (lo + i) (lo + j) [.rad .D2b] - (2 + v * (v + 3)) * radElem lo hi a l (lo + i) (lo + j) [.rad .bm2])
        + c20 * radElem lo hi a l (lo + i) (lo + j) [] + c21 * radElem lo hi a l (lo + i) (lo + j) [.rad .b2]
        + c22 * radElem lo hi a l (lo + i) (lo + j) [.rad .b2, .rad .b2] + c23 * radElem lo hi a l (lo + i) (lo + j) [.rad .bm2]) := by
  have hs : (√(-c11) * a) ^ 2 = -c11 * a ^ 2 := by rw [mul_pow, Real.sq_sqrt (by linarith)]
  have ht : (√c21 / a) ^ 2 = c21 / a ^ 2 := by rw [div_pow, Real.sq_sqrt h21]
  have hst : (√(-c11) * a) * (√c21 / a) = √(-c11 * c21) := by
    rw [Real.sqrt_mul (by linarith)]
    field_simp
  have k1 := radial_form hl mu (√(-c11) * a) (√c21 / a) lo n z
  rw [hs, ht, mul_assoc 2, hst] at k1
  have k2 := square_form (fun i j => vSp l i j + vSm l i j + 2 * vS0 l i j) (fun i j => by
    have e1 : vSm l j i = vSp l i j := rfl
    have e2 : vSp l j i = vSm l i j := rfl
    have e3 : vS0 l i j = vS0 l j i := by unfold vS0; split_ifs with h1 h2 h3 <;> first | rfl | (subst h1; rfl) | omega
    rw [e1, e2, e3]; ring) lo hi n z
  have k3 : ∑ i : Fin n, z i ^ 2 = ∑ i : Fin n, ∑ j : Fin n, z i * z j * radElem lo hi a l (lo + i) (lo + j) [] := by
    refine Finset.sum_congr rfl fun i _ => ?_
    rw [Finset.sum_eq_single i]
    · simp [radElem, sq]
    · intro j _ hj
      rw [radElem, if_neg fun e => hj (Fin.ext (by omega)), mul_zero]
    · simp
  have e3 : a ^ (2 : Int) = a ^ 2 := by norm_cast
  have e4 : a ^ (-2 : Int) = 1 / a ^ 2 := by rw [zpow_neg, e3, one_div]
  have hd' : c11 * (mu - 1) ^ 2 = c11 * (v + 3 / 2) ^ 2 - c23 := by
    rw [hmu]
    have := h11.ne
    field_simp
  have k4 : ∑ i : Fin n, ∑ j : Fin n, z i * z j *
      (c11 * (radElem lo hi a l (lo + i) (lo + j) [.rad .D2b] - (2 + v * (v + 3)) * radElem lo hi a l (lo + i) (lo + j) [.rad .bm2])
        + c20 * radElem lo hi a l (lo + i) (lo + j) [] + c21 * radElem lo hi a l (lo + i) (lo + j) [.rad .b2]
        + c22 * radElem lo hi a l (lo + i) (lo + j) [.rad .b2, .rad .b2] + c23 * radElem lo hi a l (lo + i) (lo + j) [.rad .bm2]) =
      ∑ i : Fin n, ∑ j : Fin n, z i * z j *
      (-c11 * a ^ 2 * (2 * vS0 l (lo + i) (lo + j) - vSp l (lo + i) (lo + j) - vSm l (lo + i) (lo + j)
          + ((mu - 1) ^ 2 - (l - 1) ^ 2) * vbm2 l (lo + i) (lo + j))
        + c21 / a ^ 2 * (vSp l (lo + i) (lo + j) + vSm l (lo + i) (lo + j) + 2 * vS0 l (lo + i) (lo + j)))
      + c20 * ∑ i : Fin n, ∑ j : Fin n, z i * z j * radElem lo hi a l (lo + i) (lo + j) []
      + c22 * a ^ (-4 : Int) * ∑ i : Fin n, ∑ j : Fin n, z i * z j * ∑ k ∈ Finset.Icc lo hi,
          (vSp l (lo + i) k + vSm l (lo + i) k + 2 * vS0 l (lo + i) k) * (vSp l k (lo + j) + vSm l k (lo + j) + 2 * vS0 l k (lo + j)) := by
    rw [Finset.mul_sum, Finset.mul_sum, ← Finset.sum_add_distrib, ← Finset.sum_add_distrib]
    refine Finset.sum_congr rfl fun i _ => ?_
    rw [Finset.mul_sum, Finset.mul_sum, ← Finset.sum_add_distrib, ← Finset.sum_add_distrib]
    refine Finset.sum_congr rfl fun j _ => ?_
    simp only [radElem, e3, e4]
    linear_combination z i * z j * a ^ 2 * vbm2 l (lo + i) (lo + j) * hd'
  rw [k4, ← k3]
  have k5 : 0 ≤ c22 * a ^ (-4 : Int) := mul_nonneg h22 (by
    rw [zpow_neg, show a ^ (4 : Int) = a ^ 4 by norm_cast]
    positivity)
  have := mul_nonneg k5 k2
  nlinarith

/-- C131: let the Hamiltonian be `c11 laplacian + c20 + c21 beta^2 + c22 beta^4 + c23 / beta^2` with `c11 < 0`, `0 ≤ c21` and `0 ≤ c22`.  In
any basis (any width, any values of `lambda` above 1, any ranges, matched to the Hamiltonian or not) `DigXspace` succeeds, reports exactly the
occupied angular momenta, and each energy that it reports for an angular momentum `L` is at least
`c20 + 2 sqrt(-c11 c21) mu_v` for the seniority `v` of some state on the sphere with angular momentum `L`, where
`(mu_v - 1)^2 = (v + 3/2)^2 - c23 / c11`.  With the larger root `mu_v` and `c22 = 0` this is the exact energy of the lowest state with
seniority `v` (C95). -/
theorem C131_lowest {a : XArgs} (h : LegalRanges a) {env : XEnv} (hla : LinAlgOk env.la) {c11 c20 c21 c22 c23 : ℝ} (h11 : c11 < 0)
    (h21 : 0 ≤ c21) (h22 : 0 ≤ c22) (ha : a.anorm ≠ 0) {s : FState} (hs : MemoOk env s.xs) {ls : Int → Int}
    (hl : ∀ v, a.v_min ≤ v → v ≤ a.v_max → s.glb.lam_fun v = .ok (ls v))
    (h1 : ∀ v, a.v_min ≤ v → v ≤ a.v_max → 1 < a.lambda_base + ls v)
    {mu : Int → ℝ} (hmu : ∀ v : Int, a.v_min ≤ v → v ≤ a.v_max → (mu v - 1) ^ 2 = (v + 3 / 2) ^ 2 - c23 / c11) :
    ∃ r s', DigXspace env (ACM_Hamiltonian (c11 := kC c11) (c20 := kC c20) (c21 := kC c21) (c22 := kC c22) (c23 := kC c23)) a s
        = (.ok r, s') ∧ OccupiedL a (r.map LEig.L) ∧
      ∀ x ∈ r, ∃ states, lbsSO5r3_rngV a.v_min a.v_max x.L = .ok states ∧
        ∀ e ∈ x.vals, ∃ f ∈ states, c20 + 2 * √(-c11 * c21) * mu f.1 ≤ e := by
  have hg := C130_acm c11 c20 c21 c22 c23
  have hne := radHam_ne_nil h11.ne c20 c21 c22 c23
  set ham := ACM_Hamiltonian (c11 := kC c11) (c20 := kC c20) (c21 := kC c21) (c22 := kC c22) (c23 := kC c23) with hham
  have ht : Op_Tame ham = true := gammaFree_tame hg
  have hmat := fun L (hL : 0 ≤ L) => radHam_matrix (legal_at h hL) hla (env := env) (lam := s.glb.lam_fun) ha hl
    (fun v k1 k2 => lt_trans one_pos (h1 v k1 k2)) (fun v k1 k2 => (h1 v k1 k2).ne') (kC c11) (kC c20) (kC c21) (kC c22) (kC c23)
  obtain ⟨r, s', hr⟩ := digTame_total (ts := ham) h _ (range_nonneg h) s hs fun L hL => by
    obtain ⟨M, hM, _⟩ := hmat L (range_nonneg h L hL)
    exact ⟨M, hM⟩
  have hdig : DigXspace env ham a s = (.ok r, s') := by
    unfold DigXspace
    rw [check_ok h, st_lift_ok, if_pos ht]
    exact hr
  obtain ⟨ho, hx⟩ := C32_partial ht h hs hdig
  refine ⟨r, s', hdig, ho, fun x hxr => ?_⟩
  have hL : 0 ≤ x.L := by
    have := ((ho.2 x.L).1 (List.mem_map_of_mem hxr)).1; have := h.2.2.1; omega
  have hle := legal_at h hL
  obtain ⟨E, -, hE, hdigE⟩ := C130_multiplets hla hg a.anorm a.lambda_base a.nu_min a.nu_max s.glb.lam_fun
  obtain ⟨states, hst, hperm, -⟩ := hdigE a.v_min a.v_max a.L_min a.L_max s s' r hs rfl hdig x hxr
  refine ⟨states, hst, fun e he => ?_⟩
  obtain ⟨f, hf, hef⟩ := List.mem_flatMap.1 (hperm.mem_iff.1 he)
  refine ⟨f, hf, ?_⟩
  have hst' : states = (a.at x.L).states := by
    have k := lbsSO5r3_rngV_ok (L := x.L) h.2.1.1 h.2.1.2 hL
    rw [hst] at k
    injection k
  rw [hst'] at hf
  obtain ⟨j, hj, hjf⟩ := List.getElem_of_mem hf
  have hj' : (a.at x.L).states[j]? = some f := by rw [List.getElem?_eq_getElem hj, hjf]
  have hv := state_v hf
  obtain ⟨M, hM, hsq, hMe⟩ := hmat x.L hL
  obtain ⟨Ps, m1, m2⟩ := rad_blocks hle hs hg ((rep_eq hle hs ham).trans hM) hj'
  rcases m1 with m1 | ⟨l, q1, q2⟩
  · exact absurd m1 hne
  have hlf : s.glb.lam_fun f.1 = .ok (ls f.1) := hl f.1 hv.1 hv.2
  have q1' : s.glb.lam_fun f.1 = .ok l := q1
  rw [hlf] at q1'
  injection q1' with q1'
  subst q1'
  refine levels_bound (hE f.1 (ls f.1) Ps hlf q2) (fun z => ?_) hef
  have hform := radHam_form (c23 := c23) c20 h11 h21 h22 ha (h1 f.1 hv.1 hv.2) (hmu f.1 hv.1 hv.2) a.nu_min.toNat a.nu_max.toNat
    (a.nu_max - a.nu_min + 1).toNat z
  refine hform.trans_eq (Finset.sum_congr rfl fun p _ => Finset.sum_congr rfl fun q _ => ?_)
  congr 1
  have hpq := m2 j hj p q
  rw [if_pos rfl] at hpq
  refine Eq.trans ?_ hpq
  have xp : (a.at x.L).xlabels[j * (a.at x.L).rdim + p]? = some (a.nu_min + (p : ℕ), f) := by
    rw [getElem?_xlabels (a.at x.L) j p p.2, hj']; rfl
  have xq : (a.at x.L).xlabels[j * (a.at x.L).rdim + q]? = some (a.nu_min + (q : ℕ), f) := by
    rw [getElem?_xlabels (a.at x.L) j q q.2, hj']; rfl
  have h0 : 0 ≤ a.nu_min := h.1.1
  have n1 : ∀ p : ℕ, (a.nu_min + (p : Int)).toNat = a.nu_min.toNat + p := fun p => by omega
  rw [hMe _ _ _ _ xp xq, if_pos rfl]
  simp only [kC, n1]
  rfl

/-- The hypotheses of C131 are met by an anharmonic Hamiltonian with a Davidson term, in a basis that is not matched to it. -/
example (env : XEnv) : ∃ (a : XArgs) (c11 c21 c22 c23 : ℝ) (mu : Int → ℝ), LegalRanges a ∧ c11 < 0 ∧ 0 ≤ c21 ∧ 0 < c22 ∧ 0 < c23 ∧ a.anorm ≠ 0 ∧
    MemoOk env (XState.start lambda_sho_fun) ∧ (∀ v, a.v_min ≤ v → v ≤ a.v_max → lambda_sho_fun v = .ok v ∧ 1 < a.lambda_base + v) ∧
    ∀ v : Int, a.v_min ≤ v → v ≤ a.v_max → (mu v - 1) ^ 2 = (v + 3 / 2) ^ 2 - c23 / c11 := by
  refine ⟨⟨3, 5 / 2, 0, 10, 0, 12, 0, 8⟩, -1 / 2, 1, 2, 5, fun v => 1 + √((v + 3 / 2) ^ 2 + 10), by unfold LegalRanges; simp, by norm_num,
    by norm_num, by norm_num, by norm_num, by norm_num, memoOk_start env _, fun v h1 _ => ⟨?_, ?_⟩, fun v _ _ => ?_⟩
  · unfold lambda_sho_fun
    rw [require_nonnegint_ok h1]
    rfl
  · have : (0 : ℝ) ≤ v := by exact_mod_cast h1
    show (1 : ℝ) < 5 / 2 + v
    linarith
  · rw [add_sub_cancel_left, Real.sq_sqrt (by positivity)]
    ring

end Acm.Props
