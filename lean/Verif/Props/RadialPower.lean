import Verif.Lemmas.RadialPower
import Verif.Lemmas.RadialEscape
import Verif.Props.RadialWord
import Verif.Props.RadialFormed
import Verif.Props.FullOps

/-!
# Property C119: powers of beta, and what the truncation costs
-/

namespace Acm.Props
open Acm Spec RadialBasis Polynomial Spec.RadialBasis

/-! ## The elementary operators -/

noncomputable def vb2 (lam : ℝ) (i j : ℕ) : ℝ := vSp lam i j + vSm lam i j + 2 * vS0 lam i j

theorem vb_pl_reaches {lam : ℝ} (h : 0 < lam) : Reaches 0 1 (vb_pl lam) ∧ ∀ i j, 0 ≤ vb_pl lam i j := by
  refine ⟨fun i j => ?_, fun i j => by unfold vb_pl; split_ifs <;> positivity⟩
  unfold vb_pl
  split_ifs with h1 h2
  · have : Real.sqrt (lam + j) ≠ 0 := (Real.sqrt_pos.2 (by positivity)).ne'
    simp only [ne_eq, this, not_false_eq_true, true_iff]
    omega
  · have : Real.sqrt ((i : ℝ) + 1) ≠ 0 := (Real.sqrt_pos.2 (by positivity)).ne'
    simp only [ne_eq, this, not_false_eq_true, true_iff]
    omega
  · simp only [ne_eq, not_true_eq_false, false_iff]
    omega

theorem vb2_reaches {lam : ℝ} (h : 0 < lam) : Reaches 1 1 (vb2 lam) ∧ ∀ i j, 0 ≤ vb2 lam i j := by
  have hnn : ∀ i j, 0 ≤ vSp lam i j ∧ 0 ≤ vSm lam i j ∧ 0 ≤ vS0 lam i j := by
    intro i j
    refine ⟨?_, ?_, ?_⟩
    · unfold vSp; split_ifs <;> positivity
    · unfold vSm; split_ifs <;> positivity
    · unfold vS0; split_ifs <;> positivity
  refine ⟨fun i j => ?_, fun i j => ?_⟩
  · obtain ⟨a1, a2, a3⟩ := hnn i j
    by_cases hc : i ≤ j + 1 ∧ j ≤ i + 1
    · simp only [hc, and_self, iff_true]
      have : 0 < vb2 lam i j := by
        unfold vb2
        have : i = j + 1 ∨ j = i + 1 ∨ i = j := by omega
        rcases this with h1 | h1 | h1
        · have : 0 < vSp lam i j := by unfold vSp; rw [if_pos h1]; positivity
          linarith
        · have : 0 < vSm lam i j := by unfold vSm; rw [if_pos h1]; positivity
          linarith
        · have : 0 < vS0 lam i j := by unfold vS0; rw [if_pos h1]; positivity
          linarith
      exact this.ne'
    · simp only [hc, iff_false, not_not]
      unfold vb2 vSp vSm vS0
      rw [if_neg (by omega), if_neg (by omega), if_neg (by omega)]
      simp
  · obtain ⟨a1, a2, a3⟩ := hnn i j
    unfold vb2
    linarith

theorem reaches_banded {u d : ℕ} (hu : u ≤ 1) (hd : d ≤ 1) {f : ℕ → ℕ → ℝ} (h : Reaches u d f) : Banded f := by
  intro i j hij
  by_contra hc
  have := (h i j).1 hc
  omega

/-! ## Columns as expansions in the basis -/

/-- The column `n` of `P`, times `s`, is finite and gives the expansion of `g` in the basis at `c`. -/
def Col (a c s : ℝ) (P : ℕ → ℕ → ℝ) (g : ℝ → ℝ) (n : ℕ) : Prop := ∃ N, (∀ k, N ≤ k → P k n = 0) ∧
  Is a c (C (Real.sqrt (2 * a)) * (C s * ∑ k ∈ Finset.range N, C (P k n) * (C (1 / K c k) * lag c k))) g

theorem col_step {a c c' s t : ℝ} {q : ℝ[X]} {f Q P : ℕ → ℕ → ℝ} {F : (ℝ → ℝ) → ℝ → ℝ} {g : ℝ → ℝ} {n : ℕ} (hP : OpProd f Q P)
    (hf : ∀ k, (∀ i, k + 2 ≤ i → f i k = 0) ∧
      q * (C (1 / K c k) * lag c k) = ∑ i ∈ Finset.range (k + 2), C (f i k) * (C (1 / K c' i) * lag c' i))
    (hg : ∀ p, Is a c p g → Is a c' (C t * (q * p)) (F g)) (h : Col a c s Q g n) : Col a c' (t * s) P (F g) n := by
  obtain ⟨N, hN, hI⟩ := h
  have hcol : ∀ i, P i n = ∑ k ∈ Finset.range N, f i k * Q k n := by
    intro i
    refine (hP i n).unique (hasSum_sum_of_ne_finset_zero fun k hk => ?_)
    rw [hN k (by simpa using hk), mul_zero]
  have hz : ∀ i k, k < N → N + 1 ≤ i → f i k = 0 := fun i k hk hi => (hf k).1 i (by omega)
  refine ⟨N + 1, fun i hi => ?_, ?_⟩
  · rw [hcol]
    refine Finset.sum_eq_zero fun k hk => ?_
    rw [hz i k (Finset.mem_range.1 hk) hi, zero_mul]
  · have := hg _ hI
    have e : q * ∑ k ∈ Finset.range N, C (Q k n) * (C (1 / K c k) * lag c k)
        = ∑ i ∈ Finset.range (N + 1), C (P i n) * (C (1 / K c' i) * lag c' i) := by
      rw [Finset.mul_sum]
      have e1 : ∀ k ∈ Finset.range N, q * (C (Q k n) * (C (1 / K c k) * lag c k))
          = ∑ i ∈ Finset.range (N + 1), C (f i k * Q k n) * (C (1 / K c' i) * lag c' i) := by
        intro k hk
        obtain ⟨p1, p2⟩ := hf k
        have hk' := Finset.mem_range.1 hk
        rw [mul_left_comm, p2, Finset.sum_subset (Finset.range_subset_range.2 (by omega : k + 2 ≤ N + 1)), Finset.mul_sum]
        · refine Finset.sum_congr rfl fun i _ => ?_
          rw [C_mul]; ring
        · intro i _ hi
          rw [p1 i (by simpa using hi)]; simp
      rw [Finset.sum_congr rfl e1, Finset.sum_comm]
      refine Finset.sum_congr rfl fun i _ => ?_
      rw [← Finset.sum_mul, ← map_sum, hcol]
    rw [show C t * (q * (C (Real.sqrt (2 * a)) * (C s * ∑ k ∈ Finset.range N, C (Q k n) * (C (1 / K c k) * lag c k))))
      = C (Real.sqrt (2 * a)) * (C (t * s) * (q * ∑ k ∈ Finset.range N, C (Q k n) * (C (1 / K c k) * lag c k))) by
        rw [C_mul]; ring, e] at this
    exact this

theorem col_start {a lam : ℝ} (ha : 0 < a) (h : 0 < lam) (n : ℕ) : Col a lam 1 opId (radialFn a lam n) n := by
  refine ⟨n + 1, fun k hk => if_neg (by omega), ?_⟩
  have := radialFn_is ha h n
  rw [Finset.sum_eq_single n]
  · simp only [C_1, one_mul, opId, if_true]
    rw [← mul_assoc, ← C_mul, mul_one_div]
    exact this
  · intro k _ hk
    simp [opId, hk]
  · intro hk
    exact absurd (Finset.mem_range.2 (Nat.lt_succ_self n)) hk

/-- The entries of such a matrix are integrals. -/
theorem col_overlap {a c s : ℝ} (ha : 0 < a) (h : 0 < c) {P : ℕ → ℕ → ℝ} {g : ℝ → ℝ} {n : ℕ} (hc : Col a c s P g n) (f : ℕ) :
    Overlap (radialFn a c f) g (s * P f n) := by
  obtain ⟨N, hN, hI⟩ := hc
  have := int_wf ha h (by ring : c + c = 2 * c) (radialFn_is ha h f) hI
  convert this using 1
  have hK := (K_pos h f).ne'
  have h3 := Real.mul_self_sqrt (by positivity : 0 ≤ 2 * a)
  rw [show C (Real.sqrt (2 * a) / K c f) * lag c f *
      (C (Real.sqrt (2 * a)) * (C s * ∑ k ∈ Finset.range N, C (P k n) * (C (1 / K c k) * lag c k)))
    = C (Real.sqrt (2 * a) / K c f * Real.sqrt (2 * a) * s)
      * ∑ k ∈ Finset.range N, C (P k n * (1 / K c k)) * (lag c f * lag c k) by
      simp only [C_mul, Finset.mul_sum]
      refine Finset.sum_congr rfl fun k _ => ?_
      ring]
  rw [← smul_eq_C_mul, map_smul, map_sum, smul_eq_mul]
  have e : ∀ k ∈ Finset.range N, mom c (C (P k n * (1 / K c k)) * (lag c f * lag c k))
      = if k = f then P k n * K c k else 0 := by
    intro k _
    have hk := (K_pos h k).ne'
    rw [← smul_eq_C_mul, map_smul, smul_eq_mul, lag_orth h]
    by_cases hik : k = f
    · rw [if_pos hik, if_pos hik.symm, ← K_sq h]
      field_simp
    · rw [if_neg hik, if_neg (Ne.symm hik), mul_zero]
  rw [Finset.sum_congr rfl e, Finset.sum_ite_eq']
  have e2 : (if f ∈ Finset.range N then P f n * K c f else 0) = P f n * K c f := by
    split_ifs with hk
    · rfl
    · rw [hN _ (by simpa using hk), zero_mul]
  rw [e2, show Real.sqrt (2 * a) / K c f * Real.sqrt (2 * a) = 2 * a / K c f by
    rw [div_mul_eq_mul_div, h3]]
  have ha' := ha.ne'
  field_simp

/-! ## The three operators -/

theorem lag_b_pl {lam : ℝ} (h : 0 < lam) (k : ℕ) : (∀ i, k + 2 ≤ i → vb_pl lam i k = 0) ∧
    1 * (C (1 / K lam k) * lag lam k) = ∑ i ∈ Finset.range (k + 2), C (vb_pl lam i k) * (C (1 / K (lam + 1) i) * lag (lam + 1) i) := by
  have h' : 0 < lam + 1 := by linarith
  refine ⟨fun i hi => by unfold vb_pl; rw [if_neg (by omega), if_neg (by omega)], ?_⟩
  rw [one_mul, lag_raise k lam]
  rcases k with _ | k
  · have h1 := (K_pos h 0).ne'
    have h4 := (Real.sqrt_pos.2 (by positivity : 0 < lam + ((0 : ℕ) : ℝ))).ne'
    have e1 : vb_pl lam 0 0 * (1 / K (lam + 1) 0) = 1 / K lam 0 := by
      unfold vb_pl
      rw [if_pos rfl, K_add_one h]
      field_simp
    have e2 : vb_pl lam 1 0 = 0 := by simp [vb_pl]
    rw [Finset.sum_range_succ, Finset.sum_range_succ, Finset.sum_range_zero, e2, ← mul_assoc, ← C_mul, e1]
    simp
  · have h1 := (K_pos h (k + 1)).ne'
    have hK' := (K_pos h' k).ne'
    have h4 := (Real.sqrt_pos.2 (by positivity : 0 < lam + ((k + 1 : ℕ) : ℝ))).ne'
    have e1 : vb_pl lam (k + 1) (k + 1) * (1 / K (lam + 1) (k + 1)) = 1 / K lam (k + 1) := by
      unfold vb_pl
      rw [if_pos rfl, K_add_one h]
      field_simp
    have h5 := Real.mul_self_sqrt (by positivity : (0 : ℝ) ≤ k + 1)
    have h6 := (Real.sqrt_pos.2 (by positivity : (0 : ℝ) < k + 1)).ne'
    have e2 : vb_pl lam k (k + 1) * (1 / K (lam + 1) k) = 1 / K lam (k + 1) * ((k + 1 : ℕ) : ℝ) := by
      unfold vb_pl
      rw [if_neg (by omega), if_pos rfl, K_succ' h]
      push_cast
      field_simp
      linear_combination h5
    rw [Finset.sum_eq_add (k + 1) k (by omega)]
    · rw [← mul_assoc (C (vb_pl lam (k + 1) (k + 1))), ← C_mul, e1, ← mul_assoc (C (vb_pl lam k (k + 1))), ← C_mul, e2, C_mul,
        Nat.add_sub_cancel]
      ring
    · intro i _ hi
      have : vb_pl lam i (k + 1) = 0 := by unfold vb_pl; rw [if_neg hi.1, if_neg (by omega)]
      rw [this]; simp
    · intro hi; exact absurd (Finset.mem_range.2 (by omega)) hi
    · intro hi; exact absurd (Finset.mem_range.2 (by omega)) hi

theorem lag_b_ml {lam : ℝ} (h : 0 < lam) (k : ℕ) : (∀ i, k + 2 ≤ i → vb_pl lam k i = 0) ∧
    X * (C (1 / K (lam + 1) k) * lag (lam + 1) k) = ∑ i ∈ Finset.range (k + 2), C (vb_pl lam k i) * (C (1 / K lam i) * lag lam i) := by
  have h' : 0 < lam + 1 := by linarith
  refine ⟨fun i hi => by unfold vb_pl; rw [if_neg (by omega), if_neg (by omega)], ?_⟩
  rw [mul_left_comm, X_lag]
  have h1 := (K_pos h k).ne'
  have hK' := (K_pos h' k).ne'
  have h4 := (Real.sqrt_pos.2 (by positivity : 0 < lam + k)).ne'
  have h5 := Real.mul_self_sqrt (by positivity : 0 ≤ lam + k)
  have h6 := (Real.sqrt_pos.2 (by positivity : (0 : ℝ) < k + 1)).ne'
  have e1 : vb_pl lam k k * (1 / K lam k) = 1 / K (lam + 1) k * (k + lam) := by
    unfold vb_pl
    rw [if_pos rfl, K_add_one h]
    field_simp
    linear_combination h5
  have e2 : vb_pl lam k (k + 1) * (1 / K lam (k + 1)) = 1 / K (lam + 1) k := by
    unfold vb_pl
    rw [if_neg (by omega), if_pos rfl, K_succ' h]
    field_simp
  rw [Finset.sum_eq_add (k + 1) k (by omega)]
  · rw [← mul_assoc (C (vb_pl lam k (k + 1))), ← C_mul, e2, ← mul_assoc (C (vb_pl lam k k)), ← C_mul, e1, C_mul]
    ring
  · intro i _ hi
    have : vb_pl lam k i = 0 := by unfold vb_pl; rw [if_neg (Ne.symm hi.2), if_neg hi.1]
    rw [this]; simp
  · intro hi; exact absurd (Finset.mem_range.2 (by omega)) hi
  · intro hi; exact absurd (Finset.mem_range.2 (by omega)) hi

theorem lag_b2 {lam : ℝ} (h : 0 < lam) (k : ℕ) : (∀ i, k + 2 ≤ i → vb2 lam i k = 0) ∧
    X * (C (1 / K lam k) * lag lam k) = ∑ i ∈ Finset.range (k + 2), C (vb2 lam i k) * (C (1 / K lam i) * lag lam i) := by
  obtain ⟨h1, h2⟩ := polyAct_lag (a := 1) one_pos h (s := .b2) (m := .b2) rfl (g := vb2 lam) (b2_ok h) k
  refine ⟨h1, ?_⟩
  simp only [polyAct, symExpo, one_zpow, C_1, one_mul, inv_one, one_pow] at h2
  rw [mul_left_comm]
  exact h2

theorem is_unshift {a s : ℝ} (ha : 0 < a) {p : ℝ[X]} {g : ℝ → ℝ} (h : Is a s p g) : Is a (s - 2) (X * p) g := by
  intro b hb
  have hab := mul_pos ha hb
  rw [h b hb, wf_X, sq, mul_assoc, wf_up _ _ hab, wf_up _ _ hab]
  congr 1
  ring

/-! ## Powers -/

/-- The operators of `stepFactors`. -/
noncomputable def stepOps (e : Int) (lam : ℝ) : ℕ → List (ℕ → ℕ → ℝ)
  | 0 => []
  | r + 1 => (if e > 0 then vb_pl (lam + ((e * r : Int) : ℝ)) else fun i j => vb_pl (lam + ((e * r : Int) : ℝ) - 1) j i) :: stepOps e lam r

theorem stepOps_length (e : Int) (lam : ℝ) : ∀ r, (stepOps e lam r).length = r
  | 0 => rfl
  | r + 1 => by rw [stepOps, List.length_cons, stepOps_length e lam r]

theorem step_pos {e : Int} (he : e = 1 ∨ e = -1) {lam : ℝ} {r : ℕ} (hl : 0 < lam) (hl' : 0 < lam + ((e * (r + 1 : ℕ) : Int) : ℝ)) :
    0 < lam + ((e * r : Int) : ℝ) ∧ (e = -1 → 0 < lam + ((e * r : Int) : ℝ) - 1) := by
  rcases he with rfl | rfl
  · refine ⟨by push_cast; positivity, by omega⟩
  · push_cast at hl' ⊢
    exact ⟨by linarith, fun _ => by linarith⟩

theorem stepOps_elements (la : LinAlg) (lo hi : ℕ) {e : Int} (he : e = 1 ∨ e = -1) {lam : ℝ} (hl : 0 < lam) : ∀ r : ℕ,
    0 < lam + ((e * r : Int) : ℝ) → List.Forall₂ (PrimElement la lo hi) (stepFactors e lam r) (stepOps e lam r) ∧
      (∀ f ∈ stepFactors e lam r, RegularFactor f) ∧
      ∀ f ∈ stepOps e lam r, Reaches (if e > 0 then 0 else 1) (if e > 0 then 1 else 0) f ∧ ∀ i j, 0 ≤ f i j
  | 0, _ => ⟨.nil, by simp [stepFactors], by simp [stepOps]⟩
  | r + 1, h => by
    obtain ⟨p1, p2⟩ := step_pos he hl h
    obtain ⟨i1, i2, i3⟩ := stepOps_elements la lo hi he hl r p1
    rw [stepFactors, stepOps]
    rcases he with rfl | rfl
    · simp only [if_pos (show (1 : Int) > 0 by norm_num)] at i3 ⊢
      have hr := vb_pl_reaches p1
      refine ⟨.cons (fun i _ j _ => b_pl_ok p1 i j) i1, ?_, ?_⟩
      · intro f hf
        rcases List.mem_cons.1 hf with rfl | hf
        · refine ⟨p1, ?_, by simp⟩
          simp only [Prim.shift]
          push_cast at p1 ⊢
          linarith
        · exact i2 f hf
      · intro f hf
        rcases List.mem_cons.1 hf with rfl | hf
        · exact hr
        · exact i3 f hf
    · simp only [if_neg (show ¬ (-1 : Int) > 0 by norm_num)] at i3 ⊢
      have p3 := p2 rfl
      obtain ⟨hr1, hr2⟩ := vb_pl_reaches p3
      refine ⟨.cons (fun i _ j _ => ?_) i1, ?_, ?_⟩
      · have := b_ml_ok p3 i j
        rw [sub_add_cancel] at this
        exact this
      · intro f hf
        rcases List.mem_cons.1 hf with rfl | hf
        · refine ⟨p1, ?_, by simp⟩
          simp only [Prim.shift]
          push_cast at p3 ⊢
          linarith
        · exact i2 f hf
      · intro f hf
        rcases List.mem_cons.1 hf with rfl | hf
        · exact ⟨fun i j => by rw [hr1 j i]; exact and_comm, fun i j => hr2 j i⟩
        · exact i3 f hf

theorem Col.congr {a c s s' : ℝ} {P : ℕ → ℕ → ℝ} {g g' : ℝ → ℝ} {n : ℕ} (h : Col a c s P g n) (hs : s = s')
    (hg : ∀ b, 0 < b → g b = g' b) : Col a c s' P g' n := by
  obtain ⟨N, h1, h2⟩ := h
  subst hs
  exact ⟨N, h1, fun b hb => by rw [← hg b hb]; exact h2 b hb⟩

theorem stepOps_col {a : ℝ} (ha : 0 < a) {e : Int} (he : e = 1 ∨ e = -1) {lam : ℝ} (hl : 0 < lam) (n : ℕ) : ∀ (r : ℕ),
    0 < lam + ((e * r : Int) : ℝ) → ∀ P, IsProd (stepOps e lam r) P →
    Col a (lam + ((e * r : Int) : ℝ)) (a⁻¹ ^ r) P (fun b => b ^ r * radialFn a lam n b) n
  | 0, _, P, hP => by
    cases hP
    have := col_start ha hl n
    simp only [Nat.cast_zero, mul_zero, Int.cast_zero, add_zero]
    exact this.congr (by simp) (by simp)
  | r + 1, h, P, hP => by
    obtain ⟨p1, p2⟩ := step_pos he hl h
    rw [stepOps] at hP
    cases hP with
    | @cons _ _ Q _ hQ hP =>
      have ih := stepOps_col ha he hl n r p1 Q hQ
      rcases he with rfl | rfl
      · rw [if_pos (by norm_num)] at hP
        have := col_step (F := fun g b => b * g b) (t := a⁻¹) hP (fun k => lag_b_pl p1 k)
          (fun p hp => by rw [show (1 : ℝ[X]) * p = p from one_mul p]; exact hp.up ha) ih
        have e : lam + ((1 * (r + 1 : ℕ) : Int) : ℝ) = lam + ((1 * r : Int) : ℝ) + 1 := by push_cast; ring
        rw [e]
        exact this.congr (by ring) (fun b _ => by ring)
      · rw [if_neg (by norm_num)] at hP
        have p3 := p2 rfl
        have := col_step (F := fun g b => b * g b) (t := a⁻¹) (c := lam + ((-1 * r : Int) : ℝ)) (q := X) hP
          (fun k => by
            have := lag_b_ml p3 k
            rw [sub_add_cancel] at this
            exact this)
          (fun p hp => by
            have := is_unshift ha (hp.up ha)
            rw [show lam + ((-1 * r : Int) : ℝ) + 1 - 2 = lam + ((-1 * r : Int) : ℝ) - 1 by ring, mul_left_comm] at this
            exact this) ih
        have e : lam + ((-1 * (r + 1 : ℕ) : Int) : ℝ) = lam + ((-1 * r : Int) : ℝ) - 1 := by push_cast; ring
        rw [e]
        exact this.congr (by ring) (fun b _ => by ring)

theorem power_col {a : ℝ} (ha : 0 < a) {c : ℝ} (hc : 0 < c) {fs : List (ℕ → ℕ → ℝ)} {s : ℝ} {g : ℝ → ℝ} {n : ℕ}
    (h : ∀ P, IsProd fs P → Col a c s P g n) : ∀ (m : ℕ) P, IsProd (List.replicate m (vb2 c) ++ fs) P →
    Col a c (a⁻¹ ^ (2 * m) * s) P (fun b => b ^ (2 * m) * g b) n
  | 0, P, hP => (h P hP).congr (by simp) (by simp)
  | m + 1, P, hP => by
    rw [List.replicate_succ, List.cons_append] at hP
    cases hP with
    | @cons _ _ Q _ hQ hP =>
      have ih := power_col ha hc h m Q hQ
      have := col_step (F := fun g b => b ^ 2 * g b) (t := a⁻¹ ^ 2) hP (fun k => lag_b2 hc k) (fun p hp => hp.up2 ha) ih
      exact this.congr (by ring) (fun b _ => by ring)

theorem prod_sim {F M : Type} [Field F] [LinearOrder F] [IsStrictOrderedRing F] (A : Int → Int → RadAlg F M)
    (slice : M → Int → Int → M) (rbs_op : List RadSym) (lam : F) (lambda_var nu_min nu_max nu_lap : Int) (y : M)
    (h : RepRadial_Prod A slice rbs_op lam lambda_var nu_min nu_max nu_lap = .ok y) :
    ∃ p z, RepRadial_Prod (fun _ _ => formal F) (fun x _ _ => x) rbs_op lam lambda_var nu_min nu_max nu_lap = .ok p ∧
      Denotes (A (nu_min - min nu_lap nu_min) (nu_max + nu_lap)) p z ∧
      y = (if nu_lap = 0 then z else slice z (min nu_lap nu_min) (1 + nu_max - nu_min + min nu_lap nu_min)) := by
  unfold RepRadial_Prod at h ⊢
  by_cases h1 : lam ≤ 0
  · rw [if_pos h1] at h; cases h
  rw [if_neg h1] at h ⊢
  by_cases h2 : lam + (lambda_var : F) ≤ 0
  · rw [if_pos h2] at h; cases h
  rw [if_neg h2] at h ⊢
  obtain ⟨⟨ops, shfs⟩, e1, h⟩ := py_bind_eq_ok h
  obtain ⟨z, e2, h⟩ := py_bind_eq_ok h
  obtain ⟨p, f1, f2⟩ := shfsProd_sim _ ops lam shfs z e2
  refine ⟨p, z, ?_, f2, ?_⟩
  · rw [e1]
    simp only [py_bind_ok]
    rw [f1]
    simp
  · by_cases h0 : nu_lap = 0
    · simp only [if_pos h0] at h ⊢
      injection h with h
      exact h.symm
    · simp only [if_neg h0] at h ⊢
      injection h with h
      exact h.symm

theorem isPower_iff : ∀ {w : List RadSym} {n : Int}, IsPower w n →
    (∀ s ∈ w, s ∈ [RadSym.b, .b2, .bm, .bm2]) ∧ (w.map symExpo).sum = -n
  | [], n, ⟨ks, h1, h2⟩ => by
    have : ks = [] := by simpa using h1.symm
    subst this
    simp at h2
    subst h2
    simp
  | s :: w, n, ⟨ks, h1, h2⟩ => by
    cases ks with
    | nil => simp at h1
    | cons k ks =>
      simp only [List.map_cons, List.cons.injEq] at h1
      obtain ⟨i1, i2⟩ := isPower_iff (w := w) (n := ks.sum) ⟨ks, h1.2, rfl⟩
      rw [List.sum_cons] at h2
      refine ⟨fun t ht => ?_, ?_⟩
      · rcases List.mem_cons.1 ht with rfl | ht
        · cases t <;> simp [betaPower] at h1 ⊢
        · exact i1 t ht
      · rw [List.map_cons, List.sum_cons, i2, ← h2]
        have := h1.1
        cases s <;> simp only [betaPower, Option.some.injEq, reduceCtorEq] at this <;> subst this <;> simp only [symExpo] <;> ring

/-- C119, truncation in general: a product of banded operators with non-negative elements, with the intermediate labels
restricted to `lo..hi`, is never larger than the full product, and equal to it exactly when no path of non-zero elements
leaves the range. -/
theorem C119_window (fs : List (ℕ → ℕ → ℝ)) (P : ℕ → ℕ → ℝ) (hf : ∀ f ∈ fs, Banded f ∧ ∀ i j, 0 ≤ f i j) (hP : IsProd fs P)
    (lo hi i j : ℕ) (hi' : lo ≤ i ∧ i ≤ hi) :
    windowProd lo hi fs i j ≤ P i j ∧ (windowProd lo hi fs i j = P i j ↔ ¬ Escapes lo hi fs i j) := by
  obtain ⟨h1, h2⟩ := window_lost (lo := lo) (hi := hi) hf hP i j
  exact ⟨h1, fun e hE => absurd e (h2 hi' hE).ne, fun hE => window_exact (fun f hf' => (hf f hf').1) hP i j hE⟩

/-- Two factors `beta^2` at `lambda = 1`: on the labels `0..3` a path from 3 to 3 leaves the range, no path from 0 to 0 does. -/
example : ∃ P, IsProd [vb2 1, vb2 1] P ∧ (∀ f ∈ [vb2 1, vb2 1], Banded f ∧ ∀ i j, 0 ≤ f i j) ∧
    windowProd 0 3 [vb2 1, vb2 1] 3 3 < P 3 3 ∧ windowProd 0 3 [vb2 1, vb2 1] 0 0 = P 0 0 := by
  obtain ⟨t1, t2⟩ := vb2_reaches (lam := 1) one_pos
  have hnn : ∀ f ∈ [vb2 1, vb2 1], Banded f ∧ ∀ i j, 0 ≤ f i j := by
    intro f hf
    simp only [List.mem_cons, List.not_mem_nil, or_false, or_self] at hf
    subst hf
    exact ⟨reaches_banded le_rfl le_rfl t1, t2⟩
  obtain ⟨P, hP, -⟩ := C18_product_exists [vb2 1, vb2 1] fun f hf => (hnn f hf).1
  have key : ∀ i, i ≤ 3 → (Escapes 0 3 [vb2 1, vb2 1] i i ↔ 4 ≤ i + 2 ∧ 8 ≤ i + i + 2) := fun i hi => by
    have := escapes_power (u := 0) (d := 1) (lo := 0) (hi := 3) rfl (ts := [vb2 1, vb2 1]) (ss := [])
      (fun f hf => by
        simp only [List.mem_cons, List.not_mem_nil, or_false, or_self] at hf
        subst hf
        exact t1) (fun f hf => by cases hf) (i := i) (j := i) (by omega) (by omega)
    rw [List.append_nil] at this
    rw [this]
    simp
  refine ⟨P, hP, hnn, ?_, ?_⟩
  · obtain ⟨h1, h2⟩ := C119_window _ P hnn hP 0 3 3 3 (by omega)
    refine lt_of_le_of_ne h1 fun e => h2.1 e ((key 3 le_rfl).2 (by omega))
  · exact (C119_window _ P hnn hP 0 3 0 0 (by omega)).2.2 fun h => by have := (key 0 (by omega)).1 h; omega

/-- The matrix of a power of beta is a truncated product, and the full product gives the integrals. -/
theorem power_window (la : LinAlg) (hla : LinAlgOk la) {a lam : ℝ} (ha : 0 < a) (h : 0 < lam) (w : List RadSym) (r : Int) (m : ℕ)
    (hw : IsPower w (2 * m + |r|)) (h' : 0 < lam + r) (nu_min nu_max nu_lap : ℕ) (hr : nu_min ≤ nu_max) :
    ∃ y, RepRadialProd la a w lam r nu_min nu_max nu_lap = .ok y ∧ Square (nu_max + 1 - nu_min) y ∧
      ∃ (e : Int) (fs : List (ℕ → ℕ → ℝ)) (P : ℕ → ℕ → ℝ), (e = 1 ∨ e = -1) ∧ r = e * (r.natAbs : Int) ∧
        fs = List.replicate m (vb2 (lam + r)) ++ stepOps e lam r.natAbs ∧ (∀ f ∈ fs, Banded f ∧ ∀ i j, 0 ≤ f i j) ∧
        (∀ f ∈ stepOps e lam r.natAbs, Reaches (if e > 0 then 0 else 1) (if e > 0 then 1 else 0) f) ∧ IsProd fs P ∧
        ∀ f i, nu_min ≤ f ∧ f ≤ nu_max → nu_min ≤ i ∧ i ≤ nu_max →
          Overlap (radialFn a (lam + r) f) (fun b => b ^ (2 * m + r.natAbs) * radialFn a lam i b)
            (a ^ (-(2 * m + r.natAbs : Int)) * P f i) ∧
          y.e (f - nu_min) (i - nu_min) = a ^ (-(2 * m + r.natAbs : Int)) *
            windowProd (nu_min - nu_lap) (nu_max + nu_lap) fs f i := by
  obtain ⟨e, he, hre⟩ : ∃ e : Int, (e = 1 ∨ e = -1) ∧ r = e * (r.natAbs : Int) := by
    rcases le_total 0 r with h0 | h0
    · exact ⟨1, .inl rfl, by omega⟩
    · exact ⟨-1, .inr rfl, by omega⟩
  obtain ⟨hw1, hw2⟩ := isPower_iff hw
  have habs : |r| = (r.natAbs : Int) := by rw [Int.abs_eq_natAbs]
  rw [habs] at hw2
  set k := r.natAbs with hk
  have hpos : 0 < lam + ((e * k : Int) : ℝ) := by rw [← hre]; exact h'
  set lo : ℕ := nu_min - nu_lap with hlo
  set hi : ℕ := nu_max + nu_lap with hhi
  obtain ⟨s1, s2, s3⟩ := stepOps_elements la lo hi he h k hpos
  have hform := prod_power (F := ℝ) hw1 he hw2 h hpos nu_min nu_max nu_lap
  rw [← hre] at hform hpos
  have elo : (nu_min : Int) - min (nu_lap : Int) nu_min = (lo : Int) := by omega
  have ehi : (nu_max : Int) + nu_lap = (hi : Int) := by omega
  -- the matrix exists
  obtain ⟨y, hy⟩ : ∃ y, RepRadialProd la a w lam r nu_min nu_max nu_lap = .ok y := by
    unfold RepRadialProd
    rw [C16_formed]
    refine ⟨_, hform, fun f hf => ?_⟩
    rw [elo, ehi]
    refine regular_ok hla (by omega) ?_
    rcases List.mem_append.1 hf with hf | hf
    · obtain ⟨-, rfl⟩ := List.mem_replicate.1 hf
      exact ⟨hpos, by simpa [Prim.shift] using hpos, by simp⟩
    · exact s2 f hf
  -- and is given by the window product
  obtain ⟨p, z, f1, f2, f3⟩ := prod_sim _ _ _ _ _ _ _ _ _ (show RepRadial_Prod _ _ _ _ _ _ _ _ = .ok y from hy)
  rw [hform] at f1
  injection f1 with f1
  subst f1
  rw [elo, ehi] at f2
  obtain ⟨hz, gs, k1, k2⟩ := denotes_window hla ha.ne' f2
  have key : Square (nu_max + 1 - nu_min) y ∧ ∀ i < nu_max + 1 - nu_min,
      ∀ j < nu_max + 1 - nu_min, y.e i j = z.e (min nu_lap nu_min + i) (min nu_lap nu_min + j) := by
    by_cases h0 : nu_lap = 0
    · subst h0
      rw [if_pos Int.natCast_zero] at f3
      subst f3
      refine ⟨by simpa [hlo, hhi] using hz, fun i _ j _ => ?_⟩
      simp
    · rw [if_neg (by exact_mod_cast h0)] at f3
      have e1 : min (nu_lap : Int) nu_min = ((min nu_lap nu_min : ℕ) : Int) := by omega
      have e2 : 1 + (nu_max : Int) - nu_min + ((min nu_lap nu_min : ℕ) : Int)
          = ((min nu_lap nu_min + (nu_max + 1 - nu_min) : ℕ) : Int) := by omega
      rw [e1, e2] at f3
      subst f3
      exact slice_ok hz (by omega)
  set fs := List.replicate m (vb2 (lam + r)) ++ stepOps e lam k with hfs
  have hel : List.Forall₂ (PrimElement la lo hi) (List.replicate m (.me .b2, lam + r) ++ stepFactors e lam k) fs := by
    refine List.rel_append ?_ s1
    have hb2 : PrimElement la lo hi (.me .b2, lam + r) (vb2 (lam + r)) := fun i _ j _ => b2_ok hpos i j
    clear_value k
    clear hfs hw hw2 hform f2 k1 k2
    induction m with
    | zero => exact .nil
    | succ m ih => exact .cons hb2 ih
  have hnn : ∀ f ∈ fs, Banded f ∧ ∀ i j, 0 ≤ f i j := by
    intro g hg
    rcases List.mem_append.1 hg with hg | hg
    · obtain ⟨-, rfl⟩ := List.mem_replicate.1 hg
      obtain ⟨t1, t2⟩ := vb2_reaches hpos
      exact ⟨reaches_banded le_rfl le_rfl t1, t2⟩
    · obtain ⟨t1, t2⟩ := s3 g hg
      exact ⟨reaches_banded (by split_ifs <;> norm_num) (by split_ifs <;> norm_num) t1, t2⟩
  obtain ⟨P, hP, -⟩ := C18_product_exists fs fun f hf => (hnn f hf).1
  refine ⟨y, hy, key.1, e, fs, P, he, hre, hfs, hnn, fun g hg => (s3 g hg).1, hP, fun f i hf hi' => ?_⟩
  have hcol := power_col ha hpos (n := i) (fun Q hQ => by
    have := stepOps_col ha he h i k (by rw [← hre]; exact hpos) Q hQ
    rw [← hre] at this
    exact this) m P hP
  have hint := col_overlap ha hpos hcol f
  have hy' : y.e (f - nu_min) (i - nu_min) = a ^ (-(2 * m + k : Int)) * windowProd lo hi fs f i := by
    rw [key.2 _ (by omega) _ (by omega), k2 _ (by omega) _ (by omega)]
    rw [windowProd_congr k1 hel]
    · congr 2 <;> omega
    · rw [Finset.mem_Icc]; omega
    · rw [Finset.mem_Icc]; omega
  have hpow : a⁻¹ ^ (2 * m) * a⁻¹ ^ k = a ^ (-(2 * m + k : Int)) := by
    rw [← pow_add, inv_pow, zpow_neg]
    congr 1
  refine ⟨?_, hy'⟩
  rw [← hpow]
  convert hint using 2
  rw [pow_add, mul_assoc]

/-- C119: the matrix of `beta^(2m+|r|)`, however the power is written, between the basis at `lambda` and the basis at
`lambda + r`, is always formed.  Each entry is at most the integral that it stands for, and is equal to it exactly when it is
not one of those that lose a part at the ends of the enlarged range. -/
theorem C119_power (la : LinAlg) (hla : LinAlgOk la) {a lam : ℝ} (ha : 0 < a) (h : 0 < lam) (w : List RadSym) (r : Int) (m : ℕ)
    (hw : IsPower w (2 * m + |r|)) (h' : 0 < lam + r) (nu_min nu_max nu_lap : ℕ) (hr : nu_min ≤ nu_max) :
    ∃ y, RepRadialProd la a w lam r nu_min nu_max nu_lap = .ok y ∧ Square (nu_max + 1 - nu_min) y ∧
      ∀ f i, nu_min ≤ f ∧ f ≤ nu_max → nu_min ≤ i ∧ i ≤ nu_max → ∃ x,
        Overlap (radialFn a (lam + r) f) (fun b => b ^ (2 * m + r.natAbs) * radialFn a lam i b) x ∧
        y.e (f - nu_min) (i - nu_min) ≤ x ∧
        (y.e (f - nu_min) (i - nu_min) = x ↔ ¬ Lost (nu_min - nu_lap) (nu_max + nu_lap) m r f i) := by
  obtain ⟨y, hy, hsq, e, fs, P, he, hre, hfs, hnn, s3, hP, hel⟩ := power_window la hla ha h w r m hw h' nu_min nu_max nu_lap hr
  refine ⟨y, hy, hsq, fun f i hf hi' => ?_⟩
  obtain ⟨hint, hy'⟩ := hel f i hf hi'
  have hapos : 0 < a ^ (-(2 * m + r.natAbs : Int)) := by positivity
  obtain ⟨w1, w2⟩ := C119_window fs P hnn hP (nu_min - nu_lap) (nu_max + nu_lap) f i (by omega)
  refine ⟨_, hint, ?_, ?_⟩
  · rw [hy']
    exact mul_le_mul_of_nonneg_left w1 hapos.le
  · rw [hy', mul_right_inj' hapos.ne', w2, hfs, escapes_power (u := if e > 0 then 0 else 1) (d := if e > 0 then 1 else 0)
      (by split_ifs <;> rfl) (fun g hg => by
        obtain ⟨-, rfl⟩ := List.mem_replicate.1 hg
        exact (vb2_reaches h').1) s3 (by omega) (by omega), List.length_replicate, stepOps_length]
    unfold Lost
    rcases he with rfl | rfl
    · simp only [if_pos (show (1 : Int) > 0 by norm_num)]
      rw [show (-r).toNat = r.natAbs * 0 by omega, show r.toNat = r.natAbs * 1 by omega]
    · simp only [if_neg (show ¬ (-1 : Int) > 0 by norm_num)]
      rw [show (-r).toNat = r.natAbs * 1 by omega, show r.toNat = r.natAbs * 0 by omega]

/-- `beta^5` written as `beta^2 beta beta^2` with a shift by one: on the labels `0..3` the element from 3 to 3 loses a part,
the element from 0 to 0 does not; with an overlap of 2 neither does. -/
example : IsPower [.b2, .b, .b2] (2 * (2 : ℕ) + |(1 : Int)|) ∧ Lost (0 - 0) (3 + 0) 2 1 3 3 ∧ ¬ Lost (0 - 0) (3 + 0) 2 1 0 0 ∧
    ¬ Lost (0 - 2) (3 + 2) 2 1 3 3 :=
  ⟨⟨[2, 1, 2], rfl, rfl⟩, by unfold Lost; omega, by unfold Lost; omega, by unfold Lost; omega⟩

/-- A factor `1/beta` may occur in the word. -/
example : IsPower [.b2, .b2, .bm] (2 * (1 : ℕ) + |(-1 : Int)|) := ⟨[2, 2, -1], rfl, rfl⟩

example : ∃ la y, LinAlgOk la ∧ RepRadialProd la 2 [.b2, .b, .b2] (5 / 2) 1 (0 : ℕ) (3 : ℕ) (0 : ℕ) = .ok y ∧
    ¬ Overlap (radialFn 2 (5 / 2 + (1 : Int)) 3) (fun b => b ^ 5 * radialFn 2 (5 / 2) 3 b) (y.e 3 3) := by
  obtain ⟨la, hla⟩ := linAlg_exists
  obtain ⟨y, h1, -, h3⟩ := C119_power la hla (a := 2) (lam := 5 / 2) (by norm_num) (by norm_num) [.b2, .b, .b2] 1 2
    ⟨[2, 1, 2], rfl, rfl⟩ (by norm_num) 0 3 0 (by omega)
  refine ⟨la, y, hla, h1, fun hO => ?_⟩
  obtain ⟨x, k1, -, k3⟩ := h3 3 3 (by omega) (by omega)
  exact k3.1 (hO.2.symm.trans k1.2) (by unfold Lost; omega)

/-- C119: with an overlap of at least `m` labels every entry is the integral. -/
theorem C119_overlap (la : LinAlg) (hla : LinAlgOk la) {a lam : ℝ} (ha : 0 < a) (h : 0 < lam) (w : List RadSym) (r : Int) (m : ℕ)
    (hw : IsPower w (2 * m + |r|)) (h' : 0 < lam + r) (nu_min nu_max nu_lap : ℕ) (hr : nu_min ≤ nu_max) (hm : m ≤ nu_lap) :
    ∃ y, RepRadialProd la a w lam r nu_min nu_max nu_lap = .ok y ∧ Square (nu_max + 1 - nu_min) y ∧
      ∀ f i, nu_min ≤ f ∧ f ≤ nu_max → nu_min ≤ i ∧ i ≤ nu_max →
        Overlap (radialFn a (lam + r) f) (fun b => b ^ (2 * m + r.natAbs) * radialFn a lam i b)
          (y.e (f - nu_min) (i - nu_min)) := by
  obtain ⟨y, h1, h2, h3⟩ := C119_power la hla ha h w r m hw h' nu_min nu_max nu_lap hr
  refine ⟨y, h1, h2, fun f i hf hi => ?_⟩
  obtain ⟨x, k1, -, k2⟩ := h3 f i hf hi
  rw [k2.2 (by unfold Lost; omega)]
  exact k1

example : ∃ la, LinAlgOk la ∧ IsPower [.b2, .b, .b2] (2 * (2 : ℕ) + |(1 : Int)|) ∧ (0 : ℝ) < 5 / 2 + (1 : Int) ∧ (2 : ℕ) ≤ 2 :=
  linAlg_exists.imp fun _ h => ⟨h, ⟨[2, 1, 2], rfl, rfl⟩, by norm_num, le_rfl⟩

/-- C119: on the labels `0..n` without overlap the last diagonal entry of `beta^4` is too small by
`(lambda + n) (n + 1) / a^4`. -/
theorem C119_corner (la : LinAlg) (hla : LinAlgOk la) {a lam : ℝ} (ha : 0 < a) (h : 0 < lam) (w : List RadSym)
    (hw : IsPower w 4) (n : ℕ) :
    ∃ y x, RepRadialProd la a w lam 0 0 n 0 = .ok y ∧
      Overlap (radialFn a lam n) (fun b => b ^ 4 * radialFn a lam n b) x ∧
      x - y.e n n = (lam + n) * (n + 1) / a ^ 4 := by
  obtain ⟨y, hy, -, e, fs, P, he, -, hfs, hnn, -, hP, hel⟩ := power_window la hla ha h w 0 2 (by simpa using hw) (by simpa using h)
    0 n 0 (Nat.zero_le _)
  obtain ⟨hint, hy'⟩ := hel n n (by omega) (by omega)
  simp only [Int.cast_zero, add_zero] at hint hfs
  simp only [Nat.sub_zero] at hy'
  refine ⟨y, _, hy, hint, ?_⟩
  have e4 : a ^ (-(2 * (2 : ℕ) + (0 : Int).natAbs : Int)) = (a ^ 4)⁻¹ := by
    rw [zpow_neg]; norm_num
  have hfs' : fs = [vb2 lam, vb2 lam] := by
    rw [hfs]; simp [stepOps, List.replicate]
  subst hfs'
  obtain ⟨hb, -⟩ := hnn _ (List.mem_cons_self ..)
  cases hP with
  | @cons _ _ Q _ hQ hP =>
    cases hQ with
    | @cons _ _ Q' _ hQ' hQ =>
      cases hQ'
      have hQv : ∀ i j, Q i j = vb2 lam i j := fun i j => by
        refine (hQ i j).unique ?_
        have := hasSum_ite_eq j (vb2 lam i j)
        convert this using 1
        funext k
        unfold opId
        by_cases hk : k = j
        · subst hk; simp
        · simp [hk]
      rw [hy', e4, prod_finite hb hP 0 n n n]
      have e1 : Finset.range (n + 2) \ Finset.Icc 0 n = {n + 1} := by
        ext k
        simp only [Finset.mem_sdiff, Finset.mem_range, Finset.mem_Icc, Finset.mem_singleton]
        omega
      rw [e1, Finset.sum_singleton]
      have e2 : ∀ k ∈ Finset.Icc 0 n, windowProd 0 n [vb2 lam] k n = vb2 lam k n := fun k _ => by
        simp only [windowProd]
        rw [Finset.sum_eq_single n]
        · simp [opId]
        · intro b _ hb
          simp [opId, hb]
        · intro hn
          exact absurd (Finset.mem_Icc.2 ⟨Nat.zero_le _, le_rfl⟩) hn
      have e3 : windowProd 0 (n + 0) [vb2 lam, vb2 lam] n n = ∑ k ∈ Finset.Icc 0 n, vb2 lam n k * vb2 lam k n := by
        rw [Nat.add_zero, windowProd]
        exact Finset.sum_congr rfl fun k hk => by rw [e2 k hk]
      rw [e3]
      simp only [hQv]
      have e5 : vb2 lam n (n + 1) * vb2 lam (n + 1) n = (lam + n) * (n + 1) := by
        have hs : 0 ≤ (lam + n) * ((n : ℝ) + 1) := by positivity
        have h1 : vb2 lam n (n + 1) = Real.sqrt ((lam + n) * (n + 1)) := by
          unfold vb2 vSp vSm vS0
          rw [if_neg (by omega), if_pos rfl, if_neg (by omega)]
          ring
        have h2 : vb2 lam (n + 1) n = Real.sqrt ((lam + n) * (n + 1)) := by
          unfold vb2 vSp vSm vS0
          rw [if_pos rfl, if_neg (by omega), if_neg (by omega)]
          ring
        rw [h1, h2, Real.mul_self_sqrt hs]
      rw [e5]
      field_simp
      ring

/-- On the labels `0..3` at `lambda = 5/2` and `a = 1` the last entry of `beta^4` is too small by 22. -/
example : ∃ la y x, LinAlgOk la ∧ RepRadialProd la 1 [.b2, .b2] (5 / 2) 0 0 (3 : ℕ) 0 = .ok y ∧
    Overlap (radialFn 1 (5 / 2) 3) (fun b => b ^ 4 * radialFn 1 (5 / 2) 3 b) x ∧ x - y.e 3 3 = 22 := by
  obtain ⟨la, hla⟩ := linAlg_exists
  obtain ⟨y, x, h1, h2, h3⟩ := C119_corner la hla (a := 1) (lam := 5 / 2) (by norm_num) (by norm_num) [.b2, .b2] ⟨[2, 2], rfl, rfl⟩ 3
  exact ⟨la, y, x, hla, h1, h2, by rw [h3]; norm_num⟩

/-- C119 on the whole space: in the matrix of a power of beta times a product of spherical operators, an element with a
non-zero spherical part is that part times the integral exactly when the radial entry is not one of those that lose a part at
the ends of the range `nu_min..nu_max`. -/
theorem C119_space {a : XArgs} (h : LegalRanges a) (hn : 0 < a.anorm) (env : XEnv) (hla : LinAlgOk env.la) (lam : LambdaFunction)
    (rs : List RadSym) (ss : List OpSym) {n : Int} (hw : IsPower rs n) {xs : List XspaceLabel} {states : List Label}
    (hx : lbsXspace a.nu_min a.nu_max a.v_min a.v_max a.L_min (some a.L_max) = .ok xs)
    (hs : lbsSO5r3_rngVvarL a.v_min a.v_max a.L_min (some a.L_max) = .ok states) {M : Arr}
    (hM : RepXspace_Twin env lam rs ss a = .ok M) :
    ∃ S, RepSO5r3_Prod_wrk env.CG (sphItems ss) a.v_min a.v_max a.L_min a.L_max = .ok S ∧
      ∀ (p q : ℕ) (nu_f nu_i : Int) (s_f s_i : Label), xs[p]? = some (nu_f, s_f) → xs[q]? = some (nu_i, s_i) →
        ∃ (i j : ℕ) (lf li : Int), states[i]? = some s_f ∧ states[j]? = some s_i ∧ lam s_f.1 = .ok lf ∧ lam s_i.1 = .ok li ∧
          (S.e i j ≠ 0 → ∀ m : ℕ, n = 2 * m + |lf - li| → ∃ x,
            Overlap (radialFn a.anorm (a.lambda_base + lf) nu_f.toNat)
              (fun b => b ^ n.toNat * radialFn a.anorm (a.lambda_base + li) nu_i.toNat b) x ∧
            (M.e p q = (1 / (4 * Real.pi)) ^ harmonics ss * S.e i j * x ↔
              ¬ Lost a.nu_min.toNat a.nu_max.toNat m (lf - li) nu_f.toNat nu_i.toNat)) := by
  obtain ⟨-, S, hS, hel⟩ := C28_elements h env lam rs ss hx hs hM
  refine ⟨S, hS, fun p q nu_f nu_i s_f s_i hp hq => ?_⟩
  obtain ⟨i, j, lf, li, h1, h2, h3, h4, -, h5⟩ := hel p q nu_f nu_i s_f s_i hp hq
  refine ⟨i, j, lf, li, h1, h2, h3, h4, fun h0 m hm => ?_⟩
  obtain ⟨R, hR, hMe⟩ := h5 h0
  have hrange : ∀ {p : ℕ} {nu : Int} {s : Label}, xs[p]? = some (nu, s) → a.nu_min ≤ nu ∧ nu ≤ a.nu_max := by
    intro p nu s hp
    rw [lbsXspace_ok h] at hx
    injection hx with hx
    subst hx
    obtain ⟨i, x, rfl, hx, hi, rfl⟩ := xlabels_split hp
    unfold XArgs.rdim at hx
    omega
  obtain ⟨⟨r1, r2⟩, -⟩ := h
  obtain ⟨f1, f2⟩ := hrange hp
  obtain ⟨i1, i2⟩ := hrange hq
  have hl : 0 < a.lambda_base + li ∧ 0 < a.lambda_base + li + ((lf - li : Int) : ℝ) := by
    unfold RepRadialProd RepRadial_Prod at hR
    by_cases h1 : a.lambda_base + (li : ℝ) ≤ 0
    · rw [if_pos h1] at hR; cases hR
    rw [if_neg h1] at hR
    by_cases h2 : a.lambda_base + (li : ℝ) + ((lf - li : Int) : ℝ) ≤ 0
    · rw [if_pos h2] at hR; cases hR
    exact ⟨not_le.1 h1, not_le.1 h2⟩
  obtain ⟨y, k1, k2, k3⟩ := C119_power env.la hla hn hl.1 rs (lf - li) m (hm ▸ hw) hl.2 a.nu_min.toNat a.nu_max.toNat 0 (by omega)
  have e1 : ((a.nu_min.toNat : ℕ) : Int) = a.nu_min := by omega
  have e2 : ((a.nu_max.toNat : ℕ) : Int) = a.nu_max := by omega
  rw [e1, e2, Int.natCast_zero, hR] at k1
  injection k1 with k1
  subst k1
  obtain ⟨x, g1, -, g2⟩ := k3 nu_f.toNat nu_i.toNat (by omega) (by omega)
  refine ⟨x, ?_, ?_⟩
  · rw [show a.lambda_base + (li : ℝ) + ((lf - li : Int) : ℝ) = a.lambda_base + lf by push_cast; ring,
      show 2 * m + (lf - li).natAbs = n.toNat by rw [hm, Int.abs_eq_natAbs]; omega] at g1
    exact g1
  · rw [Nat.sub_zero, Nat.add_zero] at g2
    rw [← g2, hMe, mul_right_inj' (mul_ne_zero (pow_ne_zero _ (by positivity)) h0),
      show nu_f.toNat - a.nu_min.toNat = (nu_f - a.nu_min).toNat by omega,
      show nu_i.toNat - a.nu_min.toNat = (nu_i - a.nu_min).toNat by omega]

/-- `beta^4` on the space `nu = 0..3`, `v = 0`, `L = 0`: the matrix exists, and its last element is not the integral. -/
example (CG : CGFun) : ∃ (env : XEnv) (M : Arr), LinAlgOk env.la ∧
    RepXspace_Twin env lambda_acm_fun [.b2, .b2] [] ⟨1, 5 / 2, 0, 3, 0, 0, 0, 0⟩ = .ok M ∧
    ¬ Overlap (radialFn 1 (5 / 2) 3) (fun b => b ^ 4 * radialFn 1 (5 / 2) 3 b) (M.e 3 3) := by
  obtain ⟨la, hla⟩ := linAlg_exists
  have hL : LegalRanges ⟨1, 5 / 2, 0, 3, 0, 0, 0, 0⟩ := by unfold LegalRanges; simp
  have hs : lbsSO5r3_rngVvarL 0 0 0 (some 0) = .ok [(0, 1, 0)] := by decide +kernel
  have hx : lbsXspace 0 3 0 0 0 (some 0) = .ok [(0, 0, 1, 0), (1, 0, 1, 0), (2, 0, 1, 0), (3, 0, 1, 0)] := by decide +kernel
  have hl0 : lambda_acm_fun 0 = .ok 0 := by decide +kernel
  have hS : RepSO5r3_Prod_wrk CG [] 0 0 0 0 = .ok (Arr.eye 1) := by
    unfold RepSO5r3_Prod_wrk
    rw [if_pos (show ([] : List YSym).length = 0 from rfl), show dimSO5r3_rngVvarL 0 0 0 (some 0) = .ok 1 by decide +kernel, py_bind_ok]
    rfl
  obtain ⟨M, hM⟩ := C28_exists hL ⟨CG, la⟩ hla (by norm_num) lambda_acm_fun [.b2, .b2] [] hs hS (fun s => s.1)
    (fun s hs => by
      simp only [List.mem_cons, List.not_mem_nil, or_false] at hs
      subst hs
      exact hl0)
    (fun i j f k hf hk _ => by
      have : ∀ {i : ℕ} {f : Label}, [((0 : Int), (1 : Int), (0 : Int))][i]? = some f → f = (0, 1, 0) := by
        intro i f h
        have := List.mem_of_getElem? h
        simpa using this
      rw [this hf, this hk]
      obtain ⟨R, hR, -⟩ := C119_power la hla (a := 1) (lam := 5 / 2 + ((0 : Int) : ℝ)) one_pos (by norm_num) [.b2, .b2] 0 2
        ⟨[2, 2], rfl, rfl⟩ (by norm_num) 0 3 0 (by omega)
      exact ⟨R, hR⟩)
  refine ⟨⟨CG, la⟩, M, hla, hM, fun hO => ?_⟩
  obtain ⟨S, hS', hel⟩ := C119_space hL one_pos ⟨CG, la⟩ hla lambda_acm_fun [.b2, .b2] [] (n := 4) ⟨[2, 2], rfl, rfl⟩ hx hs hM
  have hSe : S = Arr.eye 1 := by
    rw [show sphItems [] = [] from rfl, hS] at hS'
    injection hS' with hS'
    exact hS'.symm
  obtain ⟨i, j, lf, li, h1, h2, h3, h4, h5⟩ := hel 3 3 3 3 (0, 1, 0) (0, 1, 0) rfl rfl
  have hz : ∀ {i : ℕ}, [((0 : Int), (1 : Int), (0 : Int))][i]? = some (0, 1, 0) → i = 0 := by
    intro i h
    have := (List.getElem?_eq_some_iff.1 h).1
    simpa using this
  obtain rfl := hz h1
  obtain rfl := hz h2
  rw [hl0] at h3 h4
  injection h3 with h3
  injection h4 with h4
  subst h3 h4 hSe
  obtain ⟨x, k1, k2⟩ := h5 (by simp [Arr.eye, Arr.of]) 2 (by norm_num)
  refine k2.1 ?_ (by unfold Lost; simp)
  have e : M.e 3 3 = x := by
    have h6 := k1.2
    simp only [Int.cast_zero, add_zero] at h6
    exact hO.2.symm.trans h6
  rw [e]
  simp [harmonics, Arr.eye, Arr.of]

end Acm.Props
