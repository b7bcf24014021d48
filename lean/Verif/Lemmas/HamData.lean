import Verif.Spec.HamData
import Mathlib.Analysis.Calculus.MeanValue
import Mathlib.Analysis.Calculus.Deriv.MeanValue
import Mathlib.Analysis.SpecialFunctions.Sqrt
import Mathlib.Topology.Order.IntermediateValue

/-!
# Lemmas on the energy as a function of the oscillator length
-/

namespace Acm

open Acm.Spec

/-! ## Two functions whose quotient decreases -/

/-- `mu` as a function of `x = rho A`. -/
noncomputable def rootV (V x : ℝ) : ℝ := Real.sqrt (V + x ^ 2)

theorem rootV_pos {V : ℝ} (hV : 0 < V) (x : ℝ) : 0 < rootV V x := Real.sqrt_pos.2 (by positivity)

theorem rootV_sq {V : ℝ} (hV : 0 < V) (x : ℝ) : rootV V x ^ 2 = V + x ^ 2 := Real.sq_sqrt (by positivity)

theorem rootV_gt {V : ℝ} (hV : 0 < V) {x : ℝ} (_ : 0 ≤ x) : x < rootV V x :=
  lt_of_pow_lt_pow_left₀ 2 (rootV_pos hV x).le (by rw [rootV_sq hV]; linarith)

theorem rootV_deriv {V : ℝ} (hV : 0 < V) (x : ℝ) : HasDerivAt (rootV V) (x / rootV V x) x := by
  have h1 : HasDerivAt (fun x : ℝ => V + x ^ 2) (2 * x) x := by
    simpa using (hasDerivAt_pow 2 x).const_add V
  have := h1.sqrt (by positivity)
  refine this.congr_deriv ?_
  unfold rootV
  rw [mul_div_mul_left _ _ two_ne_zero]

noncomputable def numN (V x : ℝ) : ℝ :=
  16 + 2 * V + 6 * rootV V x + 6 * V / rootV V x - 4 * x - 2 * V * x / rootV V x

noncomputable def denD (V x : ℝ) : ℝ := 2 * x ^ 3 + V ^ 2 * (x / rootV V x) ^ 3

theorem numN_deriv {V : ℝ} (hV : 0 < V) (x : ℝ) :
    HasDerivAt (numN V) ((6 * x ^ 3 - 4 * rootV V x ^ 3 - 2 * V ^ 2) / rootV V x ^ 3) x := by
  have hm := rootV_deriv hV x
  have hp := (rootV_pos hV x).ne'
  have h1 := (hasDerivAt_const x (6 * V)).div hm hp
  have h2 := ((hasDerivAt_id x).const_mul (2 * V)).div hm hp
  have h := ((((hm.const_mul 6).const_add (16 + 2 * V)).add h1).sub ((hasDerivAt_id x).const_mul 4)).sub h2
  refine (h.congr_deriv ?_)
  have hsq := rootV_sq hV x
  generalize rootV V x = m at *
  have hV' : V = m ^ 2 - x ^ 2 := by linarith
  subst hV'
  simp only [id]
  field_simp
  ring

theorem denD_deriv {V : ℝ} (hV : 0 < V) (x : ℝ) :
    HasDerivAt (denD V) (6 * x ^ 2 + 3 * V ^ 3 * x ^ 2 / rootV V x ^ 5) x := by
  have hm := rootV_deriv hV x
  have hp := (rootV_pos hV x).ne'
  have h1 := ((hasDerivAt_id x).div hm hp).pow 3
  have h := ((hasDerivAt_pow 3 x).const_mul 2).add (h1.const_mul (V ^ 2))
  refine (h.congr_deriv ?_)
  have hsq := rootV_sq hV x
  simp only [Pi.div_apply, id, show (3 - 1 : ℕ) = 2 from rfl]
  generalize rootV V x = m at *
  have hV' : V = m ^ 2 - x ^ 2 := by linarith
  subst hV'
  field_simp
  push_cast
  ring

theorem numN_pos {V : ℝ} (hV : 0 < V) {x : ℝ} (hx : 0 ≤ x) : 0 < numN V x := by
  have h1 := rootV_gt hV hx
  have h2 := rootV_pos hV x
  unfold numN
  have e : 16 + 2 * V + 6 * rootV V x + 6 * V / rootV V x - 4 * x - 2 * V * x / rootV V x
      = 16 + 2 * rootV V x + 4 * (rootV V x - x) + 6 * V / rootV V x + 2 * V * (rootV V x - x) / rootV V x := by
    field_simp; ring
  rw [e]
  have h3 : 0 < rootV V x - x := by linarith
  positivity

theorem denD_pos {V : ℝ} (hV : 0 < V) {x : ℝ} (hx : 0 < x) : 0 < denD V x := by
  have := rootV_pos hV x
  unfold denD; positivity

/-- `numN / denD` decreases strictly. -/
theorem quot_anti {V : ℝ} (hV : 0 < V) : StrictAntiOn (fun x => numN V x / denD V x) (Set.Ioi 0) := by
  have hd : ∀ x ∈ Set.Ioi (0 : ℝ), HasDerivAt (fun x => numN V x / denD V x)
      (((6 * x ^ 3 - 4 * rootV V x ^ 3 - 2 * V ^ 2) / rootV V x ^ 3 * denD V x -
        numN V x * (6 * x ^ 2 + 3 * V ^ 3 * x ^ 2 / rootV V x ^ 5)) / denD V x ^ 2) x :=
    fun x hx => (numN_deriv hV x).div (denD_deriv hV x) (denD_pos hV hx).ne'
  refine strictAntiOn_of_deriv_neg (convex_Ioi 0) (fun x hx => (hd x hx).continuousAt.continuousWithinAt) ?_
  rw [interior_Ioi]
  intro x hx
  rw [(hd x hx).deriv]
  refine div_neg_of_neg_of_pos ?_ (pow_pos (denD_pos hV hx) 2)
  have hx : 0 < x := hx
  have hN := numN_pos hV hx.le
  have hD := denD_pos hV hx
  have hm := rootV_pos hV x
  have hlt := rootV_gt hV hx.le
  have hsq := rootV_sq hV x
  have hD' : 0 < 3 * V ^ 3 * x ^ 2 / rootV V x ^ 5 := by positivity
  have hxN : x * ((6 * x ^ 3 - 4 * rootV V x ^ 3 - 2 * V ^ 2) / rootV V x ^ 3) < numN V x := by
    unfold numN
    rw [← sub_pos]
    generalize rootV V x = m at *
    have e : 16 + 2 * V + 6 * m + 6 * V / m - 4 * x - 2 * V * x / m - x * ((6 * x ^ 3 - 4 * m ^ 3 - 2 * V ^ 2) / m ^ 3)
        = (16 * m ^ 3 + 6 * (m ^ 2 + x ^ 2) * V + 6 * V * m ^ 2 + 2 * V * m ^ 2 * (m - x) + 2 * x * V ^ 2) / m ^ 3 := by
      have hV' : V = m ^ 2 - x ^ 2 := by linarith
      subst hV'
      field_simp
      ring
    rw [e]
    have : 0 < m - x := by linarith
    positivity
  by_cases hN' : (6 * x ^ 3 - 4 * rootV V x ^ 3 - 2 * V ^ 2) / rootV V x ^ 3 ≤ 0
  · have := mul_nonpos_of_nonpos_of_nonneg hN' hD.le
    have : 0 < numN V x * (6 * x ^ 2 + 3 * V ^ 3 * x ^ 2 / rootV V x ^ 5) := by positivity
    linarith
  · push Not at hN'
    have h6 : 0 < 6 * x ^ 3 - 4 * rootV V x ^ 3 - 2 * V ^ 2 := by
      by_contra hh
      exact absurd (div_nonpos_of_nonpos_of_nonneg (not_lt.1 hh) (by positivity)) (not_le.2 hN')
    have hx3 : x ^ 3 < rootV V x ^ 3 := pow_lt_pow_left₀ hlt hx.le (by norm_num)
    have hV3 : V ^ 2 / rootV V x ^ 3 < 1 := by rw [div_lt_one (by positivity)]; linarith
    have hDle : denD V x < x * (3 * x ^ 2) := by
      have : denD V x = x * (2 * x ^ 2 + V ^ 2 / rootV V x ^ 3 * x ^ 2) := by unfold denD; field_simp
      rw [this]
      refine mul_lt_mul_of_pos_left ?_ hx
      have : V ^ 2 / rootV V x ^ 3 * x ^ 2 < 1 * x ^ 2 := mul_lt_mul_of_pos_right hV3 (by positivity)
      linarith
    have h1 := mul_lt_mul_of_pos_left hDle hN'
    have h2 : (6 * x ^ 3 - 4 * rootV V x ^ 3 - 2 * V ^ 2) / rootV V x ^ 3 * (x * (3 * x ^ 2)) < numN V x * (3 * x ^ 2) := by
      rw [← mul_assoc, mul_comm _ x]
      exact mul_lt_mul_of_pos_right hxN (by positivity)
    have h3 : 0 < numN V x * (3 * x ^ 2) := by positivity
    have h4 : 0 < numN V x * (3 * V ^ 3 * x ^ 2 / rootV V x ^ 5) := by positivity
    have e : numN V x * (6 * x ^ 2 + 3 * V ^ 3 * x ^ 2 / rootV V x ^ 5) = numN V x * (3 * x ^ 2) + numN V x * (3 * x ^ 2) +
        numN V x * (3 * V ^ 3 * x ^ 2 / rootV V x ^ 5) := by ring
    rw [e]
    linarith

/-! ## RWC2 -/

theorem vshftf_cast (v : Int) : ((vshftf v : Int) : ℝ) = (2 * (v : ℝ) + 3) ^ 2 := by
  unfold vshftf; push_cast; ring

theorem vshftf_pos {v : Int} (hv : 0 ≤ v) : (0 : ℝ) < (vshftf v : Int) := by
  rw [vshftf_cast]
  have : (0 : ℝ) ≤ v := by exact_mod_cast hv
  positivity

theorem muf_eq {c1 c2 : ℝ} (A : ℝ) (v : Int) : muf A c1 c2 v = rootV (vshftf v : Int) (-c1 / c2 * A) := by
  unfold muf rootV
  congr 2
  ring

/-- `F2` in terms of the two functions above. -/
theorem F2_eq {B c1 c2 : ℝ} (h1 : c1 < 0) (h2 : 0 < c2) {v : Int} (hv : 0 ≤ v) (A : ℝ) :
    F2 B c1 c2 v A = rootV (vshftf v : Int) (-c1 / c2 * A) / (-c1 / c2) ^ 3 *
      (denD (vshftf v : Int) (-c1 / c2 * A) - B ^ 2 * c2 * (-c1 / c2) ^ 3 / 2 * numN (vshftf v : Int) (-c1 / c2 * A)) := by
  have hV := vshftf_pos hv
  unfold F2
  rw [muf_eq]
  unfold RWC2 denD numN
  have hsq := rootV_sq hV (-c1 / c2 * A)
  have hp := (rootV_pos hV (-c1 / c2 * A)).ne'
  generalize rootV (vshftf v : Int) (-c1 / c2 * A) = m at *
  generalize ((vshftf v : Int) : ℝ) = V at *
  have hV' : V = m ^ 2 - (-c1 / c2 * A) ^ 2 := by linarith
  subst hV'
  have hc1 := h1.ne
  have hc2 := h2.ne'
  field_simp
  ring

theorem F2_zero (B c1 c2 : ℝ) {v : Int} (hv : 0 ≤ v) :
    F2 B c1 c2 v 0 = -B ^ 2 * c2 * (2 * v + 3) * (2 * v + 5) * (2 * v + 7) := by
  have hm : muf 0 c1 c2 v = 2 * v + 3 := by
    unfold muf
    rw [vshftf_cast, zero_mul, zero_div, zero_pow two_ne_zero, add_zero, Real.sqrt_sq]
    have : (0 : ℝ) ≤ v := by exact_mod_cast hv
    positivity
  unfold F2 RWC2
  rw [hm]
  ring

theorem F2_cont (B c1 c2 : ℝ) {v : Int} (hv : 0 ≤ v) : Continuous (F2 B c1 c2 v) := by
  have hV := vshftf_pos hv
  have hm : Continuous fun A => muf A c1 c2 v := by
    unfold muf
    fun_prop
  have hp : ∀ A, muf A c1 c2 v ^ 2 ≠ 0 := fun A => by
    rw [muf_eq]
    exact pow_ne_zero 2 (rootV_pos hV _).ne'
  unfold F2 RWC2
  fun_prop (disch := assumption)

/-- A lower bound for `F2`. -/
theorem F2_lower {B c1 c2 : ℝ} (h1 : c1 < 0) (h2 : 0 < c2) {v : Int} (hv : 0 ≤ v) {A : ℝ} (hA : 0 ≤ A) :
    muf A c1 c2 v * (2 * A ^ 3 - B ^ 2 * c2 * (2 * v + 7) * (-c1 / c2 * A + 2 * v + 5)) ≤ F2 B c1 c2 v A := by
  have hv' : (0 : ℝ) ≤ v := by exact_mod_cast hv
  have hV := vshftf_pos hv
  unfold F2
  rw [muf_eq]
  have hr : 0 < -c1 / c2 := div_pos (by linarith) h2
  have hx : 0 ≤ -c1 / c2 * A := by positivity
  have hsq := rootV_sq hV (-c1 / c2 * A)
  have hp := rootV_pos hV (-c1 / c2 * A)
  have hgt := rootV_gt hV hx
  have hle : rootV (vshftf v : Int) (-c1 / c2 * A) ≤ -c1 / c2 * A + (2 * v + 3) := by
    refine le_of_pow_le_pow_left₀ two_ne_zero (by positivity) ?_
    rw [hsq, vshftf_cast]
    nlinarith [mul_nonneg hx (by positivity : (0 : ℝ) ≤ 2 * v + 3)]
  have hc : c1 = -(-c1 / c2) * c2 := by field_simp
  unfold RWC2
  generalize hm : rootV (vshftf v : Int) (-c1 / c2 * A) = m at *
  rw [vshftf_cast] at *
  generalize hρ : -c1 / c2 = ρ at *
  have hc' : c1 / c2 = -ρ := by rw [← hρ]; ring
  rw [hc', hc]
  set s : ℝ := 2 * v + 3 with hs
  have e5 : (2 * v + 7 : ℝ) = s + 4 := by rw [hs]; ring
  have e6 : (ρ * A + 2 * v + 5 : ℝ) = ρ * A + s + 2 := by rw [hs]; ring
  rw [e5, e6]
  have hspos : 0 < s := by positivity
  have k1 : (-ρ) ^ 2 * (-s ^ 2 * A ^ 5 / m ^ 2 + A ^ 3 * B ^ 2 * (-ρ * c2) + A ^ 2 * B ^ 2 * c2 * (m + 3)) +
      A ^ 3 * (2 * m + s ^ 2) - B ^ 2 * m * (m + 2) * (A * (-ρ * c2) + c2 * (m + 4)) -
      m * (2 * A ^ 3 - B ^ 2 * c2 * (s + 4) * (ρ * A + s + 2)) =
      A ^ 3 * s ^ 2 * (s ^ 2 / m ^ 2) + A ^ 2 * B ^ 2 * ρ ^ 2 * c2 * (m - ρ * A) + A ^ 2 * B ^ 2 * c2 * 3 * ρ ^ 2 +
        B ^ 2 * c2 * m * ((s + 4) * (ρ * A + s + 2) - (m + 2) * (m - ρ * A + 4)) := by
    have : s ^ 2 / m ^ 2 = 1 - (ρ * A) ^ 2 / m ^ 2 := by
      rw [eq_sub_iff_add_eq, ← add_div, ← hsq, div_self (by positivity)]
    rw [this]
    field_simp
    ring
  have k2 : 0 ≤ (s + 4) * (ρ * A + s + 2) - (m + 2) * (m - ρ * A + 4) := by
    have : (m + 2) * (m - ρ * A + 4) ≤ (ρ * A + s + 2) * (s + 4) := by
      refine mul_le_mul (by linarith) (by linarith) (by linarith) (by positivity)
    linarith
  have k3 : 0 ≤ m - ρ * A := by linarith
  have : 0 ≤ A ^ 3 * s ^ 2 * (s ^ 2 / m ^ 2) + A ^ 2 * B ^ 2 * ρ ^ 2 * c2 * (m - ρ * A) + A ^ 2 * B ^ 2 * c2 * 3 * ρ ^ 2 +
        B ^ 2 * c2 * m * ((s + 4) * (ρ * A + s + 2) - (m + 2) * (m - ρ * A + 4)) := by positivity
  linarith

/-- `F2` becomes positive among the powers of 2. -/
theorem F2_power {B c1 c2 : ℝ} (h1 : c1 < 0) (h2 : 0 < c2) {v : Int} (hv : 0 ≤ v) :
    ∃ n : ℕ, 0 < F2 B c1 c2 v (2 ^ n) := by
  have hv' : (0 : ℝ) ≤ v := by exact_mod_cast hv
  have hr : 0 < -c1 / c2 := div_pos (by linarith) h2
  obtain ⟨n, hn⟩ := pow_unbounded_of_one_lt (B ^ 2 * c2 * (2 * v + 7) * (-c1 / c2 + 2 * v + 5)) (one_lt_two (α := ℝ))
  refine ⟨n, lt_of_lt_of_le ?_ (F2_lower h1 h2 hv (by positivity))⟩
  refine mul_pos (by rw [muf_eq]; exact rootV_pos (vshftf_pos hv) _) ?_
  have hA : (1 : ℝ) ≤ 2 ^ n := one_le_pow₀ one_le_two
  generalize (2 : ℝ) ^ n = A at *
  have hK : 0 ≤ B ^ 2 * c2 * (2 * v + 7) := by positivity
  generalize -c1 / c2 = ρ at *
  generalize B ^ 2 * c2 * (2 * (v : ℝ) + 7) = K at *
  have e1 : K * (ρ * A + 2 * v + 5) ≤ K * ((ρ + 2 * v + 5) * A) := by
    refine mul_le_mul_of_nonneg_left ?_ hK
    nlinarith
  have e2 : K * ((ρ + 2 * v + 5) * A) = K * (ρ + 2 * v + 5) * A := by ring
  have e3 : K * (ρ + 2 * v + 5) * A < A * A := mul_lt_mul_of_pos_right hn (by linarith)
  have e4 : A * A ≤ A ^ 3 := by nlinarith [mul_nonneg (by linarith : (0 : ℝ) ≤ A) (by linarith : (0 : ℝ) ≤ A)]
  have e5 : 0 < A ^ 3 := by positivity
  linarith

/-- The loop stops at the first power of 2 that is good. -/
theorem bracketLoop_stops {F : ℝ → ℝ} : ∀ (n : ℕ) (A : ℝ), 0 < F (A * 2 ^ n) →
    ∃ k : ℕ, 0 < F (A * 2 ^ k) ∧ (∀ j < k, F (A * 2 ^ j) ≤ 0) ∧ ∀ fuel, k < fuel → bracketLoop F fuel A = some (A * 2 ^ k)
  | n, A, h => by
    by_cases hF : F A ≤ 0
    · cases n with
      | zero => rw [pow_zero, mul_one] at h; exact absurd h (not_lt.2 hF)
      | succ n =>
        obtain ⟨k, h1, h2, h3⟩ := bracketLoop_stops n (A * 2) (by rw [mul_assoc, ← pow_succ']; exact h)
        refine ⟨k + 1, by rw [pow_succ', ← mul_assoc]; exact h1, ?_, ?_⟩
        · intro j hj
          cases j with
          | zero => rw [pow_zero, mul_one]; exact hF
          | succ j => rw [pow_succ', ← mul_assoc]; exact h2 j (by omega)
        · intro fuel hf
          cases fuel with
          | zero => omega
          | succ fuel =>
            rw [bracketLoop, if_pos hF, h3 fuel (by omega), mul_assoc, ← pow_succ']
    · refine ⟨0, by rw [pow_zero, mul_one]; exact not_le.1 hF, fun j hj => absurd hj (by omega), ?_⟩
      intro fuel hf
      cases fuel with
      | zero => omega
      | succ fuel => rw [bracketLoop, if_neg hF, pow_zero, mul_one]

/-- The sign of `F2` on both sides of a positive root. -/
theorem F2_sign {B c1 c2 : ℝ} (h1 : c1 < 0) (h2 : 0 < c2) {v : Int} (hv : 0 ≤ v) {A0 : ℝ} (h0 : 0 < A0)
    (hz : F2 B c1 c2 v A0 = 0) : (∀ A, 0 < A → A < A0 → F2 B c1 c2 v A < 0) ∧ ∀ A, A0 < A → 0 < F2 B c1 c2 v A := by
  have hr : 0 < -c1 / c2 := div_pos (by linarith) h2
  have hV := vshftf_pos hv
  have key : ∀ A, 0 < A → ∃ p, 0 < p ∧ F2 B c1 c2 v A = p * (1 - B ^ 2 * c2 * (-c1 / c2) ^ 3 / 2 *
      (numN (vshftf v : Int) (-c1 / c2 * A) / denD (vshftf v : Int) (-c1 / c2 * A))) := by
    intro A hA
    have hD := denD_pos hV (mul_pos hr hA)
    have hm := rootV_pos hV (-c1 / c2 * A)
    refine ⟨rootV (vshftf v : Int) (-c1 / c2 * A) / (-c1 / c2) ^ 3 * denD (vshftf v : Int) (-c1 / c2 * A), by positivity, ?_⟩
    rw [F2_eq h1 h2 hv]
    generalize rootV ((vshftf v : Int) : ℝ) (-c1 / c2 * A) / (-c1 / c2) ^ 3 = q
    generalize B ^ 2 * c2 * (-c1 / c2) ^ 3 / 2 = k
    generalize denD (vshftf v : Int) (-c1 / c2 * A) = d at *
    have := hD.ne'
    field_simp
  obtain ⟨p, hp, e⟩ := key A0 h0
  rw [hz] at e
  have e0 : 1 - B ^ 2 * c2 * (-c1 / c2) ^ 3 / 2 *
      (numN (vshftf v : Int) (-c1 / c2 * A0) / denD (vshftf v : Int) (-c1 / c2 * A0)) = 0 := by
    rcases mul_eq_zero.1 e.symm with h | h
    · exact absurd h hp.ne'
    · exact h
  have hB : 0 < B ^ 2 * c2 * (-c1 / c2) ^ 3 / 2 := by
    have h' : 0 ≤ B ^ 2 * c2 * (-c1 / c2) ^ 3 / 2 := by positivity
    refine lt_of_le_of_ne h' fun hh => ?_
    rw [← hh, zero_mul, sub_zero] at e0
    exact one_ne_zero e0
  constructor
  · intro A hA hlt
    obtain ⟨q, hq, e'⟩ := key A hA
    rw [e']
    refine mul_neg_of_pos_of_neg hq ?_
    have := mul_lt_mul_of_pos_left (quot_anti hV (Set.mem_Ioi.2 (mul_pos hr hA)) (Set.mem_Ioi.2 (mul_pos hr h0))
      (mul_lt_mul_of_pos_left hlt hr)) hB
    simp only at this
    linarith
  · intro A hlt
    have hA := h0.trans hlt
    obtain ⟨q, hq, e'⟩ := key A hA
    rw [e']
    refine mul_pos hq ?_
    have := mul_lt_mul_of_pos_left (quot_anti hV (Set.mem_Ioi.2 (mul_pos hr h0)) (Set.mem_Ioi.2 (mul_pos hr hA))
      (mul_lt_mul_of_pos_left hlt hr)) hB
    simp only at this
    linarith

/-! ## RWC1 -/

theorem RWC1_sign {B c1 c2 : ℝ} (hB : B ≠ 0) (h2 : 0 < c2) {v : Int} (hv : 0 ≤ v) {A0 : ℝ} (h0 : 0 < A0)
    (hz : RWC1 A0 B c1 c2 v = 0) :
    (∀ A, 0 < A → A < A0 → RWC1 A B c1 c2 v < 0) ∧ ∀ A, A0 < A → 0 < RWC1 A B c1 c2 v := by
  have hv' : (0 : ℝ) ≤ v := by exact_mod_cast hv
  have hq : 0 < (2 * (v : ℝ) + 7) * B ^ 2 * c2 := by positivity
  unfold RWC1 at *
  generalize (2 * (v : ℝ) + 7) * B ^ 2 * c2 = q at *
  generalize B ^ 2 * c1 = p at *
  have e : ∀ A, A0 * (A ^ 3 - p * A - q) = (A - A0) * (A * A0 * (A + A0) + q) := by
    intro A
    have : q = A0 ^ 3 - p * A0 := by linarith
    rw [this]; ring
  constructor
  · intro A hA hlt
    have h1 : (A - A0) * (A * A0 * (A + A0) + q) < 0 := mul_neg_of_neg_of_pos (by linarith) (by positivity)
    rw [← e] at h1
    exact (pos_iff_neg_of_mul_neg h1).1 h0
  · intro A hlt
    have hA := h0.trans hlt
    have h1 : 0 < (A - A0) * (A * A0 * (A + A0) + q) := mul_pos (by linarith) (by positivity)
    rw [← e] at h1
    exact (pos_iff_pos_of_mul_pos h1).1 h0

theorem RWC1_exists {B c1 c2 : ℝ} (hB : B ≠ 0) (h2 : 0 < c2) {v : Int} (hv : 0 ≤ v) :
    ∃ A0, 0 < A0 ∧ RWC1 A0 B c1 c2 v = 0 := by
  have hv' : (0 : ℝ) ≤ v := by exact_mod_cast hv
  have hq : 0 < (2 * (v : ℝ) + 7) * B ^ 2 * c2 := by positivity
  have hc : Continuous fun A => RWC1 A B c1 c2 v := by unfold RWC1; fun_prop
  have hn : RWC1 0 B c1 c2 v < 0 := by
    unfold RWC1
    rw [zero_pow (by norm_num), mul_zero]
    linarith
  have hA : (0 : ℝ) < 1 + |B ^ 2 * c1| + (2 * (v : ℝ) + 7) * B ^ 2 * c2 := by positivity
  have hp : 0 < RWC1 (1 + |B ^ 2 * c1| + (2 * (v : ℝ) + 7) * B ^ 2 * c2) B c1 c2 v := by
    unfold RWC1
    have hle := le_abs_self (B ^ 2 * c1)
    have habs := abs_nonneg (B ^ 2 * c1)
    generalize (2 * (v : ℝ) + 7) * B ^ 2 * c2 = q at *
    generalize B ^ 2 * c1 = p at *
    generalize |p| = r at *
    have e1 : p * (1 + r + q) ≤ r * (1 + r + q) := mul_le_mul_of_nonneg_right hle (by linarith)
    have e2 : 0 < (1 + r + q) ^ 3 - r * (1 + r + q) - q := by
      have : (1 + r + q) ^ 3 - r * (1 + r + q) - q = 1 + 2 * r + 2 * r ^ 2 + r ^ 3 + q * (2 + 5 * r + 3 * r ^ 2) +
        q ^ 2 * (3 + 3 * r) + q ^ 3 := by ring
      rw [this]; positivity
    linarith
  obtain ⟨A0, h0, hz⟩ := intermediate_value_Icc hA.le hc.continuousOn ⟨hn.le, hp.le⟩
  refine ⟨A0, lt_of_le_of_ne h0.1 fun hh => ?_, hz⟩
  rw [← hh] at hz
  simp only at hz
  rw [hz] at hn
  exact lt_irrefl _ hn

/-! ## The energy -/

theorem lamOf_neg {c1 c2 : ℝ} (h1 : c1 < 0) (h2 : 0 < c2) (v : ℕ) (A : ℝ) :
    lamOf c1 c2 v A = 1 + muf A c1 c2 v / 2 := by
  have hp : 0 < -c1 / (2 * c2) := div_pos (by linarith) (by linarith)
  unfold lamOf muf
  rw [max_eq_right hp.le, vshftf_cast, Int.cast_natCast,
    show (2 * (v : ℝ) + 3) ^ 2 + (A * c1 / c2) ^ 2 = 2 ^ 2 * ((v + 3 / 2) ^ 2 + (A * (-c1 / (2 * c2))) ^ 2) by
      field_simp,
    Real.sqrt_mul (by norm_num), Real.sqrt_sq (by norm_num), mul_div_cancel_left₀ _ two_ne_zero]

theorem lamOf_nonneg {c1 c2 : ℝ} (h1 : 0 ≤ c1) (h2 : 0 < c2) (v : ℕ) (A : ℝ) : lamOf c1 c2 v A = v + 5 / 2 := by
  have hp : -c1 / (2 * c2) ≤ 0 := div_nonpos_of_nonpos_of_nonneg (by linarith) (by linarith)
  unfold lamOf
  rw [max_eq_left hp, mul_zero, zero_pow two_ne_zero, add_zero, Real.sqrt_sq (by positivity)]
  ring

/-- The derivative of the energy along the suitable `lambda`, for `c1 < 0`. -/
theorem energy_deriv_neg {B c1 c2 : ℝ} (kappa : ℝ) (hB : B ≠ 0) (h1 : c1 < 0) (h2 : 0 < c2) (v : ℕ) {A : ℝ} (hA : A ≠ 0) :
    HasDerivAt (fun A => energy B c1 c2 kappa v (lamOf c1 c2 v A) A)
      (F2 B c1 c2 v A / (4 * A ^ 3 * B * muf A c1 c2 v)) A := by
  have hV := vshftf_pos (v := (v : Int)) (by positivity)
  have hm : HasDerivAt (fun A => muf A c1 c2 v) (A * (c1 / c2) ^ 2 / muf A c1 c2 v) A := by
    have e : (fun A => muf A c1 c2 (v : Int)) = fun A => rootV (vshftf v : Int) (-c1 / c2 * A) := by
      funext A; exact muf_eq A v
    rw [e, muf_eq]
    have := (rootV_deriv hV (-c1 / c2 * A)).comp A ((hasDerivAt_id A).const_mul (-c1 / c2))
    refine this.congr_deriv ?_
    ring
  have hp : muf A c1 c2 v ≠ 0 := by rw [muf_eq]; exact (rootV_pos hV _).ne'
  have e : (fun A => energy B c1 c2 kappa v (lamOf c1 c2 v A) A) = fun A => (1 / (2 * B)) * (A * (1 + (v + 3 / 2) ^ 2 * 2 /
      muf A c1 c2 v)) + (B / 2) * (c1 * ((1 + muf A c1 c2 v / 2) / A) + c2 * ((1 + muf A c1 c2 v / 2) *
        (1 + muf A c1 c2 v / 2 + 1) / A ^ 2)) + kappa / 3 := by
    funext A
    unfold energy
    rw [lamOf_neg h1 h2, add_sub_cancel_left, div_div_eq_mul_div]
  rw [e]
  have k0 : HasDerivAt (fun A => 1 + muf A c1 c2 v / 2) (A * (c1 / c2) ^ 2 / muf A c1 c2 v / 2) A :=
    (hm.div_const 2).const_add 1
  have k1 := (hasDerivAt_id A).mul (((hasDerivAt_const A ((v + 3 / 2 : ℝ) ^ 2 * 2)).div hm hp).const_add 1)
  have k2 := k0.div (hasDerivAt_id A) hA
  have k3 := (k0.mul (k0.add_const 1)).div (hasDerivAt_pow 2 A) (pow_ne_zero 2 hA)
  have k := ((k1.const_mul (1 / (2 * B))).add (((k2.const_mul c1).add (k3.const_mul c2)).const_mul (B / 2))).add_const
    (kappa / 3)
  refine (k.congr_deriv ?_)
  simp only [id, Pi.div_apply, Pi.mul_apply]
  unfold F2 RWC2
  rw [vshftf_cast, Int.cast_natCast]
  generalize muf A c1 c2 v = m at *
  have hc2 := h2.ne'
  field_simp
  ring

/-- The derivative of the energy for a fixed `lambda`. -/
theorem energy_deriv_const {B c1 c2 : ℝ} (kappa : ℝ) (hB : B ≠ 0) (v : ℕ) (lam : ℝ) {A : ℝ} (hA : A ≠ 0) :
    HasDerivAt (fun A => energy B c1 c2 kappa v lam A)
      (((1 + (v + 3 / 2) ^ 2 / (lam - 1)) * A ^ 3 - B ^ 2 * c1 * lam * A - 2 * B ^ 2 * c2 * lam * (lam + 1)) / (2 * B * A ^ 3)) A := by
  unfold energy
  have k1 := (hasDerivAt_id A).mul_const (1 + (v + 3 / 2 : ℝ) ^ 2 / (lam - 1))
  have k2 := (hasDerivAt_const A lam).div (hasDerivAt_id A) hA
  have k3 := (hasDerivAt_const A (lam * (lam + 1))).div (hasDerivAt_pow 2 A) (pow_ne_zero 2 hA)
  have k := ((k1.const_mul (1 / (2 * B))).add (((k2.const_mul c1).add (k3.const_mul c2)).const_mul (B / 2))).add_const
    (kappa / 3)
  refine (k.congr_deriv ?_)
  simp only [id]
  generalize (1 + (v + 3 / 2 : ℝ) ^ 2 / (lam - 1)) = w
  field_simp
  ring

end Acm
