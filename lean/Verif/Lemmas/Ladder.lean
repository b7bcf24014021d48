import Mathlib.Analysis.Real.Sqrt
import Mathlib.Algebra.BigOperators.Intervals
import Mathlib.Order.Interval.Finset.Basic
import Mathlib.Data.Int.Interval
import Mathlib.LinearAlgebra.Matrix.NonsingularInverse
import Mathlib.Tactic.Ring
import Mathlib.Tactic.Linarith
import Mathlib.Tactic.LinearCombination

/-!
# Ladder operators on the product of two irreps of SU(2)

Coordinates: `p = j1 + m1`, `q = j2 + m2`, `n = 2 j`.
-/

namespace Acm.Ladder

/-- `sqrt((j - m)(j + m + 1))`. -/
noncomputable def u (n p : ℤ) : ℝ := Real.sqrt (((n : ℝ) - p) * (p + 1))

/-- `J_-` (coefficients of). -/
noncomputable def Lo (n1 n2 : ℤ) (f : ℤ → ℤ → ℝ) (p q : ℤ) : ℝ :=
  u n1 p * f (p + 1) q + u n2 q * f p (q + 1)

/-- `J_+`. -/
noncomputable def Up (n1 n2 : ℤ) (f : ℤ → ℤ → ℝ) (p q : ℤ) : ℝ :=
  u n1 (p - 1) * f (p - 1) q + u n2 (q - 1) * f p (q - 1)

theorem u_sq {n p : ℤ} (h1 : -1 ≤ p) (h2 : p ≤ n) : u n p ^ 2 = ((n : ℝ) - p) * (p + 1) := by
  unfold u
  refine Real.sq_sqrt (mul_nonneg ?_ ?_)
  · have : (p : ℝ) ≤ n := by exact_mod_cast h2
    linarith
  · have : (-1 : ℝ) ≤ p := by exact_mod_cast h1
    linarith

theorem u_top (n : ℤ) : u n n = 0 := by simp [u]

theorem u_neg (n : ℤ) : u n (-1) = 0 := by simp [u]

theorem u_pos {n p : ℤ} (h1 : 0 ≤ p) (h2 : p < n) : 0 < u n p := by
  unfold u
  refine Real.sqrt_pos.2 (mul_pos ?_ ?_)
  · have : (p : ℝ) < n := by exact_mod_cast h2
    linarith
  · have : (0 : ℝ) ≤ p := by exact_mod_cast h1
    linarith

/-- `f` vanishes outside the range of the labels. -/
def Supp (n1 n2 : ℤ) (f : ℤ → ℤ → ℝ) : Prop :=
  ∀ p q, ¬ ((0 ≤ p ∧ p ≤ n1) ∧ 0 ≤ q ∧ q ≤ n2) → f p q = 0

/-- `[J_+, J_-] = 2 J_z`. -/
theorem comm {n1 n2 : ℤ} {f : ℤ → ℤ → ℝ} (hf : Supp n1 n2 f) (p q : ℤ) :
    Up n1 n2 (Lo n1 n2 f) p q = Lo n1 n2 (Up n1 n2 f) p q + (2 * (p + q) - n1 - n2 : ℝ) * f p q := by
  unfold Up Lo
  simp only [sub_add_cancel, add_sub_cancel_right]
  by_cases h : (0 ≤ p ∧ p ≤ n1) ∧ 0 ≤ q ∧ q ≤ n2
  · have e1 := u_sq (n := n1) (p := p) (by omega) (by omega)
    have e2 := u_sq (n := n1) (p := p - 1) (by omega) (by omega)
    have e3 := u_sq (n := n2) (p := q) (by omega) (by omega)
    have e4 := u_sq (n := n2) (p := q - 1) (by omega) (by omega)
    push_cast at e1 e2 e3 e4
    linear_combination f p q * (e2 + e4 - e1 - e3)
  · rw [hf p q h]; ring

/-- The scalar product of the components with `p + q = k`. -/
noncomputable def dot (n1 : ℤ) (k : ℤ) (f g : ℤ → ℤ → ℝ) : ℝ :=
  ∑ p ∈ Finset.Icc 0 n1, f p (k - p) * g p (k - p)

theorem shift (n : ℤ) (F : ℤ → ℝ) (h0 : F (-1) = 0) (h1 : F n = 0) :
    ∑ p ∈ Finset.Icc 0 n, F p = ∑ p ∈ Finset.Icc 0 n, F (p - 1) := by
  have e1 : ∑ p ∈ Finset.Icc 0 n, F p = ∑ p ∈ Finset.Icc (-1) n, F p := by
    refine Finset.sum_subset (Finset.Icc_subset_Icc (by omega) le_rfl) fun x hx hx' => ?_
    rw [Finset.mem_Icc] at hx hx'
    obtain rfl : x = -1 := by omega
    exact h0
  have e2 : ∑ p ∈ Finset.Icc (-1) (n - 1), F p = ∑ p ∈ Finset.Icc (-1) n, F p := by
    refine Finset.sum_subset (Finset.Icc_subset_Icc le_rfl (by omega)) fun x hx hx' => ?_
    rw [Finset.mem_Icc] at hx hx'
    obtain rfl : x = n := by omega
    exact h1
  rw [e1, ← e2]
  refine Finset.sum_nbij' (· + 1) (· - 1) ?_ ?_ ?_ ?_ ?_ <;> intro x hx <;> simp at hx ⊢ <;> omega

theorem adjoint (n1 n2 k : ℤ) (f g : ℤ → ℤ → ℝ) :
    dot n1 k (Lo n1 n2 f) g = dot n1 (k + 1) f (Up n1 n2 g) := by
  unfold dot Lo Up
  simp only [add_mul, mul_add, Finset.sum_add_distrib]
  congr 1
  · rw [shift n1 (fun p => u n1 p * f (p + 1) (k - p) * g p (k - p)) (by simp [u_neg]) (by simp [u_top])]
    refine Finset.sum_congr rfl fun p _ => ?_
    have e : k - (p - 1) = k + 1 - p := by ring
    simp only [sub_add_cancel, e]
    ring
  · refine Finset.sum_congr rfl fun p _ => ?_
    have e1 : k - p + 1 = k + 1 - p := by ring
    have e2 : k + 1 - p - 1 = k - p := by ring
    rw [e1, e2]
    ring

theorem dot_comm (n1 k : ℤ) (f g : ℤ → ℤ → ℝ) : dot n1 k f g = dot n1 k g f := by
  unfold dot
  exact Finset.sum_congr rfl fun p _ => mul_comm _ _

/-- The coefficients of a coupling of `j1` and `j2` to `j3`, `a = j1 + j2 - j3`: the highest state is annihilated
by `J_+`, the others are got from it by `J_-`. -/
structure Coupled (n1 n2 a : ℤ) (C : ℤ → ℤ → ℝ) : Prop where
  ha : 0 ≤ a
  ha1 : a ≤ n1
  ha2 : a ≤ n2
  supp : Supp n1 n2 C
  supp3 : ∀ p q, ¬ (a ≤ p + q ∧ p + q ≤ n1 + n2 - a) → C p q = 0
  lower : ∀ p q, a ≤ p + q → p + q < n1 + n2 - a →
    Lo n1 n2 C p q = u (n1 + n2 - 2 * a) (p + q - a) * C p q
  top : ∀ p q, p + q = n1 + n2 - a + 1 → Up n1 n2 C p q = 0

variable {n1 n2 a : ℤ} {C : ℤ → ℤ → ℝ}

theorem Coupled.up (h : Coupled n1 n2 a C) (p q : ℤ) :
    Up n1 n2 C p q = u (n1 + n2 - 2 * a) (p + q - a - 1) * C p q := by
  have key : ∀ d : ℕ, ∀ p q, p + q = n1 + n2 - a + 1 - d →
      Up n1 n2 C p q = u (n1 + n2 - 2 * a) (p + q - a - 1) * C p q := by
    intro d
    induction d with
    | zero =>
      intro p q e
      rw [h.top p q (by simpa using e), h.supp3 p q (by push_cast at e; omega)]
      ring
    | succ d ih =>
      intro p q e
      push_cast at e
      rcases lt_trichotomy (p + q) a with hl | hl | hl
      · unfold Up
        rw [h.supp3 p q (by omega), h.supp3 (p - 1) q (by omega), h.supp3 p (q - 1) (by omega)]
        ring
      · unfold Up
        rw [h.supp3 (p - 1) q (by omega), h.supp3 p (q - 1) (by omega), hl, sub_self, zero_sub, u_neg]
        ring
      · have hu : 0 < u (n1 + n2 - 2 * a) (p + q - a - 1) := u_pos (by omega) (by omega)
        have l1 := h.lower (p - 1) q (by omega) (by omega)
        have l2 := h.lower p (q - 1) (by omega) (by omega)
        rw [show p - 1 + q - a = p + q - a - 1 by ring] at l1
        rw [show p + (q - 1) - a = p + q - a - 1 by ring] at l2
        have e1 : u (n1 + n2 - 2 * a) (p + q - a - 1) * Up n1 n2 C p q = Up n1 n2 (Lo n1 n2 C) p q := by
          rw [Up, Up, l1, l2]; ring
        rw [comm h.supp] at e1
        have i1 := ih (p + 1) q (by omega)
        have i2 := ih p (q + 1) (by omega)
        rw [show p + 1 + q - a - 1 = p + q - a by ring] at i1
        rw [show p + (q + 1) - a - 1 = p + q - a by ring] at i2
        have e2 : Lo n1 n2 (Up n1 n2 C) p q = u (n1 + n2 - 2 * a) (p + q - a) * Lo n1 n2 C p q := by
          rw [Lo, Lo, i1, i2]; ring
        have e3 : Lo n1 n2 C p q = u (n1 + n2 - 2 * a) (p + q - a) * C p q := by
          rcases lt_or_ge (p + q) (n1 + n2 - a) with hh | hh
          · exact h.lower p q (by omega) hh
          · unfold Lo
            rw [h.supp3 (p + 1) q (by omega), h.supp3 p (q + 1) (by omega),
              show p + q - a = n1 + n2 - 2 * a by omega, u_top]
            ring
        rw [e2, e3] at e1
        have s1 := u_sq (n := n1 + n2 - 2 * a) (p := p + q - a) (by omega) (by omega)
        have s2 := u_sq (n := n1 + n2 - 2 * a) (p := p + q - a - 1) (by omega) (by omega)
        push_cast at s1 s2
        apply mul_left_cancel₀ hu.ne'
        rw [e1]
        linear_combination C p q * (s1 - s2)
  rcases le_or_gt (p + q) (n1 + n2 - a + 1) with hh | hh
  · exact key (n1 + n2 - a + 1 - (p + q)).toNat p q (by omega)
  · unfold Up
    rw [h.supp3 p q (by omega), h.supp3 (p - 1) q (by omega), h.supp3 p (q - 1) (by omega)]
    ring

theorem Coupled.lo (h : Coupled n1 n2 a C) (p q : ℤ) :
    Lo n1 n2 C p q = u (n1 + n2 - 2 * a) (p + q - a) * C p q := by
  have hn := h.ha1
  have hn2 := h.ha2
  rcases lt_trichotomy (p + q) (a - 1) with hl | hl | hl
  · unfold Lo
    rw [h.supp3 p q (by omega), h.supp3 (p + 1) q (by omega), h.supp3 p (q + 1) (by omega)]
    ring
  · -- the lowest state is annihilated by `J_-`: its image has norm 0
    have h0 : dot n1 (a - 1) (Lo n1 n2 C) (Lo n1 n2 C) = 0 := by
      rw [adjoint]
      unfold dot
      refine Finset.sum_eq_zero fun x _ => ?_
      have e : Up n1 n2 (Lo n1 n2 C) x (a - 1 + 1 - x) = 0 := by
        rw [comm h.supp]
        have e2 : Lo n1 n2 (Up n1 n2 C) x (a - 1 + 1 - x) =
            u (n1 + n2 - 2 * a) 0 * Lo n1 n2 C x (a - 1 + 1 - x) := by
          rw [Lo, Lo, h.up, h.up, show x + 1 + (a - 1 + 1 - x) - a - 1 = 0 by ring,
            show x + (a - 1 + 1 - x + 1) - a - 1 = 0 by ring]
          ring
        rcases eq_or_lt_of_le (show 0 ≤ n1 + n2 - 2 * a by omega) with hz | hz
        · have : u (n1 + n2 - 2 * a) 0 = 0 := by rw [← hz, u_top]
          rw [e2, this]
          have : (n1 : ℝ) + n2 - 2 * a = 0 := by exact_mod_cast hz.symm
          push_cast
          linear_combination -(C x (a - 1 + 1 - x)) * this
        · rw [e2, h.lower x _ (by omega) (by omega), show x + (a - 1 + 1 - x) - a = 0 by ring]
          have s := u_sq (n := n1 + n2 - 2 * a) (p := 0) (by omega) (by omega)
          push_cast at s ⊢
          linear_combination C x (a - 1 + 1 - x) * s
      rw [e, mul_zero]
    have h1 : Lo n1 n2 C p q = 0 := by
      by_cases hp : 0 ≤ p ∧ p ≤ n1
      · unfold dot at h0
        have := (Finset.sum_eq_zero_iff_of_nonneg (fun x _ => mul_self_nonneg _)).1 h0 p (by simpa using hp)
        rw [show a - 1 - p = q by omega] at this
        exact mul_self_eq_zero.1 this
      · unfold Lo
        rw [h.supp p (q + 1) (by omega)]
        by_cases hp1 : p = -1
        · rw [hp1, u_neg]; ring
        · rw [h.supp (p + 1) q (by omega)]; ring
    rw [h1, h.supp3 p q (by omega), mul_zero]
  · rcases lt_trichotomy (p + q) (n1 + n2 - a) with hh | hh | hh
    · exact h.lower p q (by omega) hh
    · unfold Lo
      rw [h.supp3 (p + 1) q (by omega), h.supp3 p (q + 1) (by omega),
        show p + q - a = n1 + n2 - 2 * a by omega, u_top]
      ring
    · unfold Lo
      rw [h.supp3 p q (by omega), h.supp3 (p + 1) q (by omega), h.supp3 p (q + 1) (by omega)]
      ring

theorem dot_step {a' : ℤ} {C' : ℤ → ℤ → ℝ} (h : Coupled n1 n2 a C) (h' : Coupled n1 n2 a' C') (k : ℤ) :
    u (n1 + n2 - 2 * a) (k - a) * dot n1 k C C' = u (n1 + n2 - 2 * a') (k - a') * dot n1 (k + 1) C C' := by
  have e := adjoint n1 n2 k C C'
  have e1 : dot n1 k (Lo n1 n2 C) C' = u (n1 + n2 - 2 * a) (k - a) * dot n1 k C C' := by
    unfold dot
    rw [Finset.mul_sum]
    refine Finset.sum_congr rfl fun p _ => ?_
    rw [h.lo, show p + (k - p) - a = k - a by ring, mul_assoc]
  have e2 : dot n1 (k + 1) C (Up n1 n2 C') = u (n1 + n2 - 2 * a') (k - a') * dot n1 (k + 1) C C' := by
    unfold dot
    rw [Finset.mul_sum]
    refine Finset.sum_congr rfl fun p _ => ?_
    rw [h'.up, show p + (k + 1 - p) - a' - 1 = k - a' by ring]; ring
  rw [← e1, e, e2]

/-- States of different `j3` are orthogonal. -/
theorem orthogonal {a' : ℤ} {C' : ℤ → ℤ → ℝ} (h : Coupled n1 n2 a C) (h' : Coupled n1 n2 a' C') (hne : a ≠ a')
    (k : ℤ) : dot n1 k C C' = 0 := by
  by_cases hk : (a ≤ k ∧ k ≤ n1 + n2 - a) ∧ a' ≤ k ∧ k ≤ n1 + n2 - a'
  · have e1 := dot_step h h' k
    have e2 := dot_step h' h k
    rw [dot_comm n1 k C' C, dot_comm n1 (k + 1) C' C] at e2
    have s1 := u_sq (n := n1 + n2 - 2 * a) (p := k - a) (by omega) (by omega)
    have s2 := u_sq (n := n1 + n2 - 2 * a') (p := k - a') (by omega) (by omega)
    have e3 : (u (n1 + n2 - 2 * a) (k - a) ^ 2 - u (n1 + n2 - 2 * a') (k - a') ^ 2) * dot n1 k C C' = 0 := by
      linear_combination u (n1 + n2 - 2 * a) (k - a) * e1 - u (n1 + n2 - 2 * a') (k - a') * e2
    rw [s1, s2] at e3
    have e4 : (((n1 + n2 - 2 * a : ℤ) : ℝ) - (k - a : ℤ)) * ((k - a : ℤ) + 1) -
        (((n1 + n2 - 2 * a' : ℤ) : ℝ) - (k - a' : ℤ)) * ((k - a' : ℤ) + 1) =
        (((a' - a) * (n1 + n2 + 1 - a - a') : ℤ) : ℝ) := by push_cast; ring
    rw [e4] at e3
    rcases mul_eq_zero.1 e3 with e5 | e5
    · exfalso
      have e6 : (a' - a) * (n1 + n2 + 1 - a - a') = 0 := by exact_mod_cast e5
      have := h.ha1
      have := h'.ha2
      rcases mul_eq_zero.1 e6 with e7 | e7 <;> omega
    · exact e5
  · unfold dot
    refine Finset.sum_eq_zero fun p _ => ?_
    by_cases hk2 : a ≤ k ∧ k ≤ n1 + n2 - a
    · rw [h'.supp3 p (k - p) (by omega), mul_zero]
    · rw [h.supp3 p (k - p) (by omega), zero_mul]

/-- The norm is that of the highest state. -/
theorem norm_const (h : Coupled n1 n2 a C) (k : ℤ) (h1 : a ≤ k) (h2 : k ≤ n1 + n2 - a) :
    dot n1 k C C = dot n1 (n1 + n2 - a) C C := by
  have key : ∀ d : ℕ, ∀ k, a ≤ k → k = n1 + n2 - a - d → dot n1 k C C = dot n1 (n1 + n2 - a) C C := by
    intro d
    induction d with
    | zero => intro k _ e; rw [e]; simp
    | succ d ih =>
      intro k hk e
      push_cast at e
      have := dot_step h h k
      have hu : 0 < u (n1 + n2 - 2 * a) (k - a) := u_pos (by omega) (by omega)
      rw [mul_left_cancel₀ hu.ne' this]
      exact ih (k + 1) (by omega) (by omega)
  exact key (n1 + n2 - a - k).toNat k h1 (by omega)

/-- The highest state is determined up to a factor. -/
theorem top_row {C' : ℤ → ℤ → ℝ} (h : Coupled n1 n2 a C) (h' : Coupled n1 n2 a C') (hne : C n1 (n2 - a) ≠ 0)
    (p q : ℤ) (e : p + q = n1 + n2 - a) : C' p q = C' n1 (n2 - a) / C n1 (n2 - a) * C p q := by
  have hn := h.ha1
  have key : ∀ d : ℕ, ∀ p q, p + q = n1 + n2 - a → p = n1 - d →
      C' p q = C' n1 (n2 - a) / C n1 (n2 - a) * C p q := by
    intro d
    induction d with
    | zero =>
      intro p q e1 e2
      obtain rfl : p = n1 := by simpa using e2
      obtain rfl : q = n2 - a := by omega
      field_simp
    | succ d ih =>
      intro p q e1 e2
      push_cast at e2
      by_cases hp : 0 ≤ p
      · have t := h.top (p + 1) q (by omega)
        have t' := h'.top (p + 1) q (by omega)
        unfold Up at t t'
        rw [add_sub_cancel_right] at t t'
        have i := ih (p + 1) (q - 1) (by omega) (by omega)
        rw [i] at t'
        have hu : 0 < u n1 p := u_pos hp (by omega)
        apply mul_left_cancel₀ hu.ne'
        linear_combination t' - C' n1 (n2 - a) / C n1 (n2 - a) * t
      · rw [h.supp p q (by omega), h'.supp p q (by omega), mul_zero]
  rcases le_or_gt p n1 with hp | hp
  · exact key (n1 - p).toNat p q e (by omega)
  · rw [h.supp p q (by omega), h'.supp p q (by omega), mul_zero]

/-- The coefficients are determined by their norm and sign. -/
theorem unique {C' : ℤ → ℤ → ℝ} (h : Coupled n1 n2 a C) (h' : Coupled n1 n2 a C')
    (hn : dot n1 (n1 + n2 - a) C C = 1) (hn' : dot n1 (n1 + n2 - a) C' C' = 1)
    (hp : 0 < C n1 (n2 - a)) (hp' : 0 < C' n1 (n2 - a)) : C = C' := by
  have ht := top_row h h' hp.ne'
  have hl : C' n1 (n2 - a) / C n1 (n2 - a) = 1 := by
    set l := C' n1 (n2 - a) / C n1 (n2 - a) with hldef
    have : dot n1 (n1 + n2 - a) C' C' = l ^ 2 * dot n1 (n1 + n2 - a) C C := by
      unfold dot
      rw [Finset.mul_sum]
      refine Finset.sum_congr rfl fun p _ => ?_
      rw [ht p _ (by ring)]; ring
    rw [hn, hn', mul_one] at this
    have hl0 : 0 < l := div_pos hp' hp
    nlinarith
  rw [hl] at ht
  have key : ∀ d : ℕ, ∀ p q, p + q = n1 + n2 - a - d → C p q = C' p q := by
    intro d
    induction d with
    | zero => intro p q e; rw [ht p q (by simpa using e), one_mul]
    | succ d ih =>
      intro p q e
      push_cast at e
      by_cases ha : a ≤ p + q
      · have l1 := h.lower p q ha (by omega)
        have l2 := h'.lower p q ha (by omega)
        have hu : 0 < u (n1 + n2 - 2 * a) (p + q - a) := u_pos (by omega) (by omega)
        apply mul_left_cancel₀ hu.ne'
        rw [← l1, ← l2, Lo, Lo, ih (p + 1) q (by omega), ih p (q + 1) (by omega)]
      · rw [h.supp3 p q (by omega), h'.supp3 p q (by omega)]
  funext p q
  rcases le_or_gt (p + q) (n1 + n2 - a) with hh | hh
  · exact key (n1 + n2 - a - (p + q)).toNat p q (by omega)
  · rw [h.supp3 p q (by omega), h'.supp3 p q (by omega)]

/-- Completeness: the coefficients for all `j3` form an orthogonal matrix. -/
theorem complete {F : ℤ → ℤ → ℤ → ℝ} (h1 : 0 ≤ n1) (h2 : 0 ≤ n2)
    (hF : ∀ a, 0 ≤ a → a ≤ n1 → a ≤ n2 → Coupled n1 n2 a (F a) ∧ dot n1 (n1 + n2 - a) (F a) (F a) = 1)
    (p q p' q' : ℤ) (hp : 0 ≤ p ∧ p ≤ n1) (hq : 0 ≤ q ∧ q ≤ n2) (hp' : 0 ≤ p' ∧ p' ≤ n1) (hq' : 0 ≤ q' ∧ q' ≤ n2)
    (hk : p + q = p' + q') :
    ∑ a ∈ Finset.Icc 0 (min n1 n2), F a p q * F a p' q' = if p = p' then 1 else 0 := by
  classical
  set k := p + q with hkd
  let A := Finset.Icc 0 (min (min n1 n2) (min k (n1 + n2 - k)))
  let P := Finset.Icc (max 0 (k - n2)) (min n1 k)
  have hcard : A.card = P.card := by
    simp only [A, P, Int.card_Icc]
    omega
  let e : A ≃ P := Finset.equivOfCardEq hcard
  let M : Matrix A P ℝ := fun a x => F a.1 x.1 (k - x.1)
  have hA : ∀ a : A, 0 ≤ a.1 ∧ a.1 ≤ n1 ∧ a.1 ≤ n2 ∧ a.1 ≤ k ∧ k ≤ n1 + n2 - a.1 := by
    rintro ⟨a, ha⟩
    simp only [A, Finset.mem_Icc] at ha
    simp only
    omega
  have hdot : ∀ a b : A, ∑ x : P, M a x * M b x = dot n1 k (F a.1) (F b.1) := by
    intro a b
    unfold dot
    rw [Finset.sum_coe_sort P (fun x => F a.1 x (k - x) * F b.1 x (k - x))]
    refine Finset.sum_subset (Finset.Icc_subset_Icc (by omega) (by omega)) fun x hx hx' => ?_
    rw [Finset.mem_Icc] at hx
    simp only [P, Finset.mem_Icc] at hx'
    obtain ⟨i1, i2, i3, -, -⟩ := hA a
    rw [(hF a.1 i1 i2 i3).1.supp x (k - x) (by omega), zero_mul]
  have hM : M * M.transpose = 1 := by
    ext a b
    rw [Matrix.mul_apply, Matrix.one_apply]
    simp only [Matrix.transpose_apply]
    rw [hdot]
    obtain ⟨i1, i2, i3, i4, i5⟩ := hA a
    obtain ⟨j1, j2, j3, -, -⟩ := hA b
    split_ifs with hab
    · rw [← hab, norm_const (hF a.1 i1 i2 i3).1 k i4 i5, (hF a.1 i1 i2 i3).2]
    · exact orthogonal (hF a.1 i1 i2 i3).1 (hF b.1 j1 j2 j3).1 (fun hh => hab (Subtype.ext hh)) k
  have hM2 : M.transpose * M = 1 := (Matrix.mul_eq_one_comm_of_equiv e).1 hM
  have hpP : p ∈ P := by simp only [P, Finset.mem_Icc]; omega
  have hpP' : p' ∈ P := by simp only [P, Finset.mem_Icc]; omega
  have := congrFun (congrFun hM2 ⟨p, hpP⟩) ⟨p', hpP'⟩
  rw [Matrix.mul_apply, Matrix.one_apply] at this
  simp only [Matrix.transpose_apply, Subtype.mk.injEq] at this
  have this : ∑ x : A, F x.1 p (k - p) * F x.1 p' (k - p') = if p = p' then 1 else 0 := this
  rw [show k - p = q by omega, show k - p' = q' by omega,
    Finset.sum_coe_sort A (fun a => F a p q * F a p' q')] at this
  rw [← this]
  symm
  refine Finset.sum_subset (Finset.Icc_subset_Icc le_rfl (by omega)) fun x hx hx' => ?_
  rw [Finset.mem_Icc] at hx
  simp only [A, Finset.mem_Icc] at hx'
  rw [(hF x (by omega) (by omega) (by omega)).1.supp3 p q (by omega), zero_mul]

/-- With the phase of Condon and Shortley the coefficients for `m1 = j1` are positive. -/
theorem Coupled.pos_right (h : Coupled n1 n2 a C) (hp : 0 < C n1 (n2 - a)) (q : ℤ) (h0 : 0 ≤ q) (h1 : q ≤ n2 - a) :
    0 < C n1 q := by
  have := h.ha
  have := h.ha1
  have key : ∀ d : ℕ, ∀ q, 0 ≤ q → q = n2 - a - d → 0 < C n1 q := by
    intro d
    induction d with
    | zero => intro q _ e; rw [e]; simpa using hp
    | succ d ih =>
      intro q h0 e
      push_cast at e
      have l := h.lo n1 q
      unfold Lo at l
      rw [u_top, zero_mul, zero_add] at l
      have i := ih (q + 1) (by omega) (by omega)
      have u1 : 0 < u n2 q := u_pos h0 (by omega)
      have u2 : 0 < u (n1 + n2 - 2 * a) (n1 + q - a) := u_pos (by omega) (by omega)
      have : 0 < u (n1 + n2 - 2 * a) (n1 + q - a) * C n1 q := by rw [← l]; exact mul_pos u1 i
      exact (mul_pos_iff_of_pos_left u2).1 this
  exact key (n2 - a - q).toNat q h0 (by omega)

/-- and those for `m2 = -j2` too -/
theorem Coupled.pos_bottom (h : Coupled n1 n2 a C) (hp : 0 < C n1 (n2 - a)) (p : ℤ) (h0 : a ≤ p) (h1 : p ≤ n1) :
    0 < C p 0 := by
  have := h.ha
  have := h.ha2
  have key : ∀ d : ℕ, ∀ p, a ≤ p → p = n1 - d → 0 < C p 0 := by
    intro d
    induction d with
    | zero => intro p _ e; rw [e]; simpa using h.pos_right hp 0 le_rfl (by omega)
    | succ d ih =>
      intro p h0 e
      push_cast at e
      have l := h.up (p + 1) 0
      unfold Up at l
      rw [zero_sub, u_neg, zero_mul, add_zero, add_sub_cancel_right] at l
      have i := ih (p + 1) (by omega) (by omega)
      have u1 : 0 < u n1 p := u_pos (by omega) (by omega)
      have u2 : 0 < u (n1 + n2 - 2 * a) (p + 1 + 0 - a - 1) := u_pos (by omega) (by omega)
      have : 0 < u n1 p * C p 0 := by rw [l]; exact mul_pos u2 i
      exact (mul_pos_iff_of_pos_left u1).1 this
  exact key (n1 - p).toNat p h0 (by omega)

/-- The signs of the lowest state alternate. -/
theorem Coupled.sign_low (h : Coupled n1 n2 a C) (hp : 0 < C n1 (n2 - a)) (q : ℕ) (hq : q ≤ a) :
    0 < (-1) ^ q * C (a - q) q := by
  have := h.ha
  have := h.ha1
  have := h.ha2
  induction q with
  | zero => simpa using h.pos_bottom hp a le_rfl h.ha1
  | succ q ih =>
    push_cast at hq ⊢
    have i := ih (by omega)
    have l := h.lo (a - (q + 1)) q
    unfold Lo at l
    rw [h.supp3 (a - (q + 1)) q (by omega), mul_zero, show a - ((q : ℤ) + 1) + 1 = a - q by ring] at l
    have u1 : 0 < u n1 (a - (q + 1)) := u_pos (by omega) (by omega)
    have u2 : 0 < u n2 q := u_pos (by omega) (by omega)
    have : 0 < u n2 q * ((-1) ^ (q + 1) * C (a - (q + 1)) (q + 1)) := by
      have e : u n2 q * ((-1) ^ (q + 1) * C (a - (q + 1)) (q + 1)) = u n1 (a - (q + 1)) * ((-1) ^ q * C (a - q) q) := by
        rw [pow_succ]
        linear_combination -(-1) ^ q * l
      rw [e]; exact mul_pos u1 i
    exact (mul_pos_iff_of_pos_left u2).1 this

/-- The signs of the highest state alternate. -/
theorem Coupled.sign_top (h : Coupled n1 n2 a C) (hp : 0 < C n1 (n2 - a)) (k : ℕ) (hk : k ≤ a) :
    0 < (-1) ^ k * C (n1 - k) (n2 - a + k) := by
  have := h.ha
  have := h.ha1
  have := h.ha2
  induction k with
  | zero => simpa using hp
  | succ k ih =>
    push_cast at hk ⊢
    have i := ih (by omega)
    have l := h.up (n1 - k) (n2 - a + (k + 1))
    unfold Up at l
    rw [h.supp3 (n1 - k) (n2 - a + (k + 1)) (by omega), mul_zero, show n1 - k - 1 = n1 - ((k : ℤ) + 1) by ring,
      show n2 - a + ((k : ℤ) + 1) - 1 = n2 - a + k by ring] at l
    have u1 : 0 < u n1 (n1 - (k + 1)) := u_pos (by omega) (by omega)
    have u2 : 0 < u n2 (n2 - a + k) := u_pos (by omega) (by omega)
    have : 0 < u n1 (n1 - (k + 1)) * ((-1) ^ (k + 1) * C (n1 - (k + 1)) (n2 - a + (k + 1))) := by
      have e : u n1 (n1 - (k + 1)) * ((-1) ^ (k + 1) * C (n1 - (k + 1)) (n2 - a + (k + 1))) =
          u n2 (n2 - a + k) * ((-1) ^ k * C (n1 - k) (n2 - a + k)) := by
        rw [pow_succ]
        linear_combination -(-1) ^ k * l
      rw [e]; exact mul_pos u2 i
    exact (mul_pos_iff_of_pos_left u1).1 this

theorem Coupled.smul (h : Coupled n1 n2 a C) (s : ℝ) : Coupled n1 n2 a (fun p q => s * C p q) where
  ha := h.ha
  ha1 := h.ha1
  ha2 := h.ha2
  supp := fun p q hh => by simp only [h.supp p q hh, mul_zero]
  supp3 := fun p q hh => by simp only [h.supp3 p q hh, mul_zero]
  lower := fun p q h1 h2 => by
    have := h.lower p q h1 h2
    unfold Lo at this ⊢
    linear_combination s * this
  top := fun p q h1 => by
    have := h.top p q h1
    unfold Up at this ⊢
    linear_combination s * this

/-- The factors of the coupling may be exchanged. -/
theorem Coupled.exchange (h : Coupled n1 n2 a C) : Coupled n2 n1 a (fun p q => C q p) where
  ha := h.ha
  ha1 := h.ha2
  ha2 := h.ha1
  supp := fun p q hh => h.supp q p fun h' => hh ⟨h'.2, h'.1⟩
  supp3 := fun p q hh => h.supp3 q p (by omega)
  lower := fun p q h1 h2 => by
    have := h.lower q p (by omega) (by omega)
    unfold Lo at this ⊢
    rw [show n2 + n1 - 2 * a = n1 + n2 - 2 * a by ring, show p + q - a = q + p - a by ring]
    linear_combination this
  top := fun p q h1 => by
    have := h.top q p (by omega)
    unfold Up at this ⊢
    linear_combination this

theorem dot_exchange {f : ℤ → ℤ → ℝ} (hf : Supp n1 n2 f) (k : ℤ) :
    dot n2 k (fun p q => f q p) (fun p q => f q p) = dot n1 k f f := by
  unfold dot
  have e1 : ∑ p ∈ Finset.Icc 0 n2, f (k - p) p * f (k - p) p =
      ∑ p ∈ Finset.Icc (max 0 (k - n1)) (min n2 k), f (k - p) p * f (k - p) p := by
    symm
    refine Finset.sum_subset (Finset.Icc_subset_Icc (by omega) (by omega)) fun p hp hp' => ?_
    rw [Finset.mem_Icc] at hp hp'
    rw [hf (k - p) p (by omega)]; ring
  have e2 : ∑ p ∈ Finset.Icc 0 n1, f p (k - p) * f p (k - p) =
      ∑ p ∈ Finset.Icc (max 0 (k - n2)) (min n1 k), f p (k - p) * f p (k - p) := by
    symm
    refine Finset.sum_subset (Finset.Icc_subset_Icc (by omega) (by omega)) fun p hp hp' => ?_
    rw [Finset.mem_Icc] at hp hp'
    rw [hf p (k - p) (by omega)]; ring
  rw [e1, e2]
  refine Finset.sum_nbij' (k - ·) (k - ·) ?_ ?_ ?_ ?_ ?_
  · intro x hx; rw [Finset.mem_Icc] at hx ⊢; omega
  · intro x hx; rw [Finset.mem_Icc] at hx ⊢; omega
  · intro x _; omega
  · intro x _; omega
  · intro x _; simp only [sub_sub_cancel]

theorem u_reflect {n p p' : ℤ} (h : p + p' = n - 1) : u n p = u n p' := by
  unfold u
  have : (p' : ℝ) = n - 1 - p := by
    have : p' = n - 1 - p := by omega
    exact_mod_cast congrArg (Int.cast : ℤ → ℝ) this
  rw [this]
  congr 1
  ring

/-- All projections may be reversed. -/
theorem Coupled.reverse (h : Coupled n1 n2 a C) : Coupled n1 n2 a (fun p q => C (n1 - p) (n2 - q)) where
  ha := h.ha
  ha1 := h.ha1
  ha2 := h.ha2
  supp := fun p q hh => h.supp _ _ fun h' => hh (by omega)
  supp3 := fun p q hh => h.supp3 _ _ (by omega)
  lower := fun p q h1 h2 => by
    have := h.up (n1 - p) (n2 - q)
    unfold Up at this
    unfold Lo
    beta_reduce
    rw [u_reflect (n := n1) (p := p) (p' := n1 - p - 1) (by ring),
      u_reflect (n := n2) (p := q) (p' := n2 - q - 1) (by ring),
      u_reflect (n := n1 + n2 - 2 * a) (p := p + q - a) (p' := n1 - p + (n2 - q) - a - 1) (by ring),
      show n1 - (p + 1) = n1 - p - 1 by ring, show n2 - (q + 1) = n2 - q - 1 by ring]
    exact this
  top := fun p q h1 => by
    have := h.lo (n1 - p) (n2 - q)
    unfold Lo at this
    unfold Up
    beta_reduce
    rw [h.supp3 (n1 - p) (n2 - q) (by omega), mul_zero] at this
    rw [u_reflect (n := n1) (p := p - 1) (p' := n1 - p) (by ring),
      u_reflect (n := n2) (p := q - 1) (p' := n2 - q) (by ring),
      show n1 - (p - 1) = n1 - p + 1 by ring, show n2 - (q - 1) = n2 - q + 1 by ring]
    exact this

theorem dot_reverse (f : ℤ → ℤ → ℝ) (k : ℤ) :
    dot n1 k (fun p q => f (n1 - p) (n2 - q)) (fun p q => f (n1 - p) (n2 - q)) = dot n1 (n1 + n2 - k) f f := by
  unfold dot
  refine Finset.sum_nbij' (n1 - ·) (n1 - ·) ?_ ?_ ?_ ?_ ?_
  · intro x hx; rw [Finset.mem_Icc] at hx ⊢; omega
  · intro x hx; rw [Finset.mem_Icc] at hx ⊢; omega
  · intro x _; omega
  · intro x _; omega
  · intro x _; rw [show n1 + n2 - k - (n1 - x) = n2 - (k - x) by ring]

theorem dot_smul (x : ℝ) (f : ℤ → ℤ → ℝ) (j : ℤ) :
    dot n1 j (fun p q => x * f p q) (fun p q => x * f p q) = x ^ 2 * dot n1 j f f := by
  unfold dot
  rw [Finset.mul_sum]
  exact Finset.sum_congr rfl fun p _ => by ring

theorem neg_zpow_succ (p : ℤ) : (-1 : ℝ) ^ (p + 1) = -(-1) ^ p := by
  rw [zpow_add_one₀ (by norm_num)]; ring

theorem neg_zpow_pred (p : ℤ) : (-1 : ℝ) ^ (p - 1) = -(-1) ^ p := by
  rw [zpow_sub_one₀ (by norm_num)]; norm_num

/-- `j2` and `j3` may be exchanged: coupling of `j1` and `j3` to `j2`. -/
theorem Coupled.turn (h : Coupled n1 n2 a C) :
    Coupled n1 (n1 + n2 - 2 * a) (n1 - a) (fun p t => (-1 : ℝ) ^ p * C p (n1 + n2 - a - t - p)) where
  ha := by have := h.ha1; omega
  ha1 := by have := h.ha; omega
  ha2 := by have := h.ha2; omega
  supp := fun p t hh => by
    beta_reduce
    by_cases hp : 0 ≤ p ∧ p ≤ n1
    · rw [h.supp3 p _ (by omega), mul_zero]
    · rw [h.supp p _ (by omega), mul_zero]
  supp3 := fun p t hh => by
    rw [h.supp p _ (by omega), mul_zero]
  lower := fun p t h1 h2 => by
    have l := h.lo p (n1 + n2 - a - t - p - 1)
    unfold Lo at l ⊢
    beta_reduce
    rw [sub_add_cancel] at l
    rw [neg_zpow_succ, show n1 + n2 - a - t - (p + 1) = n1 + n2 - a - t - p - 1 by ring,
      show n1 + n2 - a - (t + 1) - p = n1 + n2 - a - t - p - 1 by ring,
      show n1 + (n1 + n2 - 2 * a) - 2 * (n1 - a) = n2 by ring,
      u_reflect (n := n2) (p := p + t - (n1 - a)) (p' := n1 + n2 - a - t - p - 1) (by ring),
      u_reflect (n := n1 + n2 - 2 * a) (p := t) (p' := p + (n1 + n2 - a - t - p - 1) - a) (by ring)]
    linear_combination -(-1) ^ p * l
  top := fun p t h1 => by
    have l := h.up p 0
    unfold Up at l ⊢
    beta_reduce
    rw [zero_sub, u_neg, zero_mul, add_zero] at l
    rw [neg_zpow_pred, show n1 + n2 - a - t - (p - 1) = 0 by omega, show n1 + n2 - a - (t - 1) - p = 0 by omega,
      u_reflect (n := n1 + n2 - 2 * a) (p := t - 1) (p' := p + 0 - a - 1) (by omega)]
    linear_combination -(-1) ^ p * l

theorem zpow_neg_one_sq (p : ℤ) : ((-1 : ℝ) ^ p) ^ 2 = 1 := by
  rw [← zpow_natCast, ← zpow_mul, mul_comm, zpow_mul]; norm_num

/-- The sum over `m1` for a fixed `m2`. -/
theorem col_norm (h : Coupled n1 n2 a C) (hn : dot n1 (n1 + n2 - a) C C = 1) (q : ℤ) (h0 : 0 ≤ q) (h1 : q ≤ n2) :
    ((n2 : ℝ) + 1) * ∑ p ∈ Finset.Icc 0 n1, C p q ^ 2 = n1 + n2 - 2 * a + 1 := by
  have i0 := h.ha
  have i1 := h.ha1
  have i2 := h.ha2
  have hd : ∀ t, dot n1 t (fun p t => (-1 : ℝ) ^ p * C p (n1 + n2 - a - t - p))
      (fun p t => (-1 : ℝ) ^ p * C p (n1 + n2 - a - t - p)) = ∑ p ∈ Finset.Icc 0 n1, C p (n1 + n2 - a - t) ^ 2 := by
    intro t
    unfold dot
    refine Finset.sum_congr rfl fun p _ => ?_
    beta_reduce
    rw [show n1 + n2 - a - (t - p) - p = n1 + n2 - a - t by ring]
    linear_combination C p (n1 + n2 - a - t) ^ 2 * zpow_neg_one_sq p
  have hc : ∀ q, 0 ≤ q → q ≤ n2 → ∑ p ∈ Finset.Icc 0 n1, C p q ^ 2 = ∑ p ∈ Finset.Icc 0 n1, C p 0 ^ 2 := by
    intro q h0 h1
    have e := norm_const h.turn (n1 + n2 - a - q) (by omega) (by omega)
    rw [hd, hd, show n1 + n2 - a - (n1 + n2 - a - q) = q by ring,
      show n1 + n2 - a - (n1 + (n1 + n2 - 2 * a) - (n1 - a)) = 0 by ring] at e
    exact e
  have s1 : ∑ q ∈ Finset.Icc 0 n2, ∑ p ∈ Finset.Icc 0 n1, C p q ^ 2 =
      ((n2 : ℝ) + 1) * ∑ p ∈ Finset.Icc 0 n1, C p 0 ^ 2 := by
    rw [Finset.sum_congr rfl (fun q hq => hc q (Finset.mem_Icc.1 hq).1 (Finset.mem_Icc.1 hq).2), Finset.sum_const,
      Int.card_Icc, nsmul_eq_mul]
    congr 1
    have : (((n2 + 1 - 0).toNat : ℤ) : ℝ) = ((n2 + 1 : ℤ) : ℝ) := by congr 1; omega
    rw [← Int.cast_natCast, this]; push_cast; rfl
  have s2 : ∑ k ∈ Finset.Icc a (n1 + n2 - a), dot n1 k C C = n1 + n2 - 2 * a + 1 := by
    rw [Finset.sum_congr rfl (fun k hk => (norm_const h k (Finset.mem_Icc.1 hk).1 (Finset.mem_Icc.1 hk).2).trans hn),
      Finset.sum_const, Int.card_Icc, nsmul_eq_mul, mul_one]
    have : (((n1 + n2 - a + 1 - a).toNat : ℤ) : ℝ) = ((n1 + n2 - 2 * a + 1 : ℤ) : ℝ) := by congr 1; omega
    rw [← Int.cast_natCast, this]; push_cast; rfl
  rw [hc q h0 h1, ← s1, ← s2]
  unfold dot
  rw [Finset.sum_comm, Finset.sum_comm (s := Finset.Icc a (n1 + n2 - a))]
  refine Finset.sum_congr rfl fun p hp => ?_
  have t1 : ∑ q ∈ Finset.Icc 0 n2, C p q ^ 2 =
      ∑ q ∈ Finset.Icc (max 0 (a - p)) (min n2 (n1 + n2 - a - p)), C p q ^ 2 := by
    symm
    refine Finset.sum_subset (Finset.Icc_subset_Icc (by omega) (by omega)) fun q hq hq' => ?_
    rw [Finset.mem_Icc] at hq hq'
    rw [h.supp3 p q (by omega)]; ring
  have t2 : ∑ k ∈ Finset.Icc a (n1 + n2 - a), C p (k - p) * C p (k - p) =
      ∑ k ∈ Finset.Icc (max a p) (min (n2 + p) (n1 + n2 - a)), C p (k - p) * C p (k - p) := by
    symm
    refine Finset.sum_subset (Finset.Icc_subset_Icc (by omega) (by omega)) fun q hq hq' => ?_
    rw [Finset.mem_Icc] at hq hq'
    rw [h.supp p (q - p) (by omega)]; ring
  rw [t1, t2]
  refine Finset.sum_nbij' (· + p) (· - p) ?_ ?_ ?_ ?_ ?_
  · intro x hx; rw [Finset.mem_Icc] at hx ⊢; omega
  · intro x hx; rw [Finset.mem_Icc] at hx ⊢; omega
  · intro x _; omega
  · intro x _; omega
  · intro x _; simp only [add_sub_cancel_right]; ring

end Acm.Ladder
