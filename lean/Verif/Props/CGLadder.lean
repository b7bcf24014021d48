import Verif.Lemmas.CGLadder
import Verif.Props.CGSO3

/-!
# `CG_SO3` computes the Clebsch-Gordan coefficients: C85, C86, C87
-/

namespace Acm.Props

open Acm Acm.Spec Acm.Ladder

/-- C85.  Clebsch-Gordan coefficients exist for every triangle of angular momenta. -/
theorem C85_exists (j1 j2 j3 : ℚ) (h : Couples j1 j2 j3) : ∃ C, IsClebschGordan j1 j2 j3 C := by
  obtain ⟨a, b, c, t⟩ := exists_tri h
  classical
  refine ⟨fun m1 m2 => if ∃ p q : ℤ, j1 + m1 = p ∧ j2 + m2 = q then D a b c ⌊j1 + m1⌋ ⌊j2 + m2⌋ else 0,
    D_isCG t _ ?_ ?_⟩
  · intro m1 m2 p q h1 h2
    rw [if_pos ⟨p, q, h1, h2⟩, h1, h2, Int.floor_intCast, Int.floor_intCast]
  · intro m1 m2 hh
    rw [if_neg hh]

/-- C85.  They are what `CG_SO3` returns: any coefficients obeying the ladder relations, of norm 1 and with the phase
of Condon and Shortley, agree with it at all half-integers. -/
theorem C85_CG_SO3 (j1 j2 j3 : ℚ) (h : Couples j1 j2 j3) (C : ℚ → ℚ → ℝ) (hC : IsClebschGordan j1 j2 j3 C)
    (m1 m2 : ℚ) (h1 : HalfInt m1) (h2 : HalfInt m2) :
    CG_SO3 j1 m1 j2 m2 j3 (m1 + m2) = .ok (C m1 m2) := by
  obtain ⟨a, b, c, t⟩ := exists_tri h
  by_cases hi : ∃ p q : ℤ, j1 + m1 = p ∧ j2 + m2 = q
  · obtain ⟨p, q, e1, e2⟩ := hi
    obtain rfl : m1 = p - j1 := by linarith
    obtain rfl : m2 = q - j2 := by linarith
    rw [CG_D t, isCG_eq_D t hC]
  · rw [hC.zero m1 m2 (fun hh => hi (by
      obtain ⟨⟨-, p, hp⟩, ⟨-, q, hq⟩, -⟩ := hh
      exact ⟨p, q, hp, hq⟩))]
    refine CG_SO3_zero t.half1 h1 t.half2 h2 t.half3 (half_add h1 h2) fun hh => hi ?_
    obtain ⟨-, -, -, ⟨p, hp⟩, ⟨q, hq⟩, -⟩ := hh
    exact ⟨p, q, hp, hq⟩

/-- C85.  All the ladder relations hold, also where a state is annihilated: lowering. -/
theorem C85_lowering (j1 j2 j3 m1 m2 : ℚ) (h : Couples j1 j2 j3) (h1 : Proj j1 m1) (h2 : Proj j2 m2) :
    ∃ x y z, CG_SO3 j1 m1 j2 m2 j3 (m1 + m2) = .ok x ∧
      CG_SO3 j1 (m1 + 1) j2 m2 j3 (m1 + m2 + 1) = .ok y ∧ CG_SO3 j1 m1 j2 (m2 + 1) j3 (m1 + m2 + 1) = .ok z ∧
      stepFactor j3 (m1 + m2) * x = stepFactor j1 m1 * y + stepFactor j2 m2 * z := by
  obtain ⟨a, b, c, t⟩ := exists_tri h
  obtain ⟨-, p, e1⟩ := h1
  obtain ⟨-, q, e2⟩ := h2
  refine ⟨_, _, _, CG_D' t e1 e2 rfl, CG_D' (p := p + 1) t (by push_cast; linarith) e2 (by ring),
    CG_D' (q := q + 1) t e1 (by push_cast; linarith) (by ring), ?_⟩
  have l := (D_coupled a b c).lo p q
  unfold Lo at l
  rw [show (a + b + (a + c) - 2 * a : ℤ) = b + c by ring] at l
  rw [step_u t.e1 e1, step_u t.e2 e2, step_u (p := p + q - a) t.e3 (by push_cast; linarith [t.ha]), l]

/-- C85.  The ladder relations: raising. -/
theorem C85_raising (j1 j2 j3 m1 m2 : ℚ) (h : Couples j1 j2 j3) (h1 : Proj j1 m1) (h2 : Proj j2 m2) :
    ∃ x y z, CG_SO3 j1 m1 j2 m2 j3 (m1 + m2) = .ok x ∧
      CG_SO3 j1 (m1 - 1) j2 m2 j3 (m1 + m2 - 1) = .ok y ∧ CG_SO3 j1 m1 j2 (m2 - 1) j3 (m1 + m2 - 1) = .ok z ∧
      stepFactor j3 (m1 + m2 - 1) * x = stepFactor j1 (m1 - 1) * y + stepFactor j2 (m2 - 1) * z := by
  obtain ⟨a, b, c, t⟩ := exists_tri h
  obtain ⟨-, p, e1⟩ := h1
  obtain ⟨-, q, e2⟩ := h2
  refine ⟨_, _, _, CG_D' t e1 e2 rfl, CG_D' (p := p - 1) t (by push_cast; linarith) e2 (by ring),
    CG_D' (q := q - 1) t e1 (by push_cast; linarith) (by ring), ?_⟩
  have l := (D_coupled a b c).up p q
  unfold Up at l
  rw [show (a + b + (a + c) - 2 * a : ℤ) = b + c by ring] at l
  rw [step_u (p := p - 1) t.e1 (by push_cast; linarith), step_u (p := q - 1) t.e2 (by push_cast; linarith),
    step_u (p := p + q - a - 1) t.e3 (by push_cast; linarith [t.ha]), l]

/-- Coefficients for the coupling of 3/2 and 1 to 5/2. -/
example : ∃ C, IsClebschGordan (3 / 2) 1 (5 / 2) C :=
  C85_exists _ _ _ ⟨⟨3, by norm_num⟩, ⟨2, by norm_num⟩, ⟨5, by norm_num⟩, by norm_num, by norm_num, by norm_num⟩

/-- A triangle with half-integers, and projections. -/
example : Couples (3 / 2) 1 (5 / 2) ∧ Proj (3 / 2) (-1 / 2) ∧ Proj 1 0 := by
  refine ⟨⟨⟨3, by norm_num⟩, ⟨2, by norm_num⟩, ⟨5, by norm_num⟩, by norm_num, by norm_num, by norm_num⟩,
    ⟨by norm_num, 1, by norm_num⟩, ⟨by norm_num, 1, by norm_num⟩⟩

/-- `C` tabulates the answers of `CG_SO3`. -/
def Tabulates (C : ℚ → ℚ → ℚ → ℚ → ℚ → ℚ → ℝ) : Prop :=
  ∀ j1 m1 j2 m2 j3 m3, HalfInt j1 → HalfInt m1 → HalfInt j2 → HalfInt m2 → HalfInt j3 → HalfInt m3 →
    CG_SO3 j1 m1 j2 m2 j3 m3 = .ok (C j1 m1 j2 m2 j3 m3)

/-- There is such a table. -/
example : ∃ C, Tabulates C := by
  classical
  refine ⟨fun j1 m1 j2 m2 j3 m3 => (CG_SO3 j1 m1 j2 m2 j3 m3).toOption.getD 0, ?_⟩
  intro j1 m1 j2 m2 j3 m3 h1 h2 h3 h4 h5 h6
  obtain ⟨x, hx, -⟩ := C57_CG_SO3_total j1 m1 j2 m2 j3 m3 h1 h2 h3 h4 h5 h6
  beta_reduce
  rw [hx]
  rfl

theorem tab_D {C : ℚ → ℚ → ℚ → ℚ → ℚ → ℚ → ℝ} (hC : Tabulates C) {j1 j2 j3 m1 m2 m3 : ℚ} {a b c : ℕ}
    (t : Tri j1 j2 j3 a b c) {p q : ℤ} (h1 : j1 + m1 = p) (h2 : j2 + m2 = q) (h3 : m1 + m2 = m3) :
    C j1 m1 j2 m2 j3 m3 = D a b c p q := by
  have e1 : m1 = p - j1 := by linarith
  have e2 : m2 = q - j2 := by linarith
  have g1 : HalfInt m1 := by rw [e1]; exact half_sub t.half1 p
  have g2 : HalfInt m2 := by rw [e2]; exact half_sub t.half2 q
  have h := hC j1 m1 j2 m2 j3 m3 t.half1 g1 t.half2 g2 t.half3 (by rw [← h3]; exact half_add g1 g2)
  rw [CG_D' t h1 h2 h3] at h
  injection h with h
  exact h.symm

/-- C86.  The coupled states are orthonormal. -/
theorem C86_orthonormal (C : ℚ → ℚ → ℚ → ℚ → ℚ → ℚ → ℝ) (hC : Tabulates C) (j1 j2 j3 j3' M : ℚ)
    (h : Couples j1 j2 j3) (h' : Couples j1 j2 j3') (hM : Proj j3 M) (hM' : Proj j3' M) :
    projSum j1 (fun m1 => C j1 m1 j2 (M - m1) j3 M * C j1 m1 j2 (M - m1) j3' M) = if j3 = j3' then 1 else 0 := by
  obtain ⟨a, b, c, t⟩ := exists_tri h
  obtain ⟨a', b', c', t'⟩ := exists_tri h'
  have q1 : a + b = a' + b' := by
    have h1 := t.e1
    rw [t'.e1] at h1
    have := Int.cast_injective h1
    omega
  have q2 : a + c = a' + c' := by
    have h1 := t.e2
    rw [t'.e2] at h1
    have := Int.cast_injective h1
    omega
  have hM0 := hM
  obtain ⟨-, r, hr⟩ := hM
  have hk := (proj_iff t.e3 hr).1 hM0
  rw [projSum_eq (n := a + b) (by have := t.e1; push_cast at this ⊢; exact this)]
  have e : ∀ p ∈ Finset.Icc (0 : ℤ) (a + b : ℕ), C j1 (p - j1) j2 (M - (p - j1)) j3 M *
      C j1 (p - j1) j2 (M - (p - j1)) j3' M = D a b c p (r + a - p) * D a' b' c' p (r + a - p) := by
    intro p _
    rw [tab_D hC t (p := p) (q := r + a - p) (by ring) (by push_cast; linarith [t.ha]) (by ring),
      tab_D hC t' (p := p) (q := r + a - p) (by ring) (by push_cast; linarith [t.ha]) (by ring)]
  rw [Finset.sum_congr rfl e]
  have hD := D_coupled a b c
  have hD' := D_coupled a' b' c'
  rw [show (a' : ℤ) + b' = a + b by omega, show (a' : ℤ) + c' = a + c by omega] at hD'
  split_ifs with hj
  · subst hj
    obtain rfl : a = a' := by
      have := t.ha
      rw [t'.ha] at this
      exact_mod_cast this.symm
    obtain rfl : b = b' := by omega
    obtain rfl : c = c' := by omega
    have := norm_const hD (r + a) (by omega) (by omega)
    rw [top_eq, D_norm] at this
    push_cast
    exact this
  · have hne : (a : ℤ) ≠ a' := by
      intro hh
      have hh : (a : ℚ) = a' := by exact_mod_cast hh
      exact hj (by linarith [t.ha, t'.ha])
    have := orthogonal hD hD' hne (r + a)
    push_cast
    exact this

/-- Two couplings of 3/2 and 1 with a common projection. -/
example : Couples (3 / 2) 1 (5 / 2) ∧ Couples (3 / 2) 1 (1 / 2) ∧ Proj (5 / 2) (1 / 2) ∧ Proj (1 / 2) (1 / 2) := by
  refine ⟨⟨⟨3, by norm_num⟩, ⟨2, by norm_num⟩, ⟨5, by norm_num⟩, by norm_num, by norm_num, by norm_num⟩,
    ⟨⟨3, by norm_num⟩, ⟨2, by norm_num⟩, ⟨3, by norm_num⟩, by norm_num, by norm_num, by norm_num⟩,
    ⟨by norm_num, 3, by norm_num⟩, ⟨by norm_num, 1, by norm_num⟩⟩

/-- C86.  The coupled states are complete: the sum over `j3 = j1 + j2, j1 + j2 - 1, ..., |j1 - j2|`. -/
theorem C86_complete (C : ℚ → ℚ → ℚ → ℚ → ℚ → ℚ → ℝ) (hC : Tabulates C) (j1 j2 m1 m2 m1' m2' : ℚ)
    (h1 : HalfInt j1) (h2 : HalfInt j2) (hm1 : Proj j1 m1) (hm2 : Proj j2 m2) (hm1' : Proj j1 m1') (hm2' : Proj j2 m2')
    (hM : m1 + m2 = m1' + m2') :
    ∑ k ∈ Finset.range (⌊2 * min j1 j2⌋₊ + 1), C j1 m1 j2 m2 (j1 + j2 - k) (m1 + m2) *
      C j1 m1' j2 m2' (j1 + j2 - k) (m1 + m2) = if m1 = m1' then 1 else 0 := by
  obtain ⟨k1, f1⟩ := h1
  obtain ⟨k2, f2⟩ := h2
  have p1 : 0 ≤ j1 := by linarith [hm1.1.1, hm1.1.2]
  have p2 : 0 ≤ j2 := by linarith [hm2.1.1, hm2.1.2]
  obtain ⟨n1, g1⟩ := exists_nat_of_int (x := 2 * j1) ⟨k1, by linarith⟩ (by linarith)
  obtain ⟨n2, g2⟩ := exists_nat_of_int (x := 2 * j2) ⟨k2, by linarith⟩ (by linarith)
  have g1' : 2 * j1 = ((n1 : ℤ) : ℚ) := by rw [g1]; push_cast; rfl
  have g2' : 2 * j2 = ((n2 : ℤ) : ℚ) := by rw [g2]; push_cast; rfl
  have hmin : 2 * min j1 j2 = ((min n1 n2 : ℕ) : ℚ) := by
    rw [mul_min_of_nonneg _ _ (by norm_num), g1, g2]; push_cast; rfl
  rw [hmin, Nat.floor_natCast]
  have hm1a := hm1
  have hm2a := hm2
  have hm1b := hm1'
  have hm2b := hm2'
  obtain ⟨-, p, e1⟩ := hm1
  obtain ⟨-, q, e2⟩ := hm2
  obtain ⟨-, p', e1'⟩ := hm1'
  obtain ⟨-, q', e2'⟩ := hm2'
  have hpq : p + q = p' + q' := by
    have : ((p + q : ℤ) : ℚ) = ((p' + q' : ℤ) : ℚ) := by push_cast; linarith
    exact Int.cast_injective this
  have hc := complete (n1 := n1) (n2 := n2) (F := fun a => D a.toNat (n1 - a.toNat) (n2 - a.toNat)) (by omega) (by omega)
    (by
      intro a i0 i1 i2
      have h := D_coupled a.toNat (n1 - a.toNat) (n2 - a.toNat)
      have hn := D_norm a.toNat (n1 - a.toNat) (n2 - a.toNat)
      rw [show ((a.toNat : ℤ) + (n1 - a.toNat : ℕ)) = n1 by omega, show ((a.toNat : ℤ) + (n2 - a.toNat : ℕ)) = n2 by omega,
        show ((a.toNat : ℤ)) = a by omega] at h
      rw [show ((a.toNat : ℤ) + (n1 - a.toNat : ℕ)) = n1 by omega,
        show ((n1 : ℤ) + (n2 - a.toNat : ℕ)) = n1 + n2 - a by omega] at hn
      exact ⟨h, hn⟩) p q p' q' ((proj_iff g1' e1).1 hm1a) ((proj_iff g2' e2).1 hm2a) ((proj_iff g1' e1').1 hm1b)
      ((proj_iff g2' e2').1 hm2b) hpq
  have hif : (if m1 = m1' then (1 : ℝ) else 0) = if p = p' then 1 else 0 := by
    have : m1 = m1' ↔ p = p' := by
      constructor
      · intro hh
        have : (p : ℚ) = p' := by linarith
        exact_mod_cast this
      · intro hh
        have : (p : ℚ) = p' := by exact_mod_cast hh
        linarith
    simp only [this]
  rw [hif, ← hc]
  refine Finset.sum_nbij' (fun k : ℕ => (k : ℤ)) Int.toNat ?_ ?_ ?_ ?_ ?_
  · intro x hx; rw [Finset.mem_range] at hx; rw [Finset.mem_Icc]; omega
  · intro x hx; rw [Finset.mem_Icc] at hx; rw [Finset.mem_range]; omega
  · intro x _; simp
  · intro x hx; rw [Finset.mem_Icc] at hx; omega
  · intro k hk
    rw [Finset.mem_range] at hk
    have t : Tri j1 j2 (j1 + j2 - k) k (n1 - k) (n2 - k) := by
      refine ⟨by ring, ?_, ?_⟩
      · rw [Nat.cast_sub (by omega)]; linarith
      · rw [Nat.cast_sub (by omega)]; linarith
    rw [Int.toNat_natCast, tab_D hC t e1 e2 rfl, tab_D hC t e1' e2' hM.symm]

/-- Projections of 3/2 and 1 with the same sum. -/
example : Proj (3 / 2) (1 / 2) ∧ Proj 1 0 ∧ Proj (3 / 2) (-1 / 2) ∧ Proj 1 1 ∧ (1 / 2 : ℚ) + 0 = -1 / 2 + 1 := by
  refine ⟨⟨by norm_num, 2, by norm_num⟩, ⟨by norm_num, 1, by norm_num⟩, ⟨by norm_num, 1, by norm_num⟩,
    ⟨by norm_num, 2, by norm_num⟩, by norm_num⟩

/-- C87.  Exchange of the two factors. -/
theorem C87_exchange (j1 m1 j2 m2 j3 m3 : ℚ) (h1 : HalfInt j1) (h2 : HalfInt m1) (h3 : HalfInt j2) (h4 : HalfInt m2)
    (h5 : HalfInt j3) (h6 : HalfInt m3) (n : ℤ) (hn : j1 + j2 - j3 = n) (x : ℝ)
    (hx : CG_SO3 j1 m1 j2 m2 j3 m3 = .ok x) : CG_SO3 j2 m2 j1 m1 j3 m3 = .ok ((-1) ^ n * x) := by
  by_cases hr : CGRules j1 m1 j2 m2 j3 m3
  · have hr' := hr
    obtain ⟨-, -, -, ⟨p, hp⟩, ⟨q, hq⟩, -, hm, k1, k2, k3⟩ := hr
    obtain ⟨i1, f1⟩ := h1
    obtain ⟨i2, f2⟩ := h3
    obtain ⟨a, b, c, t⟩ := exists_tri (j1 := j1) (j2 := j2) (j3 := j3) ⟨⟨i1, by linarith⟩, ⟨i2, by linarith⟩,
      ⟨i1 + i2 - n, by push_cast; linarith⟩, by linarith, by linarith, by linarith⟩
    rw [CG_D' t hp hq hm] at hx
    injection hx with hx
    rw [CG_D' t.swap hq hp (by linarith), D_exchange, hx]
    have : n = (a : ℤ) := by
      have := t.ha
      rw [hn] at this
      exact_mod_cast this
    rw [this, zpow_natCast]
  · rw [CG_SO3_zero h1 h2 h3 h4 h5 h6 hr] at hx
    injection hx with hx
    rw [← hx, mul_zero]
    refine CG_SO3_zero h3 h4 h1 h2 h5 h6 fun hh => hr ?_
    obtain ⟨k1, k2, k3, k4, k5, k6, k7, k8, k9, k10⟩ := hh
    exact ⟨k2, k1, k3, k5, k4, k6, by linarith, by linarith, by linarith, by linarith⟩

theorem half_neg {x : ℚ} (h : HalfInt x) : HalfInt (-x) := by
  obtain ⟨n, rfl⟩ := h
  exact ⟨-n, by push_cast; ring⟩

/-- The difference of a half-integer and its negative. -/
theorem int_neg {j m : ℚ} (hj : HalfInt j) (h : ∃ n : ℤ, j + m = n) : ∃ n : ℤ, j + -m = n := by
  obtain ⟨k, hk⟩ := hj
  obtain ⟨n, hn⟩ := h
  exact ⟨k - n, by push_cast; linarith⟩

/-- C87.  Reversal of all projections. -/
theorem C87_reverse (j1 m1 j2 m2 j3 m3 : ℚ) (h1 : HalfInt j1) (h2 : HalfInt m1) (h3 : HalfInt j2) (h4 : HalfInt m2)
    (h5 : HalfInt j3) (h6 : HalfInt m3) (n : ℤ) (hn : j1 + j2 - j3 = n) (x : ℝ)
    (hx : CG_SO3 j1 m1 j2 m2 j3 m3 = .ok x) : CG_SO3 j1 (-m1) j2 (-m2) j3 (-m3) = .ok ((-1) ^ n * x) := by
  by_cases hr : CGRules j1 m1 j2 m2 j3 m3
  · obtain ⟨-, -, -, ⟨p, hp⟩, ⟨q, hq⟩, -, hm, k1, k2, k3⟩ := hr
    obtain ⟨i1, f1⟩ := h1
    obtain ⟨i2, f2⟩ := h3
    obtain ⟨a, b, c, t⟩ := exists_tri (j1 := j1) (j2 := j2) (j3 := j3) ⟨⟨i1, by linarith⟩, ⟨i2, by linarith⟩,
      ⟨i1 + i2 - n, by push_cast; linarith⟩, by linarith, by linarith, by linarith⟩
    rw [CG_D' t hp hq hm] at hx
    injection hx with hx
    have e1 := t.e1
    have e2 := t.e2
    push_cast at e1 e2
    rw [CG_D' (p := a + b - p) (q := a + c - q) t (by push_cast; linarith) (by push_cast; linarith) (by linarith),
      D_reverse, hx]
    have : n = (a : ℤ) := by
      have := t.ha
      rw [hn] at this
      exact_mod_cast this
    rw [this, zpow_natCast]
  · rw [CG_SO3_zero h1 h2 h3 h4 h5 h6 hr] at hx
    injection hx with hx
    rw [← hx, mul_zero]
    refine CG_SO3_zero h1 (half_neg h2) h3 (half_neg h4) h5 (half_neg h6) fun hh => hr ?_
    obtain ⟨⟨k1, k1'⟩, ⟨k2, k2'⟩, ⟨k3, k3'⟩, k4, k5, k6, k7, k8⟩ := hh
    have k4 := int_neg h1 k4
    have k5 := int_neg h3 k5
    have k6 := int_neg h5 k6
    rw [neg_neg] at k4 k5 k6
    exact ⟨⟨by linarith, by linarith⟩, ⟨by linarith, by linarith⟩, ⟨by linarith, by linarith⟩, k4, k5, k6,
      by linarith, k8⟩

/-- C87.  Exchange of a factor and the coupled state. -/
theorem C87_turn (j1 m1 j2 m2 j3 m3 : ℚ) (h1 : HalfInt j1) (h2 : HalfInt m1) (h3 : HalfInt j2) (h4 : HalfInt m2)
    (h5 : HalfInt j3) (h6 : HalfInt m3) (n : ℤ) (hn : j1 - m1 = n) (x : ℝ)
    (hx : CG_SO3 j1 m1 j2 m2 j3 m3 = .ok x) :
    CG_SO3 j1 m1 j3 (-m3) j2 (-m2) = .ok ((-1) ^ n * Real.sqrt ((2 * j2 + 1) / (2 * j3 + 1)) * x) := by
  by_cases hr : CGRules j1 m1 j2 m2 j3 m3
  · obtain ⟨-, -, -, ⟨p, hp⟩, ⟨q, hq⟩, ⟨r, hr⟩, hm, k1, k2, k3⟩ := hr
    obtain ⟨i1, f1⟩ := h1
    obtain ⟨i2, f2⟩ := h3
    obtain ⟨a, b, c, t⟩ := exists_tri (j1 := j1) (j2 := j2) (j3 := j3) ⟨⟨i1, by linarith⟩, ⟨i2, by linarith⟩,
      ⟨i1 + i2 - (p + q - r), by push_cast; linarith⟩, by linarith, by linarith, by linarith⟩
    rw [CG_D' t hp hq hm] at hx
    injection hx with hx
    have e1 := t.e1
    have e2 := t.e2
    have e3 := t.e3
    push_cast at e1 e2 e3
    rw [CG_D' (p := p) (q := a + b + c - p - q) t.turn hp (by push_cast; linarith [t.ha]) (by linarith), D_turn, hx]
    have : n = (a + b - p : ℤ) := by
      have : (n : ℚ) = ((a + b - p : ℤ) : ℚ) := by push_cast; linarith
      exact Int.cast_injective this
    have c2 : (2 * (j2 : ℝ) + 1) = a + c + 1 := by exact_mod_cast congrArg (Rat.cast : ℚ → ℝ) (congrArg (· + 1) e2)
    have c3 : (2 * (j3 : ℝ) + 1) = b + c + 1 := by exact_mod_cast congrArg (Rat.cast : ℚ → ℝ) (congrArg (· + 1) e3)
    rw [this, c2, c3]
  · rw [CG_SO3_zero h1 h2 h3 h4 h5 h6 hr] at hx
    injection hx with hx
    rw [← hx, mul_zero]
    refine CG_SO3_zero h1 h2 h5 (half_neg h6) h3 (half_neg h4) fun hh => hr ?_
    obtain ⟨k1, ⟨k2, k2'⟩, ⟨k3, k3'⟩, k4, k5, k6, k7, k8, k9, k10⟩ := hh
    have k5 := int_neg h5 k5
    have k6 := int_neg h3 k6
    rw [neg_neg] at k5 k6
    exact ⟨k1, ⟨by linarith, by linarith⟩, ⟨by linarith, by linarith⟩, k4, k6, k5, by linarith, by linarith, by linarith,
      by linarith⟩

/-- Labels that meet the selection rules: (3/2 1/2 1 -1 | 3/2 -1/2), with `j1 + j2 - j3 = 1`, `j1 - m1 = 1`. -/
example : HalfInt (3 / 2) ∧ HalfInt (1 / 2) ∧ HalfInt 1 ∧ HalfInt (-1) ∧ HalfInt (-1 / 2) ∧
    CGRules (3 / 2) (1 / 2) 1 (-1) (3 / 2) (-1 / 2) ∧ (3 / 2 : ℚ) + 1 - 3 / 2 = (1 : ℤ) ∧
    (3 / 2 : ℚ) - 1 / 2 = (1 : ℤ) := by
  refine ⟨⟨3, by norm_num⟩, ⟨1, by norm_num⟩, ⟨2, by norm_num⟩, ⟨-2, by norm_num⟩, ⟨-1, by norm_num⟩,
    ⟨by norm_num, by norm_num, by norm_num, ⟨2, by norm_num⟩, ⟨0, by norm_num⟩, ⟨1, by norm_num⟩, by norm_num,
      by norm_num⟩, by norm_num, by norm_num⟩

end Acm.Props
