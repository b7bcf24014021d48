import Verif.Props.RadialBasis

/-!
# Property C92: products of radial operators are integrals
-/

namespace Acm.Props
open Acm Spec RadialBasis Polynomial Spec.RadialBasis

/-- What a symbol does to the polynomial of a function `beta^(lambda - 1/2) exp(-beta^2/2) p(beta^2)`. -/
noncomputable def polyAct (a lam : ℝ) : RadSym → ℝ[X] → ℝ[X]
  | .b2, p => C (a⁻¹ ^ 2) * (X * p)
  | .bDb, p => T lam p
  | .S0, p => C (lam / 2) * p - (C lam - X) * derivative p - X * derivative (derivative p)
  | .Sp, p => (X - C lam) * p + (C lam - 2 * X) * derivative p + X * derivative (derivative p)
  | .Sm, p => C lam * derivative p + X * derivative (derivative p)
  | _, _ => 0

theorem polyAct_add (a lam : ℝ) (s : RadSym) (p q : ℝ[X]) : polyAct a lam s (p + q) = polyAct a lam s p + polyAct a lam s q := by
  cases s <;> simp only [polyAct, T, derivative_add, add_zero] <;> ring

theorem polyAct_smul (a lam : ℝ) (s : RadSym) (c : ℝ) (p : ℝ[X]) : polyAct a lam s (C c * p) = C c * polyAct a lam s p := by
  cases s <;> simp only [polyAct, T, derivative_C_mul, mul_zero] <;> ring

theorem polyAct_sum (a lam : ℝ) (s : RadSym) {ι : Type} (t : Finset ι) (f : ι → ℝ[X]) :
    polyAct a lam s (∑ k ∈ t, f k) = ∑ k ∈ t, polyAct a lam s (f k) := by
  classical
  induction t using Finset.induction_on with
  | empty =>
    have := polyAct_smul a lam s 0 0
    simpa using this
  | insert x t hx ih => rw [Finset.sum_insert hx, Finset.sum_insert hx, polyAct_add, ih]

theorem T_T' (lam : ℝ) (p : ℝ[X]) : T (lam - 1) (T lam p) = C ((lam - 3 / 2) * (lam - 1 / 2)) * p
    + X * ((X - C (2 * lam)) * p + C 4 * ((C lam - X) * derivative p + X * derivative (derivative p))) := by
  have h1 : derivative (T lam p) = -p + (C (lam - 1 / 2) - X) * derivative p
      + 2 * derivative p + 2 * X * derivative (derivative p) := by
    simp only [T, derivative_add, derivative_mul, derivative_sub, derivative_C, derivative_X, derivative_ofNat]
    ring
  have c1 : C (lam - 1 / 2) = C lam - C (1 / 2) := by rw [← C_sub]
  have c2 : C (lam - 1 - 1 / 2) = C lam - 1 - C (1 / 2) := by rw [← C_1, ← C_sub, ← C_sub]
  have c3 : C ((lam - 3 / 2) * (lam - 1 / 2)) = (C lam - 1 - C (1 / 2)) * (C lam - C (1 / 2)) := by
    rw [← c2, ← c1, ← C_mul]; congr 1; ring
  have c4 : C (2 * lam : ℝ) = 2 * C lam := by rw [C_mul, C_ofNat]
  have c5 : (2 : ℝ[X]) * C (1 / 2) = 1 := by
    rw [← C_ofNat, ← C_mul]; norm_num
  have c6 : (C 4 : ℝ[X]) = 4 := C_ofNat 4
  rw [T, h1, T, c1, c2, c3, c4, c6]
  linear_combination (X * p - 2 * X * derivative p) * c5

/-- The operators act on such functions through the polynomial. -/
theorem opAct_poly {a lam : ℝ} (ha : 0 < a) {s : RadSym} {m : RadME} (hm : bandedME s = some m) {p : ℝ[X]} {f : ℝ → ℝ}
    (hf : Is a lam p f) : Is a lam (polyAct a lam s p) (opAct a lam (some s) f) := by
  have hT : ∀ (s c : ℝ) (p : ℝ[X]), T s (C c * p) = C c * T s p := by
    intro s c p
    simp only [T, derivative_mul, derivative_C]
    ring
  have hD := hf.deriv ha
  have hDD := hD.deriv ha
  rw [hT, ← mul_assoc (C a) (C a), ← C_mul, ← sq, show lam - 1 - 1 = lam - 2 by ring] at hDD
  have hbD := hD.up ha
  rw [← mul_assoc (C a⁻¹), ← C_mul, inv_mul_cancel₀ ha.ne', sub_add_cancel, C_1, one_mul] at hbD
  have e4 := hf.down2 ha
  have main : ∀ (α β γ : ℝ) (q : ℝ[X]) (F : ℝ → ℝ),
      (∀ b, F b = (α * (deriv (deriv f) b / a ^ 2 - (lam - 3 / 2) * (lam - 1 / 2) * f b / (a * b) ^ 2) + (a * b) ^ 2 * f b
        + β * b * deriv f b + γ * f b) / 4) →
      C 4 * q = C α * ((X - C (2 * lam)) * p + C 4 * ((C lam - X) * derivative p + X * derivative (derivative p))) + X * p
        + C β * T lam p + C γ * p →
      Is a lam q F := by
    intro α β γ q F hF hq b hb
    have hab := mul_pos ha hb
    have d0 := hf b hb
    have d1 := hbD b hb
    have d2 := hDD b hb
    have d3 := e4 b hb
    rw [wf_smul] at d2 d3
    have hq' : wf lam (C 4 * q) (a * b) = wf lam (C α * ((X - C (2 * lam)) * p + C 4 * ((C lam - X) * derivative p
        + X * derivative (derivative p))) + X * p + C β * T lam p + C γ * p) (a * b) := by rw [hq]
    rw [T_T'] at d2
    have e5 : wf (lam - 2) (C ((lam - 3 / 2) * (lam - 1 / 2)) * p
          + X * ((X - C (2 * lam)) * p + C 4 * ((C lam - X) * derivative p + X * derivative (derivative p)))) (a * b)
        = wf lam ((X - C (2 * lam)) * p + C 4 * ((C lam - X) * derivative p + X * derivative (derivative p))) (a * b)
          + (lam - 3 / 2) * (lam - 1 / 2) * wf (lam - 2) p (a * b) := by
      rw [wf_add, wf_smul, add_comm]
      congr 1
      exact Is.shift (s := lam) (q := (X - C (2 * lam)) * p + C 4 * ((C lam - X) * derivative p + X * derivative (derivative p)))
        (f := fun b => wf (lam - 2) (X * ((X - C (2 * lam)) * p + C 4 * ((C lam - X) * derivative p + X * derivative (derivative p)))) (a * b))
        ha (fun _ _ => rfl) b hb
    rw [e5] at d2
    rw [wf_add, wf_add, wf_add, wf_smul, wf_smul, wf_smul, wf_smul, wf_X] at hq'
    rw [hF]
    have d1' : b * deriv f b = wf lam (T lam p) (a * b) := d1
    have d3' : (lam - 3 / 2) * (lam - 1 / 2) * f b / (a * b) ^ 2 = (lam - 3 / 2) * (lam - 1 / 2) * wf (lam - 2) p (a * b) := by
      rw [mul_pow, mul_div_assoc]
      have : f b / (a ^ 2 * b ^ 2) = (f b / b ^ 2) / a ^ 2 := by field_simp
      rw [this, show f b / b ^ 2 = _ from d3]
      field_simp
    have d2' : deriv (deriv f) b / a ^ 2 = wf lam ((X - C (2 * lam)) * p + C 4 * ((C lam - X) * derivative p
        + X * derivative (derivative p))) (a * b) + (lam - 3 / 2) * (lam - 1 / 2) * wf (lam - 2) p (a * b) := by
      rw [d2]; field_simp
    rw [d3', d2', mul_assoc β, d1', d0]
    linear_combination (-1 / 4 : ℝ) * hq'
  have n4 : (C 4 : ℝ[X]) = 4 := C_ofNat 4
  have c4 : C (2 * lam : ℝ) = 2 * C lam := by rw [C_mul, C_ofNat]
  have c1 : C (lam - 1 / 2) = C lam - C (1 / 2) := by rw [← C_sub]
  have half : (2 : ℝ[X]) * C (1 / 2) = 1 := by
    rw [← C_ofNat, ← C_mul]; norm_num
  cases s <;> simp only [bandedME, Option.some.injEq, reduceCtorEq] at hm
  · refine main 1 2 1 _ _ (fun b => ?_) ?_
    · simp only [opAct]; ring
    · simp only [polyAct, T]
      rw [n4, c4, c1, C_1, C_ofNat]
      linear_combination p * half
  · refine main (-1) 0 0 _ _ (fun b => ?_) ?_
    · simp only [opAct]; ring
    · have : C (lam / 2) = C (1 / 2) * C lam := by rw [← C_mul]; congr 1; ring
      simp only [polyAct]
      rw [n4, this, c4, C_neg, C_1, C_0]
      linear_combination (2 * C lam * p) * half
  · refine main 1 (-2) (-1) _ _ (fun b => ?_) ?_
    · simp only [opAct]; ring
    · simp only [polyAct, T]
      rw [n4, c4, c1, C_neg, C_neg, C_1, C_ofNat]
      linear_combination -p * half
  · exact hf.up2 ha
  · exact hbD

/-- The columns of the matrices are finite expansions in the basis. -/
theorem polyAct_lag {a lam : ℝ} (ha : 0 < a) (h : 0 < lam) {s : RadSym} {m : RadME} (hm : bandedME s = some m)
    {g : ℕ → ℕ → ℝ} (hg : Entries (m.fn lam) g) (n : ℕ) :
    (∀ k, n + 2 ≤ k → g k n = 0) ∧ C (1 / K lam n) * polyAct a lam s (lag lam n)
      = C (a ^ symExpo s) * ∑ k ∈ Finset.range (n + 2), C (g k n) * (C (1 / K lam k) * lag lam k) := by
  have ode := lag_ode lam n
  have x1 := X_lag' n lam
  have x2 := X_deriv_lag lam n
  have t1 := T_lag lam n
  have c3 : C (2 * n + lam : ℝ) = 2 * (n : ℝ[X]) + C lam := by
    rw [C_add, C_mul, C_ofNat, map_natCast]
  rw [c3] at x1
  rw [map_natCast] at ode x2
  -- single terms
  have single : ∀ (v : ℕ → ℝ) (c : ℝ) (k0 : ℕ), k0 < n + 2 → (∀ k, k ≠ k0 → v k = 0) → v k0 * (1 / K lam k0) = 1 / K lam n * c →
      ∑ k ∈ Finset.range (n + 2), C (v k) * (C (1 / K lam k) * lag lam k) = C (1 / K lam n) * (C c * lag lam k0) := by
    intro v c k0 h0 hv hc
    rw [Finset.sum_eq_single k0]
    · rw [← mul_assoc, ← mul_assoc, ← C_mul, ← C_mul, hc]
    · intro k _ hk
      rw [hv k hk]; simp
    · intro hk
      exact absurd (Finset.mem_range.2 h0) hk
  have hK := (K_pos h n).ne'
  have sSp : ∑ k ∈ Finset.range (n + 2), C (vSp lam k n) * (C (1 / K lam k) * lag lam k) = C (1 / K lam n) * lag lam (n + 1) := by
    rw [single (fun k => vSp lam k n) 1 (n + 1) (by omega) (fun k hk => if_neg hk) ?_, C_1, one_mul]
    have h3 : 0 < (lam + n) * (n + 1) := by positivity
    have h4 := (Real.sqrt_pos.2 h3).ne'
    simp only [vSp, if_true]
    rw [K_succ h]
    field_simp
  have sSm : ∑ k ∈ Finset.range (n + 2), C (vSm lam k n) * (C (1 / K lam k) * lag lam k)
      = C (1 / K lam n) * (C (n * (n - 1 + lam)) * lag lam (n - 1)) := by
    rcases n with _ | n
    · rw [Finset.sum_eq_zero]
      · simp
      · intro k _
        simp [vSm]
    · refine single (fun k => vSm lam k (n + 1)) _ n (by omega) (fun k hk => if_neg (by omega)) ?_
      have h3 : 0 < (lam + n) * (n + 1) := by positivity
      have h4 := (Real.sqrt_pos.2 h3).ne'
      have h5 := Real.mul_self_sqrt h3.le
      have hKn := (K_pos h n).ne'
      have e2 : ((n + 1 : ℕ) : ℝ) * (((n + 1 : ℕ) : ℝ) - 1 + lam) = (lam + n) * (n + 1) := by push_cast; ring
      simp only [vSm, if_true]
      rw [K_succ h, e2]
      generalize Real.sqrt ((lam + n) * (n + 1)) = S at *
      rw [← h5]
      field_simp
  have sId : ∀ c : ℝ, ∑ k ∈ Finset.range (n + 2), C (if k = n then c else 0) * (C (1 / K lam k) * lag lam k)
      = C (1 / K lam n) * (C c * lag lam n) := by
    intro c
    refine single (fun k => if k = n then c else 0) c n (by omega) (fun k hk => if_neg hk) ?_
    rw [if_pos rfl, mul_comm]
  have sS0 : ∑ k ∈ Finset.range (n + 2), C (vS0 lam k n) * (C (1 / K lam k) * lag lam k)
      = C (1 / K lam n) * (C (lam / 2 + n) * lag lam n) := sId (lam / 2 + n)
  cases s <;> simp only [bandedME, Option.some.injEq, reduceCtorEq] at hm <;> subst hm
  · have := entries_unique hg (Sm_ok h)
    subst this
    refine ⟨fun k hk => if_neg (by omega), ?_⟩
    rw [sSm]
    simp only [polyAct, symExpo, zpow_zero, C_1, one_mul]
    congr 1
    linear_combination ode + x2
  · have := entries_unique hg (S0_ok lam)
    subst this
    refine ⟨fun k hk => if_neg (by omega), ?_⟩
    rw [sS0]
    simp only [polyAct, symExpo, zpow_zero, C_1, one_mul]
    congr 1
    rw [C_add, map_natCast]
    linear_combination -ode
  · have := entries_unique hg (Sp_ok h)
    subst this
    refine ⟨fun k hk => if_neg (by omega), ?_⟩
    rw [sSp]
    simp only [polyAct, symExpo, zpow_zero, C_1, one_mul]
    congr 1
    linear_combination ode + x1 - x2
  · have := entries_unique hg (b2_ok h)
    subst this
    refine ⟨fun k hk => ?_, ?_⟩
    · simp only [vSp, vSm, vS0]
      rw [if_neg (by omega), if_neg (by omega), if_neg (by omega)]; simp
    · simp only [C_add, add_mul, Finset.sum_add_distrib, C_mul, mul_assoc (C (2 : ℝ)), ← Finset.mul_sum, sSp, sSm, sS0]
      simp only [polyAct, symExpo]
      rw [show (a⁻¹ ^ 2 : ℝ) = a ^ (-2 : ℤ) by rw [zpow_neg, inv_pow]; rfl, mul_left_comm (C (1 / K lam n)), x1]
      have : C (2 : ℝ) * (C (lam / 2) + C (n : ℝ)) = 2 * (n : ℝ[X]) + C lam := by
        rw [← c3, ← C_add, ← C_mul]; congr 1; ring
      congr 1
      simp only [C_mul, C_add, C_sub] at *
      linear_combination (-(C (1 / K lam n)) * lag lam n) * this
  · have := entries_unique hg (bDb_ok h)
    subst this
    refine ⟨fun k hk => ?_, ?_⟩
    · simp only [vSp, vSm, opId]
      rw [if_neg (by omega), if_neg (by omega), if_neg (by omega)]; simp
    · have s1 := sId 1
      simp only [C_sub, sub_mul, Finset.sum_sub_distrib, C_mul, mul_assoc (C (1 / 2 : ℝ)), ← Finset.mul_sum, sSp, sSm, opId, s1]
      simp only [polyAct, symExpo, zpow_zero, C_1, one_mul]
      rw [t1]
      simp only [C_mul, C_add, C_sub]
      ring

/-- A product of symbols: the rightmost acts first. -/
noncomputable def wordOp (a lam : ℝ) (w : List RadSym) (f : ℝ → ℝ) : ℝ → ℝ := w.foldr (fun s => opAct a lam (some s)) f

theorem word_lag {a lam : ℝ} (ha : 0 < a) (h : 0 < lam) : ∀ {ops : List RadSym} {fs : List (ℕ → ℕ → ℝ)} {P : ℕ → ℕ → ℝ},
    List.Forall₂ (fun s f => ∃ m, bandedME s = some m ∧ Entries (m.fn lam) f) ops fs → IsProd fs P → ∀ n, ∃ N,
      (∀ k, N ≤ k → P k n = 0) ∧
      Is a lam (C (Real.sqrt (2 * a)) * (C (a ^ (ops.map symExpo).sum) * ∑ k ∈ Finset.range N, C (P k n) * (C (1 / K lam k) * lag lam k)))
        (wordOp a lam ops (radialFn a lam n)) := by
  intro ops
  induction ops with
  | nil =>
    intro fs P hfs hP n
    cases hfs
    cases hP
    refine ⟨n + 1, fun k hk => if_neg (by omega), ?_⟩
    have := radialFn_is ha h n
    rw [Finset.sum_eq_single n]
    · simp only [List.map_nil, List.sum_nil, zpow_zero, C_1, one_mul, opId, if_true, wordOp, List.foldr_nil]
      rw [← mul_assoc, ← C_mul, mul_one_div]
      exact this
    · intro k _ hk
      simp [opId, hk]
    · intro hk
      exact absurd (Finset.mem_range.2 (Nat.lt_succ_self n)) hk
  | cons s ops ih =>
    intro fs P hfs hP n
    cases hfs with
    | @cons _ f _ fs' h1 h2 =>
      obtain ⟨m, hm, hf⟩ := h1
      cases hP with
      | @cons _ _ Q _ hQ hP =>
        obtain ⟨N, hN, hI⟩ := ih h2 hQ n
        have hcol : ∀ i, P i n = ∑ k ∈ Finset.range N, f i k * Q k n := by
          intro i
          refine (hP i n).unique (hasSum_sum_of_ne_finset_zero fun k hk => ?_)
          rw [hN k (by simpa using hk), mul_zero]
        have hz : ∀ i k, k < N → N + 1 ≤ i → f i k = 0 := fun i k hk hi => (polyAct_lag ha h hm hf k).1 i (by omega)
        refine ⟨N + 1, fun i hi => ?_, ?_⟩
        · rw [hcol]
          refine Finset.sum_eq_zero fun k hk => ?_
          rw [hz i k (Finset.mem_range.1 hk) hi, zero_mul]
        · have := opAct_poly ha hm hI
          rw [polyAct_smul, polyAct_smul, polyAct_sum] at this
          have e : ∑ k ∈ Finset.range N, polyAct a lam s (C (Q k n) * (C (1 / K lam k) * lag lam k))
              = C (a ^ symExpo s) * ∑ i ∈ Finset.range (N + 1), C (P i n) * (C (1 / K lam i) * lag lam i) := by
            have e1 : ∀ k ∈ Finset.range N, polyAct a lam s (C (Q k n) * (C (1 / K lam k) * lag lam k))
                = ∑ i ∈ Finset.range (N + 1), C (a ^ symExpo s) * (C (f i k * Q k n) * (C (1 / K lam i) * lag lam i)) := by
              intro k hk
              obtain ⟨p1, p2⟩ := polyAct_lag ha h hm hf k
              rw [polyAct_smul, polyAct_smul, p2]
              have hk' := Finset.mem_range.1 hk
              rw [Finset.sum_subset (Finset.range_subset_range.2 (by omega : k + 2 ≤ N + 1)), mul_left_comm, Finset.mul_sum, Finset.mul_sum]
              · refine Finset.sum_congr rfl fun i _ => ?_
                rw [C_mul]; ring
              · intro i _ hi
                rw [p1 i (by simpa using hi)]; simp
            rw [Finset.sum_congr rfl e1, Finset.sum_comm, Finset.mul_sum]
            refine Finset.sum_congr rfl fun i _ => ?_
            rw [← Finset.mul_sum, ← Finset.sum_mul, ← map_sum, hcol]
          rw [e, ← mul_assoc (C (a ^ (ops.map symExpo).sum)), ← C_mul, ← zpow_add₀ ha.ne', add_comm] at this
          exact this

/-- C92: the entries that `RepRadial_Prod` returns for a product of any number of `S-`, `S0`, `S+`, `beta^2` and
`beta d/dbeta`, with `nu_lap` at least the number of operators minus one, are the integrals of the final basis function times
the product of the differential operators applied to the initial one. -/
theorem C92_product_integral (la : LinAlg) (hla : LinAlgOk la) {a lam : ℝ} (ha : 0 < a) (h : 0 < lam) (ops : List RadSym)
    (hops : ∀ s ∈ ops, s ∈ [RadSym.Sm, .S0, .Sp, .b2, .bDb]) (nu_min nu_max nu_lap : ℕ) (hr : nu_min ≤ nu_max + 1)
    (hl : ops.length ≤ nu_lap + 1) :
    ∃ y, RepRadialProd la a ops lam 0 nu_min nu_max nu_lap = .ok y ∧ Square (nu_max + 1 - nu_min) y ∧
      ∀ i < nu_max + 1 - nu_min, ∀ j < nu_max + 1 - nu_min,
        Overlap (radialFn a lam (nu_min + i)) (ops.foldr (fun s => opAct a lam (some s)) (radialFn a lam (nu_min + j))) (y.e i j) := by
  obtain ⟨fs, hfs, hb⟩ : ∃ fs : List (ℕ → ℕ → ℝ),
      List.Forall₂ (fun s f => ∃ m, bandedME s = some m ∧ Entries (m.fn lam) f) ops fs ∧ ∀ f ∈ fs, Banded f := by
    clear hl
    induction ops with
    | nil => exact ⟨[], .nil, by simp⟩
    | cons s ops ih =>
      obtain ⟨fs, h1, h2⟩ := ih fun t ht => hops t (List.mem_cons_of_mem _ ht)
      obtain ⟨m, hm⟩ : ∃ m, bandedME s = some m := by
        have := hops s List.mem_cons_self
        simp only [List.mem_cons, List.not_mem_nil, or_false] at this
        rcases this with rfl | rfl | rfl | rfl | rfl <;> exact ⟨_, rfl⟩
      obtain ⟨f, f1, f2⟩ := banded_entries h hm
      exact ⟨f :: fs, .cons ⟨m, hm, f1⟩ h1, by simpa using ⟨f2, h2⟩⟩
  obtain ⟨P, hP, _⟩ := C18_product_exists fs hb
  obtain ⟨y, y1, y2, y3⟩ := C18_banded_product la hla a ha.ne' ops lam h nu_min nu_max nu_lap hr hl fs hfs P hP
  refine ⟨y, y1, y2, fun i hi j hj => ?_⟩
  obtain ⟨N, hN, hI⟩ := word_lag ha h hfs hP (nu_min + j)
  have := int_wf ha h (by ring : lam + lam = 2 * lam) (radialFn_is ha h (nu_min + i)) hI
  rw [wordOp] at this
  rw [y3 i hi j hj]
  convert this using 1
  have hK := (K_pos h (nu_min + i)).ne'
  have h3 := Real.mul_self_sqrt (by positivity : 0 ≤ 2 * a)
  rw [show C (Real.sqrt (2 * a) / K lam (nu_min + i)) * lag lam (nu_min + i) *
      (C (Real.sqrt (2 * a)) * (C (a ^ (ops.map symExpo).sum) * ∑ k ∈ Finset.range N, C (P k (nu_min + j)) * (C (1 / K lam k) * lag lam k)))
    = C (Real.sqrt (2 * a) / K lam (nu_min + i) * Real.sqrt (2 * a) * a ^ (ops.map symExpo).sum)
      * ∑ k ∈ Finset.range N, C (P k (nu_min + j) * (1 / K lam k)) * (lag lam (nu_min + i) * lag lam k) by
      simp only [C_mul, Finset.mul_sum]
      refine Finset.sum_congr rfl fun k _ => ?_
      ring]
  rw [← smul_eq_C_mul, map_smul, map_sum, smul_eq_mul]
  have e : ∀ k ∈ Finset.range N, mom lam (C (P k (nu_min + j) * (1 / K lam k)) * (lag lam (nu_min + i) * lag lam k))
      = if k = nu_min + i then P k (nu_min + j) * K lam k else 0 := by
    intro k _
    have hk := (K_pos h k).ne'
    rw [← smul_eq_C_mul, map_smul, smul_eq_mul, lag_orth h]
    by_cases hik : k = nu_min + i
    · rw [if_pos hik, if_pos hik.symm, ← K_sq h]
      field_simp
    · rw [if_neg hik, if_neg (Ne.symm hik), mul_zero]
  rw [Finset.sum_congr rfl e, Finset.sum_ite_eq']
  have e2 : (if nu_min + i ∈ Finset.range N then P (nu_min + i) (nu_min + j) * K lam (nu_min + i) else 0)
      = P (nu_min + i) (nu_min + j) * K lam (nu_min + i) := by
    split_ifs with hk
    · rfl
    · rw [hN _ (by simpa using hk), zero_mul]
  rw [e2, show Real.sqrt (2 * a) / K lam (nu_min + i) * Real.sqrt (2 * a) = 2 * a / K lam (nu_min + i) by
    rw [div_mul_eq_mul_div, h3]]
  field_simp

/-- `beta^2 S- beta^2` with `nu_lap = 2` in the window 1..4. -/
example : ∃ la, LinAlgOk la ∧ ∃ y, RepRadialProd la 2 [RadSym.b2, .Sm, .b2] (5 / 2) 0 (1 : ℕ) (4 : ℕ) (2 : ℕ) = .ok y ∧
    Overlap (radialFn 2 (5 / 2) 1) (opAct 2 (5 / 2) (some .b2) (opAct 2 (5 / 2) (some .Sm) (opAct 2 (5 / 2) (some .b2) (radialFn 2 (5 / 2) 3))))
      (y.e 0 2) := by
  obtain ⟨la, hla⟩ := linAlg_exists
  obtain ⟨y, h1, _, h3⟩ := C92_product_integral la hla (a := 2) (lam := 5 / 2) (by norm_num) (by norm_num) [RadSym.b2, .Sm, .b2] (by simp)
    1 4 2 (by norm_num) (by simp)
  exact ⟨la, hla, y, h1, h3 0 (by norm_num) 2 (by norm_num)⟩

end Acm.Props
