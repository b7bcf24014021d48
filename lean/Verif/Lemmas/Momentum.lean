import Verif.Spec.Momentum
import Mathlib.RingTheory.MvPolynomial.EulerIdentity
import Mathlib.RingTheory.Derivation.Lie
import Mathlib.Tactic.Module
import Mathlib.Tactic.FieldSimp
import Mathlib.Tactic.LinearCombination

/-!
# Position and momentum on harmonic polynomials
-/

namespace Acm.Momentum

open MvPolynomial Acm.Spec.Momentum

theorem q_apply (z : Fin 5 → ℂ) (p : P) : q z p = (∑ i, C (z i) * X i) * p := rfl

theorem R_apply (p : P) : R p = (∑ i, X i ^ 2) * p := rfl

theorem pi_apply (z : Fin 5 → ℂ) (p : P) : pi z p = ∑ i, C (z i) * pderiv i p := by
  simp [pi, MvPolynomial.smul_eq_C_mul]

theorem pderiv_zx (z : Fin 5 → ℂ) (i : Fin 5) : pderiv i (∑ j, C (z j) * X j) = C (z i) := by
  simp [map_sum, Derivation.leibniz, pderiv_X, Pi.single_apply]

theorem pderiv_r2 (i : Fin 5) : pderiv i (∑ j : Fin 5, X j ^ 2 : P) = 2 * X i := by
  simp [map_sum, Derivation.leibniz_pow, pderiv_X, Pi.single_apply]

theorem pi_q {z : Fin 5 → ℂ} (hz : Null z) (p : P) : pi z (q z p) = q z (pi z p) := by
  rw [pi_apply, q_apply, q_apply, pi_apply, Finset.mul_sum]
  have : ∀ i, C (z i) * pderiv i ((∑ j, C (z j) * X j) * p) =
      C (z i ^ 2) * p + (∑ j, C (z j) * X j) * (C (z i) * pderiv i p) := by
    intro i
    rw [Derivation.leibniz, pderiv_zx, smul_eq_mul, smul_eq_mul, map_pow]
    ring
  rw [Finset.sum_congr rfl fun i _ => this i, Finset.sum_add_distrib, ← Finset.sum_mul, ← map_sum]
  rw [show ∑ i, z i ^ 2 = 0 from hz]
  simp

theorem pi_R (z : Fin 5 → ℂ) (p : P) : pi z (R p) = R (pi z p) + (2 : ℂ) • q z p := by
  rw [pi_apply, R_apply, R_apply, pi_apply, q_apply, Finset.mul_sum]
  have : ∀ i, C (z i) * pderiv i ((∑ j, X j ^ 2) * p) =
      (∑ j, X j ^ 2) * (C (z i) * pderiv i p) + C 2 * (C (z i) * X i * p) := by
    intro i
    rw [Derivation.leibniz, pderiv_r2, smul_eq_mul, smul_eq_mul, show (C 2 : P) = 2 from map_ofNat C 2]
    ring
  rw [Finset.sum_congr rfl fun i _ => this i, Finset.sum_add_distrib, ← Finset.mul_sum, ← Finset.mul_sum, ← Finset.sum_mul,
    MvPolynomial.smul_eq_C_mul]

theorem q_R (z : Fin 5 → ℂ) (p : P) : q z (R p) = R (q z p) := by
  rw [q_apply, R_apply, R_apply, q_apply]; ring

theorem q_Rk (z : Fin 5 → ℂ) (k : ℕ) (p : P) : q z ((R ^ k) p) = (R ^ k) (q z p) := by
  induction k with
  | zero => simp
  | succ k ih => rw [pow_succ', Module.End.mul_apply, Module.End.mul_apply, q_R, ih]

theorem R_Rk (k : ℕ) (p : P) : R ((R ^ k) p) = (R ^ k) (R p) := by
  rw [← Module.End.mul_apply, ← Module.End.mul_apply, (Commute.refl R).pow_right k]

/-- The derivative of `r^(2k) p`. -/
theorem pi_Rk (z : Fin 5 → ℂ) (k : ℕ) (p : P) :
    R (pi z ((R ^ k) p)) = (R ^ k) ((2 * k : ℂ) • q z p + R (pi z p)) := by
  induction k with
  | zero => simp
  | succ k ih =>
    rw [pow_succ', Module.End.mul_apply, pi_R, map_add, ih, map_smul, q_Rk, R_Rk, R_Rk]
    simp only [Module.End.mul_apply, map_add, map_smul, R_Rk, Nat.cast_succ]
    module

theorem pipi_Rk {z : Fin 5 → ℂ} (hz : Null z) (k : ℕ) (p : P) :
    R (R (pi z (pi z ((R ^ k) p)))) = (R ^ k) ((4 * k * (k - 1) : ℂ) • q z (q z p)
      + (4 * k : ℂ) • R (q z (pi z p)) + R (R (pi z (pi z p)))) := by
  have e1 := pi_Rk z k p
  have e2 : R (pi z (R (pi z ((R ^ k) p)))) = R (R (pi z (pi z ((R ^ k) p)))) +
      (2 : ℂ) • q z (R (pi z ((R ^ k) p))) := by
    rw [pi_R, map_add, map_smul, q_R]
  have e3 := eq_sub_of_add_eq e2.symm
  rw [e3, e1]
  simp only [map_add, map_smul, pi_Rk, q_Rk, q_R, pi_R, pi_q hz]
  module

/-! ### The parts of a product -/

theorem odd_ne (v : ℤ) : (2 * v + 3 : ℂ) ≠ 0 := by
  intro h
  have : ((2 * v + 3 : ℤ) : ℂ) = 0 := by push_cast; exact h
  have := Int.cast_eq_zero.1 this
  omega

theorem U_apply (z : Fin 5 → ℂ) (v : ℤ) (p : P) : U z v p = q z p - (2 * v + 3 : ℂ)⁻¹ • R (pi z p) := rfl

theorem D_apply (z : Fin 5 → ℂ) (v : ℤ) (p : P) : D z v p = (2 * v + 3 : ℂ)⁻¹ • pi z p := rfl

theorem q_split (z : Fin 5 → ℂ) (v : ℤ) (p : P) : q z p = U z v p + R (D z v p) := by
  rw [U_apply, D_apply, map_smul, sub_add_cancel]

/-- The gradient: `r^(2k) h` is `beta^s` with `s = v + 2 + 2k`. -/
theorem gradient (z : Fin 5 → ℂ) (v : ℤ) (k : ℕ) (h : P) :
    R (pi z ((R ^ k) h)) = (2 * k : ℂ) • (R ^ k) (U z v h) + (2 * k + 2 * v + 3 : ℂ) • (R ^ k) (R (D z v h)) := by
  rw [pi_Rk, ← map_smul (R ^ k), ← map_smul (R ^ k), ← map_add (R ^ k)]
  congr 1
  simp only [U_apply, D_apply, map_smul]
  have := odd_ne v
  match_scalars <;> field_simp
  ring

theorem qq_split {z : Fin 5 → ℂ} (v : ℤ) (h : P) :
    q z (q z h) = U z (v + 1) (U z v h) + R (U z (v - 1) (D z v h) + D z (v + 1) (U z v h))
      + R (R (D z (v - 1) (D z v h))) := by
  rw [q_split z v h, map_add, q_R, q_split z (v + 1) (U z v h), q_split z (v - 1) (D z v h)]
  simp only [map_add]
  module

theorem qqq_split {z : Fin 5 → ℂ} (v : ℤ) (h : P) :
    q z (q z (q z h)) = U z (v + 2) (U z (v + 1) (U z v h))
      + R (D z (v + 2) (U z (v + 1) (U z v h)) + U z v (D z (v + 1) (U z v h)) + U z v (U z (v - 1) (D z v h)))
      + R (R (U z (v - 2) (D z (v - 1) (D z v h)) + D z v (U z (v - 1) (D z v h)) + D z v (D z (v + 1) (U z v h))))
      + R (R (R (D z (v - 2) (D z (v - 1) (D z v h))))) := by
  rw [qq_split v h]
  simp only [map_add, q_R]
  rw [q_split z (v + 2) (U z (v + 1) (U z v h)), q_split z v (U z (v - 1) (D z v h)), q_split z v (D z (v + 1) (U z v h)),
    q_split z (v - 2) (D z (v - 1) (D z v h))]
  simp only [map_add]
  module

theorem pipi_split {z : Fin 5 → ℂ} (hz : Null z) (v : ℤ) (k : ℕ) (h : P) :
    R (R (pi z (pi z ((R ^ k) h)))) =
      (4 * k * (k - 1) : ℂ) • (R ^ k) (U z (v + 1) (U z v h))
      + (2 * k * (2 * k + 2 * v + 3) : ℂ) • (R ^ k) (R (U z (v - 1) (D z v h) + D z (v + 1) (U z v h)))
      + ((2 * k + 2 * v + 3) * (2 * k + 2 * v + 1) : ℂ) • (R ^ k) (R (R (D z (v - 1) (D z v h)))) := by
  rw [pipi_Rk hz]
  simp only [← map_smul (R ^ k), ← map_add (R ^ k)]
  congr 1
  have h0 := odd_ne v
  have h1 := odd_ne (v + 1)
  have h2 := odd_ne (v - 1)
  push_cast at h1 h2
  simp only [U_apply, D_apply, map_add, map_sub, map_smul, q_R, pi_R, pi_q hz, Int.cast_add, Int.cast_sub, Int.cast_one]
  match_scalars <;> field_simp <;> ring

theorem piqpi_split {z : Fin 5 → ℂ} (hz : Null z) (v : ℤ) (k : ℕ) (h : P) :
    R (R (pi z (q z (pi z ((R ^ k) h))))) =
      (4 * k * (k - 1) : ℂ) • (R ^ k) (U z (v + 2) (U z (v + 1) (U z v h)))
      + (R ^ k) (R ((2 * k * (2 * k + 2 * v + 3) : ℂ) •
          (D z (v + 2) (U z (v + 1) (U z v h)) + U z v (D z (v + 1) (U z v h)) + U z v (U z (v - 1) (D z v h)))
          - ((2 * v + 5) * (2 * k) : ℂ) • D z (v + 2) (U z (v + 1) (U z v h))))
      + (R ^ k) (R (R ((2 * k * (2 * k + 2 * v + 3) : ℂ) •
          (U z (v - 2) (D z (v - 1) (D z v h)) + D z v (U z (v - 1) (D z v h)) + D z v (D z (v + 1) (U z v h)))
          + ((2 * v + 1) * (2 * k + 2 * v + 3) : ℂ) • U z (v - 2) (D z (v - 1) (D z v h)))))
      + ((2 * k + 2 * v + 3) * (2 * k + 2 * v + 1) : ℂ) •
          (R ^ k) (R (R (R (D z (v - 2) (D z (v - 1) (D z v h)))))) := by
  rw [← pi_q hz, q_Rk, pipi_Rk hz]
  simp only [← map_smul (R ^ k), ← map_add (R ^ k)]
  congr 1
  have h0 := odd_ne v
  have h1 := odd_ne (v + 1)
  have h2 := odd_ne (v - 1)
  have h3 := odd_ne (v + 2)
  have h4 := odd_ne (v - 2)
  push_cast at h1 h2 h3 h4
  simp only [U_apply, D_apply, map_add, map_sub, map_smul, q_R, pi_R, pi_q hz, Int.cast_add, Int.cast_sub,
    Int.cast_one, Int.cast_ofNat]
  match_scalars <;> field_simp <;> ring

/-! ### Harmonic polynomials -/

theorem lap_add (p p' : P) : lap (p + p') = lap p + lap p' := by
  simp [lap, Finset.sum_add_distrib]

theorem lap_smul (c : ℂ) (p : P) : lap (c • p) = c • lap p := by
  simp [lap, Finset.smul_sum]

theorem lap_zero : lap 0 = 0 := by simp [lap]

theorem lap_sum {ι : Type} (s : Finset ι) (f : ι → P) : lap (∑ i ∈ s, f i) = ∑ i ∈ s, lap (f i) := by
  simp only [lap, map_sum]
  exact Finset.sum_comm

theorem pderiv_comm (i j : Fin 5) (p : P) : pderiv i (pderiv j p) = pderiv j (pderiv i p) := by
  have h : ⁅pderiv (R := ℂ) i, pderiv (R := ℂ) j⁆ = 0 := by
    apply MvPolynomial.derivation_ext
    intro k
    simp [Derivation.commutator_apply, pderiv_X, Pi.single_apply]
    split <;> split <;> simp
  have := congrArg (fun d => d p) h
  simpa [Derivation.commutator_apply, sub_eq_zero] using this

theorem lap_pi (z : Fin 5 → ℂ) (p : P) : lap (pi z p) = pi z (lap p) := by
  have : ∀ i j, pderiv i (pderiv i (C (z j) * pderiv j p)) = C (z j) * pderiv j (pderiv i (pderiv i p)) := by
    intro i j
    rw [← MvPolynomial.smul_eq_C_mul, ← MvPolynomial.smul_eq_C_mul, Derivation.map_smul, Derivation.map_smul, pderiv_comm i j p, pderiv_comm i j]
  simp only [pi_apply, lap, map_sum, this]

theorem lap_q (z : Fin 5 → ℂ) (p : P) : lap (q z p) = (2 : ℂ) • pi z p + q z (lap p) := by
  have : ∀ i, pderiv i (pderiv i ((∑ j, C (z j) * X j) * p)) =
      C 2 * (C (z i) * pderiv i p) + (∑ j, C (z j) * X j) * pderiv i (pderiv i p) := by
    intro i
    rw [Derivation.leibniz, pderiv_zx, smul_eq_mul, smul_eq_mul, map_add, Derivation.leibniz, pderiv_zx, Derivation.leibniz,
      pderiv_C, show (C 2 : P) = 2 from map_ofNat C 2]
    simp only [smul_eq_mul]
    ring
  rw [lap, q_apply, Finset.sum_congr rfl fun i _ => this i, Finset.sum_add_distrib, ← Finset.mul_sum, ← Finset.mul_sum,
    ← pi_apply, MvPolynomial.smul_eq_C_mul, q_apply, lap]

theorem lap_R {n : ℕ} {p : P} (h : p.IsHomogeneous n) : lap (R p) = (10 + 4 * n : ℂ) • p + R (lap p) := by
  have : ∀ i, pderiv i (pderiv i ((∑ j, X j ^ 2) * p)) =
      2 * p + 4 * (X i * pderiv i p) + (∑ j, X j ^ 2) * pderiv i (pderiv i p) := by
    intro i
    rw [Derivation.leibniz, pderiv_r2, smul_eq_mul, smul_eq_mul, map_add, Derivation.leibniz, pderiv_r2, Derivation.leibniz,
      Derivation.leibniz, pderiv_X_self]
    simp only [smul_eq_mul]
    have : pderiv i (2 : P) = 0 := by rw [show (2 : P) = C 2 from (map_ofNat C 2).symm, pderiv_C]
    rw [this]
    ring
  rw [lap, R_apply, Finset.sum_congr rfl fun i _ => this i, Finset.sum_add_distrib, Finset.sum_add_distrib, ← Finset.mul_sum,
    ← Finset.mul_sum, ← Finset.mul_sum, h.sum_X_mul_pderiv, R_apply, lap]
  simp only [Finset.sum_const, Finset.card_univ, Fintype.card_fin, MvPolynomial.smul_eq_C_mul, nsmul_eq_mul, map_add, map_mul,
    map_natCast, map_ofNat]
  push_cast
  ring

theorem hom_zx (z : Fin 5 → ℂ) : (∑ i, C (z i) * X i : P).IsHomogeneous 1 := by
  refine IsHomogeneous.sum _ _ _ fun i _ => ?_
  have := (isHomogeneous_C (Fin 5) (z i)).mul (isHomogeneous_X ℂ i)
  simpa using this

theorem hom_r2 : (∑ i, X i ^ 2 : P).IsHomogeneous 2 := by
  refine IsHomogeneous.sum _ _ _ fun i _ => ?_
  have := (isHomogeneous_X ℂ i).pow 2
  simpa using this

theorem hom_q {z : Fin 5 → ℂ} {n : ℕ} {p : P} (h : p.IsHomogeneous n) : (q z p).IsHomogeneous (n + 1) := by
  rw [q_apply, add_comm]; exact (hom_zx z).mul h

theorem hom_R {n : ℕ} {p : P} (h : p.IsHomogeneous n) : (R p).IsHomogeneous (n + 2) := by
  rw [R_apply, add_comm]; exact hom_r2.mul h

theorem hom_pi {z : Fin 5 → ℂ} {n : ℕ} {p : P} (h : p.IsHomogeneous n) : (pi z p).IsHomogeneous (n - 1) := by
  rw [pi_apply]
  refine IsHomogeneous.sum _ _ _ fun i _ => ?_
  have := (isHomogeneous_C (Fin 5) (z i)).mul (h.pderiv (i := i))
  simpa using this

theorem hom_smul {n : ℕ} {p : P} (c : ℂ) (h : p.IsHomogeneous n) : (c • p).IsHomogeneous n := by
  rw [MvPolynomial.smul_eq_C_mul]
  have := (isHomogeneous_C (Fin 5) c).mul h
  simpa using this

theorem pi_hom_zero {z : Fin 5 → ℂ} {p : P} (h : p.IsHomogeneous 0) : pi z p = 0 := by
  rw [← totalDegree_zero_iff_isHomogeneous, totalDegree_eq_zero_iff_eq_C] at h
  rw [h, pi_apply]
  simp

theorem harm_D {z : Fin 5 → ℂ} {v : ℕ} {h : P} (hh : Harmonic v h) : Harmonic (v - 1) (D z v h) := by
  refine ⟨?_, ?_⟩
  · rw [D_apply, lap_smul, lap_pi, hh.lap_eq, map_zero, smul_zero]
  · rw [D_apply]; exact hom_smul _ (hom_pi hh.hom)

theorem harm_U {z : Fin 5 → ℂ} {v : ℕ} {h : P} (hh : Harmonic v h) : Harmonic (v + 1) (U z v h) := by
  rcases Nat.eq_zero_or_pos v with rfl | hv
  · rw [U_apply, pi_hom_zero hh.hom, map_zero, smul_zero, sub_zero]
    refine ⟨?_, hom_q hh.hom⟩
    rw [lap_q, hh.lap_eq, pi_hom_zero hh.hom]
    simp
  · obtain ⟨n, rfl⟩ := Nat.exists_eq_add_of_le' hv
    have hp : (pi z h).IsHomogeneous n := hom_pi hh.hom
    refine ⟨?_, ?_⟩
    · rw [U_apply, sub_eq_add_neg, ← neg_smul, lap_add, lap_smul, lap_q, lap_R hp, lap_pi, hh.lap_eq]
      simp only [map_zero, add_zero]
      have := odd_ne (n + 1 : ℕ)
      push_cast at this ⊢
      match_scalars
      field_simp
      ring
    · rw [U_apply]
      exact (hom_q hh.hom).sub (hom_smul _ (hom_R hp))

theorem harm_add {v : ℕ} {h h' : P} (hh : Harmonic v h) (hh' : Harmonic v h') : Harmonic v (h + h') :=
  ⟨by rw [lap_add, hh.lap_eq, hh'.lap_eq, add_zero], hh.hom.add hh'.hom⟩

theorem harm_zero (v : ℕ) : Harmonic v 0 := ⟨lap_zero, isHomogeneous_zero _ _ _⟩

theorem D_zero {z : Fin 5 → ℂ} {w : ℤ} {h : P} (hh : Harmonic 0 h) : D z w h = 0 := by
  rw [D_apply, pi_hom_zero hh.hom, smul_zero]

theorem harm_U' {z : Fin 5 → ℂ} {v : ℕ} {w : ℤ} {h : P} (hh : Harmonic v h) (hw : w = v) : Harmonic (v + 1) (U z w h) := by
  subst hw; exact harm_U hh

theorem harm_D' {z : Fin 5 → ℂ} {v : ℕ} {w : ℤ} {h : P} (hh : Harmonic v h) (hw : w = v ∨ v = 0) :
    Harmonic (v - 1) (D z w h) := by
  rcases hw with rfl | rfl
  · exact harm_D hh
  · rw [D_zero hh]; exact harm_zero _

theorem harm_DU {z : Fin 5 → ℂ} {v : ℕ} {h : P} (hh : Harmonic v h) : Harmonic v (D z (v + 1) (U z v h)) :=
  harm_D' (harm_U hh) (Or.inl (by push_cast; ring))

theorem harm_UD {z : Fin 5 → ℂ} {v : ℕ} {h : P} (hh : Harmonic v h) : Harmonic v (U z (v - 1) (D z v h)) := by
  rcases Nat.eq_zero_or_pos v with rfl | hv
  · rw [D_zero hh, map_zero]; exact harm_zero _
  · have := harm_U' (z := z) (w := v - 1) (harm_D (z := z) hh) (by omega)
    rwa [Nat.sub_add_cancel hv] at this

theorem harm_DD {z : Fin 5 → ℂ} {v : ℕ} {h : P} (hh : Harmonic v h) : Harmonic (v - 2) (D z (v - 1) (D z v h)) := by
  rw [show v - 2 = v - 1 - 1 by omega]
  exact harm_D' (harm_D hh) (by omega)

theorem harm_DDD {z : Fin 5 → ℂ} {v : ℕ} {h : P} (hh : Harmonic v h) :
    Harmonic (v - 3) (D z (v - 2) (D z (v - 1) (D z v h))) := by
  rw [show v - 3 = v - 2 - 1 by omega]
  exact harm_D' (harm_DD hh) (by omega)

theorem harm_UDD {z : Fin 5 → ℂ} {v : ℕ} {h : P} (hh : Harmonic v h) :
    Harmonic (v - 1) (U z (v - 2) (D z (v - 1) (D z v h))) := by
  rcases Nat.lt_or_ge v 2 with hv | hv
  · have : Harmonic 0 (D z v h) := by have := harm_D (z := z) hh; rwa [show v - 1 = 0 by omega] at this
    rw [D_zero this, map_zero]; exact harm_zero _
  · have := harm_U' (z := z) (w := v - 2) (harm_DD (z := z) hh) (by omega)
    rwa [show v - 2 + 1 = v - 1 by omega] at this

/-- `(w.x)^n`. -/
noncomputable def zpow (w : Fin 5 → ℂ) (n : ℕ) : P := (∑ i, C (w i) * X i) ^ n

theorem pi_zpow (z w : Fin 5 → ℂ) (n : ℕ) :
    pi z (zpow w n) = (n * ∑ i, z i * w i : ℂ) • zpow w (n - 1) := by
  rw [pi_apply]
  have : ∀ i, C (z i) * pderiv i (zpow w n) = (n * (z i * w i) : ℂ) • zpow w (n - 1) := by
    intro i
    rw [zpow, Derivation.leibniz_pow, pderiv_zx, zpow, MvPolynomial.smul_eq_C_mul]
    simp only [nsmul_eq_mul, smul_eq_mul, map_mul, map_natCast]
    ring
  rw [Finset.sum_congr rfl fun i _ => this i, ← Finset.sum_smul, ← Finset.mul_sum]

theorem harm_zpow {w : Fin 5 → ℂ} (hw : Null w) (n : ℕ) : Harmonic n (zpow w n) := by
  refine ⟨?_, ?_⟩
  · have h1 : ∀ i, pderiv i (pderiv i (zpow w n)) = (w i ^ 2 : ℂ) • ((n * (n - 1 : ℕ) : ℂ) • zpow w (n - 1 - 1)) := by
      intro i
      rw [zpow, Derivation.leibniz_pow, pderiv_zx]
      simp only [nsmul_eq_mul, smul_eq_mul]
      rw [Derivation.leibniz, Derivation.leibniz, pderiv_C, Derivation.leibniz_pow, pderiv_zx, zpow,
        MvPolynomial.smul_eq_C_mul, MvPolynomial.smul_eq_C_mul]
      have : pderiv i ((n : P)) = 0 := by rw [show (n : P) = C (n : ℂ) from (map_natCast C n).symm, pderiv_C]
      rw [this]
      simp only [nsmul_eq_mul, smul_eq_mul, map_mul, map_natCast, map_pow]
      ring
    rw [lap, Finset.sum_congr rfl fun i _ => h1 i, ← Finset.sum_smul, show ∑ i, w i ^ 2 = 0 from hw, zero_smul]
  · have := (hom_zx w).pow n
    rw [one_mul] at this
    exact this

/-- Two vectors and a point at which the state `(w.x)^v` and its parts do not vanish. -/
def zv : Fin 5 → ℂ := ![1, Complex.I, 0, 0, 0]

def wv : Fin 5 → ℂ := ![1, -Complex.I, 0, 0, 0]

def xv : Fin 5 → ℂ := ![1, 0, Complex.I, 0, 0]

theorem null_zv : Null zv := by simp [Null, zv, Fin.sum_univ_succ]

theorem null_wv : Null wv := by simp [Null, wv, Fin.sum_univ_succ]

theorem UDD_ne {v : ℕ} (hv : 2 ≤ v) : U zv (v - 2) (D zv (v - 1) (D zv v (zpow wv v))) ≠ 0 := by
  have hs : ∑ i, zv i * wv i = 2 := by simp [zv, wv, Fin.sum_univ_succ]; norm_num
  have e1 : ∑ i, xv i ^ 2 = 0 := by simp [xv, Fin.sum_univ_succ]
  have e2 : ∑ i, zv i * xv i = 1 := by simp [zv, xv, Fin.sum_univ_succ]
  have e3 : ∑ i, wv i * xv i = 1 := by simp [wv, xv, Fin.sum_univ_succ]
  intro h
  have := congrArg (eval xv) h
  simp only [U_apply, D_apply, map_smul, pi_zpow, hs] at this
  simp only [q_apply, R_apply, map_sub, map_mul, map_sum, map_zero, smul_eval, eval_C, eval_X, map_pow, e1, e2, zpow,
    e3] at this
  have h1 := odd_ne v
  have h2 := odd_ne (v - 1)
  push_cast at h1 h2
  have h3 : (v : ℂ) ≠ 0 := by exact_mod_cast (by omega : v ≠ 0)
  have h4 : ((v - 1 : ℕ) : ℂ) ≠ 0 := by exact_mod_cast (by omega : v - 1 ≠ 0)
  simp [h1, h2, h3, h4] at this

theorem hom_Rk {n : ℕ} {p : P} (h : p.IsHomogeneous n) (k : ℕ) : ((R ^ k) p).IsHomogeneous (n + 2 * k) := by
  induction k with
  | zero => simpa using h
  | succ k ih => rw [pow_succ', Module.End.mul_apply]; exact hom_R ih

theorem lap_Rk {v : ℕ} {h : P} (hh : Harmonic v h) (k : ℕ) :
    lap ((R ^ (k + 1)) h) = (2 * (k + 1) * (2 * k + 2 * v + 5) : ℂ) • (R ^ k) h := by
  induction k with
  | zero =>
    rw [pow_one, lap_R hh.hom, hh.lap_eq]
    simp
    module
  | succ k ih =>
    rw [pow_succ', Module.End.mul_apply, lap_R (hom_Rk hh.hom (k + 1)), ih, map_smul, ← Module.End.mul_apply, ← pow_succ']
    push_cast
    module

/-- The harmonic parts of a polynomial are unique. -/
theorem parts_unique : ∀ (n : ℕ) (H : ℕ → P) (d : ℕ → ℕ), (∀ j ≤ n, Harmonic (d j) (H j)) →
    ∑ j ∈ Finset.range (n + 1), (R ^ j) (H j) = 0 → ∀ j ≤ n, H j = 0 := by
  intro n
  induction n with
  | zero =>
    intro H d _ hs j hj
    obtain rfl : j = 0 := by omega
    simpa using hs
  | succ n ih =>
    intro H d hH hs
    have h1 : ∀ j ≤ n, H (j + 1) = 0 := by
      intro j hj
      have := congrArg lap hs
      rw [lap_zero, lap_sum, Finset.sum_range_succ', pow_zero, Module.End.one_apply, (hH 0 (by omega)).lap_eq, add_zero] at this
      have key := ih (fun j => (2 * (j + 1) * (2 * j + 2 * d (j + 1) + 5) : ℂ) • H (j + 1)) (fun j => d (j + 1))
        (fun j hj => ⟨by rw [lap_smul, (hH (j + 1) (by omega)).lap_eq, smul_zero], hom_smul _ (hH (j + 1) (by omega)).hom⟩)
        (by
          rw [← this]
          refine Finset.sum_congr rfl fun j hj => ?_
          rw [lap_Rk (hH (j + 1) (by have := Finset.mem_range.1 hj; omega)), map_smul]) j hj
      rcases smul_eq_zero.1 key with h | h
      · exfalso
        have : ((2 * (j + 1) * (2 * j + 2 * d (j + 1) + 5) : ℕ) : ℂ) = 0 := by push_cast; exact h
        have := Nat.cast_eq_zero.1 this
        simp at this
      · exact h
    intro j hj
    rcases Nat.eq_zero_or_pos j with rfl | hj0
    · rw [Finset.sum_range_succ', Finset.sum_eq_zero, zero_add] at hs
      · simpa using hs
      · intro j hj
        rw [h1 j (by have := Finset.mem_range.1 hj; omega), map_zero]
    · obtain ⟨m, rfl⟩ := Nat.exists_eq_add_of_le' hj0
      exact h1 m (by omega)

/-- The case of four parts. -/
theorem parts_unique_four {a b c d : ℕ} {A B E F : P} (hA : Harmonic a A) (hB : Harmonic b B) (hE : Harmonic c E)
    (hF : Harmonic d F) (h : A + R B + R (R E) + R (R (R F)) = 0) : A = 0 ∧ B = 0 ∧ E = 0 ∧ F = 0 := by
  have key := parts_unique 3 (fun j => match j with | 0 => A | 1 => B | 2 => E | _ => F)
    (fun j => match j with | 0 => a | 1 => b | 2 => c | _ => d) (by
      intro j hj
      interval_cases j <;> assumption) (by
      rw [← h]
      simp only [Finset.sum_range_succ, Finset.sum_range_zero, zero_add, pow_zero, pow_succ, Module.End.one_apply,
        Module.End.mul_apply])
  exact ⟨key 0 (by omega), key 1 (by omega), key 2 (by omega), key 3 (by omega)⟩

theorem harm_smul {v : ℕ} {h : P} (c : ℂ) (hh : Harmonic v h) : Harmonic v (c • h) :=
  ⟨by rw [lap_smul, hh.lap_eq, smul_zero], hom_smul c hh.hom⟩

theorem harm_sub {v : ℕ} {h h' : P} (hh : Harmonic v h) (hh' : Harmonic v h') : Harmonic v (h - h') := by
  have := harm_add hh (harm_smul (-1) hh')
  rwa [neg_one_smul, ← sub_eq_add_neg] at this

/-- Comparison of the third parts. -/
theorem parts_third {a b c d : ℕ} {A B E F A' B' E' F' : P} (hA : Harmonic a A) (hB : Harmonic b B) (hE : Harmonic c E)
    (hF : Harmonic d F) (hA' : Harmonic a A') (hB' : Harmonic b B') (hE' : Harmonic c E') (hF' : Harmonic d F')
    (h : A + R B + R (R E) + R (R (R F)) = A' + R B' + R (R E') + R (R (R F'))) : E = E' := by
  have := (parts_unique_four (harm_sub hA hA') (harm_sub hB hB') (harm_sub hE hE') (harm_sub hF hF') (by
    rw [← sub_eq_zero] at h
    rw [← h]
    simp only [map_sub]
    abel)).2.2.1
  exact sub_eq_zero.1 this

theorem parts_third' {a b c d : ℕ} {A B E F A' B' E' F' : P} {x y : ℂ} (hA : Harmonic a A) (hB : Harmonic b B)
    (hE : Harmonic c E) (hF : Harmonic d F) (hA' : Harmonic a A') (hB' : Harmonic b B') (hE' : Harmonic c E')
    (hF' : Harmonic d F') (h : x • (R ^ 0) A + (R ^ 0) (R B) + (R ^ 0) (R (R E)) + y • (R ^ 0) (R (R (R F)))
      = (R ^ 0) (A' + R B' + R (R E') + R (R (R F')))) : E = E' := by
  refine parts_third (harm_smul x hA) hB hE (harm_smul y hF) hA' hB' hE' hF' ?_
  simpa only [pow_zero, Module.End.one_apply, map_smul] using h

end Acm.Momentum
