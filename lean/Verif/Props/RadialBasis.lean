import Verif.Lemmas.RadialInt
import Verif.Props.RadialElement

/-!
# Property C90: radial matrix elements are integrals

The closed formulas of radial_space.py are the matrix elements, in the orthonormal basis of the ACM paper, of the
multiplication and differentiation operators that the symbols stand for.
-/

namespace Acm.Props
open Acm Spec RadialBasis Polynomial

/-- The basis functions of a given scale and `lambda` are orthonormal. -/
theorem C90_orthonormal {a lam : ℝ} (ha : 0 < a) (h : 0 < lam) (m n : ℕ) :
    Spec.RadialBasis.Overlap (Spec.RadialBasis.radialFn a lam m) (Spec.RadialBasis.radialFn a lam n) (if m = n then 1 else 0) := by
  have := overlap_mom (t := lam) (u := lam) ha h h h (by ring) (m := m) (n := n) (c := 1) (q := lag lam n)
    (g := Spec.RadialBasis.radialFn a lam n) (by rw [C_1, one_mul]; exact radialFn_is ha h n)
  rw [val_id h, one_mul] at this
  exact this

/-- Where an operator maps a basis function. -/
theorem opAct_is {a lam : ℝ} (ha : 0 < a) (h : 0 < lam) (n : ℕ) :
    let R := Spec.RadialBasis.radialFn a lam n
    let k := C (Real.sqrt (2 * a) / K lam n)
    Is a (lam + 1) (k * (C a⁻¹ * lag lam n)) (Spec.RadialBasis.opAct a lam (some .b) R) ∧
    Is a (lam - 1) (k * (C a * lag lam n)) (Spec.RadialBasis.opAct a lam (some .bm) R) ∧
    Is a lam (k * (C (a⁻¹ ^ 2) * (X * lag lam n))) (Spec.RadialBasis.opAct a lam (some .b2) R) ∧
    Is a (lam - 2) (k * (C (a ^ 2) * lag lam n)) (Spec.RadialBasis.opAct a lam (some .bm2) R) ∧
    Is a (lam - 1) (k * (C a * T lam (lag lam n))) (Spec.RadialBasis.opAct a lam (some .Db) R) ∧
    Is a (lam - 2) (k * (C (a ^ 2) * T (lam - 1) (T lam (lag lam n)))) (Spec.RadialBasis.opAct a lam (some .D2b) R) ∧
    Is a lam (k * (C 1 * T lam (lag lam n))) (Spec.RadialBasis.opAct a lam (some .bDb) R) ∧
    Is a lam (k * (C 1 * (C (lam / 2 + n) * lag lam n))) (Spec.RadialBasis.opAct a lam (some .S0) R) ∧
    Is a lam (k * (C 1 * lag lam (n + 1))) (Spec.RadialBasis.opAct a lam (some .Sp) R) ∧
    Is a lam (k * (C 1 * (C (n * (n - 1 + lam)) * lag lam (n - 1)))) (Spec.RadialBasis.opAct a lam (some .Sm) R) := by
  intro R k
  have hR : Is a lam (k * lag lam n) R := radialFn_is ha h n
  have hT : ∀ (s c : ℝ) (p : ℝ[X]), T s (C c * p) = C c * T s p := by
    intro s c p
    simp only [T, derivative_mul, derivative_C]
    ring
  have hD := hR.deriv ha
  rw [hT, mul_left_comm] at hD
  have hDD := hD.deriv ha
  rw [hT, mul_left_comm (C a) k, hT, ← mul_assoc (C a) (C a), ← C_mul, ← sq, show lam - 1 - 1 = lam - 2 by ring] at hDD
  have hbD := hD.up ha
  rw [mul_left_comm, ← mul_assoc (C a⁻¹), ← C_mul, inv_mul_cancel₀ ha.ne', sub_add_cancel] at hbD
  have e1 := hR.up ha
  have e2 := hR.down ha
  have e3 := hR.up2 ha
  have e4 := hR.down2 ha
  rw [mul_left_comm] at e1 e2 e4
  rw [mul_left_comm X, mul_left_comm] at e3
  have main : ∀ (α β γ : ℝ) (q : ℝ[X]) (F : ℝ → ℝ),
      (∀ b, F b = (α * (deriv (deriv R) b / a ^ 2 - (lam - 3 / 2) * (lam - 1 / 2) * R b / (a * b) ^ 2) + (a * b) ^ 2 * R b
        + β * b * deriv R b + γ * R b) / 4) →
      C 4 * q = C α * (X * lag lam n - C (2 * lam + 4 * n) * lag lam n) + X * lag lam n + C β * T lam (lag lam n) + C γ * lag lam n →
      Is a lam (k * (C 1 * q)) F := by
    intro α β γ q F hF hq b hb
    have hab := mul_pos ha hb
    have d0 := hR b hb
    have d1 := hbD b hb
    have d2 := hDD b hb
    have d3 := e4 b hb
    rw [wf_smul, wf_smul] at d2 d3
    rw [wf_smul] at d0
    rw [wf_smul, wf_smul, one_mul] at d1
    rw [wf_smul, wf_smul, one_mul]
    have hq' : wf lam (C 4 * q) (a * b) = wf lam (C α * (X * lag lam n - C (2 * lam + 4 * n) * lag lam n) + X * lag lam n
      + C β * T lam (lag lam n) + C γ * lag lam n) (a * b) := by rw [hq]
    rw [T_T] at d2
    have e5 : wf (lam - 2) ((X ^ 2 - C (2 * lam + 4 * n) * X + C ((lam - 3 / 2) * (lam - 1 / 2))) * lag lam n) (a * b)
        = wf lam (X * lag lam n - C (2 * lam + 4 * n) * lag lam n) (a * b)
          + (lam - 3 / 2) * (lam - 1 / 2) * wf (lam - 2) (lag lam n) (a * b) := by
      rw [← wf_smul, show (X ^ 2 - C (2 * lam + 4 * n) * X + C ((lam - 3 / 2) * (lam - 1 / 2))) * lag lam n
        = X * (X * lag lam n - C (2 * lam + 4 * n) * lag lam n) + C ((lam - 3 / 2) * (lam - 1 / 2)) * lag lam n by ring, wf_add]
      congr 1
      have := Is.shift (s := lam) (q := X * lag lam n - C (2 * lam + 4 * n) * lag lam n) (f := fun b => wf (lam - 2)
        (X * (X * lag lam n - C (2 * lam + 4 * n) * lag lam n)) (a * b)) ha (fun _ _ => rfl) b hb
      exact this
    rw [e5] at d2
    rw [wf_add, wf_add, wf_add, wf_smul, wf_smul, wf_smul, wf_smul, wf_X] at hq'
    rw [hF]
    have d1' : b * deriv R b = Real.sqrt (2 * a) / K lam n * wf lam (T lam (lag lam n)) (a * b) := d1
    have d3' : (lam - 3 / 2) * (lam - 1 / 2) * R b / (a * b) ^ 2
        = Real.sqrt (2 * a) / K lam n * ((lam - 3 / 2) * (lam - 1 / 2) * wf (lam - 2) (lag lam n) (a * b)) := by
      rw [mul_pow, mul_div_assoc]
      have : R b / (a ^ 2 * b ^ 2) = (R b / b ^ 2) / a ^ 2 := by field_simp
      rw [this, show R b / b ^ 2 = _ from d3]
      field_simp
    have d2' : deriv (deriv R) b / a ^ 2 = Real.sqrt (2 * a) / K lam n * (wf lam (X * lag lam n - C (2 * lam + 4 * n) * lag lam n) (a * b)
          + (lam - 3 / 2) * (lam - 1 / 2) * wf (lam - 2) (lag lam n) (a * b)) := by
      rw [d2]; field_simp
    rw [d3', d2', mul_assoc β, d1', d0]
    linear_combination (-(Real.sqrt (2 * a) / K lam n) / 4) * hq'
  have n4 : (C 4 : ℝ[X]) = 4 := C_ofNat 4
  have c2 : C (2 * lam + 4 * n : ℝ) = 2 * C lam + 4 * (n : ℝ[X]) := by
    rw [C_add, C_mul, C_mul, C_ofNat, C_ofNat, map_natCast]
  have c3 : C (2 * n + lam : ℝ) = 2 * (n : ℝ[X]) + C lam := by
    rw [C_add, C_mul, C_ofNat, map_natCast]
  have half : (2 : ℝ[X]) * C (1 / 2) = 1 := by
    rw [← C_ofNat, ← C_mul]; norm_num
  have x1 := X_lag' n lam
  have t1 := T_lag lam n
  rw [c3] at x1
  refine ⟨e1, e2, e3, e4, hD, hDD, ?_, ?_, ?_, ?_⟩
  · rw [C_1, one_mul]
    rw [C_1, one_mul] at hbD
    exact hbD
  · refine main (-1) 0 0 _ _ (fun b => ?_) ?_
    · simp only [Spec.RadialBasis.opAct]; ring
    · have : C (lam / 2 + n) = C (1 / 2) * C lam + (n : ℝ[X]) := by
        rw [← C_mul, ← C_eq_natCast, ← C_add]; congr 1; ring
      rw [n4, this, c2, C_neg, C_1, C_0]
      linear_combination (2 * C lam * lag lam n) * half
  · refine main 1 (-2) (-1) _ _ (fun b => ?_) ?_
    · simp only [Spec.RadialBasis.opAct]; ring
    · rw [n4, c2, C_neg, C_neg, C_1, C_ofNat, t1]
      linear_combination -2 * x1 - lag lam n * half
  · refine main 1 2 1 _ _ (fun b => ?_) ?_
    · simp only [Spec.RadialBasis.opAct]; ring
    · rw [n4, c2, C_1, C_ofNat, t1]
      linear_combination -2 * x1 + lag lam n * half

/-- Wherever the paper lists a closed form for an operator, `ME_Radial` returns the integral of the product of the
final basis function and the operator applied to the initial basis function.  (For `lambda <= 1` the integrals with
`1/beta^2` diverge at zero; the code then returns the analytic continuation.) -/
theorem C90_integral {la : LinAlg} {op : Option RadSym} {v : Int} {prim : Prim} {a lam : ℝ} (ha : 0 < a) (h : 0 < lam)
    (h' : 0 < lam + v) (hc : closedForm op v = some prim) (h1 : op = some .bm2 ∨ op = some .D2b → 1 < lam) (f i : ℕ) :
    ∃ x, ME_Radial la op a lam v f i = .ok x ∧
      Spec.RadialBasis.Overlap (Spec.RadialBasis.radialFn a (lam + v) f)
        (Spec.RadialBasis.opAct a lam op (Spec.RadialBasis.radialFn a lam i)) x := by
  rw [element_direct h hc]
  have key : ∀ {g : ℕ → ℕ → ℝ}, Entries (primME prim lam) g →
      Spec.RadialBasis.Overlap (Spec.RadialBasis.radialFn a (lam + v) f)
        (Spec.RadialBasis.opAct a lam op (Spec.RadialBasis.radialFn a lam i)) (a ^ ((opList op).map symExpo).sum * g f i) →
      ∃ x, ((primME prim lam f i) >>= fun x => pure (a ^ ((opList op).map symExpo).sum * x) : Py ℝ) = .ok x ∧
        Spec.RadialBasis.Overlap (Spec.RadialBasis.radialFn a (lam + v) f)
          (Spec.RadialBasis.opAct a lam op (Spec.RadialBasis.radialFn a lam i)) x := by
    intro g hg ho
    refine ⟨_, ?_, ho⟩
    rw [hg f i, py_bind_ok, py_pure]
  obtain ⟨o1, o2, o3, o4, o5, o6, o7, o8, o9, o10⟩ := opAct_is ha h i
  unfold closedForm at hc
  split at hc <;> (try (injection hc with hc; subst hc)) <;> (try (cases hc; done))
  · refine key (b2_ok h) ?_
    have := overlap_mom (lam' := lam) (u := lam) ha h h h (by ring) (m := f) o3
    rw [val_b2 h] at this
    simpa [opList, symExpo] using this
  · have h2 := h1 (.inl rfl)
    refine key (bm2_ok h (by linarith)) ?_
    have := overlap_mom (lam' := lam) (u := lam - 1) ha h h (by linarith) (by ring) (m := f) o4
    rw [val_bm2 h2] at this
    simpa [opList, symExpo] using this
  · have h2 := h1 (.inr rfl)
    refine key (D2b_ok h (by linarith)) ?_
    have := overlap_mom (lam' := lam) (u := lam - 1) ha h h (by linarith) (by ring) (m := f) o6
    rw [val_D2b h2] at this
    simpa [opList, symExpo] using this
  · refine key (bDb_ok h) ?_
    have := overlap_mom (lam' := lam) (u := lam) ha h h h (by ring) (m := f) o7
    rw [val_bDb h] at this
    simpa [opList, symExpo] using this
  · refine key (S0_ok lam) ?_
    have := overlap_mom (lam' := lam) (u := lam) ha h h h (by ring) (m := f) o8
    rw [mul_left_comm, ← smul_eq_C_mul, map_smul, smul_eq_mul, mul_div_assoc, val_id h,
      show (lam / 2 + i) * Spec.opId f i = vS0 lam f i by simp [vS0, Spec.opId]] at this
    simpa [opList, symExpo] using this
  · refine key (Sp_ok h) ?_
    have := overlap_mom (lam' := lam) (u := lam) ha h h h (by ring) (m := f) o9
    rw [val_Sp h] at this
    simpa [opList, symExpo] using this
  · refine key (Sm_ok h) ?_
    have := overlap_mom (lam' := lam) (u := lam) ha h h h (by ring) (m := f) o10
    rw [val_Sm h] at this
    simpa [opList, symExpo] using this
  · refine key (b_pl_ok h) ?_
    have := overlap_mom (lam' := lam + 1) (u := lam + 1) ha h (by linarith) (by linarith) (by ring) (m := f) o1
    rw [val_b_pl h] at this
    simpa [opList, symExpo] using this
  · refine key (bm_pl_ok h) ?_
    have := overlap_mom (lam' := lam + 1) (u := lam) ha h (by linarith) (by linarith) (by ring) (m := f) o2
    rw [val_bm_pl h] at this
    simpa [opList, symExpo] using this
  · refine key (Db_pl_ok h) ?_
    have := overlap_mom (lam' := lam + 1) (u := lam) ha h (by linarith) (by linarith) (by ring) (m := f) o5
    rw [val_Db_pl h] at this
    simpa [opList, symExpo] using this
  · obtain ⟨l, rfl⟩ : ∃ l, lam = l + 1 := ⟨lam - 1, by ring⟩
    have hl : 0 < l := by push_cast at h'; linarith
    refine key (b_ml_ok hl) ?_
    have := overlap_mom (lam' := l) (u := l + 1) ha h hl (by linarith) (by ring) (m := f) o1
    rw [mul_comm (lag l f), mul_comm (K l f), val_b_pl hl] at this
    simpa [opList, symExpo] using this
  · obtain ⟨l, rfl⟩ : ∃ l, lam = l + 1 := ⟨lam - 1, by ring⟩
    have hl : 0 < l := by push_cast at h'; linarith
    refine key (bm_ml_ok hl) ?_
    have := overlap_mom (lam' := l) (u := l) ha h hl hl (by ring) (m := f) o2
    rw [mul_comm (lag l f), mul_comm (K l f), val_bm_pl hl] at this
    simpa [opList, symExpo] using this
  · obtain ⟨l, rfl⟩ : ∃ l, lam = l + 1 := ⟨lam - 1, by ring⟩
    have hl : 0 < l := by push_cast at h'; linarith
    refine key (Db_ml_ok hl) ?_
    have := overlap_mom (lam' := l) (u := l) ha h hl hl (by ring) (m := f) o5
    rw [val_Db_ml hl] at this
    simpa [opList, symExpo] using this
  · have hR : Is a lam (C (Real.sqrt (2 * a) / K lam i) * (C 1 * lag lam i)) (Spec.RadialBasis.radialFn a lam i) := by
      rw [C_1, one_mul]; exact radialFn_is ha h i
    split_ifs at hc with he hv
    · injection hc with hc
      subst hc
      obtain ⟨r, rfl⟩ : ∃ r : ℕ, v = 2 * (r : Int) := ⟨(v / 2).toNat, by omega⟩
      have er : (2 * (r : Int) / 2).toNat = r := by omega
      refine key (g := vid_pl lam r) ?_ ?_
      · intro m n
        simp only [primME, er]
        exact id_pl_ok h r m n
      · have := overlap_mom (lam' := lam + 2 * r) (u := lam + r) ha h (by positivity) (by positivity) (by ring) (m := f) hR
        rw [val_id_pl h] at this
        simpa [opList, symExpo, Spec.RadialBasis.opAct] using this
    · injection hc with hc
      subst hc
      obtain ⟨r, rfl⟩ : ∃ r : ℕ, v = -(2 * (r : Int)) := ⟨(-v / 2).toNat, by omega⟩
      obtain ⟨l, rfl⟩ : ∃ l, lam = l + 2 * r := ⟨lam - 2 * r, by ring⟩
      have hl : 0 < l := by push_cast at h'; linarith
      have er : (-(-(2 * (r : Int))) / 2).toNat = r := by omega
      refine key (g := fun m n => vid_pl l r n m) ?_ ?_
      · intro m n
        simp only [primME, er]
        exact id_ml_ok hl r m n
      · have := overlap_mom (lam' := l) (u := l + r) ha h hl (by positivity) (by ring) (m := f) hR
        rw [mul_comm (lag l f), mul_comm (K l f), val_id_pl hl] at this
        simpa [opList, symExpo, Spec.RadialBasis.opAct] using this

/-- The restriction `lambda > 1` (stated in the comment on `ME_Radial_bm2`, not checked) is needed: below 1 the code
returns negative expectation values of `1/beta^2`, which are no integrals. -/
theorem C90_bm2_restriction {la : LinAlg} {a lam : ℝ} (ha : 0 < a) (h : 0 < lam) (h1 : lam < 1) (n : ℕ) :
    ∃ x, ME_Radial la (some .bm2) a lam 0 n n = .ok x ∧ x < 0 ∧
      ¬ Spec.RadialBasis.Overlap (Spec.RadialBasis.radialFn a lam n)
        (Spec.RadialBasis.opAct a lam (some .bm2) (Spec.RadialBasis.radialFn a lam n)) x := by
  have hx : a ^ 2 * (1 / (lam - 1)) < 0 := mul_neg_of_pos_of_neg (by positivity) (div_neg_of_pos_of_neg one_pos (by linarith))
  refine ⟨a ^ 2 * (1 / (lam - 1)), ?_, hx, fun ⟨_, ho⟩ => ?_⟩
  · rw [element_direct h (prim := .me .bm2) rfl]
    have e : primME (.me .bm2) lam n n = _ := bm2_ok h h1.ne n n
    have := (hN_pos h n).ne'
    rw [e, py_bind_ok, py_pure, vbm2]
    congr 1
    simp [opList, symExpo, ← two_mul, this]
  · refine absurd ho (ne_of_gt (lt_of_lt_of_le hx ?_))
    refine MeasureTheory.integral_nonneg fun b => ?_
    simp only [Spec.RadialBasis.opAct, Spec.Momentum.act, Pi.zero_apply]
    rw [← mul_div_assoc]
    exact div_nonneg (mul_self_nonneg _) (sq_nonneg b)

example (la : LinAlg) : ∃ x, ME_Radial la (some .bm2) 1 (1 / 2) 0 3 3 = .ok x ∧ x < 0 :=
  have ⟨x, hx, hn, _⟩ := C90_bm2_restriction (la := la) (a := 1) (lam := 1 / 2) (by norm_num) (by norm_num) (by norm_num) 3
  ⟨x, hx, hn⟩

/-- Between the lowest states: `beta` from `lambda = 5/2` to `7/2` with the scale 2, and `d^2/dbeta^2` at `5/2`. -/
example (la : LinAlg) : (∃ x, ME_Radial la (some .b) 2 (5 / 2) 1 0 0 = .ok x ∧
      Spec.RadialBasis.Overlap (Spec.RadialBasis.radialFn 2 (5 / 2 + ((1 : Int) : ℝ)) 0)
        (fun b => b * Spec.RadialBasis.radialFn 2 (5 / 2) 0 b) x) ∧
    ∃ x, ME_Radial la (some .D2b) 2 (5 / 2) 0 1 0 = .ok x ∧
      Spec.RadialBasis.Overlap (Spec.RadialBasis.radialFn 2 (5 / 2 + ((0 : Int) : ℝ)) 1)
        (deriv (deriv (Spec.RadialBasis.radialFn 2 (5 / 2) 0))) x :=
  ⟨C90_integral (by norm_num) (by norm_num) (by norm_num) (prim := .me .b_pl) rfl (by simp) 0 0,
    C90_integral (by norm_num) (by norm_num) (by norm_num) (prim := .me .D2b) rfl (fun _ => by norm_num) 1 0⟩

end Acm.Props
