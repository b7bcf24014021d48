import Verif.Model.QRed
import Verif.Props.SO5Red

/-!
# The four special cases of `QixQxQred`: C82
-/

namespace Acm.Props

open Acm Acm.Spec

/-- `x ↦ -x` on results, exceptions unchanged. -/
def negRes (x : Py ℝ) : Py ℝ := x.map fun y => -y

open Classical in
theorem q_tail (X : Py (List ℝ)) (Y : Py ℝ) (D : Py Int) {p q : ℝ} (h : p = -q) :
    (do let ts ← X; let c ← Y; let d ← D
        if c = 0 then throw .typeError else pure (p * ts.sum / c / Real.sqrt (5 * (d : ℝ))) : Py ℝ) =
    negRes (do let ts ← X; let c ← Y; let d ← D
               if c = 0 then throw .typeError else pure (q * ts.sum / c / Real.sqrt (5 * (d : ℝ)))) := by
  subst h
  cases X with
  | error e => rfl
  | ok ts =>
    cases Y with
    | error e => rfl
    | ok c =>
      cases D with
      | error e => rfl
      | ok d =>
        simp only [py_bind_ok]
        split_ifs
        · rfl
        · simp only [negRes, py_pure, Except.map]
          congr 1; ring

theorem const_prod : 1 / Real.sqrt 15 * Real.sqrt (2 / 105) = Real.sqrt (2 / 7) / 15 := by
  have e : (2 : ℝ) / 105 = 2 / 7 / 15 := by norm_num
  rw [e, Real.sqrt_div (by norm_num)]
  have h : Real.sqrt 15 * Real.sqrt 15 = 15 := Real.mul_self_sqrt (by norm_num)
  have h0 : Real.sqrt 15 ≠ 0 := by positivity
  field_simp
  rw [sq, h]

theorem coef {m1 m2 : ℝ} :
    m1 * (Convert_112 * Convert_red) * (m2 * -(Convert_212 * Convert_red)) =
      -(-m1 * m2 * Real.sqrt (2 / 7) / 15) := by
  rw [C64_constants.1, C64_constants.2.1]
  have := const_prod
  calc _ = m1 * m2 * (1 / Real.sqrt 15 * Real.sqrt (2 / 105)) := by ring
    _ = _ := by rw [this]; ring

theorem lbs_neg (v L : Int) (hv : 0 ≤ v) : lbsSO5r3_rngL v (0 - 2) L = .error .valueError := by
  unfold lbsSO5r3_rngL
  rw [require_nonnegint_ok hv, py_bind_ok, require_nonnegint_range_err (by omega)]
  rfl

theorem labels_top (v : ℕ) :
    labelsV v v (2 * v - 2) (2 * v) = labelsV v v (2 * v - 2) (2 * v + 2) := by
  unfold labelsV
  rw [pyRange_succ (by omega : (2 * v - 2 : Int) ≤ 2 * v + 2)]
  rw [show (2 * v + 2 : Int) = 2 * v + 1 + 1 by ring, pyRange_succ (by omega : (2 * v - 2 : Int) ≤ 2 * v + 1)]
  have h : ∀ L : Int, 2 * (v : Int) < L → dimV v L = 0 := fun L hL => by
    unfold dimV; rw [if_pos (by omega)]
  simp only [List.flatMap_append, List.flatMap_cons, List.flatMap_nil, pyRange_singleton,
    h (2 * v + 1) (by omega), h (2 * v + 1 + 1) (by omega)]
  simp [pyRange_empty]

theorem dimV_top (v : ℕ) : dimV (v : Int) (2 * v) = 1 := by
  have h := dimV_eq_branching v (2 * v)
  push_cast at h
  rw [h]
  unfold dimV at h
  split_ifs at h <;> omega

/-- The only states of seniority `v` with `2 v ≤ L ≤ 2 v + 4` is the one with `L = 2 v`. -/
theorem labels_one (v : ℕ) : labelsV v v (2 * v) (2 * v + 4) = [((v : Int), 1, 2 * (v : Int))] := by
  unfold labelsV
  have h : ∀ L : Int, 2 * (v : Int) < L → dimV v L = 0 := fun L hL => by
    unfold dimV; rw [if_pos (by omega)]
  rw [pyRange_succ (by omega : (2 * v : Int) ≤ 2 * v + 4),
    show (2 * v + 4 : Int) = 2 * v + 3 + 1 by ring, pyRange_succ (by omega : (2 * v : Int) ≤ 2 * v + 3),
    show (2 * v + 3 : Int) = 2 * v + 2 + 1 by ring, pyRange_succ (by omega : (2 * v : Int) ≤ 2 * v + 2),
    show (2 * v + 2 : Int) = 2 * v + 1 + 1 by ring, pyRange_succ (by omega : (2 * v : Int) ≤ 2 * v + 1),
    pyRange_singleton]
  simp only [List.flatMap_append, List.flatMap_cons, List.flatMap_nil, pyRange_singleton, dimV_top,
    h (2 * v + 1) (by omega), h (2 * v + 1 + 1) (by omega), h (2 * v + 1 + 1 + 1) (by omega),
    h (2 * v + 1 + 1 + 1 + 1) (by omega)]
  simp [pyRange_empty]

/-- C82.  `QpxQxQred_p1(v)` is the negative of `QixQxQred(v, v + 1, v)`, whatever the Clebsch-Gordan coefficients are,
and raises the same exceptions. -/
theorem C82_Qp_p1 (CG : CGFun) (v : ℕ) :
    QpxQxQred_p1 CG v = negRes (QixQxQred CG v (v + 1) v) := by
  obtain ⟨m1, h1, h1'⟩ := C64_Qred_p1 v
  obtain ⟨m2, h2, h2'⟩ := C64_QxQred_0 v
  unfold QpxQxQred_p1 QixQxQred
  have hm : min (v : Int) (v + 1) = v := by omega
  rw [require_nonnegint_ok (by omega), require_nonnegint_ok (by omega : (0 : Int) ≤ v + 1)]
  simp only [py_bind_ok, hm]
  rcases Nat.eq_zero_or_pos v with rfl | hv
  · simp only [Nat.cast_zero, mul_zero]
    rw [lbs_neg 0 _ le_rfl, lbs_neg 0 _ le_rfl]
    rfl
  · rw [lbsSO5r3_rngL_ok (by omega) (by omega) (by omega), lbsSO5r3_rngL_ok (by omega) (by omega) (by omega),
      labels_top v, h1, h2, h1', h2']
    simp only [py_bind_ok]
    exact q_tail _ _ _ coef

/-- C82.  `QmxQxQred_p1(v)` is the negative of `QixQxQred(v, v + 1, v + 2)`. -/
theorem C82_Qm_p1 (CG : CGFun) (v : ℕ) :
    QmxQxQred_p1 CG v = negRes (QixQxQred CG v (v + 1) (v + 2)) := by
  obtain ⟨m1, h1, h1'⟩ := C64_Qred_m1 (v + 2) (by omega)
  obtain ⟨m2, h2, h2'⟩ := C64_QxQred_p2 v
  have e1 : (((v + 2 : ℕ) : Int) - 1) = v + 1 := by push_cast; ring
  rw [e1] at h1
  push_cast at h1 h1' h2 h2'
  unfold QmxQxQred_p1 QixQxQred
  have hm : min (v : Int) (v + 1) = v := by omega
  rw [require_nonnegint_ok (by omega), require_nonnegint_ok (by omega : (0 : Int) ≤ v + 1),
    require_nonnegint_ok (by omega : (0 : Int) ≤ v + 2)]
  simp only [py_bind_ok, hm]
  rcases Nat.eq_zero_or_pos v with rfl | hv
  · simp only [Nat.cast_zero, mul_zero]
    rw [lbs_neg _ _ (by omega)]
    rfl
  · rw [lbsSO5r3_rngL_ok (by omega) (by omega) (by omega), h1, h2, h1', h2']
    simp only [py_bind_ok]
    exact q_tail _ _ _ coef

/-- C82.  `QmxQxQred_m1(v)` is the negative of `QixQxQred(v, v - 1, v)`. -/
theorem C82_Qm_m1 (CG : CGFun) (v : ℕ) :
    QmxQxQred_m1 CG v = negRes (QixQxQred CG v (v - 1) v) := by
  unfold QmxQxQred_m1 QixQxQred
  rcases Nat.eq_zero_or_pos v with rfl | hv
  · rw [require_posint_err (by omega), require_nonnegint_ok (by omega),
      require_nonnegint_err (by omega : ((0 : ℕ) : Int) - 1 < 0)]
    rfl
  obtain ⟨m1, h1, h1'⟩ := C64_Qred_m1 v hv
  obtain ⟨m2, h2, h2'⟩ := C64_QxQred_0 v
  have hm : min (v : Int) (v - 1) = v - 1 := by omega
  have hL : 2 * ((v : Int) - 1) = 2 * v - 2 := by ring
  rw [require_posint_ok (by omega), require_nonnegint_ok (by omega),
    require_nonnegint_ok (by omega : (0 : Int) ≤ v - 1)]
  simp only [py_bind_ok, hm, hL]
  rcases Nat.lt_or_ge v 2 with h2v | h2v
  · obtain rfl : v = 1 := by omega
    have e : (2 * ((1 : ℕ) : Int) - 2) = 0 := by norm_num
    rw [e, lbs_neg _ _ (by omega)]
    rfl
  · rw [lbsSO5r3_rngL_ok (by omega) (by omega) (by omega), h1, h2, h1', h2']
    simp only [py_bind_ok]
    exact q_tail _ _ _ coef

/-- C82, what holds for `QpxQxQred_m1`: because of the wrong last factor (line 1498) it is the negative of `QixQxQred(v, v - 1, v - 2)`
times `sqrt(5 (4 v - 3)) / sqrt(4 v - 7)`.  Missing: the factor should be 1. -/
theorem C82_Qp_m1_partial (CG : CGFun) (v : ℕ) :
    QpxQxQred_m1 CG v = (QixQxQred CG v (v - 1) (v - 2)).map fun x =>
      -x * (Real.sqrt (5 * (4 * v - 3)) / Real.sqrt (4 * v - 7)) := by
  unfold QpxQxQred_m1 QixQxQred
  rcases Nat.lt_or_ge v 2 with h2v | h2v
  · obtain rfl | rfl : v = 0 ∨ v = 1 := by omega
    · rw [require_posint_err (by omega), require_nonnegint_ok (by omega),
        require_nonnegint_err (by omega : ((0 : ℕ) : Int) - 1 < 0)]
      rfl
    · rw [require_posint_ok (by omega), require_nonnegint_ok (by omega),
        require_nonnegint_ok (by omega : (0 : Int) ≤ ((1 : ℕ) : Int) - 1),
        require_nonnegint_err (by omega : ((1 : ℕ) : Int) - 2 < 0), Qred_p1,
        require_nonnegint_err (by omega : ((1 : ℕ) : Int) - 2 < 0)]
      rfl
  obtain ⟨n, rfl⟩ := Nat.exists_eq_add_of_le' h2v
  obtain ⟨m1, h1, h1'⟩ := C64_Qred_p1 n
  obtain ⟨m2, h2, h2'⟩ := C64_QxQred_m2 (n + 2) (by omega)
  have e0 : (((n + 2 : ℕ) : Int)) = n + 2 := by push_cast; ring
  have e1 : ((n : Int) + 2 - 1) = n + 1 := by ring
  have e2 : ((n : Int) + 2 - 2) = n := by ring
  rw [e0, e2] at h2
  rw [e0] at h2'
  simp only [e0, e1, e2]
  have hm : min ((n : Int) + 2) (n + 1) = n + 1 := by omega
  have eL : (2 * ((n : Int) + 2) - 2) = 2 * n + 2 := by ring
  have eL' : (2 * ((n : Int) + 1)) = 2 * n + 2 := by ring
  have eM : (2 * (n : Int) + 2 - 2) = 2 * n := by ring
  have eM' : (2 * (n : Int) + 2 + 2) = 2 * n + 4 := by ring
  rw [require_posint_ok (by omega), require_nonnegint_ok (by omega),
    require_nonnegint_ok (by omega : (0 : Int) ≤ n + 1), require_nonnegint_ok (by omega : (0 : Int) ≤ n)]
  simp only [py_bind_ok, hm, eL, eL', eM, eM']
  rw [lbsSO5r3_rngL_ok (by omega) (by omega) (by omega), labels_one, h1, h2, h1', h2']
  have hd : ∀ k : ℕ, dimSO3 (k : Int) = .ok (2 * (k : Int) + 1) := fun k => by
    unfold dimSO3; rw [require_nonnegint_ok (by omega)]; rfl
  have d1 : dimSO3 (2 * (n : Int)) = .ok (2 * (2 * (n : Int)) + 1) := by
    have := hd (2 * n); push_cast at this; exact this
  have d2 : dimSO3 (2 * (n : Int) + 2) = .ok (2 * (2 * (n : Int) + 2) + 1) := by
    have := hd (2 * n + 2); push_cast at this; exact this
  simp only [py_bind_ok, List.mapM_cons, List.mapM_nil, QixQxQred_term, d1, d2]
  cases CG (n, 1, 2 * (n : Int)) (1, 1, 2) (n + 1, 1, 2 * (n : Int) + 2) with
  | error e => rfl
  | ok c1 =>
  cases CG ((n : Int) + 2, 1, 2 * (n : Int) + 2) (2, 1, 2) (n, 1, 2 * (n : Int)) with
  | error e => rfl
  | ok c2 =>
  cases CG ((n : Int) + 2, 1, 2 * (n : Int) + 2) (3, 1, 0) (n + 1, 1, 2 * (n : Int) + 2) with
  | error e => rfl
  | ok c =>
  simp only [py_bind_ok, py_pure]
  split_ifs with hc
  · rfl
  · simp only [Except.map, coef]
    congr 1
    have hp : ((-1 : ℝ)) ^ (2 * (n : Int)).toNat = 1 := by
      have : (2 * (n : Int)).toNat = 2 * n := by omega
      rw [this, pow_mul]; norm_num
    rw [hp]
    have s1 : Real.sqrt (4 * ((n + 2 : ℕ) : ℝ) - 7) ≠ 0 := by
      rw [Real.sqrt_ne_zero']; push_cast; have : (0 : ℝ) ≤ n := Nat.cast_nonneg n; linarith
    have s2 : Real.sqrt (5 * (4 * ((n + 2 : ℕ) : ℝ) - 3)) ≠ 0 := by
      rw [Real.sqrt_ne_zero']; push_cast; have : (0 : ℝ) ≤ n := Nat.cast_nonneg n; linarith
    have t1 : ((2 * (2 * (n : Int)) + 1 : Int) : ℝ) = 4 * ((n + 2 : ℕ) : ℝ) - 7 := by push_cast; ring
    have t2 : (5 : ℝ) * ((2 * (2 * (n : Int) + 2) + 1 : Int) : ℝ) = 5 * (4 * ((n + 2 : ℕ) : ℝ) - 3) := by
      push_cast; ring
    rw [t1, t2]
    simp only [List.sum_cons, List.sum_nil, add_zero, mul_one]
    field_simp

/-- C82.  A negative `v` is rejected by all four. -/
theorem C82_rejects (CG : CGFun) (v : Int) (h : v < 0) :
    QpxQxQred_p1 CG v = .error .valueError ∧ QmxQxQred_p1 CG v = .error .valueError ∧
      QpxQxQred_m1 CG v = .error .valueError ∧ QmxQxQred_m1 CG v = .error .valueError := by
  unfold QpxQxQred_p1 QmxQxQred_p1 QpxQxQred_m1 QmxQxQred_m1
  rw [require_nonnegint_err (by omega), require_posint_err (by omega)]
  exact ⟨rfl, rfl, rfl, rfl⟩

/-- Constant coefficients, for which `QixQxQred(1, 2, 1)` and `QixQxQred(2, 1, 0)` are returned and not 0. -/
theorem q_witness : (∃ x, x ≠ 0 ∧ QixQxQred (fun _ _ _ => .ok 1) 1 2 1 = .ok x) ∧
    ∃ x, x ≠ 0 ∧ QixQxQred (fun _ _ _ => .ok 1) 2 1 0 = .ok x := by
  have hne : Real.sqrt (2 / 7) ≠ 0 := by positivity
  constructor
  · obtain ⟨m1, h1, h1'⟩ := C64_Qred_p1 1
    obtain ⟨m2, h2, h2'⟩ := C64_QxQred_0 1
    have hm1 : m1 ≠ 0 := by
      rintro rfl
      rw [zero_mul, Qred_p1, require_nonnegint_ok (by omega), py_bind_ok, symSqrt_ok (by norm_num)] at h1'
      injection h1' with h
      norm_num [Real.sqrt_eq_zero'] at h
    have hm2 : m2 ≠ 0 := by
      rintro rfl
      rw [zero_mul, QxQred_0, require_nonnegint_ok (by omega), py_bind_ok, symSqrt_ok (by norm_num)] at h2'
      injection h2' with h
      norm_num [Real.sqrt_eq_zero'] at h
    unfold QixQxQred
    rw [require_nonnegint_ok (by omega), require_nonnegint_ok (by omega), py_bind_ok]
    simp only [py_bind_ok]
    rw [lbsSO5r3_rngL_ok (by omega) (by decide) (by decide)]
    have hl : labelsV 1 1 (2 * min 1 2 - 2) (2 * min 1 2 + 2) = [(1, 1, 2)] := by decide +kernel
    have h1 : ME_SO5red 2 1 1 = .ok m1 := h1
    have h2 : ME_SO5red 1 2 1 = .ok m2 := h2
    have d1 : dimSO3 2 = .ok 5 := by decide +kernel
    have d2 : dimSO3 (2 * min 1 2) = .ok 5 := by decide +kernel
    rw [hl, h1, h2]
    simp only [py_bind_ok, List.mapM_cons, List.mapM_nil, QixQxQred_term, d1, d2, py_pure, one_ne_zero, if_false]
    refine ⟨_, ?_, rfl⟩

    simp only [List.sum_cons, List.sum_nil]
    simp [hm1, hm2]
  · obtain ⟨m1, h1, h1'⟩ := C64_Qred_p1 0
    obtain ⟨m2, h2, h2'⟩ := C64_QxQred_m2 2 (by omega)
    have hm1 : m1 ≠ 0 := by
      rintro rfl
      rw [zero_mul, Qred_p1, require_nonnegint_ok (by omega), py_bind_ok, symSqrt_ok (by norm_num)] at h1'
      injection h1' with h
      norm_num [Real.sqrt_eq_zero'] at h
    have hm2 : m2 ≠ 0 := by
      rintro rfl
      rw [zero_mul, QxQred_m2, require_nonnegint_ok (by omega), py_bind_ok, symSqrt_ok (by norm_num)] at h2'
      injection h2' with h
      norm_num [Real.sqrt_eq_zero'] at h
    unfold QixQxQred
    rw [require_nonnegint_ok (by omega), require_nonnegint_ok (by omega), require_nonnegint_ok (by omega), py_bind_ok]
    simp only [py_bind_ok]
    rw [lbsSO5r3_rngL_ok (by omega) (by decide) (by decide)]
    have hl : labelsV 0 0 (2 * min 2 1 - 2) (2 * min 2 1 + 2) = [(0, 1, 0)] := by decide +kernel
    have h1 : ME_SO5red 1 1 0 = .ok m1 := h1
    have h2 : ME_SO5red 0 2 2 = .ok m2 := h2
    have d1 : dimSO3 0 = .ok 1 := by decide +kernel
    have d2 : dimSO3 (2 * min 2 1) = .ok 5 := by decide +kernel
    rw [hl, h1, h2]
    simp only [py_bind_ok, List.mapM_cons, List.mapM_nil, QixQxQred_term, d1, d2, py_pure, one_ne_zero, if_false]
    refine ⟨_, ?_, rfl⟩
    simp only [List.sum_cons, List.sum_nil]
    simp [hm1, hm2]

/-- C82 as documented (lines 1385-1390, "the correspondence is ...") fails: the sign is opposite. -/
theorem C82_sign_fails : ∃ CG : CGFun, QpxQxQred_p1 CG 1 ≠ QixQxQred CG 1 2 1 := by
  obtain ⟨⟨x, hx, h⟩, -⟩ := q_witness
  refine ⟨fun _ _ _ => .ok 1, fun e => hx ?_⟩
  have h2 := C82_Qp_p1 (fun _ _ _ => .ok 1) 1
  have h2 : QpxQxQred_p1 (fun _ _ _ => .ok 1) 1 = negRes (QixQxQred (fun _ _ _ => .ok 1) 1 2 1) := h2
  rw [e, h] at h2
  have h3 : x = -x := by injection h2
  linarith

/-- C82 also fails up to the sign for `QpxQxQred_m1`: for `v = 2` it is five times too large. -/
theorem C82_factor_fails : ∃ (CG : CGFun) (x : ℝ), x ≠ 0 ∧ QixQxQred CG 2 1 0 = .ok x ∧
    QpxQxQred_m1 CG 2 = .ok (-(5 * x)) := by
  obtain ⟨-, x, hx, h⟩ := q_witness
  refine ⟨_, x, hx, h, ?_⟩
  have h2 := C82_Qp_m1_partial (fun _ _ _ => .ok 1) 2
  have h2 : QpxQxQred_m1 (fun _ _ _ => .ok 1) 2 = (QixQxQred (fun _ _ _ => .ok 1) 2 1 0).map fun x =>
      -x * (Real.sqrt (5 * (4 * ((2 : ℕ) : ℝ) - 3)) / Real.sqrt (4 * ((2 : ℕ) : ℝ) - 7)) := h2
  rw [h2, h]
  have e1 : Real.sqrt (5 * (4 * ((2 : ℕ) : ℝ) - 3)) = 5 := by
    rw [show (5 * (4 * ((2 : ℕ) : ℝ) - 3)) = 5 ^ 2 by norm_num, Real.sqrt_sq (by norm_num)]
  have e2 : Real.sqrt (4 * ((2 : ℕ) : ℝ) - 7) = 1 := by
    rw [show (4 * ((2 : ℕ) : ℝ) - 7) = 1 by norm_num, Real.sqrt_one]
  rw [e1, e2]
  simp only [Except.map]
  congr 1; ring

end Acm.Props
