import Verif.Lemmas.SO5Red
import Verif.Lemmas.Spherical
import Mathlib.Tactic.NormNum

/-!
# Properties C64-C66: SO(5)-reduced matrix elements and diagonal operators
-/

namespace Acm.Props

open Acm Acm.Spec

/-! ## C64 -/

/-- The conversion constant from `(4 pi) Y^v` to the maximally coupled product of `v`
quadrupole operators, divided by `4 pi` (internal_operators.py lines 51-63). -/
theorem C64_constants :
    Convert_112 * Convert_red = 1 / Real.sqrt 15 ∧ -(Convert_212 * Convert_red) = Real.sqrt (2 / 105) ∧
    Convert_316 * Convert_red = Real.sqrt (2 / 35) / 3 := by
  have h := Real.pi_ne_zero
  have h15 : Real.sqrt 15 ≠ 0 := by positivity
  unfold Convert_112 Convert_212 Convert_316 Convert_red FourPi
  refine ⟨?_, ?_, ?_⟩ <;> field_simp

/-- Proves `Qred v = ME * k` from the squares. -/
theorem red_aux {p q : Int} {x k K : ℝ} (hx : 0 < x) (hk : 0 ≤ k) (hK : k ^ 2 = K)
    (h : x ^ 2 * K = (p : ℝ) / q) : symSqrt p q = .ok (x * k) := by
  have h0 : 0 ≤ (p : ℝ) / q := by rw [← h, ← hK]; positivity
  rw [symSqrt_ok h0]
  congr 1
  exact (eq_sqrt_of_sq (by positivity) (by rw [mul_pow, hK, h])).symm

theorem k1_sq : (1 / Real.sqrt 15) ^ 2 = 1 / 15 := by rw [div_pow, Real.sq_sqrt (by norm_num)]; norm_num
theorem k2_sq : Real.sqrt (2 / 105) ^ 2 = 2 / 105 := Real.sq_sqrt (by norm_num)
theorem k3_sq : (Real.sqrt (2 / 35) / 3) ^ 2 = 2 / 315 := by
  rw [div_pow, Real.sq_sqrt (by norm_num)]; norm_num

theorem k4_sq : (Real.sqrt (2 / 35) / 3 / 3) ^ 2 = 2 / 2835 := by
  rw [div_pow, k3_sq]; norm_num

/-- C64: `Qred_p1`. -/
theorem C64_Qred_p1 (v : ℕ) : ∃ m, ME_SO5red (v + 1) 1 v = .ok m ∧
    Qred_p1 v = .ok (m * (Convert_112 * Convert_red)) := by
  refine ⟨_, ME_SO5red_abc 0 1 v _ _ _ (by push_cast; ring) (by norm_num) (by push_cast; ring), ?_⟩
  rw [C64_constants.1, Qred_p1, require_nonnegint_ok (by omega), py_bind_ok]
  refine red_aux (meABC_pos _ _ _) (by positivity) k1_sq ?_
  rw [meABC_sq]
  have e : 2 * (0 + 1 + v) + 3 = 2 * v + 1 + 1 + 1 + 1 + 1 := by ring
  have e1 : 0 + 1 + v + 1 = v + 1 + 1 := by ring
  rw [e, e1]
  simp only [Nat.factorial_succ, Nat.factorial_zero, Nat.mul_one, Nat.reduceAdd,
    Nat.reduceMul]
  push_cast
  have := Nat.factorial_ne_zero v
  have := Nat.factorial_ne_zero (2 * v)
  field_simp
  ring

/-- C64: `Qred_m1`. -/
theorem C64_Qred_m1 (v : ℕ) (hv : 1 ≤ v) : ∃ m, ME_SO5red (v - 1) 1 v = .ok m ∧
    Qred_m1 v = .ok (m * (Convert_112 * Convert_red)) := by
  obtain ⟨n, rfl⟩ := Nat.exists_eq_add_of_le' hv
  refine ⟨_, ME_SO5red_abc 1 0 n _ _ _ (by push_cast; ring) (by norm_num) (by push_cast; ring), ?_⟩
  rw [C64_constants.1, Qred_m1, require_nonnegint_ok (by omega), py_bind_ok]
  refine red_aux (meABC_pos _ _ _) (by positivity) k1_sq ?_
  rw [meABC_sq]
  have e : 2 * (1 + 0 + n) + 3 = 2 * n + 1 + 1 + 1 + 1 + 1 := by ring
  have e1 : 1 + 0 + n + 1 = n + 1 + 1 := by ring
  rw [e, e1]
  simp only [Nat.factorial_succ, Nat.factorial_zero, Nat.mul_one, Nat.reduceAdd,
    Nat.reduceMul]
  push_cast
  have := Nat.factorial_ne_zero n
  have := Nat.factorial_ne_zero (2 * n)
  have : (2 * ((n : ℝ) + 1) + 1) = 2 * n + 3 := by ring
  rw [this]
  field_simp
  ring

/-- C64: `QxQred_p2`. -/
theorem C64_QxQred_p2 (v : ℕ) : ∃ m, ME_SO5red (v + 2) 2 v = .ok m ∧
    QxQred_p2 v = .ok (m * -(Convert_212 * Convert_red)) := by
  refine ⟨_, ME_SO5red_abc 0 2 v _ _ _ (by push_cast; ring) (by norm_num) (by push_cast; ring), ?_⟩
  rw [C64_constants.2.1, QxQred_p2, require_nonnegint_ok (by omega), py_bind_ok]
  refine red_aux (meABC_pos _ _ _) (by positivity) k2_sq ?_
  rw [meABC_sq]
  have e : 2 * (0 + 2 + v) + 3 = 2 * v + 1 + 1 + 1 + 1 + 1 + 1 + 1 := by ring
  have e1 : 0 + 2 + v + 1 = v + 1 + 1 + 1 := by ring
  rw [e, e1]
  simp only [Nat.factorial_succ, Nat.factorial_zero, Nat.mul_one, Nat.reduceAdd,
    Nat.reduceMul]
  push_cast
  have := Nat.factorial_ne_zero v
  have := Nat.factorial_ne_zero (2 * v)
  field_simp
  ring

/-- C64: `QxQred_0`. -/
theorem C64_QxQred_0 (v : ℕ) : ∃ m, ME_SO5red (v) 2 v = .ok m ∧
    QxQred_0 v = .ok (m * -(Convert_212 * Convert_red)) := by
  rcases Nat.eq_zero_or_pos v with rfl | hv
  · refine ⟨0, ?_, ?_⟩
    · have := ME_SO5red_zero 0 2 0 (by omega)
      simpa using this
    · rw [QxQred_0, require_nonnegint_ok (by omega), py_bind_ok]
      simp [symSqrt]
      try rfl
  · obtain ⟨n, rfl⟩ := Nat.exists_eq_add_of_le' hv
    refine ⟨_, ME_SO5red_abc 1 1 n _ _ _ (by push_cast; ring) (by norm_num) (by push_cast; ring), ?_⟩
    rw [C64_constants.2.1, QxQred_0, require_nonnegint_ok (by omega), py_bind_ok]
    refine red_aux (meABC_pos _ _ _) (by positivity) k2_sq ?_
    rw [meABC_sq]
    have e : 2 * (1 + 1 + n) + 3 = 2 * n + 1 + 1 + 1 + 1 + 1 + 1 + 1 := by ring
    have e1 : 1 + 1 + n + 1 = n + 1 + 1 + 1 := by ring
    rw [e, e1]
    simp only [Nat.factorial_succ, Nat.factorial_zero, Nat.mul_one, Nat.reduceAdd,
      Nat.reduceMul]
    push_cast
    have := Nat.factorial_ne_zero n
    have := Nat.factorial_ne_zero (2 * n)
    have : (2 * ((n : ℝ) + 1) + 1) = 2 * n + 3 := by ring
    rw [this]
    have : (2 * ((n : ℝ) + 1) + 5) = 2 * n + 7 := by ring
    rw [this]
    field_simp
    ring

/-- C64: `QxQred_m2`. -/
theorem C64_QxQred_m2 (v : ℕ) (hv : 2 ≤ v) : ∃ m, ME_SO5red (v - 2) 2 v = .ok m ∧
    QxQred_m2 v = .ok (m * -(Convert_212 * Convert_red)) := by
  obtain ⟨n, rfl⟩ := Nat.exists_eq_add_of_le' hv
  refine ⟨_, ME_SO5red_abc 2 0 n _ _ _ (by push_cast; ring) (by norm_num) (by push_cast; ring), ?_⟩
  rw [C64_constants.2.1, QxQred_m2, require_nonnegint_ok (by omega), py_bind_ok]
  refine red_aux (meABC_pos _ _ _) (by positivity) k2_sq ?_
  rw [meABC_sq]
  have e : 2 * (2 + 0 + n) + 3 = 2 * n + 1 + 1 + 1 + 1 + 1 + 1 + 1 := by ring
  have e1 : 2 + 0 + n + 1 = n + 1 + 1 + 1 := by ring
  rw [e, e1]
  simp only [Nat.factorial_succ, Nat.factorial_zero, Nat.mul_one, Nat.reduceAdd,
    Nat.reduceMul]
  push_cast
  have := Nat.factorial_ne_zero n
  have := Nat.factorial_ne_zero (2 * n)
  have : (2 * ((n : ℝ) + 2) + 1) = 2 * n + 5 := by ring
  rw [this]
  have : (2 * ((n : ℝ) + 2) - 1) = 2 * n + 3 := by ring
  rw [this]
  field_simp
  ring

/-- C64: `QxQxQred_p3`. -/
theorem C64_QxQxQred_p3 (v : ℕ) : ∃ m, ME_SO5red (v + 3) 3 v = .ok m ∧
    QxQxQred_p3 v = .ok (m * (Convert_316 * Convert_red)) := by
  refine ⟨_, ME_SO5red_abc 0 3 v _ _ _ (by push_cast; ring) (by norm_num) (by push_cast; ring), ?_⟩
  rw [C64_constants.2.2, QxQxQred_p3, require_nonnegint_ok (by omega), py_bind_ok]
  refine red_aux (meABC_pos _ _ _) (by positivity) k3_sq ?_
  rw [meABC_sq]
  have e : 2 * (0 + 3 + v) + 3 = 2 * v + 1 + 1 + 1 + 1 + 1 + 1 + 1 + 1 + 1 := by ring
  have e1 : 0 + 3 + v + 1 = v + 1 + 1 + 1 + 1 := by ring
  rw [e, e1]
  simp only [Nat.factorial_succ, Nat.factorial_zero, Nat.mul_one, Nat.reduceAdd,
    Nat.reduceMul]
  push_cast
  have := Nat.factorial_ne_zero v
  have := Nat.factorial_ne_zero (2 * v)
  field_simp
  ring

/-- C64: `QxQxQred_p1`. -/
theorem C64_QxQxQred_p1 (v : ℕ) : ∃ m, ME_SO5red (v + 1) 3 v = .ok m ∧
    QxQxQred_p1 v = .ok (m * (Convert_316 * Convert_red)) := by
  rcases Nat.eq_zero_or_pos v with rfl | hv
  · refine ⟨0, ?_, ?_⟩
    · have := ME_SO5red_zero 1 3 0 (by omega)
      simpa using this
    · rw [QxQxQred_p1, require_nonnegint_ok (by omega), py_bind_ok]
      simp [symSqrt]
      try rfl
  · obtain ⟨n, rfl⟩ := Nat.exists_eq_add_of_le' hv
    refine ⟨_, ME_SO5red_abc 1 2 n _ _ _ (by push_cast; ring) (by norm_num) (by push_cast; ring), ?_⟩
    rw [C64_constants.2.2, QxQxQred_p1, require_nonnegint_ok (by omega), py_bind_ok]
    have h3 : ∀ (p q : Int) (x k : ℝ), symSqrt p q = .ok (x * (k / 3)) →
        (do let r ← symSqrt p q; pure (3 * r) : Py ℝ) = .ok (x * k) := by
      intro p q x k h; rw [h, py_bind_ok, py_pure]; congr 1; ring
    refine h3 _ _ _ _ (red_aux (meABC_pos _ _ _) (by positivity) k4_sq ?_)
    rw [meABC_sq]
    have e : 2 * (1 + 2 + n) + 3 = 2 * n + 1 + 1 + 1 + 1 + 1 + 1 + 1 + 1 + 1 := by ring
    have e1 : 1 + 2 + n + 1 = n + 1 + 1 + 1 + 1 := by ring
    rw [e, e1]
    simp only [Nat.factorial_succ, Nat.factorial_zero, Nat.mul_one, Nat.reduceAdd,
      Nat.reduceMul]
    push_cast
    have := Nat.factorial_ne_zero n
    have := Nat.factorial_ne_zero (2 * n)
    have : (2 * ((n : ℝ) + 1) + 1) = 2 * n + 3 := by ring
    rw [this]
    have : (2 * ((n : ℝ) + 1) + 5) = 2 * n + 7 := by ring
    rw [this]
    have : (2 * ((n : ℝ) + 1) + 7) = 2 * n + 9 := by ring
    rw [this]
    field_simp
    ring

/-- C64: `QxQxQred_m1`. -/
theorem C64_QxQxQred_m1 (v : ℕ) (hv : 1 ≤ v) : ∃ m, ME_SO5red (v - 1) 3 v = .ok m ∧
    QxQxQred_m1 v = .ok (m * (Convert_316 * Convert_red)) := by
  rcases Nat.eq_or_lt_of_le hv with rfl | hv
  · refine ⟨0, ?_, ?_⟩
    · have := ME_SO5red_zero 0 3 1 (by omega)
      simpa using this
    · rw [QxQxQred_m1, require_nonnegint_ok (by omega), py_bind_ok]
      simp [symSqrt]
      try rfl
  · obtain ⟨n, rfl⟩ := Nat.exists_eq_add_of_le' hv
    refine ⟨_, ME_SO5red_abc 2 1 n _ _ _ (by push_cast; ring) (by norm_num) (by push_cast; ring), ?_⟩
    rw [C64_constants.2.2, QxQxQred_m1, require_nonnegint_ok (by omega), py_bind_ok]
    have h3 : ∀ (p q : Int) (x k : ℝ), symSqrt p q = .ok (x * (k / 3)) →
        (do let r ← symSqrt p q; pure (3 * r) : Py ℝ) = .ok (x * k) := by
      intro p q x k h; rw [h, py_bind_ok, py_pure]; congr 1; ring
    refine h3 _ _ _ _ (red_aux (meABC_pos _ _ _) (by positivity) k4_sq ?_)
    rw [meABC_sq]
    have e : 2 * (2 + 1 + n) + 3 = 2 * n + 1 + 1 + 1 + 1 + 1 + 1 + 1 + 1 + 1 := by ring
    have e1 : 2 + 1 + n + 1 = n + 1 + 1 + 1 + 1 := by ring
    rw [e, e1]
    simp only [Nat.factorial_succ, Nat.factorial_zero, Nat.mul_one, Nat.reduceAdd,
      Nat.reduceMul]
    push_cast
    have := Nat.factorial_ne_zero n
    have := Nat.factorial_ne_zero (2 * n)
    have : (2 * ((n : ℝ) + 2) - 1) = 2 * n + 3 := by ring
    rw [this]
    have : (2 * ((n : ℝ) + 2) + 1) = 2 * n + 5 := by ring
    rw [this]
    have : (2 * ((n : ℝ) + 2) + 5) = 2 * n + 9 := by ring
    rw [this]
    field_simp
    ring

/-- The square of the correct reduced element for `QxQxQ` lowering the seniority by 3. -/
theorem m3_sq (n : ℕ) : meABC 3 0 n ^ 2 * (2 / 315) =
    ((n + 3 : ℝ) * (n + 4) * (n + 5)) / ((2 * n + 3) * (2 * n + 5) * (2 * n + 7)) := by
  rw [meABC_sq]
  have e : 2 * (3 + 0 + n) + 3 = 2 * n + 1 + 1 + 1 + 1 + 1 + 1 + 1 + 1 + 1 := by ring
  have e1 : 3 + 0 + n + 1 = n + 1 + 1 + 1 + 1 := by ring
  rw [e, e1]
  simp only [Nat.factorial_succ, Nat.factorial_zero, Nat.mul_one, Nat.reduceAdd,
    Nat.reduceMul]
  push_cast
  have := Nat.factorial_ne_zero n
  have := Nat.factorial_ne_zero (2 * n)
  field_simp
  ring

/-- C64, what holds for `QxQxQred_m3`: because of `v * 2` in line 207 (instead of `v + 2`) its
value is the reduced matrix element times `sqrt(2 v / (v + 2))`.  Missing for the full claim:
the factor should be 1. -/
theorem C64_QxQxQred_m3_partial (v : ℕ) (hv : 3 ≤ v) : ∃ m, ME_SO5red (v - 3) 3 v = .ok m ∧ 0 < m ∧
    QxQxQred_m3 v = .ok (m * (Convert_316 * Convert_red) * Real.sqrt (2 * v / (v + 2))) := by
  obtain ⟨n, rfl⟩ := Nat.exists_eq_add_of_le' hv
  refine ⟨_, ME_SO5red_abc 3 0 n _ _ _ (by push_cast; ring) (by norm_num) (by push_cast; ring),
    meABC_pos _ _ _, ?_⟩
  rw [C64_constants.2.2, QxQxQred_m3, require_nonnegint_ok (by omega), py_bind_ok,
    mul_assoc (meABC 3 0 n)]
  refine red_aux (meABC_pos _ _ _) (by positivity)
    (by rw [mul_pow, k3_sq, Real.sq_sqrt (by positivity)]) ?_
  rw [← mul_assoc, m3_sq]
  push_cast
  have h1 : (2 * ((n : ℝ) + 3) - 3) = 2 * n + 3 := by ring
  have h2 : (2 * ((n : ℝ) + 3) - 1) = 2 * n + 5 := by ring
  rw [h1, h2]
  field_simp
  ring

/-- C64 is false of the code: `QxQxQred_m3` differs from the reduced matrix element for every
valid `v`. -/
theorem C64_QxQxQred_m3_fails (v : ℕ) (hv : 3 ≤ v) : ∃ m, ME_SO5red (v - 3) 3 v = .ok m ∧
    QxQxQred_m3 v ≠ .ok (m * (Convert_316 * Convert_red)) := by
  obtain ⟨m, h1, h2, h3⟩ := C64_QxQxQred_m3_partial v hv
  refine ⟨m, h1, ?_⟩
  rw [h3, C64_constants.2.2]
  intro h
  have h : m * (Real.sqrt (2 / 35) / 3) * Real.sqrt (2 * v / (v + 2)) = m * (Real.sqrt (2 / 35) / 3) :=
    Except.ok.inj h
  have hp : 0 < m * (Real.sqrt (2 / 35) / 3) := by positivity
  have h4 : Real.sqrt (2 * v / (v + 2)) = 1 := by
    have := mul_left_cancel₀ (ne_of_gt hp) (h.trans (mul_one _).symm)
    exact this
  rw [Real.sqrt_eq_one, div_eq_one_iff_eq (by positivity)] at h4
  have : 2 * v = v + 2 := by exact_mod_cast h4
  omega

/-- C64 at concrete seniorities: `Qred_p1(0) = sqrt(1/5)`, `QxQred_m2(2) = sqrt(12/15)`. -/
example : Qred_p1 0 = .ok (Real.sqrt (1 / 5)) ∧ QxQred_m2 2 = .ok (Real.sqrt (12 / 15)) := by
  constructor
  · rw [Qred_p1, require_nonnegint_ok (by omega), py_bind_ok, symSqrt_ok (by norm_num)]
    norm_num
  · rw [QxQred_m2, require_nonnegint_ok (by omega), py_bind_ok, symSqrt_ok (by norm_num)]
    norm_num

/-! ## C65 -/

/-- C65, selection rules: for all seniorities the reduced element is defined; it is positive if
the triangle inequalities hold and the sum is even, and 0 otherwise. -/
theorem C65_selection (u w v : ℕ) : ∃ m, ME_SO5red u w v = .ok m ∧
    ((w ≤ u + v ∧ v ≤ u + w ∧ u ≤ v + w ∧ (u + v + w) % 2 = 0) → 0 < m) ∧
    (¬ (w ≤ u + v ∧ v ≤ u + w ∧ u ≤ v + w ∧ (u + v + w) % 2 = 0) → m = 0) := by
  by_cases h : w ≤ u + v ∧ v ≤ u + w ∧ u ≤ v + w ∧ (u + v + w) % 2 = 0
  · obtain ⟨a, b, c, rfl, rfl, rfl⟩ := exists_abc h.1 h.2.1 h.2.2.1 h.2.2.2
    exact ⟨_, ME_SO5red_abc a b c _ _ _ (by push_cast; ring) (by push_cast; ring)
      (by push_cast; ring), fun _ => meABC_pos _ _ _, fun hn => absurd h hn⟩
  · exact ⟨0, ME_SO5red_zero u w v (by omega), fun h2 => absurd h2 h, fun _ => rfl⟩

/-- C65: a negative argument is rejected. -/
theorem C65_negative (u w v : Int) (h : u < 0 ∨ w < 0 ∨ v < 0) :
    ME_SO5red u w v = .error .valueError := by
  unfold ME_SO5red
  by_cases hu : u < 0
  · rw [require_nonnegint_err hu]; rfl
  · rw [require_nonnegint_ok (by omega), py_bind_ok]
    by_cases hw : w < 0
    · rw [require_nonnegint_err hw]; rfl
    · rw [require_nonnegint_ok (by omega), py_bind_ok, require_nonnegint_err (by omega)]; rfl

theorem dim_ok (v : ℕ) : ∃ d, dimSO5 v = .ok d ∧ (d : ℝ) = (v + 1) * (v + 2) * (2 * v + 3) / 6 := by
  refine ⟨_, by rw [dimSO5, require_nonnegint_ok (by omega)]; rfl, ?_⟩
  have hdvd : (6 : Int) ∣ (v + 1) * (v + 2) * (2 * v + 3) := by
    have h : ∀ n : ℕ, (6 : Int) ∣ (n + 1) * (n + 2) * (2 * n + 3) := by
      intro n
      induction n with
      | zero => norm_num
      | succ n ih =>
        have e : (((n + 1 : ℕ) : Int) + 1) * ((n + 1 : ℕ) + 2) * (2 * (n + 1 : ℕ) + 3) =
            (n + 1) * (n + 2) * (2 * n + 3) + 6 * ((n + 2) * (n + 2)) := by push_cast; ring
        rw [e]
        exact dvd_add ih (dvd_mul_right _ _)
    exact h v
  obtain ⟨k, hk⟩ := hdvd
  rw [hk, Int.mul_fdiv_cancel_left _ (by norm_num)]
  have : (((v : Int) + 1) * (v + 2) * (2 * v + 3) : ℝ) = 6 * k := by exact_mod_cast hk
  push_cast at this
  rw [this]; ring

/-- C65, symmetry: multiplied by the square root of the SO(5) dimension of the final state, the
reduced element is symmetric under exchange of the initial and the final seniority. -/
theorem C65_symmetry (u w v : ℕ) : ∃ (m m' : ℝ) (du dv : Int),
    ME_SO5red u w v = .ok m ∧ ME_SO5red v w u = .ok m' ∧ dimSO5 u = .ok du ∧ dimSO5 v = .ok dv ∧
    m * Real.sqrt du = m' * Real.sqrt dv := by
  obtain ⟨du, hdu, eu⟩ := dim_ok u
  obtain ⟨dv, hdv, ev⟩ := dim_ok v
  by_cases h : w ≤ u + v ∧ v ≤ u + w ∧ u ≤ v + w ∧ (u + v + w) % 2 = 0
  · obtain ⟨a, b, c, rfl, rfl, rfl⟩ := exists_abc h.1 h.2.1 h.2.2.1 h.2.2.2
    refine ⟨_, _, du, dv, ME_SO5red_abc a b c _ _ _ (by push_cast; ring) (by push_cast; ring)
      (by push_cast; ring), ME_SO5red_abc b a c _ _ _ (by push_cast; ring) (by push_cast; ring)
      (by push_cast; ring), hdu, hdv, ?_⟩
    have hp := meABC_pos a b c
    have hq := meABC_pos b a c
    have key : (meABC a b c * Real.sqrt du) ^ 2 = (meABC b a c * Real.sqrt dv) ^ 2 := by
      rw [mul_pow, mul_pow, meABC_sq, meABC_sq, eu, ev, Real.sq_sqrt (by positivity),
        Real.sq_sqrt (by positivity), show b + a + c = a + b + c by ring]
      push_cast
      have := Nat.factorial_ne_zero a
      have := Nat.factorial_ne_zero b
      have := Nat.factorial_ne_zero c
      have := Nat.factorial_ne_zero (2 * (a + b + c) + 3)
      field_simp
      ring
    exact (pow_left_inj₀ (by positivity) (by positivity) two_ne_zero).mp key
  · exact ⟨0, 0, du, dv, ME_SO5red_zero u w v (by omega), ME_SO5red_zero v w u (by omega), hdu,
      hdv, by simp⟩

/-- C65 at a concrete point: `ME_SO5red(1,1,0)` is inside the rules, `(2,1,0)` is outside. -/
example : (∃ m, ME_SO5red 1 1 0 = .ok m ∧ 0 < m) ∧ ME_SO5red 2 1 0 = .ok 0 := by
  obtain ⟨m, h1, h2, _⟩ := C65_selection 1 1 0
  obtain ⟨m', h1', _, h2'⟩ := C65_selection 2 1 0
  refine ⟨⟨m, h1, h2 (by omega)⟩, ?_⟩
  rw [← h2' (by omega)]; exact h1'

end Acm.Props
