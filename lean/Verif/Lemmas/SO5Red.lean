import Verif.Model.SO5Red
import Verif.Lemmas.Py
import Mathlib.Tactic.FieldSimp
import Mathlib.Tactic.Ring
import Mathlib.Tactic.Positivity
import Mathlib.Tactic.LinearCombination

/-!
# Lemmas on SO(5)-reduced matrix elements

Inside the triangle rules, write `a = (v+w-u)/2`, `b = (u+w-v)/2`, `c = (u+v-w)/2`.
-/

namespace Acm

/-- The value of `ME_SO5red` at `u = b+c`, `w = a+b`, `v = a+c`. -/
noncomputable def meABC (a b c : ℕ) : ℝ :=
  ((a + b + c + 1).factorial : ℝ) / (a.factorial * b.factorial * c.factorial) *
    Real.sqrt ((2 * (a + c) + 3) * (2 * (a + b) + 3) * (2 * (a + b + c) + 4) / (b + c + 2)
      / (b + c + 1) * (2 * a + 1).factorial * (2 * c + 1).factorial * (2 * b + 1).factorial
      / (2 * (a + b + c) + 3).factorial)

theorem ME_SO5red_abc (a b c : ℕ) (u w v : Int) (hu : u = b + c) (hw : w = a + b)
    (hv : v = a + c) : ME_SO5red u w v = .ok (meABC a b c) := by
  subst hu hw hv
  unfold ME_SO5red
  rw [require_nonnegint_ok (by omega), require_nonnegint_ok (by omega),
    require_nonnegint_ok (by omega)]
  simp only [py_bind_ok]
  have ho : ¬ is_odd ((b : Int) + c + (a + c) + (a + b)) = true := by
    rw [is_odd_iff]; omega
  rw [if_neg (by
    rintro (h | h | h | h)
    · omega
    · omega
    · omega
    · exact ho h)]
  have e0 : ((2 * (a + b + c) : ℕ) : Int) / 2 = ((a + b + c : ℕ) : Int) := by omega
  have es : ((a : Int) + c + (a + b) + (b + c)) = ((2 * (a + b + c) : ℕ) : Int) := by
    push_cast; ring
  have t1 : (((a + b + c : ℕ) : Int) + 1).toNat = a + b + c + 1 := by omega
  have t2 : (((a + b + c : ℕ) : Int) - (b + c)).toNat = a := by omega
  have t3 : (((a + b + c : ℕ) : Int) - (a + c)).toNat = b := by omega
  have t4 : (((a + b + c : ℕ) : Int) - (a + b)).toNat = c := by omega
  have t5 : (((2 * (a + b + c) : ℕ) : Int) - 2 * (b + c) + 1).toNat = 2 * a + 1 := by omega
  have t6 : (((2 * (a + b + c) : ℕ) : Int) - 2 * (a + b) + 1).toNat = 2 * c + 1 := by omega
  have t7 : (((2 * (a + b + c) : ℕ) : Int) - 2 * (a + c) + 1).toNat = 2 * b + 1 := by omega
  have t8 : (((2 * (a + b + c) : ℕ) : Int) + 3).toNat = 2 * (a + b + c) + 3 := by omega
  simp only [es, e0, fact, t1, t2, t3, t4, t5, t6, t7, t8, meABC]
  rw [py_pure]
  congr 1
  push_cast
  rfl

theorem meABC_pos (a b c : ℕ) : 0 < meABC a b c := by
  unfold meABC
  have := fun n : ℕ => (Nat.cast_pos (α := ℝ)).mpr n.factorial_pos
  have h1 := this a
  have h2 := this b
  have h3 := this c
  have h4 := this (a + b + c + 1)
  have h5 := this (2 * a + 1)
  have h6 := this (2 * b + 1)
  have h7 := this (2 * c + 1)
  have h8 := this (2 * (a + b + c) + 3)
  have : 0 < (2 * ((a : ℝ) + c) + 3) * (2 * (a + b) + 3) * (2 * (a + b + c) + 4) / (b + c + 2)
      / (b + c + 1) * (2 * a + 1).factorial * (2 * c + 1).factorial * (2 * b + 1).factorial
      / (2 * (a + b + c) + 3).factorial := by positivity
  have := Real.sqrt_pos.mpr this
  positivity

theorem ME_SO5red_zero (u w v : ℕ)
    (h : u + v < w ∨ u + w < v ∨ v + w < u ∨ (u + v + w) % 2 = 1) :
    ME_SO5red u w v = .ok 0 := by
  unfold ME_SO5red
  rw [require_nonnegint_ok (by omega), require_nonnegint_ok (by omega),
    require_nonnegint_ok (by omega)]
  simp only [py_bind_ok]
  rw [if_pos]
  · rfl
  · rcases h with h | h | h | h
    · left; omega
    · right; left; omega
    · right; right; left; omega
    · right; right; right; rw [is_odd_iff]; omega

/-- Triples inside the triangle and parity rules are of the form `b+c, a+b, a+c`. -/
theorem exists_abc {u w v : ℕ} (h1 : w ≤ u + v) (h2 : v ≤ u + w) (h3 : u ≤ v + w)
    (h4 : (u + v + w) % 2 = 0) : ∃ a b c : ℕ, u = b + c ∧ w = a + b ∧ v = a + c :=
  ⟨(v + w - u) / 2, (u + w - v) / 2, (u + v - w) / 2, by omega, by omega, by omega⟩

theorem meABC_sq (a b c : ℕ) : meABC a b c ^ 2 =
    (((a + b + c + 1).factorial : ℝ) / (a.factorial * b.factorial * c.factorial)) ^ 2 *
    ((2 * (a + c) + 3) * (2 * (a + b) + 3) * (2 * (a + b + c) + 4) / (b + c + 2)
      / (b + c + 1) * (2 * a + 1).factorial * (2 * c + 1).factorial * (2 * b + 1).factorial
      / (2 * (a + b + c) + 3).factorial) := by
  unfold meABC
  rw [mul_pow, Real.sq_sqrt (by positivity)]

theorem symSqrt_ok {p q : Int} (h : 0 ≤ (p : ℝ) / q) : symSqrt p q = .ok (Real.sqrt ((p : ℝ) / q)) := by
  unfold symSqrt; rw [if_neg (not_lt.mpr h)]; rfl

/-- A non-negative number is the square root of its square. -/
theorem eq_sqrt_of_sq {x y : ℝ} (hx : 0 ≤ x) (h : x ^ 2 = y) : x = Real.sqrt y := by
  rw [← h, Real.sqrt_sq hx]

end Acm
