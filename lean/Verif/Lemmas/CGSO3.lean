import Verif.Model.CGSO3
import Verif.Spec.CGSO3
import Verif.Lemmas.SO5Prod
import Mathlib.Tactic.Linarith
import Mathlib.Tactic.FieldSimp
import Mathlib.Tactic.Ring
import Mathlib.Tactic.Push
import Mathlib.Data.Rat.Floor
import Mathlib.Algebra.BigOperators.Intervals

/-!
# Lemmas on the SO(3) Clebsch-Gordan coefficients
-/

namespace Acm

open Acm.Spec

theorem ratIsInteger_iff (q : ℚ) : ratIsInteger q = true ↔ ∃ n : ℤ, q = n := by
  unfold ratIsInteger
  rw [beq_iff_eq]
  constructor
  · intro h
    exact ⟨q.num, ((Rat.den_eq_one_iff q).1 h).symm⟩
  · rintro ⟨n, rfl⟩
    exact Rat.den_intCast n

theorem ratIsInteger_int (n : ℤ) : ratIsInteger (n : ℚ) = true := (ratIsInteger_iff _).2 ⟨n, rfl⟩

theorem negOnePow_int {q : ℚ} (n : ℤ) (h : q = n) : negOnePow q = .ok ((-1 : ℝ) ^ n) := by
  subst h
  unfold negOnePow
  rw [if_pos (ratIsInteger_int n), Rat.num_intCast]
  rfl

theorem symFact_nat {q : ℚ} (n : ℕ) (h : q = n) : symFact q = .ok (n.factorial : ℝ) := by
  subst h
  unfold symFact
  have h1 : ratIsInteger (n : ℚ) = true := (ratIsInteger_iff _).2 ⟨n, by push_cast; rfl⟩
  have h2 : (n : ℚ).num = (n : ℤ) := Rat.num_natCast n
  rw [h1, h2]
  simp

theorem symIndex_int {q : ℚ} (n : ℤ) (h : q = n) : symIndex q = .ok n := by
  subst h
  unfold symIndex
  rw [if_pos (ratIsInteger_int n), Rat.num_intCast]
  rfl

/-- One term of the sum in factorials of naturals: `p = j1 + m1`, `p' = j1 - m1`,
`r' = j3 - m3`, `a = j1 + j2 - j3`, `b = j1 - j2 + j3`, `c = -j1 + j2 + j3`. -/
noncomputable def cgTerm (b c p p' r' s : ℕ) : ℝ :=
  (-1) ^ s * ((p + s).factorial : ℝ) * ((c + p' - s).factorial : ℝ) /
    (s.factorial * (p' - s).factorial * (p + s - b).factorial * (r' - s).factorial)

/-- The sum. -/
noncomputable def cgSum (b c p p' r' : ℕ) : ℝ :=
  ∑ s ∈ Finset.Icc (b - p) (min r' p'), cgTerm b c p p' r' s

/-- The coefficient in factorials of naturals. -/
noncomputable def cgVal (a b c p p' q q' r r' : ℕ) : ℝ :=
  (-1) ^ p' * Real.sqrt ((b + c + 1 : ℝ) * (a.factorial * p'.factorial * q'.factorial *
      r.factorial * r'.factorial /
      ((a + b + c + 1).factorial * b.factorial * c.factorial * p.factorial * q.factorial))) *
    cgSum b c p p' r'

/-- The arguments of a coefficient satisfying the selection rules in terms of naturals. -/
structure CGNat (j1 m1 j2 m2 j3 m3 : ℚ) (a b c p p' q q' r r' : ℕ) : Prop where
  ha : j1 + j2 - j3 = a
  hb : j1 - j2 + j3 = b
  hc : -j1 + j2 + j3 = c
  hp : j1 + m1 = p
  hp' : j1 - m1 = p'
  hq : j2 + m2 = q
  hq' : j2 - m2 = q'
  hr : j3 + m3 = r
  hr' : j3 - m3 = r'

theorem CGNat.facts {j1 m1 j2 m2 j3 m3 : ℚ} {a b c p p' q q' r r' : ℕ}
    (h : CGNat j1 m1 j2 m2 j3 m3 a b c p p' q q' r r') :
    p + p' = a + b ∧ q + q' = a + c ∧ r + r' = b + c := by
  have e1 : ((p + p' : ℕ) : ℚ) = ((a + b : ℕ) : ℚ) := by
    push_cast; linarith [h.ha, h.hb, h.hp, h.hp']
  have e2 : ((q + q' : ℕ) : ℚ) = ((a + c : ℕ) : ℚ) := by
    push_cast; linarith [h.ha, h.hc, h.hq, h.hq']
  have e3 : ((r + r' : ℕ) : ℚ) = ((b + c : ℕ) : ℚ) := by
    push_cast; linarith [h.hb, h.hc, h.hr, h.hr']
  exact ⟨by exact_mod_cast e1, by exact_mod_cast e2, by exact_mod_cast e3⟩

theorem CGNat.conserve {j1 m1 j2 m2 j3 m3 : ℚ} {a b c p p' q q' r r' : ℕ}
    (h : CGNat j1 m1 j2 m2 j3 m3 a b c p p' q q' r r') (hm : m1 + m2 = m3) :
    p + q = r + a := by
  have e1 : ((p + q : ℕ) : ℚ) = ((r + a : ℕ) : ℚ) := by
    push_cast; linarith [h.ha, h.hp, h.hq, h.hr]
  exact_mod_cast e1

theorem exists_nat_of_int {x : ℚ} (h : ∃ n : ℤ, x = n) (h0 : 0 ≤ x) : ∃ n : ℕ, x = n := by
  obtain ⟨n, rfl⟩ := h
  have : 0 ≤ n := by exact_mod_cast h0
  exact ⟨n.toNat, by rw [← Int.cast_natCast, Int.toNat_of_nonneg this]⟩

/-- Half-integers satisfying the selection rules are given by naturals. -/
theorem exists_CGNat {j1 m1 j2 m2 j3 m3 : ℚ} (h1 : HalfInt j1) (h2 : HalfInt j2)
    (h3 : HalfInt j3) (h : CGRules j1 m1 j2 m2 j3 m3) :
    ∃ a b c p p' q q' r r' : ℕ, CGNat j1 m1 j2 m2 j3 m3 a b c p p' q q' r r' := by
  obtain ⟨⟨l1, u1⟩, ⟨l2, u2⟩, ⟨l3, u3⟩, ⟨n1, e1⟩, ⟨n2, e2⟩, ⟨n3, e3⟩, hm, t1, t2, t3⟩ := h
  obtain ⟨k1, f1⟩ := h1
  obtain ⟨k2, f2⟩ := h2
  obtain ⟨k3, f3⟩ := h3
  obtain ⟨a, ha⟩ := exists_nat_of_int (x := j1 + j2 - j3)
    ⟨n1 + n2 - n3, by push_cast; linarith⟩ (by linarith)
  obtain ⟨b, hb⟩ := exists_nat_of_int (x := j1 - j2 + j3)
    ⟨n1 + n2 - n3 - k2 + k3, by push_cast; linarith⟩ (by linarith)
  obtain ⟨c, hc⟩ := exists_nat_of_int (x := -j1 + j2 + j3)
    ⟨n1 + n2 - n3 - k1 + k3, by push_cast; linarith⟩ (by linarith)
  obtain ⟨p, hp⟩ := exists_nat_of_int (x := j1 + m1) ⟨n1, e1⟩ (by linarith)
  obtain ⟨p', hp'⟩ := exists_nat_of_int (x := j1 - m1)
    ⟨k1 - n1, by push_cast; linarith⟩ (by linarith)
  obtain ⟨q, hq⟩ := exists_nat_of_int (x := j2 + m2) ⟨n2, e2⟩ (by linarith)
  obtain ⟨q', hq'⟩ := exists_nat_of_int (x := j2 - m2)
    ⟨k2 - n2, by push_cast; linarith⟩ (by linarith)
  obtain ⟨r, hr⟩ := exists_nat_of_int (x := j3 + m3) ⟨n3, e3⟩ (by linarith)
  obtain ⟨r', hr'⟩ := exists_nat_of_int (x := j3 - m3)
    ⟨k3 - n3, by push_cast; linarith⟩ (by linarith)
  exact ⟨a, b, c, p, p', q, q', r, r', ha, hb, hc, hp, hp', hq, hq', hr, hr'⟩

theorem Wigner_3j_term_ok {j1 m1 j2 m2 j3 m3 : ℚ} {a b c p p' q q' r r' : ℕ}
    (h : CGNat j1 m1 j2 m2 j3 m3 a b c p p' q q' r r') (s : ℕ)
    (h1 : b ≤ p + s) (h2 : s ≤ r') (h3 : s ≤ p') :
    Wigner_3j_term j1 j2 j3 m1 (-m3) (s : ℤ) = .ok (cgTerm b c p p' r' s) := by
  obtain ⟨ha, hb, hc, hp, hp', hq, hq', hr, hr'⟩ := h
  unfold Wigner_3j_term
  rw [negOnePow_int (s : ℤ) rfl, py_bind_ok,
    symFact_nat (p + s) (by push_cast; linarith), py_bind_ok,
    symFact_nat (c + p' - s) (by rw [Nat.cast_sub (by omega)]; push_cast; linarith), py_bind_ok,
    symFact_nat s (by push_cast; rfl), py_bind_ok,
    symFact_nat (p' - s) (by rw [Nat.cast_sub h3]; push_cast; linarith), py_bind_ok,
    symFact_nat (p + s - b) (by rw [Nat.cast_sub h1]; push_cast; linarith), py_bind_ok,
    symFact_nat (r' - s) (by rw [Nat.cast_sub h2]; push_cast; linarith), py_bind_ok]
  unfold cgTerm
  rw [zpow_natCast]
  rfl

theorem sum_map_pyRange_nat (lo hi : ℕ) (f : ℤ → ℝ) (g : ℕ → ℝ)
    (h : ∀ s : ℕ, lo ≤ s → s < hi → f s = g s) :
    ((pyRange lo hi).map f).sum = ∑ s ∈ Finset.Ico lo hi, g s := by
  induction hi with
  | zero => rw [pyRange_empty (by omega)]; simp
  | succ n ih =>
    rcases Nat.lt_or_ge n lo with hl | hl
    · rw [pyRange_empty (by omega), Finset.Ico_eq_empty (by omega)]; simp
    · rw [Finset.sum_Ico_succ_top hl, ← ih fun s h1 h2 => h s h1 (by omega)]
      push_cast
      rw [pyRange_succ (by omega), List.map_append, List.sum_append]
      simp [h n hl (by omega)]

theorem CG_SO3_ok {j1 m1 j2 m2 j3 m3 : ℚ} {a b c p p' q q' r r' : ℕ}
    (h : CGNat j1 m1 j2 m2 j3 m3 a b c p p' q q' r r') (hm : m1 + m2 = m3) :
    CG_SO3 j1 m1 j2 m2 j3 m3 = .ok (cgVal a b c p p' q q' r r') := by
  obtain ⟨e1, e2, e3⟩ := h.facts
  have e4 := h.conserve hm
  have h0 := h
  obtain ⟨ha, hb, hc, hp, hp', hq, hq', hr, hr'⟩ := h
  have na := Nat.cast_nonneg (α := ℚ) a
  have nb := Nat.cast_nonneg (α := ℚ) b
  have nc := Nat.cast_nonneg (α := ℚ) c
  have np := Nat.cast_nonneg (α := ℚ) p
  have np' := Nat.cast_nonneg (α := ℚ) p'
  have nq := Nat.cast_nonneg (α := ℚ) q
  have nq' := Nat.cast_nonneg (α := ℚ) q'
  have nr := Nat.cast_nonneg (α := ℚ) r
  have nr' := Nat.cast_nonneg (α := ℚ) r'
  unfold CG_SO3
  have i1 : ratIsInteger (2 * j1) = true := (ratIsInteger_iff _).2 ⟨p + p', by push_cast; linarith⟩
  have i2 : ratIsInteger (2 * m1) = true := (ratIsInteger_iff _).2 ⟨p - p', by push_cast; linarith⟩
  have i3 : ratIsInteger (2 * j2) = true := (ratIsInteger_iff _).2 ⟨q + q', by push_cast; linarith⟩
  have i4 : ratIsInteger (2 * m2) = true := (ratIsInteger_iff _).2 ⟨q - q', by push_cast; linarith⟩
  have i5 : ratIsInteger (2 * j3) = true := (ratIsInteger_iff _).2 ⟨r + r', by push_cast; linarith⟩
  have i6 : ratIsInteger (2 * m3) = true := (ratIsInteger_iff _).2 ⟨r - r', by push_cast; linarith⟩
  have i7 : ratIsInteger (j1 + m1) = true := (ratIsInteger_iff _).2 ⟨p, by push_cast; linarith⟩
  have i8 : ratIsInteger (j2 + m2) = true := (ratIsInteger_iff _).2 ⟨q, by push_cast; linarith⟩
  have i9 : ratIsInteger (j3 + m3) = true := (ratIsInteger_iff _).2 ⟨r, by push_cast; linarith⟩
  have k1 : ¬ (|m1| > j1 ∨ |m2| > j2 ∨ |m3| > j3) := by
    simp only [not_or, not_lt, gt_iff_lt, abs_le]
    refine ⟨⟨?_, ?_⟩, ⟨?_, ?_⟩, ⟨?_, ?_⟩⟩ <;> linarith
  have k2 : ¬ (j3 < |j1 - j2| ∨ j3 > j1 + j2) := by
    simp only [not_or, not_lt, gt_iff_lt, abs_le]
    refine ⟨⟨?_, ?_⟩, ?_⟩ <;> linarith
  rw [i1, i2, i3, i4, i5, i6, i7, i8, i9, if_neg (by simp), if_neg k1, if_neg (by simp),
    if_neg (by simpa using hm), if_neg k2]
  have w : Wigner_3j j1 j2 j3 m1 m2 (-m3) = .ok ((-1 : ℝ) ^ ((a : ℤ) + b - q') *
      Real.sqrt (a.factorial * p'.factorial * q'.factorial * r.factorial * r'.factorial /
        ((a + b + c + 1).factorial * b.factorial * c.factorial * p.factorial * q.factorial)) *
      cgSum b c p p' r') := by
    unfold Wigner_3j
    have hmax : max 0 (j3 - j2 - m1) = ((b - p : ℕ) : ℤ) := by
      rcases le_total b p with hle | hle
      · have : (b : ℚ) ≤ p := by exact_mod_cast hle
        rw [Nat.sub_eq_zero_of_le hle, max_eq_left (by linarith)]; simp
      · have : (p : ℚ) ≤ b := by exact_mod_cast hle
        rw [max_eq_right (by linarith), Int.cast_natCast, Nat.cast_sub hle]; linarith
    have hmin : min (j3 + -m3) (j1 - m1) + 1 = ((min r' p' + 1 : ℕ) : ℤ) := by
      rw [hp', ← sub_eq_add_neg, hr']
      push_cast
      rfl
    have hts : (pyRange ((b - p : ℕ) : ℤ) ((min r' p' + 1 : ℕ) : ℤ)).mapM
        (Wigner_3j_term j1 j2 j3 m1 (-m3)) =
        .ok ((pyRange ((b - p : ℕ) : ℤ) ((min r' p' + 1 : ℕ) : ℤ)).map
          fun s => cgTerm b c p p' r' s.toNat) := by
      refine mapM_ok fun s hs => ?_
      rw [mem_pyRange] at hs
      have := Wigner_3j_term_ok h0 s.toNat (by omega) (by omega) (by omega)
      rwa [Int.toNat_of_nonneg (by omega)] at this
    rw [negOnePow_int ((a : ℤ) + b - q') (by push_cast; linarith), py_bind_ok,
      symFact_nat a ha, py_bind_ok, symFact_nat p' hp', py_bind_ok,
      symFact_nat q' hq', py_bind_ok, symFact_nat r (by linarith), py_bind_ok,
      symFact_nat r' (by linarith), py_bind_ok,
      symFact_nat (a + b + c + 1) (by push_cast; linarith), py_bind_ok,
      symFact_nat b hb, py_bind_ok, symFact_nat c hc, py_bind_ok, symFact_nat p hp, py_bind_ok,
      symFact_nat q hq, py_bind_ok, symIndex_int _ hmax, py_bind_ok, symIndex_int _ hmin,
      py_bind_ok, hts, py_bind_ok,
      sum_map_pyRange_nat _ _ _ (cgTerm b c p p' r') (fun s _ _ => by rw [Int.toNat_natCast])]
    rfl
  rw [negOnePow_int ((r : ℤ) - c) (by push_cast; linarith), py_bind_ok, w, py_bind_ok]
  unfold cgVal
  have sg : (-1 : ℝ) ^ ((r : ℤ) - c) * (-1 : ℝ) ^ ((a : ℤ) + b - q') = (-1) ^ p' := by
    rw [← zpow_add₀ (by norm_num), ← zpow_natCast]
    have : (r : ℤ) - c + (a + b - q') = p' + 2 * ((p : ℤ) - q') := by omega
    rw [this, zpow_add₀ (by norm_num), zpow_mul]
    norm_num
  rw [Real.sqrt_mul (by positivity)]
  have hj : (2 * (j3 : ℝ) + 1) = (b + c + 1 : ℝ) := by
    have : 2 * j3 + 1 = b + c + 1 := by linarith
    exact_mod_cast congrArg (Rat.cast : ℚ → ℝ) this
  rw [hj, ← sg]
  simp only [py_pure]
  congr 1
  ring

/-- Outside the selection rules the coefficient is 0. -/
theorem CG_SO3_zero {j1 m1 j2 m2 j3 m3 : ℚ} (h1 : HalfInt j1) (h2 : HalfInt m1) (h3 : HalfInt j2)
    (h4 : HalfInt m2) (h5 : HalfInt j3) (h6 : HalfInt m3)
    (h : ¬ CGRules j1 m1 j2 m2 j3 m3) : CG_SO3 j1 m1 j2 m2 j3 m3 = .ok 0 := by
  have hi : ∀ x : ℚ, HalfInt x → ratIsInteger (2 * x) = true := by
    rintro x ⟨n, rfl⟩
    exact (ratIsInteger_iff _).2 ⟨n, by ring⟩
  unfold CG_SO3
  rw [hi _ h1, hi _ h2, hi _ h3, hi _ h4, hi _ h5, hi _ h6, if_neg (by simp)]
  split_ifs with k1 k2 k3 k4
  any_goals rfl
  · refine absurd ?_ h
    simp only [not_or, not_lt, gt_iff_lt, abs_le] at k1 k4
    simp only [Bool.and_eq_true, ratIsInteger_iff, not_not] at k2 k3
    exact ⟨k1.1, k1.2.1, k1.2.2, k2.1.1, k2.1.2, k2.2, k3, by linarith [k4.1.2],
      by linarith [k4.1.1], k4.2⟩

end Acm
