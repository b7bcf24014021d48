import Verif.Lemmas.CGSO3
import Verif.Lemmas.Ladder
import Verif.Spec.CGLadder
import Mathlib.Tactic.FieldSimp
import Mathlib.Data.Nat.Choose.Sum

/-!
# The coefficients computed by `CG_SO3` obey the ladder relations
-/

namespace Acm.Ladder

open Acm Acm.Spec

theorem cgTerm_r (b c p p' r' s : ℕ) (h : s ≤ r') :
    cgTerm b c p p' r' s = ((r' + 1 : ℕ) - s : ℝ) * cgTerm b c p p' (r' + 1) s := by
  unfold cgTerm
  obtain ⟨t, rfl⟩ := Nat.exists_eq_add_of_le h
  rw [show s + t - s = t by omega, show s + t + 1 - s = t + 1 by omega, Nat.factorial_succ t]
  push_cast
  rw [show (s : ℝ) + t + 1 - s = t + 1 by ring]
  have : ((t : ℝ) + 1) ≠ 0 := by positivity
  field_simp

theorem cgSum_r (b c p p' r' : ℕ) :
    cgSum b c p p' r' =
      ∑ s ∈ Finset.Icc (b - p) (min (r' + 1) p'), ((r' + 1 : ℕ) - s : ℝ) * cgTerm b c p p' (r' + 1) s := by
  unfold cgSum
  rw [← Finset.sum_subset (Finset.Icc_subset_Icc le_rfl (by omega) :
    Finset.Icc (b - p) (min r' p') ⊆ Finset.Icc (b - p) (min (r' + 1) p'))]
  · refine Finset.sum_congr rfl fun s hs => ?_
    rw [Finset.mem_Icc] at hs
    exact cgTerm_r b c p p' r' s (by omega)
  · intro s hs hs'
    rw [Finset.mem_Icc] at hs hs'
    obtain rfl : s = r' + 1 := by omega
    simp

theorem cgTerm_p (b c p p' r' s : ℕ) (h2 : s ≤ p') :
    cgTerm b c (p + 1) p' r' s = -(((s + 1 : ℕ) : ℝ) * cgTerm b c p (p' + 1) (r' + 1) (s + 1)) := by
  unfold cgTerm
  rw [show p + 1 + s = p + (s + 1) by ring, show c + (p' + 1) - (s + 1) = c + p' - s by omega,
    show p' + 1 - (s + 1) = p' - s by omega, show r' + 1 - (s + 1) = r' - s by omega, Nat.factorial_succ s, pow_succ]
  push_cast
  have : ((s : ℝ) + 1) ≠ 0 := by positivity
  field_simp

theorem cgSum_p (b c p p' r' : ℕ) :
    cgSum b c (p + 1) p' r' =
      -∑ s ∈ Finset.Icc (b - p) (min (r' + 1) (p' + 1)), (s : ℝ) * cgTerm b c p (p' + 1) (r' + 1) s := by
  unfold cgSum
  have e : ∑ s ∈ Finset.Icc (b - p) (min (r' + 1) (p' + 1)), (s : ℝ) * cgTerm b c p (p' + 1) (r' + 1) s =
      ∑ s ∈ Finset.Icc (b - (p + 1) + 1) (min r' p' + 1), (s : ℝ) * cgTerm b c p (p' + 1) (r' + 1) s := by
    symm
    refine Finset.sum_subset (Finset.Icc_subset_Icc (by omega) (by omega)) fun s hs hs' => ?_
    rw [Finset.mem_Icc] at hs hs'
    obtain rfl : s = 0 := by omega
    simp
  rw [e, ← Finset.sum_neg_distrib]
  refine Finset.sum_nbij' (· + 1) (· - 1) ?_ ?_ ?_ ?_ ?_
  · intro s hs; rw [Finset.mem_Icc] at hs ⊢; omega
  · intro s hs; rw [Finset.mem_Icc] at hs ⊢; omega
  · intro s hs; simp
  · intro s hs; rw [Finset.mem_Icc] at hs; omega
  · intro s hs
    rw [Finset.mem_Icc] at hs
    rw [cgTerm_p b c p p' r' s (by omega)]

/-- The recursion of the sums. -/
theorem cgSum_rec (b c p p' r' : ℕ) :
    ((r' + 1 : ℕ) : ℝ) * cgSum b c p (p' + 1) (r' + 1) = cgSum b c p (p' + 1) r' - cgSum b c (p + 1) p' r' := by
  rw [cgSum_r b c p (p' + 1) r', cgSum_p, sub_neg_eq_add, ← Finset.sum_add_distrib]
  unfold cgSum
  rw [Finset.mul_sum]
  refine Finset.sum_congr rfl fun s _ => ?_
  ring

theorem cgSum_rec_zero (b c p r' : ℕ) :
    ((r' + 1 : ℕ) : ℝ) * cgSum b c p 0 (r' + 1) = cgSum b c p 0 r' := by
  rw [cgSum_r b c p 0 r']
  unfold cgSum
  rw [Finset.mul_sum]
  refine Finset.sum_congr rfl fun s hs => ?_
  rw [Finset.mem_Icc] at hs
  obtain rfl : s = 0 := by omega
  simp

theorem cgSum_empty (b c p p' r' : ℕ) (h : r' < b - p) : cgSum b c p p' r' = 0 := by
  unfold cgSum
  rw [Finset.Icc_eq_empty (by omega), Finset.sum_empty]

/-- The factor of `cgVal` that does not depend on the projections. -/
noncomputable def W (a b c : ℕ) : ℝ :=
  (b + c + 1 : ℝ) * a.factorial / ((a + b + c + 1).factorial * b.factorial * c.factorial)

theorem W_nonneg (a b c : ℕ) : 0 ≤ W a b c := by unfold W; positivity

theorem cgVal_eq (a b c p p' q q' r r' : ℕ) : cgVal a b c p p' q q' r r' =
    (-1) ^ p' * Real.sqrt (W a b c * (p'.factorial * q'.factorial * r.factorial * r'.factorial /
      (p.factorial * q.factorial))) * cgSum b c p p' r' := by
  unfold cgVal W
  congr 3
  field_simp

theorem sqrt_mul_sqrt_eq {x y k z : ℝ} (hx : 0 ≤ x) (hk : 0 ≤ k) (h : x * y = k ^ 2 * z) :
    Real.sqrt x * Real.sqrt y = k * Real.sqrt z := by
  rw [← Real.sqrt_mul hx, h, Real.sqrt_mul (by positivity), Real.sqrt_sq hk]

section
variable (a b c p p' q q' r r' : ℕ)

/-- The common factor. -/
noncomputable def Z : ℝ := Real.sqrt (W a b c * ((p'.factorial : ℝ) * q'.factorial * (r + 1).factorial * r'.factorial /
      (p.factorial * q.factorial)))

theorem lower_l : Real.sqrt (((r' : ℝ) + 1) * (r + 1)) * cgVal a b c p p' q q' r (r' + 1) =
    (-1) ^ p' * Z a b c p p' q q' r r' * (((r' + 1 : ℕ) : ℝ) * cgSum b c p p' (r' + 1)) := by
  rw [cgVal_eq]
  have := sqrt_mul_sqrt_eq (x := ((r' : ℝ) + 1) * (r + 1)) (y := W a b c * (p'.factorial * q'.factorial * r.factorial *
      (r' + 1).factorial / (p.factorial * q.factorial))) (k := ((r' + 1 : ℕ) : ℝ))
      (z := W a b c * ((p'.factorial : ℝ) * q'.factorial * (r + 1).factorial * r'.factorial /
      (p.factorial * q.factorial))) (by positivity) (by positivity)
      (by rw [Nat.factorial_succ r, Nat.factorial_succ r']; push_cast; field_simp)
  unfold Z
  linear_combination (-1) ^ p' * cgSum b c p p' (r' + 1) * this

theorem lower_1 : Real.sqrt (((p' : ℝ) + 1) * (p + 1)) * cgVal a b c (p + 1) p' q q' (r + 1) r' =
    -((-1) ^ (p' + 1) * Z a b c p (p' + 1) q q' r r' * cgSum b c (p + 1) p' r') := by
  rw [cgVal_eq]
  have := sqrt_mul_sqrt_eq (x := ((p' : ℝ) + 1) * (p + 1)) (y := W a b c * (p'.factorial * q'.factorial *
      (r + 1).factorial * r'.factorial / ((p + 1).factorial * q.factorial))) (k := 1)
      (z := W a b c * (((p' + 1).factorial : ℝ) * q'.factorial * (r + 1).factorial * r'.factorial /
      (p.factorial * q.factorial))) (by positivity) (by positivity)
      (by rw [Nat.factorial_succ p, Nat.factorial_succ p']; push_cast; field_simp)
  unfold Z
  rw [pow_succ]
  linear_combination (-1) ^ p' * cgSum b c (p + 1) p' r' * this

theorem lower_2 : Real.sqrt (((q' : ℝ) + 1) * (q + 1)) * cgVal a b c p p' (q + 1) q' (r + 1) r' =
    (-1) ^ p' * Z a b c p p' q (q' + 1) r r' * cgSum b c p p' r' := by
  rw [cgVal_eq]
  have := sqrt_mul_sqrt_eq (x := ((q' : ℝ) + 1) * (q + 1)) (y := W a b c * (p'.factorial * q'.factorial *
      (r + 1).factorial * r'.factorial / (p.factorial * (q + 1).factorial))) (k := 1)
      (z := W a b c * ((p'.factorial : ℝ) * (q' + 1).factorial * (r + 1).factorial * r'.factorial /
      (p.factorial * q.factorial))) (by positivity) (by positivity)
      (by rw [Nat.factorial_succ q, Nat.factorial_succ q']; push_cast; field_simp)
  unfold Z
  linear_combination (-1) ^ p' * cgSum b c p p' r' * this

end

/-- The value for the highest state. -/
theorem cgVal_top (a b c k q' : ℕ) :
    cgVal a b c (b + q') k (c + k) q' (b + c) 0 =
      (-1) ^ k * Real.sqrt (W a b c * (b + c).factorial * ((b + q').factorial * (c + k).factorial /
        (k.factorial * q'.factorial))) := by
  rw [cgVal_eq, cgSum, show b - (b + q') = 0 by omega, Nat.zero_min, Finset.Icc_self, Finset.sum_singleton, cgTerm]
  simp only [pow_zero, one_mul, Nat.sub_zero, Nat.add_zero, Nat.factorial_zero, Nat.cast_one, mul_one]
  rw [show b + q' - b = q' by omega, mul_assoc]
  congr 1
  have hw := W_nonneg a b c
  have e : W a b c * (b + c).factorial * ((b + q').factorial * (c + k).factorial / (k.factorial * q'.factorial)) =
      (((b + q').factorial : ℝ) * (c + k).factorial / (k.factorial * q'.factorial)) ^ 2 *
      (W a b c * (k.factorial * q'.factorial * (b + c).factorial / ((b + q').factorial * (c + k).factorial))) := by
    field_simp
  rw [e, Real.sqrt_mul (sq_nonneg _), Real.sqrt_sq (by positivity)]
  ring

/-- `Σ_k C(a - k + b, b) C(c + k, c) = C(a + b + c + 1, a)`. -/
theorem sum_choose (c : ℕ) : ∀ b a : ℕ,
    ∑ k ∈ Finset.range (a + 1), (a - k + b).choose b * (c + k).choose c = (a + b + c + 1).choose a := by
  intro b
  induction b with
  | zero =>
    intro a
    have := Nat.sum_range_add_choose a c
    simp only [Nat.choose_zero_right, one_mul, add_zero]
    rw [show a + c + 1 = (c + 1) + a by ring, ← Nat.choose_symm_add, show c + 1 + a = a + c + 1 by ring, ← this]
    exact Finset.sum_congr rfl fun k _ => by rw [add_comm]
  | succ b ihb =>
    intro a
    induction a with
    | zero => simp
    | succ a iha =>
      rw [Finset.sum_range_succ]
      have e : ∀ k ∈ Finset.range (a + 1), (a + 1 - k + (b + 1)).choose (b + 1) * (c + k).choose c =
          (a + 1 - k + b).choose b * (c + k).choose c + (a - k + (b + 1)).choose (b + 1) * (c + k).choose c := by
        intro k hk
        rw [Finset.mem_range] at hk
        rw [show a + 1 - k + (b + 1) = (a + 1 - k + b) + 1 by omega, Nat.choose_succ_succ,
          show a - k + (b + 1) = a + 1 - k + b by omega]
        ring
      rw [Finset.sum_congr rfl e, Finset.sum_add_distrib, iha]
      have i2 := ihb (a + 1)
      rw [Finset.sum_range_succ] at i2
      simp only [Nat.sub_self, Nat.zero_add, Nat.choose_self, one_mul] at i2 ⊢
      rw [show a + 1 + (b + 1) + c + 1 = (a + 1 + b + c + 1) + 1 by ring, Nat.choose_succ_succ, ← i2,
        show a + (b + 1) + c + 1 = a + 1 + b + c + 1 by ring]
      ring

/-- The coefficients as a function of `p = j1 + m1`, `q = j2 + m2`. -/
noncomputable def D (a b c : ℕ) (p q : ℤ) : ℝ :=
  if (0 ≤ p ∧ p ≤ a + b) ∧ (0 ≤ q ∧ q ≤ a + c) ∧ (a : ℤ) ≤ p + q ∧ p + q ≤ a + b + c then
    cgVal a b c p.toNat (a + b - p).toNat q.toNat (a + c - q).toNat (p + q - a).toNat (a + b + c - p - q).toNat
  else 0

theorem D_zero {a b c : ℕ} {p q : ℤ}
    (h : ¬ ((0 ≤ p ∧ p ≤ a + b) ∧ (0 ≤ q ∧ q ≤ a + c) ∧ (a : ℤ) ≤ p + q ∧ p + q ≤ a + b + c)) :
    D a b c p q = 0 := if_neg h

theorem D_eq {a b c : ℕ} {P Q : ℤ} (p p' q q' r r' : ℕ) (hP : P = p) (hQ : Q = q) (h1 : p + p' = a + b)
    (h2 : q + q' = a + c) (h3 : p + q = r + a) (h4 : r + r' = b + c) :
    D a b c P Q = cgVal a b c p p' q q' r r' := by
  subst hP hQ
  unfold D
  rw [if_pos (by omega)]
  congr 1 <;> omega

theorem u_nat {n P : ℤ} (x y : ℕ) (h1 : n - P = x) (h2 : P + 1 = y) : u n P = Real.sqrt ((x : ℝ) * y) := by
  unfold u
  have e1 : ((n : ℝ) - P) = x := by exact_mod_cast h1
  have e2 : ((P : ℝ) + 1) = y := by exact_mod_cast h2
  rw [e1, e2]

theorem D_coupled (a b c : ℕ) : Coupled (a + b) (a + c) a (D a b c) where
  ha := by omega
  ha1 := by omega
  ha2 := by omega
  supp := fun p q h => D_zero fun h' => h ⟨h'.1, h'.2.1⟩
  supp3 := fun p q h => D_zero fun h' => h ⟨h'.2.2.1, by have := h'.2.2.2; omega⟩
  lower := by
    intro P Q h1 h2
    unfold Lo
    by_cases hP : 0 ≤ P ∧ P ≤ a + b
    swap
    · rw [D_zero (p := P) (q := Q) (by omega), D_zero (p := P) (q := Q + 1) (by omega)]
      by_cases e : P = -1
      · subst e; rw [u_neg]; ring
      · rw [D_zero (p := P + 1) (by omega)]; ring
    by_cases hQ : 0 ≤ Q ∧ Q ≤ a + c
    swap
    · rw [D_zero (p := P) (q := Q) (by omega), D_zero (p := P + 1) (q := Q) (by omega)]
      by_cases e : Q = -1
      · subst e; rw [u_neg]; ring
      · rw [D_zero (q := Q + 1) (by omega)]; ring
    obtain ⟨p, rfl⟩ := Int.eq_ofNat_of_zero_le hP.1
    obtain ⟨q, rfl⟩ := Int.eq_ofNat_of_zero_le hQ.1
    obtain ⟨r, hr⟩ := Int.eq_ofNat_of_zero_le (a := p + q - a) (by omega)
    obtain ⟨r', hr'⟩ := Int.eq_ofNat_of_zero_le (a := a + b + c - p - q - 1) (by omega)
    obtain ⟨p', hp'⟩ := Int.eq_ofNat_of_zero_le (a := a + b - p) (by omega)
    obtain ⟨q', hq'⟩ := Int.eq_ofNat_of_zero_le (a := a + c - q) (by omega)
    rw [u_nat (n := a + b + (a + c) - 2 * a) (P := p + q - a) (r' + 1) (r + 1) (by push_cast; omega)
      (by push_cast; omega), D_eq (P := p) (Q := q) p p' q q' r (r' + 1) rfl rfl (by omega) (by omega) (by omega)
      (by omega)]
    push_cast
    rw [lower_l]
    rcases Nat.eq_zero_or_pos p' with e | hpp
    · subst e
      obtain ⟨q', rfl⟩ := Nat.exists_eq_add_of_le' (m := 1) (n := q') (by omega)
      rw [show ((a : ℤ) + b) = p by omega, u_top,
        D_eq (P := p) (Q := q + 1) p 0 (q + 1) q' (r + 1) r' rfl (by push_cast; ring) (by omega) (by omega) (by omega)
        (by omega), u_nat (n := a + c) (P := q) (q' + 1) (q + 1) (by push_cast; omega) (by push_cast; omega)]
      push_cast
      rw [lower_2]
      have := cgSum_rec_zero b c p r'
      push_cast at this
      rw [this]; ring
    · obtain ⟨p', rfl⟩ := Nat.exists_eq_add_of_le' (m := 1) (n := p') (by omega)
      rw [D_eq (P := p + 1) (Q := q) (p + 1) p' q q' (r + 1) r' (by push_cast; ring) rfl (by omega) (by omega) (by omega)
        (by omega), u_nat (n := a + b) (P := p) (p' + 1) (p + 1) (by push_cast; omega) (by push_cast; omega)]
      push_cast
      rw [lower_1]
      have hrec := cgSum_rec b c p p' r'
      push_cast at hrec
      rw [hrec]
      rcases Nat.eq_zero_or_pos q' with e | hqq
      · subst e
        rw [show ((a : ℤ) + c) = q by omega, u_top, cgSum_empty b c p (p' + 1) r' (by omega)]
        ring
      · obtain ⟨q', rfl⟩ := Nat.exists_eq_add_of_le' (m := 1) (n := q') (by omega)
        rw [D_eq (P := p) (Q := q + 1) p (p' + 1) (q + 1) q' (r + 1) r' rfl (by push_cast; ring) (by omega) (by omega)
          (by omega) (by omega), u_nat (n := a + c) (P := q) (q' + 1) (q + 1) (by push_cast; omega)
          (by push_cast; omega)]
        push_cast
        rw [lower_2]
        ring
  top := by
    intro P Q h
    unfold Up
    by_cases hm : (1 ≤ P ∧ P ≤ a + b) ∧ 1 ≤ Q ∧ Q ≤ a + c
    swap
    · have z1 : u (a + b) (P - 1) * D a b c (P - 1) Q = 0 := by
        by_cases e : P - 1 = a + b
        · rw [e, u_top]; ring
        · rw [D_zero (by omega)]; ring
      have z2 : u (a + c) (Q - 1) * D a b c P (Q - 1) = 0 := by
        by_cases e : Q - 1 = a + c
        · rw [e, u_top]; ring
        · rw [D_zero (by omega)]; ring
      rw [z1, z2]; ring
    obtain ⟨k, hk⟩ := Int.eq_ofNat_of_zero_le (a := a + b - P) (by omega)
    obtain ⟨q', hq'⟩ := Int.eq_ofNat_of_zero_le (a := a + c - Q) (by omega)
    rw [D_eq (P := P - 1) (Q := Q) (b + q') (k + 1) (c + (k + 1)) q' (b + c) 0 (by push_cast; omega) (by push_cast; omega)
        (by omega) (by omega) (by omega) (by omega),
      D_eq (P := P) (Q := Q - 1) (b + (q' + 1)) k (c + k) (q' + 1) (b + c) 0 (by push_cast; omega) (by push_cast; omega)
        (by omega) (by omega) (by omega) (by omega),
      u_nat (n := a + b) (P := P - 1) (k + 1) (b + q' + 1) (by push_cast; omega) (by push_cast; omega),
      u_nat (n := a + c) (P := Q - 1) (q' + 1) (c + k + 1) (by push_cast; omega) (by push_cast; omega),
      cgVal_top, cgVal_top]
    have e1 := sqrt_mul_sqrt_eq (x := ((k + 1 : ℕ) : ℝ) * (b + q' + 1 : ℕ)) (y := W a b c * (b + c).factorial *
        ((b + q').factorial * (c + (k + 1)).factorial / ((k + 1).factorial * q'.factorial))) (k := 1)
        (z := W a b c * (b + c).factorial * ((b + q' + 1).factorial * (c + k + 1).factorial /
          (k.factorial * q'.factorial))) (by positivity) (by positivity)
        (by rw [← add_assoc c k 1, Nat.factorial_succ k, Nat.factorial_succ (b + q')]; push_cast; field_simp)
    have e2 := sqrt_mul_sqrt_eq (x := ((q' + 1 : ℕ) : ℝ) * (c + k + 1 : ℕ)) (y := W a b c * (b + c).factorial *
        ((b + (q' + 1)).factorial * (c + k).factorial / (k.factorial * (q' + 1).factorial))) (k := 1)
        (z := W a b c * (b + c).factorial * ((b + q' + 1).factorial * (c + k + 1).factorial /
          (k.factorial * q'.factorial))) (by positivity) (by positivity)
        (by rw [← add_assoc b q' 1, Nat.factorial_succ q', Nat.factorial_succ (c + k)]; push_cast; field_simp)
    rw [pow_succ]
    linear_combination (-1) ^ k * (e2 - e1)

theorem D_norm (a b c : ℕ) : dot (a + b) (a + b + c) (D a b c) (D a b c) = 1 := by
  unfold dot
  have e1 : ∑ p ∈ Finset.Icc (0 : ℤ) (a + b), D a b c p (a + b + c - p) * D a b c p (a + b + c - p) =
      ∑ p ∈ Finset.Icc (b : ℤ) (a + b), D a b c p (a + b + c - p) * D a b c p (a + b + c - p) := by
    symm
    refine Finset.sum_subset (Finset.Icc_subset_Icc (by omega) le_rfl) fun p hp hp' => ?_
    rw [Finset.mem_Icc] at hp hp'
    rw [D_zero (by omega)]; ring
  have e2 : ∑ p ∈ Finset.Icc (b : ℤ) (a + b), D a b c p (a + b + c - p) * D a b c p (a + b + c - p) =
      ∑ k ∈ Finset.range (a + 1), W a b c * (b + c).factorial * b.factorial * c.factorial *
        (((a - k + b).choose b * (c + k).choose c : ℕ) : ℝ) := by
    refine Finset.sum_nbij' (fun p => (a + b - p).toNat) (fun k => (a + b - k : ℤ)) ?_ ?_ ?_ ?_ ?_
    · intro p hp; rw [Finset.mem_Icc] at hp; rw [Finset.mem_range]; omega
    · intro k hk; rw [Finset.mem_range] at hk; rw [Finset.mem_Icc]; omega
    · intro p hp; rw [Finset.mem_Icc] at hp; omega
    · intro k hk; rw [Finset.mem_range] at hk; omega
    · intro p hp
      rw [Finset.mem_Icc] at hp
      obtain ⟨k, hk⟩ := Int.eq_ofNat_of_zero_le (a := a + b - p) (by omega)
      obtain ⟨q', hq'⟩ := Int.eq_ofNat_of_zero_le (a := p - b) (by omega)
      rw [hk, Int.toNat_natCast, D_eq (b + q') k (c + k) q' (b + c) 0 (by push_cast; omega) (by push_cast; omega)
        (by omega) (by omega) (by omega) (by omega), cgVal_top, show a - k = q' by omega]
      have hs := Real.mul_self_sqrt (x := W a b c * (b + c).factorial * ((b + q').factorial * (c + k).factorial /
        (k.factorial * q'.factorial))) (by have := W_nonneg a b c; positivity)
      have hk1 : ((-1 : ℝ) ^ k) * (-1) ^ k = 1 := by rw [← mul_pow]; simp
      have c1 : ((q' + b).choose b : ℝ) * (b.factorial * q'.factorial) = (b + q').factorial := by
        have := Nat.add_choose_mul_factorial_mul_factorial q' b
        rw [add_comm b q', ← this]; push_cast; ring
      have c2 : ((c + k).choose c : ℝ) * (c.factorial * k.factorial) = (c + k).factorial := by
        have := Nat.add_choose_mul_factorial_mul_factorial c k
        rw [← Nat.choose_symm_add] at this
        rw [← this]; push_cast; ring
      calc _ = ((-1 : ℝ) ^ k * (-1) ^ k) * (Real.sqrt (W a b c * (b + c).factorial *
              ((b + q').factorial * (c + k).factorial / (k.factorial * q'.factorial))) *
              Real.sqrt (W a b c * (b + c).factorial *
              ((b + q').factorial * (c + k).factorial / (k.factorial * q'.factorial)))) := by ring
        _ = _ := by
          rw [hk1, hs, ← c1, ← c2]; push_cast; field_simp
  rw [e1, e2, ← Finset.mul_sum, ← Nat.cast_sum, sum_choose]
  have c3 : ((a + b + c + 1).choose a : ℝ) * (a.factorial * (b + c + 1).factorial) = (a + b + c + 1).factorial := by
    have := Nat.add_choose_mul_factorial_mul_factorial a (b + c + 1)
    rw [← Nat.choose_symm_add] at this
    rw [show a + b + c + 1 = a + (b + c + 1) by ring, ← this]; push_cast; ring
  unfold W
  rw [← c3, Nat.factorial_succ (b + c)]
  have : ((a + b + c + 1).choose a : ℝ) ≠ 0 := by
    exact_mod_cast (Nat.choose_pos (by omega)).ne'
  push_cast
  field_simp

theorem D_pos (a b c : ℕ) : 0 < D a b c (a + b) c := by
  rw [D_eq (b + a) 0 c a (b + c) 0 (by push_cast; ring) rfl (by omega) (by omega) (by omega) (by omega)]
  have := cgVal_top a b c 0 a
  rw [add_zero] at this
  rw [this]
  have : 0 < W a b c := by unfold W; positivity
  rw [pow_zero, one_mul]
  positivity

/-- `a = j1 + j2 - j3`, `b = j1 - j2 + j3`, `c = -j1 + j2 + j3`. -/
structure Tri (j1 j2 j3 : ℚ) (a b c : ℕ) : Prop where
  ha : j1 + j2 - j3 = a
  hb : j1 - j2 + j3 = b
  hc : -j1 + j2 + j3 = c

theorem exists_tri {j1 j2 j3 : ℚ} (h : Couples j1 j2 j3) : ∃ a b c, Tri j1 j2 j3 a b c := by
  obtain ⟨⟨k1, f1⟩, ⟨k2, f2⟩, ⟨n, hn⟩, t1, t2, t3⟩ := h
  obtain ⟨a, ha⟩ := exists_nat_of_int (x := j1 + j2 - j3) ⟨k1 + k2 - n, by push_cast; linarith⟩ (by linarith)
  obtain ⟨b, hb⟩ := exists_nat_of_int (x := j1 - j2 + j3) ⟨n - k2, by push_cast; linarith⟩ (by linarith)
  obtain ⟨c, hc⟩ := exists_nat_of_int (x := -j1 + j2 + j3) ⟨n - k1, by push_cast; linarith⟩ (by linarith)
  exact ⟨a, b, c, ha, hb, hc⟩

namespace Tri

variable {j1 j2 j3 : ℚ} {a b c : ℕ} (h : Tri j1 j2 j3 a b c)

include h

theorem e1 : 2 * j1 = ((a + b : ℤ) : ℚ) := by push_cast; linarith [h.ha, h.hb]
theorem e2 : 2 * j2 = ((a + c : ℤ) : ℚ) := by push_cast; linarith [h.ha, h.hc]
theorem e3 : 2 * j3 = ((b + c : ℤ) : ℚ) := by push_cast; linarith [h.hb, h.hc]

theorem half1 : HalfInt j1 := ⟨a + b, by have := h.e1; linarith⟩
theorem half2 : HalfInt j2 := ⟨a + c, by have := h.e2; linarith⟩
theorem half3 : HalfInt j3 := ⟨b + c, by have := h.e3; linarith⟩

theorem swap : Tri j2 j1 j3 a c b := ⟨by linarith [h.ha], by linarith [h.hc], by linarith [h.hb]⟩

theorem turn : Tri j1 j3 j2 b a c := ⟨by linarith [h.hb], by linarith [h.ha], by linarith [h.hc]⟩

end Tri

theorem half_sub {j : ℚ} (hj : HalfInt j) (p : ℤ) : HalfInt (p - j) := by
  obtain ⟨n, rfl⟩ := hj
  exact ⟨2 * p - n, by push_cast; ring⟩

theorem half_add {x y : ℚ} (hx : HalfInt x) (hy : HalfInt y) : HalfInt (x + y) := by
  obtain ⟨n, rfl⟩ := hx
  obtain ⟨m, rfl⟩ := hy
  exact ⟨n + m, by push_cast; ring⟩

/-- The values of `CG_SO3` are those of `D`. -/
theorem CG_D {j1 j2 j3 : ℚ} {a b c : ℕ} (h : Tri j1 j2 j3 a b c) (p q : ℤ) :
    CG_SO3 j1 (p - j1) j2 (q - j2) j3 (p - j1 + (q - j2)) = .ok (D a b c p q) := by
  obtain ⟨ha, hb, hc⟩ := id h
  by_cases hr : (0 ≤ p ∧ p ≤ a + b) ∧ (0 ≤ q ∧ q ≤ a + c) ∧ (a : ℤ) ≤ p + q ∧ p + q ≤ a + b + c
  · obtain ⟨P, rfl⟩ := Int.eq_ofNat_of_zero_le hr.1.1
    obtain ⟨Q, rfl⟩ := Int.eq_ofNat_of_zero_le hr.2.1.1
    obtain ⟨r, hr1⟩ := Int.eq_ofNat_of_zero_le (a := P + Q - a) (by omega)
    obtain ⟨r', hr2⟩ := Int.eq_ofNat_of_zero_le (a := a + b + c - P - Q) (by omega)
    obtain ⟨p', hp'⟩ := Int.eq_ofNat_of_zero_le (a := a + b - P) (by omega)
    obtain ⟨q', hq'⟩ := Int.eq_ofNat_of_zero_le (a := a + c - Q) (by omega)
    rw [D_eq P p' Q q' r r' rfl rfl (by omega) (by omega) (by omega) (by omega)]
    have hr1 : (P : ℚ) + Q - a = r := by exact_mod_cast hr1
    have hr2 : (a : ℚ) + b + c - P - Q = r' := by exact_mod_cast hr2
    have hp' : (a : ℚ) + b - P = p' := by exact_mod_cast hp'
    have hq' : (a : ℚ) + c - Q = q' := by exact_mod_cast hq'
    refine CG_SO3_ok ⟨ha, hb, hc, ?_, ?_, ?_, ?_, ?_, ?_⟩ rfl <;> push_cast <;> linarith
  · rw [D_zero hr]
    refine CG_SO3_zero h.half1 (half_sub h.half1 p) h.half2 (half_sub h.half2 q) h.half3
      (half_add (half_sub h.half1 p) (half_sub h.half2 q)) ?_
    rintro ⟨⟨l1, u1⟩, ⟨l2, u2⟩, ⟨l3, u3⟩, -, -, -, -, -⟩
    refine hr ⟨⟨?_, ?_⟩, ⟨?_, ?_⟩, ?_, ?_⟩
    · exact_mod_cast (by linarith : (0 : ℚ) ≤ p)
    · exact_mod_cast (by linarith : (p : ℚ) ≤ a + b)
    · exact_mod_cast (by linarith : (0 : ℚ) ≤ q)
    · exact_mod_cast (by linarith : (q : ℚ) ≤ a + c)
    · exact_mod_cast (by linarith : (a : ℚ) ≤ p + q)
    · exact_mod_cast (by linarith : (p : ℚ) + q ≤ a + b + c)

theorem CG_D' {j1 j2 j3 m1 m2 m3 : ℚ} {a b c : ℕ} (h : Tri j1 j2 j3 a b c) {p q : ℤ} (h1 : j1 + m1 = p)
    (h2 : j2 + m2 = q) (h3 : m1 + m2 = m3) : CG_SO3 j1 m1 j2 m2 j3 m3 = .ok (D a b c p q) := by
  obtain rfl : m1 = p - j1 := by linarith
  obtain rfl : m2 = q - j2 := by linarith
  rw [← h3]
  exact CG_D h p q

theorem proj_iff {j m : ℚ} {n p : ℤ} (hj : 2 * j = n) (hm : j + m = p) : Proj j m ↔ 0 ≤ p ∧ p ≤ n := by
  constructor
  · rintro ⟨⟨l, u⟩, -⟩
    exact ⟨by exact_mod_cast (by linarith : (0 : ℚ) ≤ p), by exact_mod_cast (by linarith : (p : ℚ) ≤ n)⟩
  · rintro ⟨l, u⟩
    have l : (0 : ℚ) ≤ p := by exact_mod_cast l
    have u : (p : ℚ) ≤ n := by exact_mod_cast u
    exact ⟨⟨by linarith, by linarith⟩, p, hm⟩

theorem step_u {j m : ℚ} {n p : ℤ} (hj : 2 * j = n) (hm : j + m = p) : stepFactor j m = u n p := by
  unfold stepFactor u
  have e1 : (j : ℝ) - m = n - p := by
    have : j - m = n - p := by linarith
    exact_mod_cast congrArg (Rat.cast : ℚ → ℝ) this
  have e2 : (j : ℝ) + m = p := by exact_mod_cast congrArg (Rat.cast : ℚ → ℝ) hm
  rw [e1, e2]

theorem projSum_eq {j : ℚ} {n : ℕ} (hj : 2 * j = n) (f : ℚ → ℝ) :
    projSum j f = ∑ p ∈ Finset.Icc (0 : ℤ) n, f (p - j) := by
  unfold projSum
  rw [hj, Nat.floor_natCast]
  refine Finset.sum_nbij' (fun i : ℕ => (i : ℤ)) Int.toNat ?_ ?_ ?_ ?_ ?_
  · intro x hx; rw [Finset.mem_range] at hx; rw [Finset.mem_Icc]; omega
  · intro x hx; rw [Finset.mem_Icc] at hx; rw [Finset.mem_range]; omega
  · intro x _; simp
  · intro x hx; rw [Finset.mem_Icc] at hx; omega
  · intro x _; simp

/-- Clebsch-Gordan coefficients in the coordinates of `Coupled`. -/
theorem isCG_coupled {j1 j2 j3 : ℚ} {a b c : ℕ} (t : Tri j1 j2 j3 a b c) {C : ℚ → ℚ → ℝ}
    (h : IsClebschGordan j1 j2 j3 C) :
    Coupled (a + b) (a + c) a (fun p q => C (p - j1) (q - j2)) ∧
    dot (a + b) (a + b + c) (fun p q => C (p - j1) (q - j2)) (fun p q => C (p - j1) (q - j2)) = 1 ∧
    0 < C ((a + b : ℤ) - j1) ((c : ℤ) - j2) := by
  have p1 : ∀ p : ℤ, Proj j1 (p - j1) ↔ 0 ≤ p ∧ p ≤ a + b := fun p => proj_iff t.e1 (by ring)
  have p2 : ∀ p : ℤ, Proj j2 (p - j2) ↔ 0 ≤ p ∧ p ≤ a + c := fun p => proj_iff t.e2 (by ring)
  have p3 : ∀ p q : ℤ, Proj j3 (p - j1 + (q - j2)) ↔ 0 ≤ p + q - a ∧ p + q - a ≤ b + c := fun p q =>
    proj_iff t.e3 (by push_cast; linarith [t.ha])
  have s1 : ∀ p : ℤ, stepFactor j1 (p - j1) = u (a + b) p := fun p => step_u t.e1 (by ring)
  have s2 : ∀ p : ℤ, stepFactor j2 (p - j2) = u (a + c) p := fun p => step_u t.e2 (by ring)
  have z : ∀ p q : ℤ, ¬ ((0 ≤ p ∧ p ≤ a + b) ∧ (0 ≤ q ∧ q ≤ a + c) ∧ (a : ℤ) ≤ p + q ∧ p + q ≤ a + b + c) →
      C (p - j1) (q - j2) = 0 := fun p q hh => h.zero _ _ (by rw [p1, p2, p3]; omega)
  refine ⟨⟨by omega, by omega, by omega, fun p q hh => z p q (by omega), fun p q hh => z p q (by omega), ?_, ?_⟩, ?_, ?_⟩
  · intro p q h1 h2
    unfold Lo
    by_cases hp : (0 ≤ p ∧ p ≤ a + b) ∧ 0 ≤ q ∧ q ≤ a + c
    · have l := h.lower (p - j1) (q - j2) ((p1 p).2 hp.1) ((p2 q).2 hp.2) ((p3 p q).2 (by omega)) (by
        have : ((p + q : ℤ) : ℚ) < ((a + b + c : ℤ) : ℚ) := by exact_mod_cast (by omega : p + q < a + b + c)
        push_cast at this
        linarith [t.ha, t.hb, t.hc])
      rw [s1, s2, step_u (p := p + q - a) t.e3 (by push_cast; linarith [t.ha])] at l
      rw [show (a + b + (a + c) - 2 * a : ℤ) = b + c by ring, l]
      push_cast
      rw [show (p : ℚ) - j1 + 1 = p + 1 - j1 by ring, show (q : ℚ) - j2 + 1 = q + 1 - j2 by ring]
    · rw [z p q (by omega)]
      have z1 : u (a + b) p * C ((p + 1 : ℤ) - j1) (q - j2) = 0 := by
        by_cases e : p = -1
        · rw [e, u_neg]; ring
        · rw [z (p + 1) q (by omega)]; ring
      have z2 : u (a + c) q * C (p - j1) ((q + 1 : ℤ) - j2) = 0 := by
        by_cases e : q = -1
        · rw [e, u_neg]; ring
        · rw [z p (q + 1) (by omega)]; ring
      rw [z1, z2]; ring
  · intro p q h1
    unfold Up
    by_cases hp : (0 ≤ p ∧ p ≤ a + b) ∧ 0 ≤ q ∧ q ≤ a + c
    · have l := h.highest (p - j1) (q - j2) ((p1 p).2 hp.1) ((p2 q).2 hp.2) (by
        have : ((p + q : ℤ) : ℚ) = ((a + b + c + 1 : ℤ) : ℚ) := by exact_mod_cast (by omega : p + q = a + b + c + 1)
        push_cast at this
        linarith [t.ha, t.hb, t.hc])
      have e1 : (p : ℚ) - j1 - 1 = (p - 1 : ℤ) - j1 := by push_cast; ring
      have e2 : (q : ℚ) - j2 - 1 = (q - 1 : ℤ) - j2 := by push_cast; ring
      rw [e1, e2, s1, s2] at l
      exact l
    · have z1 : u (a + b) (p - 1) * C ((p - 1 : ℤ) - j1) (q - j2) = 0 := by
        by_cases e : p - 1 = a + b
        · rw [e, u_top]; ring
        · rw [z (p - 1) q (by omega)]; ring
      have z2 : u (a + c) (q - 1) * C (p - j1) ((q - 1 : ℤ) - j2) = 0 := by
        by_cases e : q - 1 = a + c
        · rw [e, u_top]; ring
        · rw [z p (q - 1) (by omega)]; ring
      rw [z1, z2]; ring
  · have n := h.norm
    rw [projSum_eq (n := a + b) (by have := t.e1; push_cast at this ⊢; exact this)] at n
    push_cast at n
    rw [← n]
    unfold dot
    refine Finset.sum_congr rfl fun p _ => ?_
    push_cast
    rw [show ((a : ℚ) + b + c - p - j2) = j3 - (p - j1) by linarith [t.ha, t.hb, t.hc]]
    ring
  · have n := h.phase
    push_cast
    rwa [show ((a : ℚ) + b - j1) = j1 by linarith [t.ha, t.hb], show (c : ℚ) - j2 = j3 - j1 by linarith [t.hc]]

/-- `D` are Clebsch-Gordan coefficients. -/
theorem D_isCG {j1 j2 j3 : ℚ} {a b c : ℕ} (t : Tri j1 j2 j3 a b c) (C : ℚ → ℚ → ℝ)
    (hC : ∀ (m1 m2 : ℚ) (p q : ℤ), j1 + m1 = p → j2 + m2 = q → C m1 m2 = D a b c p q)
    (h0 : ∀ m1 m2, (¬ ∃ p q : ℤ, j1 + m1 = p ∧ j2 + m2 = q) → C m1 m2 = 0) : IsClebschGordan j1 j2 j3 C := by
  have hD := D_coupled a b c
  refine ⟨?_, ?_, ?_, ?_, ?_⟩
  · intro m1 m2 hh
    by_cases hi : ∃ p q : ℤ, j1 + m1 = p ∧ j2 + m2 = q
    · obtain ⟨p, q, h1, h2⟩ := hi
      rw [hC m1 m2 p q h1 h2]
      rw [proj_iff t.e1 h1, proj_iff t.e2 h2, proj_iff t.e3 (p := p + q - a) (by push_cast; linarith [t.ha])] at hh
      exact D_zero (by omega)
    · exact h0 m1 m2 hi
  · rintro m1 m2 ⟨-, p, h1⟩ ⟨-, q, h2⟩ h3 h4
    have e3 : j3 + (m1 + m2) = ((p + q - a : ℤ) : ℚ) := by push_cast; linarith [t.ha]
    have l := hD.lower p q (by have := (proj_iff t.e3 e3).1 h3; omega) (by
      have : ((p + q : ℤ) : ℚ) < ((a + b + c : ℤ) : ℚ) := by push_cast; linarith [t.ha, t.hb, t.hc]
      have := Int.cast_lt.1 this
      omega)
    unfold Lo at l
    rw [show (a + b + (a + c) - 2 * a : ℤ) = b + c by ring] at l
    rw [step_u t.e1 h1, step_u t.e2 h2, step_u t.e3 e3, hC m1 m2 p q h1 h2,
      hC (m1 + 1) m2 (p + 1) q (by push_cast; linarith) h2, hC m1 (m2 + 1) p (q + 1) h1 (by push_cast; linarith), l]
  · rintro m1 m2 ⟨-, p, h1⟩ ⟨-, q, h2⟩ h3
    have l := hD.top p q (by
      have : ((p + q : ℤ) : ℚ) = ((a + b + c + 1 : ℤ) : ℚ) := by push_cast; linarith [t.ha, t.hb, t.hc]
      have := Int.cast_injective this
      omega)
    unfold Up at l
    rw [step_u (p := p - 1) t.e1 (by push_cast; linarith), step_u (p := q - 1) t.e2 (by push_cast; linarith),
      hC (m1 - 1) m2 (p - 1) q (by push_cast; linarith) h2, hC m1 (m2 - 1) p (q - 1) h1 (by push_cast; linarith), l]
  · rw [projSum_eq (n := a + b) (by have := t.e1; push_cast at this ⊢; exact this), ← D_norm a b c]
    push_cast
    unfold dot
    refine Finset.sum_congr rfl fun p _ => ?_
    rw [hC (p - j1) (j3 - (p - j1)) p (a + b + c - p) (by ring) (by push_cast; linarith [t.ha, t.hb, t.hc])]
    ring
  · rw [hC j1 (j3 - j1) (a + b) c (by push_cast; linarith [t.ha, t.hb]) (by push_cast; linarith [t.hc])]
    exact D_pos a b c

theorem top_eq (a b c : ℕ) : ((a : ℤ) + b + (a + c) - a) = a + b + c := by ring

theorem isCG_eq_D {j1 j2 j3 : ℚ} {a b c : ℕ} (t : Tri j1 j2 j3 a b c) {C : ℚ → ℚ → ℝ}
    (h : IsClebschGordan j1 j2 j3 C) (p q : ℤ) : C (p - j1) (q - j2) = D a b c p q := by
  obtain ⟨h1, h2, h3⟩ := isCG_coupled t h
  have hu := unique h1 (D_coupled a b c) (by rw [top_eq]; exact h2) (by rw [top_eq]; exact D_norm a b c)
    (by simpa using h3) (by simpa using D_pos a b c)
  exact congrFun (congrFun hu p) q

theorem D_exchange (a b c : ℕ) (p q : ℤ) : D a c b q p = (-1) ^ a * D a b c p q := by
  have h := D_coupled a b c
  have hs : ((-1 : ℝ) ^ a) ^ 2 = 1 := by rw [← pow_mul, mul_comm, pow_mul]; norm_num
  have hu := unique (D_coupled a c b) (h.exchange.smul ((-1) ^ a))
    (by rw [top_eq]; exact D_norm a c b)
    (by rw [dot_smul, dot_exchange h.supp, hs, one_mul, top_eq, add_right_comm]; exact D_norm a b c)
    (by simpa using D_pos a c b)
    (by
      have := h.sign_top (by simpa using D_pos a b c) a le_rfl
      simpa [add_comm (c : ℤ) a] using this)
  exact congrFun (congrFun hu q) p

theorem D_reverse (a b c : ℕ) (p q : ℤ) : D a b c (a + b - p) (a + c - q) = (-1) ^ a * D a b c p q := by
  have h := D_coupled a b c
  have hs : ((-1 : ℝ) ^ a) ^ 2 = 1 := by rw [← pow_mul, mul_comm, pow_mul]; norm_num
  have hu := unique h (h.reverse.smul ((-1) ^ a))
    (by rw [top_eq]; exact D_norm a b c)
    (by rw [dot_smul, dot_reverse, hs, one_mul, norm_const h _ (by omega) (by omega), top_eq]; exact D_norm a b c)
    (by simpa using D_pos a b c)
    (by
      have := h.sign_low (by simpa using D_pos a b c) a le_rfl
      simpa using this)
  have := congrFun (congrFun hu p) q
  rw [this]
  linear_combination -(D a b c (a + b - p) (a + c - q)) * hs

theorem D_turn (a b c : ℕ) (p q : ℤ) : D b a c p (a + b + c - p - q) =
    (-1) ^ (a + b - p) * Real.sqrt ((a + c + 1) / (b + c + 1)) * D a b c p q := by
  have h := D_coupled a b c
  have n1 : dot (a + b) (a + b + (a + c) - a) (D a b c) (D a b c) = 1 := by rw [top_eq]; exact D_norm a b c
  have hc := col_norm h n1 0 le_rfl (by omega)
  have ht := h.turn.smul ((-1 : ℝ) ^ (a + b : ℤ) * Real.sqrt ((a + c + 1) / (b + c + 1)))
  rw [show ((a : ℤ) + b + (a + c) - 2 * a) = b + c by ring, show ((a : ℤ) + b - a) = b by ring,
    show ((a : ℤ) + b) = b + a by ring] at ht
  have hD := D_coupled b a c
  have s2 := zpow_neg_one_sq ((b : ℤ) + a)
  have hu := unique hD ht (by rw [top_eq]; exact D_norm b a c)
    (by
      rw [dot_smul, mul_pow, s2, Real.sq_sqrt (by positivity), one_mul]
      unfold dot
      have e : ∀ x : ℤ, b + a + (a + c) - a - ((b : ℤ) + a + (b + c) - b - x) - x = 0 := by intro x; ring
      simp only [e]
      have e2 : ∑ x ∈ Finset.Icc (0 : ℤ) (b + a), (-1 : ℝ) ^ x * D a b c x 0 * ((-1) ^ x * D a b c x 0) =
          ∑ x ∈ Finset.Icc (0 : ℤ) (a + b), D a b c x 0 ^ 2 := by
        rw [add_comm (b : ℤ) a]
        refine Finset.sum_congr rfl fun x _ => ?_
        linear_combination D a b c x 0 ^ 2 * zpow_neg_one_sq x
      rw [e2]
      push_cast at hc
      have : (b : ℝ) + c + 1 ≠ 0 := by positivity
      rw [div_mul_eq_mul_div, div_eq_iff this, hc]
      ring)
    (by simpa using D_pos b a c)
    (by
      have e : (b + a + (a + c) - a - (b + c - b) - (b + a) : ℤ) = 0 := by ring
      rw [e]
      have hp := h.pos_right (by simpa using D_pos a b c) 0 le_rfl (by omega)
      rw [add_comm (a : ℤ) b] at hp
      have : (-1 : ℝ) ^ ((b : ℤ) + a) * √(((a : ℝ) + c + 1) / (b + c + 1)) * ((-1) ^ ((b : ℤ) + a) * D a b c (b + a) 0) =
          √(((a : ℝ) + c + 1) / (b + c + 1)) * D a b c (b + a) 0 := by
        linear_combination √(((a : ℝ) + c + 1) / (b + c + 1)) * D a b c (b + a) 0 * s2
      rw [this]
      positivity)
  have := congrFun (congrFun hu p) (a + b + c - p - q)
  rw [this]
  rw [show (b + a + (a + c) - a - (a + b + c - p - q) - p : ℤ) = q by ring, show ((a : ℤ) + b - p) = b + a - p by ring]
  have e : (-1 : ℝ) ^ ((b : ℤ) + a - p) = (-1) ^ ((b : ℤ) + a) * (-1) ^ p := by
    rw [zpow_sub₀ (by norm_num), div_eq_iff (zpow_ne_zero _ (by norm_num))]
    linear_combination -(-1 : ℝ) ^ ((b : ℤ) + a) * zpow_neg_one_sq p
  rw [e]
  ring

end Acm.Ladder
