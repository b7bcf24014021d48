import Verif.Lemmas.RadialDb
import Mathlib.Tactic.LinearCombination

/-!
# The lambda-shifted identity

The polynomials of `MF_Radial_id_pl` are the kernel of the operator
`X_{b+r-1} ... X_b V^r` on sequences, with `V` the partial sums.
-/

namespace Acm

open Acm.Spec

/-- Partial sums. -/
def seqV (f : ℕ → ℝ) (m : ℕ) : ℝ := ∑ n ∈ Finset.range (m + 1), f n

/-- First-order difference operator. -/
def seqX (b : ℝ) (f : ℕ → ℝ) (m : ℕ) : ℝ := (m + b + 1) * f m - (m + 1) * f (m + 1)

/-- `X_{b+r-1} ... X_b`. -/
def seqU : ℕ → ℝ → (ℕ → ℝ) → (ℕ → ℝ)
  | 0, _, f => f
  | r + 1, b, f => seqU r (b + 1) (seqX b f)

/-- `V^r`. -/
def seqVr : ℕ → (ℕ → ℝ) → (ℕ → ℝ)
  | 0, f => f
  | r + 1, f => seqV (seqVr r f)

theorem seqV_succ (f : ℕ → ℝ) (m : ℕ) : seqV f (m + 1) = seqV f m + f (m + 1) := by
  unfold seqV
  rw [Finset.sum_range_succ]

theorem seqX_seqV (b : ℝ) (f : ℕ → ℝ) : seqX (b + 1) (seqV f) = seqV (seqX b f) := by
  funext m
  induction m with
  | zero => simp [seqX, seqV, Finset.sum_range_succ]; ring
  | succ m ih =>
    rw [seqV_succ, ← ih]
    simp only [seqX, seqV_succ]
    push_cast
    ring

theorem seqU_seqV (r : ℕ) (b : ℝ) (f : ℕ → ℝ) : seqU r (b + 1) (seqV f) = seqV (seqU r b f) := by
  induction r generalizing b f with
  | zero => rfl
  | succ r ih => rw [seqU, seqU, seqX_seqV, ih]

theorem seqU_seqVr (r s : ℕ) (b : ℝ) (f : ℕ → ℝ) :
    seqU r (b + s) (seqVr s f) = seqVr s (seqU r b f) := by
  induction s with
  | zero => simp [seqVr]
  | succ s ih =>
    rw [seqVr, seqVr, ← ih, ← seqU_seqV]
    push_cast
    rw [add_assoc]

theorem seqU_add (r s : ℕ) (b : ℝ) (f : ℕ → ℝ) :
    seqU (r + s) b f = seqU s (b + r) (seqU r b f) := by
  induction r generalizing b f with
  | zero => simp [seqU]
  | succ r ih =>
    rw [show r + 1 + s = (r + s) + 1 by ring, seqU, ih, seqU]
    push_cast
    rw [add_assoc b 1 (r : ℝ), add_comm (1 : ℝ) (r : ℝ)]

theorem seqVr_add (r s : ℕ) (f : ℕ → ℝ) : seqVr (s + r) f = seqVr s (seqVr r f) := by
  induction s with
  | zero => simp [seqVr]
  | succ s ih => rw [show s + 1 + r = (s + r) + 1 by ring, seqVr, seqVr, ih]

/-- Composition. -/
theorem seq_comp (r s : ℕ) (lam : ℝ) (f : ℕ → ℝ) :
    seqU s (lam + 2 * r + s - 1) (seqVr s (seqU r (lam + r - 1) (seqVr r f)))
      = seqU (r + s) (lam + (r + s : ℕ) - 1) (seqVr (r + s) f) := by
  rw [← seqU_seqVr, Nat.add_comm r s, seqVr_add, Nat.add_comm s r, seqU_add]
  push_cast
  rw [show lam + (r : ℝ) - 1 + s = lam + (r + s) - 1 by ring,
    show lam + 2 * (r : ℝ) + s - 1 = lam + (r + s) - 1 + r by ring]

/-! ## Closed forms -/

theorem seqVr_closed (r : ℕ) (f : ℕ → ℝ) (m : ℕ) :
    seqVr (r + 1) f m = ∑ n ∈ Finset.range (m + 1), ((r + m - n).choose r : ℝ) * f n := by
  induction r generalizing m with
  | zero => simp [seqVr, seqV]
  | succ r ih =>
    rw [seqVr]
    induction m with
    | zero => simp [seqV, ih]
    | succ m ihm =>
      rw [seqV_succ, ihm, ih]
      have h1 : ∑ n ∈ Finset.range (m + 1), ((r + 1 + m - n).choose (r + 1) : ℝ) * f n
          = ∑ n ∈ Finset.range (m + 1 + 1), ((r + 1 + m - n).choose (r + 1) : ℝ) * f n := by
        rw [Finset.sum_range_succ _ (m + 1), show r + 1 + m - (m + 1) = r by omega,
          Nat.choose_succ_self]
        simp
      rw [h1, ← Finset.sum_add_distrib]
      refine Finset.sum_congr rfl fun n hn => ?_
      rw [Finset.mem_range] at hn
      rw [show r + 1 + (m + 1) - n = (r + 1 + m - n) + 1 by omega, Nat.choose_succ_succ,
        show r + (m + 1) - n = r + 1 + m - n by omega]
      push_cast
      ring

theorem rising_succ (x : ℝ) (n : ℕ) : RisingFactorial x (n + 1) = RisingFactorial x n * (x + n) := by
  unfold RisingFactorial
  rw [Finset.prod_range_succ]

theorem rising_succ' (x : ℝ) (n : ℕ) : RisingFactorial x (n + 1) = x * RisingFactorial (x + 1) n := by
  unfold RisingFactorial
  rw [Finset.prod_range_succ', mul_comm]
  congr 1
  · simp
  · refine Finset.prod_congr rfl fun i _ => ?_
    push_cast
    ring

theorem seqU_closed (r : ℕ) (b : ℝ) (f : ℕ → ℝ) (m : ℕ) :
    seqU r b f m = ∑ j ∈ Finset.range (r + 1), (-1 : ℝ) ^ j * (r.choose j : ℝ)
      * RisingFactorial (b + m + j + 1) (r - j) * RisingFactorial (m + 1) j * f (m + j) := by
  induction r generalizing b f with
  | zero => simp [seqU, RisingFactorial]
  | succ r ih =>
    rw [seqU, ih]
    have key : ∀ j ∈ Finset.range (r + 1), (-1 : ℝ) ^ j * (r.choose j : ℝ)
        * RisingFactorial (b + 1 + m + j + 1) (r - j) * RisingFactorial (m + 1) j * seqX b f (m + j)
        = (-1 : ℝ) ^ j * (r.choose j : ℝ)
          * RisingFactorial (b + m + j + 1) (r + 1 - j) * RisingFactorial (m + 1) j * f (m + j)
        + (-1 : ℝ) ^ (j + 1) * (r.choose j : ℝ)
          * RisingFactorial (b + m + (j + 1 : ℕ) + 1) (r + 1 - (j + 1))
          * RisingFactorial (m + 1) (j + 1) * f (m + (j + 1)) := by
      intro j hj
      rw [Finset.mem_range] at hj
      rw [show r + 1 - j = (r - j) + 1 by omega, rising_succ' _ (r - j), rising_succ _ j,
        show r + 1 - (j + 1) = r - j by omega, pow_succ]
      unfold seqX
      push_cast
      rw [show b + 1 + (m : ℝ) + j + 1 = b + m + j + 1 + 1 by ring,
        show b + (m : ℝ) + (j + 1) + 1 = b + m + j + 1 + 1 by ring, ← add_assoc m j 1]
      ring
    rw [Finset.sum_congr rfl key, Finset.sum_add_distrib]
    have h1 : ∑ j ∈ Finset.range (r + 1), (-1 : ℝ) ^ j * (r.choose j : ℝ)
          * RisingFactorial (b + m + j + 1) (r + 1 - j) * RisingFactorial (m + 1) j * f (m + j)
        = ∑ j ∈ Finset.range (r + 1 + 1), (-1 : ℝ) ^ j * (r.choose j : ℝ)
          * RisingFactorial (b + m + j + 1) (r + 1 - j) * RisingFactorial (m + 1) j * f (m + j) := by
      rw [Finset.sum_range_succ _ (r + 1), Nat.choose_succ_self]
      simp
    rw [h1, Finset.sum_range_succ' _ (r + 1), Finset.sum_range_succ' _ (r + 1)]
    have h2 : ∀ j ∈ Finset.range (r + 1), (-1 : ℝ) ^ (j + 1) * ((r + 1).choose (j + 1) : ℝ)
          * RisingFactorial (b + m + (j + 1 : ℕ) + 1) (r + 1 - (j + 1))
          * RisingFactorial (m + 1) (j + 1) * f (m + (j + 1))
        = (-1 : ℝ) ^ (j + 1) * (r.choose (j + 1) : ℝ)
          * RisingFactorial (b + m + (j + 1 : ℕ) + 1) (r + 1 - (j + 1))
          * RisingFactorial (m + 1) (j + 1) * f (m + (j + 1))
        + (-1 : ℝ) ^ (j + 1) * (r.choose j : ℝ)
          * RisingFactorial (b + m + (j + 1 : ℕ) + 1) (r + 1 - (j + 1))
          * RisingFactorial (m + 1) (j + 1) * f (m + (j + 1)) := by
      intro j _
      rw [Nat.choose_succ_succ]
      push_cast
      ring
    rw [Finset.sum_congr rfl h2, Finset.sum_add_distrib]
    simp only [Nat.choose_zero_right]
    ring

/-- A unit sequence. -/
def seqδ (k n : ℕ) : ℝ := if n = k then 1 else 0

theorem seqVr_δ (r k m : ℕ) :
    seqVr (r + 1) (seqδ k) m = if k ≤ m then ((r + m - k).choose r : ℝ) else 0 := by
  rw [seqVr_closed]
  unfold seqδ
  simp only [mul_ite, mul_one, mul_zero]
  rw [Finset.sum_ite_eq']
  by_cases h : k ≤ m
  · rw [if_pos (Finset.mem_range.2 (by omega)), if_pos h]
  · rw [if_neg (fun hc => h (by rw [Finset.mem_range] at hc; omega)), if_neg h]

theorem MF_eq (lam : ℝ) (mu nu r : ℕ) : MF_Radial_id_pl lam mu nu r
    = (-1) ^ (mu + nu) * seqU r (lam + r - 1) (seqVr r (seqδ nu)) mu := by
  unfold MF_Radial_id_pl
  rcases r with _ | r
  · simp only [if_true, seqU, seqVr, seqδ]
    by_cases h : mu = nu
    · subst h
      rw [if_pos rfl, ← two_mul, pow_mul]
      norm_num
    · rw [if_neg h]; simp
  · rw [if_neg (by omega), seqU_closed]
    simp only [seqVr_δ]
    by_cases h : nu > mu + (r + 1)
    · rw [if_pos h, Finset.sum_eq_zero, mul_zero]
      intro j hj
      rw [Finset.mem_range] at hj
      rw [if_neg (by omega), mul_zero]
    · rw [if_neg h, mul_comm]
      congr 1
      rw [Finset.range_eq_Ico]
      have hsub : Finset.Ico (nu - mu) (r + 1 + 1) ⊆ Finset.Ico 0 (r + 1 + 1) := by
        intro j hj
        rw [Finset.mem_Ico] at hj ⊢
        omega
      rw [← Finset.sum_subset hsub]
      · refine Finset.sum_congr rfl fun j hj => ?_
        rw [Finset.mem_Ico] at hj
        rw [if_pos (by omega), show r + 1 + mu + j - 1 - nu = r + (mu + j) - nu by omega,
          show r + 1 - 1 = r by omega]
        have e : lam + ((r + 1 : ℕ) : ℝ) - 1 + mu + j + 1 = lam + mu + ((r + 1 : ℕ) : ℝ) + j := by
          push_cast; ring
        rw [e]
        ring
      · intro j hj hj'
        rw [Finset.mem_Ico] at hj hj'
        rw [if_neg (by omega), mul_zero]

/-! ## Kernels compose -/

theorem seqX_sum {b : ℝ} (s : Finset ℕ) (c : ℕ → ℝ) (F : ℕ → ℕ → ℝ) :
    seqX b (fun n => ∑ k ∈ s, c k * F k n) = fun n => ∑ k ∈ s, c k * seqX b (F k) n := by
  funext n
  unfold seqX
  rw [Finset.mul_sum, Finset.mul_sum, ← Finset.sum_sub_distrib]
  refine Finset.sum_congr rfl fun k _ => by ring

theorem seqU_sum {r : ℕ} {b : ℝ} (s : Finset ℕ) (c : ℕ → ℝ) (F : ℕ → ℕ → ℝ) :
    seqU r b (fun n => ∑ k ∈ s, c k * F k n) = fun n => ∑ k ∈ s, c k * seqU r b (F k) n := by
  induction r generalizing b F with
  | zero => rfl
  | succ r ih => simp only [seqU, seqX_sum, ih]

theorem seqVr_sum {r : ℕ} (s : Finset ℕ) (c : ℕ → ℝ) (F : ℕ → ℕ → ℝ) :
    seqVr r (fun n => ∑ k ∈ s, c k * F k n) = fun n => ∑ k ∈ s, c k * seqVr r (F k) n := by
  induction r with
  | zero => rfl
  | succ r ih =>
    simp only [seqVr, ih]
    funext n
    unfold seqV
    rw [Finset.sum_comm]
    refine Finset.sum_congr rfl fun k _ => by rw [Finset.mul_sum]

theorem seqV_local {f g : ℕ → ℝ} {N : ℕ} (h : ∀ n ≤ N, f n = g n) : ∀ n ≤ N, seqV f n = seqV g n := by
  intro n hn
  refine Finset.sum_congr rfl fun k hk => h k ?_
  rw [Finset.mem_range] at hk
  omega

theorem seqVr_local {r : ℕ} {f g : ℕ → ℝ} {N : ℕ} (h : ∀ n ≤ N, f n = g n) :
    ∀ n ≤ N, seqVr r f n = seqVr r g n := by
  induction r with
  | zero => exact h
  | succ r ih => exact seqV_local ih

theorem seqU_local {r : ℕ} {b : ℝ} {f g : ℕ → ℝ} {i : ℕ} (h : ∀ n ≤ i + r, f n = g n) :
    seqU r b f i = seqU r b g i := by
  rw [seqU_closed, seqU_closed]
  refine Finset.sum_congr rfl fun j hj => ?_
  rw [Finset.mem_range] at hj
  rw [h _ (by omega)]

theorem seq_kernel (r : ℕ) (b : ℝ) (g : ℕ → ℝ) (i : ℕ) :
    seqU r b (seqVr r g) i
      = ∑ k ∈ Finset.range (i + r + 1), g k * seqU r b (seqVr r (seqδ k)) i := by
  have h : ∀ n ≤ i + r, g n = (fun n => ∑ k ∈ Finset.range (i + r + 1), g k * seqδ k n) n := by
    intro n hn
    simp only [seqδ, mul_ite, mul_one, mul_zero]
    rw [Finset.sum_ite_eq, if_pos (Finset.mem_range.2 (by omega))]
  rw [seqU_local (seqVr_local h), seqVr_sum, seqU_sum]

theorem MF_zero {lam : ℝ} {mu nu r : ℕ} (h : mu + r < nu) : MF_Radial_id_pl lam mu nu r = 0 := by
  unfold MF_Radial_id_pl
  by_cases h0 : r = 0
  · rw [if_pos h0, if_neg (by omega)]
  · rw [if_neg h0, if_pos h]

theorem MF_comp (lam : ℝ) (i j r s : ℕ) :
    ∑ k ∈ Finset.range (i + s + 1),
        MF_Radial_id_pl (lam + 2 * r) i k s * MF_Radial_id_pl lam k j r
      = MF_Radial_id_pl lam i j (r + s) := by
  rw [MF_eq lam i j (r + s), ← seq_comp, seq_kernel s, Finset.mul_sum]
  refine Finset.sum_congr rfl fun k _ => ?_
  rw [MF_eq, MF_eq]
  have e : (-1 : ℝ) ^ (i + k) * (-1) ^ (k + j) = (-1) ^ (i + j) := by
    rw [← pow_add, show i + k + (k + j) = 2 * k + (i + j) by ring, pow_add, pow_mul]
    norm_num
  rw [← e]
  ring

/-! ## The matrix elements -/

/-- The identity, raising `lambda` by `2r`. -/
noncomputable def vid_pl (lam : ℝ) (r i j : ℕ) : ℝ :=
  MF_Radial_id_pl lam i j r * (hN lam j / hN (lam + 2 * r) i)

theorem id_pl_ok {lam : ℝ} (h : 0 < lam) (r : ℕ) :
    Entries (fun i j => ME_Radial_id_pl lam i j r) (vid_pl lam r) := by
  intro i j
  beta_reduce
  unfold ME_Radial_id_pl vid_pl
  rw [if_neg (fun h' => not_nonpos_int h j h'.2)]
  by_cases h1 : j ≤ i + r
  · rw [if_pos h1]
    unfold MF_Radial_id_poly
    have := sqrt_poch h (lam' := lam + 2 * r) (by positivity) j i
    simp only [h1, pyAssert, decide_true, if_true, py_pure, py_bind_ok, this]
  · rw [if_neg h1, MF_zero (by omega), zero_mul]; rfl

theorem id_ml_ok {lam : ℝ} (h : 0 < lam) (r : ℕ) :
    Entries (fun i j => ME_Radial_id_ml (lam + 2 * r) i j r) (fun i j => vid_pl lam r j i) := by
  intro i j
  beta_reduce
  unfold ME_Radial_id_ml vid_pl
  rw [if_neg (fun h' => not_nonpos_int h i (by linarith [h'.2]))]
  by_cases h1 : i ≤ j + r
  · rw [if_pos h1]
    unfold MF_Radial_id_poly
    have := sqrt_poch h (lam' := lam + 2 * r) (by positivity) i j
    rw [show lam + 2 * (r : ℝ) - 2 * r = lam by ring,
      show lam + 2 * (r : ℝ) - 1 - 2 * r = lam - 1 by ring]
    simp only [h1, pyAssert, decide_true, if_true, py_pure, py_bind_ok, this]
  · rw [if_neg h1, MF_zero (by omega), zero_mul]; rfl

theorem id_comp {lam : ℝ} (h : 0 < lam) (r s : ℕ) :
    OpProd (vid_pl (lam + 2 * r) s) (vid_pl lam r) (vid_pl lam (r + s)) := by
  intro i j
  have hs := hasSum_sum_of_ne_finset_zero (L := .unconditional ℕ)
    (f := fun k => vid_pl (lam + 2 * r) s i k * vid_pl lam r k j)
    (s := Finset.range (i + s + 1)) (by
      intro k hk
      rw [Finset.mem_range] at hk
      simp only [vid_pl]
      rw [MF_zero (by omega), zero_mul, zero_mul])
  have e : ∑ k ∈ Finset.range (i + s + 1), vid_pl (lam + 2 * r) s i k * vid_pl lam r k j
      = vid_pl lam (r + s) i j := by
    simp only [vid_pl]
    rw [← MF_comp lam i j r s, Finset.sum_mul]
    refine Finset.sum_congr rfl fun k _ => ?_
    have hk := (hN_pos (by positivity : 0 < lam + 2 * r) k).ne'
    push_cast
    rw [show lam + 2 * ((r : ℝ) + s) = lam + 2 * r + 2 * s by ring]
    have hi := (hN_pos (by positivity : 0 < lam + 2 * r + 2 * s) i).ne'
    field_simp
  rw [← e]
  exact hs

theorem id_zero {lam : ℝ} (h : 0 < lam) (i j : ℕ) : vid_pl lam 0 i j = opId i j := by
  simp only [vid_pl, MF_Radial_id_pl, if_true, opId]
  by_cases hij : i = j
  · subst hij
    have := (hN_pos h i).ne'
    simp [this]
  · simp [hij]

theorem MF_one (lam : ℝ) (mu nu : ℕ) : MF_Radial_id_pl lam mu nu 1
    = if nu ≤ mu then (-1) ^ (mu + nu) * lam else if nu = mu + 1 then (mu : ℝ) + 1 else 0 := by
  rw [MF_eq]
  simp only [seqU, seqVr, seqX]
  have hd : ∀ m, seqV (seqδ nu) m = if nu ≤ m then 1 else 0 := by
    intro m
    have := seqVr_δ 0 nu m
    simpa [seqVr] using this
  rw [hd, hd]
  push_cast
  by_cases h1 : nu ≤ mu
  · rw [if_pos h1, if_pos h1, if_pos (by omega)]; ring
  · rw [if_neg h1, if_neg h1]
    by_cases h2 : nu = mu + 1
    · subst h2
      rw [if_pos le_rfl, if_pos rfl, show mu + (mu + 1) = 2 * mu + 1 by ring, pow_succ, pow_mul]
      norm_num
    · rw [if_neg (by omega), if_neg h2]; ring

theorem sqrt_div_hN {lam : ℝ} (h : 0 < lam) (i : ℕ) :
    Real.sqrt (lam + i) / hN lam i = (lam + i) / hN (lam + 1) i := by
  have hi := (hN_pos h i).ne'
  have n1 : Real.sqrt (lam + i) ≠ 0 := (Real.sqrt_pos.2 (by positivity)).ne'
  have q1 : Real.sqrt (lam + i) ^ 2 = lam + i := Real.sq_sqrt (by positivity)
  rw [hN_add_one h, div_eq_div_iff hi (mul_ne_zero n1 hi)]
  linear_combination hN lam i * q1

theorem sqrt_div_hN' {lam : ℝ} (h : 0 < lam) (i : ℕ) :
    Real.sqrt ((i : ℝ) + 1) / hN lam (i + 1) = (i + 1) / hN (lam + 1) i := by
  have hi := (hN_pos h (i + 1)).ne'
  have n1 : Real.sqrt ((i : ℝ) + 1) ≠ 0 := (Real.sqrt_pos.2 (by positivity)).ne'
  have q1 : Real.sqrt ((i : ℝ) + 1) ^ 2 = i + 1 := Real.sq_sqrt (by positivity)
  rw [← hN_succ h, div_eq_div_iff hi (mul_ne_zero n1 hi)]
  linear_combination hN lam (i + 1) * q1

/-- `beta` after `1/beta`. -/
theorem b_bm {lam : ℝ} (h : 0 < lam) : OpProd (vb_pl (lam + 1)) (vbm_pl lam) (vid_pl lam 1) := by
  refine opProd_congr (b_pl_mul _) fun i j => ?_
  have f1 := sqrt_div_hN (by linarith : 0 < lam + 1) i
  have f2 := sqrt_div_hN' (by linarith : 0 < lam + 1) i
  rw [show lam + 1 + 1 = lam + 2 by ring] at f1 f2
  simp only [vid_pl, MF_one, vbm_pl]
  push_cast
  rw [mul_one]
  by_cases h1 : j ≤ i
  · rw [if_pos h1, if_pos (by omega), if_pos h1, show i + 1 + j = (i + j) + 1 by ring, pow_succ]
    linear_combination ((-1) ^ (i + j) * hN lam j) * f1 - ((-1) ^ (i + j) * hN lam j) * f2
  · rw [if_neg h1, if_neg h1]
    by_cases h2 : j = i + 1
    · subst h2
      rw [if_pos le_rfl, if_pos rfl, ← two_mul, pow_mul]
      norm_num
      linear_combination (hN lam (i + 1)) * f2
    · rw [if_neg (by omega), if_neg h2]; ring

theorem mul_b_pl {lam : ℝ} (B : ℕ → ℕ → ℝ) : OpProd B (vb_pl lam)
    (fun i j => Real.sqrt (lam + j) * B i j + if j = 0 then 0 else Real.sqrt j * B i (j - 1)) :=
  opProd_transpose (b_ml_mul (lam := lam) (fun i j => B j i))

/-- `1/beta` after `beta`. -/
theorem bm_b {lam : ℝ} (h : 0 < lam) : OpProd (vbm_pl (lam + 1)) (vb_pl lam) (vid_pl lam 1) := by
  refine opProd_congr (mul_b_pl _) fun i j => ?_
  have h2i := (hN_pos (by linarith : 0 < lam + 2) i).ne'
  simp only [vid_pl, MF_one, vbm_pl]
  push_cast
  rw [mul_one, show lam + 1 + 1 = lam + 2 by ring]
  have g1 : Real.sqrt (lam + j) * hN (lam + 1) j = (lam + j) * hN lam j := by
    rw [hN_add_one h, ← mul_assoc, Real.mul_self_sqrt (by positivity)]
  rcases j with _ | j
  · rw [if_pos (by omega), if_pos rfl, if_pos (by omega)]
    linear_combination ((-1) ^ (i + 0) / hN (lam + 2) i) * g1
  · rw [if_neg (by omega : ¬ j + 1 = 0), Nat.add_sub_cancel]
    push_cast at g1 ⊢
    have g2 : Real.sqrt ((j : ℝ) + 1) * hN (lam + 1) j = (j + 1) * hN lam (j + 1) := by
      rw [← hN_succ h, ← mul_assoc, Real.mul_self_sqrt (by positivity)]
    by_cases h1 : j + 1 ≤ i
    · rw [if_pos h1, if_pos (by omega), if_pos h1, show i + (j + 1) = (i + j) + 1 by ring, pow_succ]
      linear_combination (-(-1) ^ (i + j) / hN (lam + 2) i) * g1
        + ((-1) ^ (i + j) / hN (lam + 2) i) * g2
    · rw [if_neg h1, if_neg h1]
      by_cases h2 : j = i
      · subst h2
        rw [if_pos le_rfl, if_pos rfl, ← two_mul, pow_mul]
        norm_num
        linear_combination (1 / hN (lam + 2) j) * g2
      · rw [if_neg (by omega), if_neg (by omega)]; ring

theorem w_b_comm (lam : ℝ) : ∃ C, OpProd (vw (lam + 1)) (vb_pl lam) C ∧
    OpProd (vb_pl (lam + 1)) (vw lam) C := by
  refine ⟨_, opProd_upper (fun i k h1 h2 => by simp [vw, h2, Ne.symm h1]) _, ?_⟩
  refine opProd_congr (b_pl_mul _) fun i j => ?_
  simp only [vw, vb_pl]
  push_cast
  by_cases h1 : j = i
  · subst h1
    simp
  · by_cases h2 : j = i + 1
    · subst h2
      simp
      rw [show lam + ((i : ℝ) + 1) = lam + 1 + i by ring]
      ring
    · by_cases h3 : j = i + 1 + 1
      · subst h3
        simp [ne_add_two]
      · simp [h2, h3, Ne.symm h1, Ne.symm h2]

/-- `[d/dbeta, beta] = 1`, both factors raising `lambda`. -/
theorem Db_b_comm {lam : ℝ} (h : 0 < lam) : ∃ C D, OpProd (vDb_pl (lam + 1)) (vb_pl lam) C ∧
    OpProd (vb_pl (lam + 1)) (vDb_pl lam) D ∧ ∀ i j, C i j - D i j = vid_pl lam 1 i j := by
  obtain ⟨W, w1, w2⟩ := w_b_comm lam
  refine ⟨fun i j => W i j + (lam + 1 - 1 / 2) * vid_pl lam 1 i j,
    fun i j => W i j + (lam - 1 / 2) * vid_pl lam 1 i j, ?_, ?_, fun i j => by ring⟩
  · have := opProd_add_left w1 (bm_b h) (lam + 1 - 1 / 2)
    have e : vDb_pl (lam + 1)
        = fun i j => vw (lam + 1) i j + (lam + 1 - 1 / 2) * vbm_pl (lam + 1) i j := by
      funext i j; exact vDb_pl_eq _ _ _
    rw [e]
    exact this
  · have := opProd_add_right w2 (b_bm h) (lam - 1 / 2)
    have e : vDb_pl lam = fun i j => vw lam i j + (lam - 1 / 2) * vbm_pl lam i j := by
      funext i j; exact vDb_pl_eq _ _ _
    rw [e]
    exact this

end Acm
