import Verif.Lemmas.RadialWindow
import Verif.Spec.RadialPower

/-!
# Products on a truncated range: what is lost
-/

namespace Acm
open Spec

theorem connected_append {gs hs : List (ℕ → ℕ → ℝ)} : ∀ {i j : ℕ}, Connected (gs ++ hs) i j ↔
    ∃ k, Connected gs i k ∧ Connected hs k j := by
  induction gs with
  | nil =>
    intro i j
    refine ⟨fun h => ⟨i, .nil i, h⟩, ?_⟩
    rintro ⟨k, h1, h2⟩
    cases h1
    exact h2
  | cons g gs ih =>
    intro i j
    constructor
    · intro h
      cases h with
      | cons h1 h2 =>
        obtain ⟨k, k1, k2⟩ := ih.1 h2
        exact ⟨k, .cons h1 k1, k2⟩
    · rintro ⟨k, h1, h2⟩
      cases h1 with
      | cons h3 h4 => exact .cons h3 (ih.2 ⟨k, h4, h2⟩)

theorem escapes_connected {lo hi : ℕ} {fs : List (ℕ → ℕ → ℝ)} {i j : ℕ} (h : Escapes lo hi fs i j) : Connected fs i j := by
  obtain ⟨gs, hs, k, rfl, -, h1, h2⟩ := h
  exact connected_append.2 ⟨k, h1, h2⟩

/-- The column of a product with a banded operator is a finite sum. -/
theorem prod_finite {f Q P : ℕ → ℕ → ℝ} (hf : Banded f) (hP : OpProd f Q P) (lo hi i j : ℕ) :
    P i j = ∑ k ∈ Finset.Icc lo hi, f i k * Q k j + ∑ k ∈ Finset.range (i + 2) \ Finset.Icc lo hi, f i k * Q k j := by
  rw [← Finset.sum_union (Finset.disjoint_sdiff)]
  refine (hP i j).unique (hasSum_sum_of_ne_finset_zero fun k hk => ?_)
  have : i + 1 < k := by
    by_contra hc
    apply hk
    simp only [Finset.mem_union, Finset.mem_sdiff, Finset.mem_range]
    by_cases h : k ∈ Finset.Icc lo hi
    · exact .inl h
    · exact .inr ⟨by omega, h⟩
  rw [hf i k (.inl this), zero_mul]

theorem prod_nonneg : ∀ {fs : List (ℕ → ℕ → ℝ)} {P : ℕ → ℕ → ℝ}, (∀ f ∈ fs, Banded f ∧ ∀ i j, 0 ≤ f i j) → IsProd fs P →
    ∀ i j, 0 ≤ P i j ∧ (Connected fs i j → 0 < P i j) := by
  intro fs
  induction fs with
  | nil =>
    intro P _ hP i j
    cases hP
    refine ⟨by unfold opId; split_ifs <;> norm_num, fun h => ?_⟩
    cases h
    simp [opId]
  | cons f fs ih =>
    intro P hf hP i j
    cases hP with
    | @cons _ _ Q _ hQ hP =>
      have ihQ := ih (fun g hg => hf g (List.mem_cons_of_mem _ hg)) hQ
      obtain ⟨hb, h0⟩ := hf f (List.mem_cons_self ..)
      have hnn : ∀ k, 0 ≤ f i k * Q k j := fun k => mul_nonneg (h0 i k) (ihQ k j).1
      have e := hP i j
      refine ⟨e.nonneg hnn, fun hc => ?_⟩
      cases hc with
      | @cons _ _ _ k _ h1 h2 =>
        have hk : 0 < f i k * Q k j := mul_pos (lt_of_le_of_ne (h0 i k) (Ne.symm h1)) ((ihQ k j).2 h2)
        exact lt_of_lt_of_le hk (le_hasSum e k fun k' _ => hnn k')

/-- A non-zero element of a product comes from a path. -/
theorem prod_connected : ∀ {fs : List (ℕ → ℕ → ℝ)} {P : ℕ → ℕ → ℝ}, IsProd fs P → ∀ {i j : ℕ}, P i j ≠ 0 → Connected fs i j := by
  intro fs
  induction fs with
  | nil =>
    intro P hP i j h
    cases hP
    unfold opId at h
    split_ifs at h with h'
    · subst h'; exact .nil _
    · exact absurd rfl h
  | cons f fs ih =>
    intro P hP i j h
    cases hP with
    | @cons _ _ Q _ hQ hP =>
      obtain ⟨k, hk⟩ : ∃ k, f i k * Q k j ≠ 0 := by
        by_contra hc
        push Not at hc
        apply h
        refine (hP i j).unique ?_
        simp only [hc]
        exact hasSum_zero
      obtain ⟨h1, h2⟩ := mul_ne_zero_iff.1 hk
      exact .cons h1 (ih hQ h2)

theorem escapes_cons {lo hi : ℕ} {f : ℕ → ℕ → ℝ} {fs : List (ℕ → ℕ → ℝ)} {i k j : ℕ} (h : f i k ≠ 0) (h1 : Escapes lo hi fs k j) :
    Escapes lo hi (f :: fs) i j := by
  obtain ⟨gs, hs, l, rfl, hl, h2, h3⟩ := h1
  exact ⟨f :: gs, hs, l, rfl, hl, .cons h h2, h3⟩

/-- Products of banded operators on a truncated range: without escaping paths nothing changes. -/
theorem window_exact {lo hi : ℕ} : ∀ {fs : List (ℕ → ℕ → ℝ)} {P : ℕ → ℕ → ℝ}, (∀ f ∈ fs, Banded f) → IsProd fs P →
    ∀ i j, ¬ Escapes lo hi fs i j → windowProd lo hi fs i j = P i j := by
  intro fs
  induction fs with
  | nil =>
    intro P _ hP i j _
    cases hP
    rfl
  | cons f fs ih =>
    intro P hf hP i j hE
    cases hP with
    | @cons _ _ Q _ hQ hP =>
      rw [prod_finite (hf f (List.mem_cons_self ..)) hP lo hi i j, Finset.sum_eq_zero (s := Finset.range (i + 2) \ Finset.Icc lo hi),
        add_zero]
      · simp only [windowProd]
        refine Finset.sum_congr rfl fun k hk => ?_
        by_cases h : f i k = 0
        · rw [h, zero_mul, zero_mul]
        · rw [ih (fun g hg => hf g (List.mem_cons_of_mem _ hg)) hQ k j fun h' => hE (escapes_cons h h')]
      · intro k hk
        simp only [Finset.mem_sdiff, Finset.mem_Icc] at hk
        by_contra hne
        obtain ⟨h1, h2⟩ := mul_ne_zero_iff.1 hne
        exact hE ⟨[f], fs, k, rfl, hk.2, .cons h1 (.nil k), prod_connected hQ h2⟩

/-- Products of banded non-negative operators on a truncated range: never too large, and too small if a path escapes. -/
theorem window_lost {lo hi : ℕ} : ∀ {fs : List (ℕ → ℕ → ℝ)} {P : ℕ → ℕ → ℝ}, (∀ f ∈ fs, Banded f ∧ ∀ i j, 0 ≤ f i j) → IsProd fs P →
    ∀ i j, windowProd lo hi fs i j ≤ P i j ∧ (lo ≤ i ∧ i ≤ hi → Escapes lo hi fs i j → windowProd lo hi fs i j < P i j) := by
  intro fs
  induction fs with
  | nil =>
    intro P _ hP i j
    cases hP
    refine ⟨le_rfl, fun h hE => ?_⟩
    obtain ⟨gs, hs, k, e, hk, h1, h2⟩ := hE
    obtain ⟨rfl, rfl⟩ := List.append_eq_nil_iff.1 e.symm
    cases h1
    exact absurd h hk
  | cons f fs ih =>
    intro P hf hP i j
    have hf' : ∀ g ∈ fs, Banded g ∧ ∀ i j, 0 ≤ g i j := fun g hg => hf g (List.mem_cons_of_mem _ hg)
    obtain ⟨hb, h0⟩ := hf f (List.mem_cons_self ..)
    cases hP with
    | @cons _ _ Q _ hQ hP =>
      have hpos := prod_nonneg hf' hQ
      rw [prod_finite hb hP lo hi i j]
      have hle : ∀ k ∈ Finset.Icc lo hi, f i k * windowProd lo hi fs k j ≤ f i k * Q k j :=
        fun k _ => mul_le_mul_of_nonneg_left (ih hf' hQ k j).1 (h0 i k)
      have hout : ∀ k ∈ Finset.range (i + 2) \ Finset.Icc lo hi, 0 ≤ f i k * Q k j :=
        fun k _ => mul_nonneg (h0 i k) (hpos k j).1
      have h1 := Finset.sum_le_sum hle
      have h2 := Finset.sum_nonneg hout
      simp only [windowProd]
      refine ⟨by linarith, fun hi' hE => ?_⟩
      obtain ⟨gs, hs, l, e, hl, c1, c2⟩ := hE
      cases c1 with
      | nil => exact absurd hi' hl
      | @cons _ gs' _ k _ c3 c4 =>
        rw [List.cons_append] at e
        injection e with e1 e2
        subst e1 e2
        have c5 : Connected (gs' ++ hs) k j := connected_append.2 ⟨l, c4, c2⟩
        have hfk : 0 < f i k := lt_of_le_of_ne (h0 i k) (Ne.symm c3)
        by_cases hk : lo ≤ k ∧ k ≤ hi
        · have := (ih hf' hQ k j).2 hk ⟨gs', hs, l, rfl, hl, c4, c2⟩
          have := Finset.sum_lt_sum hle ⟨k, Finset.mem_Icc.2 hk, mul_lt_mul_of_pos_left this hfk⟩
          linarith
        · have hk2 : k < i + 2 := by
            by_contra hc
            exact c3 (hb i k (.inl (by omega)))
          have := Finset.sum_pos' hout ⟨k, by simpa [Finset.mem_sdiff, Finset.mem_range, hk2] using fun h => not_le.1 fun h' => hk ⟨h, h'⟩,
            mul_pos hfk ((hpos k j).2 c5)⟩
          linarith

/-! ## Paths of powers of beta -/

/-- Connects a label to those at most `u` above and `d` below. -/
def Reaches (u d : ℕ) (f : ℕ → ℕ → ℝ) : Prop := ∀ i j, f i j ≠ 0 ↔ i ≤ j + u ∧ j ≤ i + d

theorem connected_reaches {u d : ℕ} : ∀ {fs : List (ℕ → ℕ → ℝ)}, (∀ f ∈ fs, Reaches u d f) → ∀ {i j : ℕ}, Connected fs i j ↔
    i ≤ j + fs.length * u ∧ j ≤ i + fs.length * d := by
  intro fs
  induction fs with
  | nil =>
    intro _ i j
    constructor
    · intro h
      cases h
      simp
    · intro h
      simp only [List.length_nil, Nat.zero_mul, Nat.add_zero] at h
      obtain rfl : i = j := by omega
      exact .nil _
  | cons f fs ih =>
    intro h i j
    have hf := h f (List.mem_cons_self ..)
    have ih' := fun {k} => ih (fun g hg => h g (List.mem_cons_of_mem _ hg)) (i := k) (j := j)
    simp only [List.length_cons, Nat.add_mul, Nat.one_mul]
    constructor
    · intro c
      cases c with
      | @cons _ _ _ k _ c1 c2 =>
        have := (hf i k).1 c1
        have := ih'.1 c2
        omega
    · rintro ⟨h1, h2⟩
      -- move as far towards `j` as possible
      by_cases hij : i ≤ j
      · refine .cons (k := min (i + d) j) ((hf _ _).2 (by omega)) (ih'.2 (by omega))
      · refine .cons (k := max (i - u) j) ((hf _ _).2 (by omega)) (ih'.2 (by omega))

/-- Paths of `m` operators like `beta^2` and `r` like `beta`. -/
theorem connected_power {u d : ℕ} {ts ss : List (ℕ → ℕ → ℝ)} (ht : ∀ f ∈ ts, Reaches 1 1 f) (hs : ∀ f ∈ ss, Reaches u d f)
    {i j : ℕ} : Connected (ts ++ ss) i j ↔ i ≤ j + ts.length + ss.length * u ∧ j ≤ i + ts.length + ss.length * d := by
  rw [connected_append]
  simp only [connected_reaches ht, connected_reaches hs]
  generalize ss.length * u = U
  generalize ss.length * d = D
  constructor
  · rintro ⟨k, h1, h2⟩
    omega
  · intro h
    by_cases hij : i ≤ j
    · exact ⟨min (i + ts.length) j, by omega, by omega⟩
    · exact ⟨max (i - ts.length) j, by omega, by omega⟩

theorem escapes_power {u d lo hi : ℕ} (hud : u + d = 1) {ts ss : List (ℕ → ℕ → ℝ)} (ht : ∀ f ∈ ts, Reaches 1 1 f)
    (hs : ∀ f ∈ ss, Reaches u d f) {i j : ℕ} (hi' : lo ≤ i ∧ i ≤ hi) (hj : lo ≤ j ∧ j ≤ hi) :
    Escapes lo hi (ts ++ ss) i j ↔ (hi + 1 ≤ i + ts.length ∧ 2 * hi + 2 ≤ i + j + ts.length + ss.length * u) ∨
      (0 < lo ∧ i + 1 ≤ lo + ts.length ∧ i + j + 2 ≤ 2 * lo + ts.length + ss.length * d) := by
  constructor
  · rintro ⟨gs, hs', k, e, hk, h1, h2⟩
    rcases List.append_eq_append_iff.1 e with ⟨as, rfl, rfl⟩ | ⟨as, rfl, rfl⟩
    · have a1 := (connected_power ht fun f hf => hs f (List.mem_append_left _ hf)).1 h1
      have a2 := (connected_reaches fun f hf => hs f (List.mem_append_right _ hf)).1 h2
      simp only [List.length_append, Nat.add_mul]
      have : u = 0 ∨ d = 0 := by omega
      rcases this with rfl | rfl
      · simp only [Nat.mul_zero] at *
        omega
      · simp only [Nat.mul_zero] at *
        omega
    · have a1 := (connected_reaches fun f hf => ht f (List.mem_append_left _ hf)).1 h1
      have a2 := (connected_power (fun f hf => ht f (List.mem_append_right _ hf)) hs).1 h2
      simp only [List.length_append]
      have : u = 0 ∨ d = 0 := by omega
      rcases this with rfl | rfl
      · simp only [Nat.mul_zero] at *
        omega
      · simp only [Nat.mul_zero] at *
        omega
  · have split : ∀ n k, n ≤ ts.length → ¬ (lo ≤ k ∧ k ≤ hi) → i ≤ k + n → k ≤ i + n →
        k ≤ j + (ts.length - n) + ss.length * u → j ≤ k + (ts.length - n) + ss.length * d → Escapes lo hi (ts ++ ss) i j := by
      intro n k hn hk h1 h2 h3 h4
      refine ⟨ts.take n, ts.drop n ++ ss, k, by rw [← List.append_assoc, List.take_append_drop], hk, ?_, ?_⟩
      · rw [connected_reaches fun f hf => ht f (List.mem_of_mem_take hf), List.length_take, min_eq_left hn]
        omega
      · rw [connected_power (fun f hf => ht f (List.mem_of_mem_drop hf)) hs, List.length_drop]
        omega
    rintro (⟨h1, h2⟩ | ⟨h0, h1, h2⟩)
    · refine split (hi + 1 - i) (hi + 1) ?_ ?_ ?_ ?_ ?_ ?_ <;> omega
    · refine split (i + 1 - lo) (lo - 1) ?_ ?_ ?_ ?_ ?_ ?_ <;> omega

end Acm
