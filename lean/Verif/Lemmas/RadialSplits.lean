import Verif.Spec.RadialWords
import Verif.Lemmas.Py
import Mathlib.Tactic.Ring
import Mathlib.Tactic.Linarith
import Mathlib.Tactic.SplitIfs

/-! Lemmas about `Lambda_Splits`. -/

namespace Acm

theorem pyGet_nat {α : Type} (xs : List α) (i : Nat) (h : i < xs.length) :
    pyGet xs (i : Int) = .ok xs[i] := by
  unfold pyGet
  simp [show ¬ ((i : Int) < 0) by omega, h]

theorem pyGet_int {α : Type} (xs : List α) (z : Int) (i : Nat) (hz : z = i) (h : i < xs.length) :
    pyGet xs z = .ok xs[i] := by subst hz; exact pyGet_nat xs i h

theorem pySet_nat {α : Type} (xs : List α) (z : Int) (i : Nat) (hz : z = i)
    (h : i < xs.length) (x : α) : pySet xs z x = .ok (xs.set i x) := by
  subst hz
  unfold pySet
  simp [show ¬ ((i : Int) < 0) by omega, h]

@[simp] theorem pyAssert_true : pyAssert true = .ok () := rfl

theorem pyAssert_ok {b : Bool} (h : b = true) : pyAssert b = .ok () := by subst h; rfl

@[simp] theorem length_pyRep {α : Type} (x : α) (n : Int) : (pyRep x n).length = n.toNat := by
  simp [pyRep]

theorem sum_pyRep (x n : Int) (h : 0 ≤ n) : (pyRep x n).sum = n * x := by
  unfold pyRep
  rw [List.sum_replicate]
  simp only [nsmul_eq_mul]
  congr 1
  omega

theorem mem_pyRep {x y n : Int} (h : y ∈ pyRep x n) : y = x := List.eq_of_mem_replicate h

/-- The sum of the entries from position `j` on. -/
def sufSum (s : List Int) (j : Nat) : Int := (s.drop j).sum

theorem sufSum_step (s : List Int) (j : Nat) (h : j < s.length) :
    sufSum s j = s[j] + sufSum s (j + 1) := by
  unfold sufSum
  rw [List.drop_eq_getElem_cons h, List.sum_cons]

theorem sufSum_zero (s : List Int) : sufSum s 0 = s.sum := by simp [sufSum]

theorem sufSum_length (s : List Int) (j : Nat) (h : s.length ≤ j) : sufSum s j = 0 := by
  simp [sufSum, List.drop_eq_nil_of_le h]

theorem list_sum_nonneg (s : List Int) (h : ∀ x ∈ s, 0 ≤ x) : 0 ≤ s.sum := by
  induction s with
  | nil => simp
  | cons a t ih =>
    have := h a (by simp)
    have := ih fun x hx => h x (by simp [hx])
    rw [List.sum_cons]; omega

theorem list_sum_nonpos (s : List Int) (h : ∀ x ∈ s, x ≤ 0) : s.sum ≤ 0 := by
  induction s with
  | nil => simp
  | cons a t ih =>
    have := h a (by simp)
    have := ih fun x hx => h x (by simp [hx])
    rw [List.sum_cons]; omega

theorem sufSum_nonneg (s : List Int) (j : Nat) (h : ∀ x ∈ s, 0 ≤ x) : 0 ≤ sufSum s j :=
  list_sum_nonneg _ fun x hx => h x (List.mem_of_mem_drop hx)

theorem sum_le_sufSum_of_nonpos (s : List Int) (j : Nat) (h : ∀ x ∈ s, x ≤ 0) :
    s.sum ≤ sufSum s j := by
  unfold sufSum
  conv_lhs => rw [← List.take_append_drop j s]
  rw [List.sum_append]
  have : (s.take j).sum ≤ 0 := list_sum_nonpos _ fun x hx => h x (List.mem_of_mem_take hx)
  omega

/-- What the rest of the development needs to know about the body of the split list. -/
structure GoodBody (K T R : Int) (x : Int) (body : List Int) : Prop where
  len : body.length = (|K| + T).toNat
  sum : x + body.sum = R
  unit : ∀ y ∈ body, y = -1 ∨ y = 0 ∨ y = 1
  suf : ¬ (K < 0 ∧ R = 0 ∧ T % 2 = 1) → ∀ j, min 0 R ≤ sufSum body j ∧ min 0 R ≤ x + sufSum body j
  suf' : K < 0 ∧ R = 0 ∧ T % 2 = 1 → ∀ j, -1 ≤ sufSum body j
  /-- neighbouring zeros never straddle the border between `beta^-1` and `d/dbeta`, -/
  straddle : K < 0 →
    (∀ (h1 : K.natAbs < body.length) (h0 : K.natAbs - 1 < body.length),
      ¬ (body[K.natAbs] = 0 ∧ body[K.natAbs - 1] = 0)) ∨
    /- or the `d/dbeta` part consists of an even number of zeros. -/
    (T % 2 = 0 ∧ ∀ (j : Nat) (h : j < body.length), K.natAbs ≤ j → body[j] = 0)

/-- The list `Lambda_Splits` returns before the sign is applied. -/
theorem Lambda_Splits_neg {K T R : Int} (hR : R < 0) :
    Lambda_Splits K T R = (do
      let s ← Lambda_Splits K T (-R)
      pure (s.map fun s => -s)) := by
  unfold Lambda_Splits
  rw [abs_neg]
  by_cases hT : T < 0
  · rw [require_nonnegint_err hT]; rfl
  · rw [require_nonnegint_ok (by omega)]
    simp only [py_bind_ok, if_pos hR, if_neg (show ¬ (-R < 0) by omega), py_pure]
    rw [if_congr (Iff.rfl) rfl rfl]
    have : ¬ (R = 0) := by omega
    have h2 : ¬ (-R = 0) := by omega
    simp only [this, h2, false_and, and_false, if_false]
    by_cases h1 : |R| - (|K| + T) > 0
    · simp only [if_pos h1]
      split_ifs <;> rfl
    · simp only [if_neg h1]
      have hk : |K| = _ := Int.abs_eq_natAbs K
      have hr : |R| = _ := Int.abs_eq_natAbs R
      rw [iquo_ok (by omega) (by omega), iquo_ok (by omega) (by omega)]
      rfl

theorem goodBody_neg {K T R x : Int} {body : List Int} (hR : 0 < R)
    (h : GoodBody K T R x body) (hx : 0 ≤ x) (hpos : ∀ y ∈ body, 0 ≤ y) :
    GoodBody K T (-R) (-x) (body.map fun s => -s) := by
  have hsum : (body.map fun s => -s).sum = -body.sum := by
    clear h hpos
    induction body with
    | nil => rfl
    | cons a t ih => simp only [List.map_cons, List.sum_cons, ih]; omega
  have hsuf : ∀ j, sufSum (body.map fun s => -s) j = - sufSum body j := by
    intro j
    unfold sufSum
    rw [← List.map_drop]
    generalize body.drop j = l
    induction l with
    | nil => rfl
    | cons a t ih => simp only [List.map_cons, List.sum_cons, ih]; omega
  have hle : ∀ j, sufSum body j ≤ body.sum := by
    intro j
    have := sum_le_sufSum_of_nonpos (body.map fun s => -s) j (by
      intro y hy; simp only [List.mem_map] at hy; obtain ⟨z, hz, rfl⟩ := hy
      have := hpos z hz; omega)
    rw [hsuf, hsum] at this; omega
  refine ⟨by simpa using h.len, by rw [hsum]; have := h.sum; omega, ?_, ?_, ?_, ?_⟩
  · intro y hy
    simp only [List.mem_map] at hy
    obtain ⟨z, hz, rfl⟩ := hy
    rcases h.unit z hz with h | h | h <;> omega
  · intro _ j
    rw [hsuf]
    have h1 := hle j
    have h2 := h.sum
    have h3 := sufSum_nonneg body j hpos
    omega
  · rintro ⟨_, h0, _⟩; omega
  · intro hK
    rcases h.straddle hK with hs | ⟨h1, hs⟩
    · left
      intro h1 h0
      have := hs (by simpa using h1) (by simpa using h0)
      simpa using this
    · right
      refine ⟨h1, fun j hj hk => ?_⟩
      have := hs j (by simpa using hj) hk
      simpa using this

theorem sufSum_le_sum (s : List Int) (j : Nat) (h : ∀ x ∈ s, 0 ≤ x) : sufSum s j ≤ s.sum := by
  unfold sufSum
  conv_rhs => rw [← List.take_append_drop j s]
  rw [List.sum_append]
  have : 0 ≤ (s.take j).sum := list_sum_nonneg _ fun x hx => h x (List.mem_of_mem_take hx)
  omega

/-- `GoodBody` for non-negative `R` outside the special case. -/
theorem goodBody_of_nonneg {K T R x : Int} {body : List Int} (hR : 0 ≤ R)
    (hsp : ¬ (K < 0 ∧ R = 0 ∧ T % 2 = 1))
    (len : body.length = (|K| + T).toNat) (sum : x + body.sum = R) (hx : 0 ≤ x)
    (unit : ∀ y ∈ body, y = 0 ∨ y = 1)
    (straddle : K < 0 →
      (∀ (h1 : K.natAbs < body.length) (h0 : K.natAbs - 1 < body.length),
        ¬ (body[K.natAbs] = 0 ∧ body[K.natAbs - 1] = 0)) ∨
      (T % 2 = 0 ∧ ∀ (j : Nat) (h : j < body.length), K.natAbs ≤ j → body[j] = 0)) :
    GoodBody K T R x body := by
  refine ⟨len, sum, ?_, ?_, fun h => absurd h hsp, straddle⟩
  · intro y hy; rcases unit y hy with h | h <;> omega
  · intro _ j
    have := sufSum_nonneg body j (fun y hy => by rcases unit y hy with h | h <;> omega)
    omega

theorem abs_natAbs (K : Int) : |K| = (K.natAbs : Int) := Int.abs_eq_natAbs K

/-- The list returned for `R ≥ 0`. -/
theorem Lambda_Splits_nonneg {K T R : Int} (hT : 0 ≤ T) (hR : 0 ≤ R) :
    (∃ body, Lambda_Splits K T R = .ok body ∧ R ≤ |K| + T ∧ GoodBody K T R 0 body ∧
      (¬ (K < 0 ∧ R = 0 ∧ T % 2 = 1) → ∀ y ∈ body, 0 ≤ y)) ∨
    (∃ x body, Lambda_Splits K T R = .ok (x :: body) ∧ |K| + T < R ∧ 0 < x ∧
      (x % 2 = 0 ∨ (K = 0 ∧ T = 0 ∧ R % 2 = 1)) ∧ GoodBody K T R x body ∧ ∀ y ∈ body, 0 ≤ y) := by
  have hR' : |R| = R := abs_of_nonneg hR
  unfold Lambda_Splits
  rw [require_nonnegint_ok hT, hR']
  simp only [py_bind_ok, py_pure, if_neg (show ¬ R < 0 by omega)]
  have hk := abs_natAbs K
  by_cases h1 : R - (|K| + T) > 0
  · right
    rw [if_pos h1]
    by_cases h2 : is_even (R - (|K| + T)) = true
    · rw [if_pos h2]
      rw [is_even_iff] at h2
      have hpos : ∀ y ∈ pyRep (1 : Int) (|K| + T), 0 ≤ y :=
        fun y hy => by have := mem_pyRep hy; omega
      refine ⟨_, _, rfl, by omega, by omega, Or.inl h2, ?_, hpos⟩
      refine goodBody_of_nonneg hR (by omega) (by simp) ?_ (by omega)
        (fun y hy => Or.inr (mem_pyRep hy)) ?_
      · rw [sum_pyRep _ _ (by omega)]; omega
      · intro _; left; intro h1 h0; simp [pyRep]
    · rw [if_neg h2]
      rw [is_even_iff] at h2
      by_cases h3 : |K| + T > 0
      · rw [if_pos h3]
        have hunit : ∀ y ∈ ((0 : Int) :: pyRep 1 (|K| + T - 1)), y = 0 ∨ y = 1 := by
          intro y hy
          simp only [List.mem_cons] at hy
          rcases hy with rfl | hy
          · simp
          · right; exact mem_pyRep hy
        refine ⟨_, _, rfl, by omega, by omega, Or.inl (by omega), ?_,
          fun y hy => by rcases hunit y hy with h | h <;> omega⟩
        refine goodBody_of_nonneg hR (by omega) (by simp; omega) ?_ (by omega) hunit ?_
        · rw [List.sum_cons, sum_pyRep _ _ (by omega)]; omega
        · intro hK; left; intro h1 h0
          obtain ⟨m, hm⟩ : ∃ m, K.natAbs = m + 1 := ⟨K.natAbs - 1, by omega⟩
          simp [hm, pyRep]
      · rw [if_neg h3]
        refine ⟨_, [], rfl, by omega, by omega, Or.inr ⟨by omega, by omega, by omega⟩, ?_, by simp⟩
        refine goodBody_of_nonneg hR (by omega) (by simp; omega) ?_ (by omega) (by simp) ?_
        · simp; omega
        · intro hK; exact absurd hK (by omega)
  · left
    rw [if_neg h1, iquo_ok (by omega) (by omega), iquo_ok hT (by omega)]
    simp only [py_bind_ok]
    set Z := min (-(R - (|K| + T)) / 2) (T / 2) with hZ
    have hZ0 : 0 ≤ Z := by omega
    have hlead : 0 ≤ |K| + T - R - 2 * Z := by omega
    have hlen : (pyRep (0 : Int) (|K| + T - R - 2 * Z) ++ pyRep 1 R ++ pyRep 0 (2 * Z)).length
        = (|K| + T).toNat := by simp; omega
    have hsum : (pyRep (0 : Int) (|K| + T - R - 2 * Z) ++ pyRep 1 R ++ pyRep 0 (2 * Z)).sum
        = R := by
      rw [List.sum_append, List.sum_append, sum_pyRep _ _ hlead, sum_pyRep _ _ hR,
        sum_pyRep _ _ (by omega)]; omega
    have hunit : ∀ y ∈ (pyRep (0 : Int) (|K| + T - R - 2 * Z) ++ pyRep 1 R ++ pyRep 0 (2 * Z)),
        y = 0 ∨ y = 1 := by
      intro y hy
      simp only [List.mem_append] at hy
      rcases hy with (hy | hy) | hy
      · left; exact mem_pyRep hy
      · right; exact mem_pyRep hy
      · left; exact mem_pyRep hy
    by_cases h2 : K < 0 ∧ R = 0 ∧ is_odd T = true
    · rw [if_pos h2]
      obtain ⟨hK, hR0, hodd⟩ := h2
      rw [is_odd_iff] at hodd
      subst hR0
      have hZ' : 2 * Z = T - 1 := by omega
      obtain ⟨m, hm⟩ : ∃ m : Nat, -K - 1 = m := ⟨(-K - 1).toNat, by omega⟩
      have e0 : (pyRep (0 : Int) (|K| + T - 0 - 2 * Z) ++ pyRep 1 0 ++ pyRep 0 (2 * Z))
          = pyRep 0 m ++ 0 :: 0 :: pyRep 0 (T - 1) := by
        have : (|K| + T - 0 - 2 * Z).toNat = m + 2 := by omega
        simp only [pyRep, this]
        simp only [hZ', Int.toNat_zero, List.replicate_zero, List.append_nil,
          Int.toNat_natCast]
        rw [List.replicate_add]
        simp [List.replicate]
      rw [e0, pySet_nat _ _ m hm (by simp)]
      simp only [py_bind_ok]
      rw [pySet_nat _ _ (m + 1) (by omega) (by simp)]
      have e1 : ((pyRep (0 : Int) m ++ 0 :: 0 :: pyRep 0 (T - 1)).set m 1).set (m + 1) (-1)
          = pyRep 0 m ++ 1 :: -1 :: pyRep 0 (T - 1) := by
        simp only [pyRep, Int.toNat_natCast]
        rw [List.set_append_right _ _ (by simp)]
        simp
      rw [e1]
      have hs : ∀ j, -1 ≤ sufSum (pyRep 0 m ++ 1 :: -1 :: pyRep 0 (T - 1)) j := by
        intro j
        have hz : ∀ (n : Int) j, sufSum (pyRep 0 n) j = 0 := by
          intro n j
          unfold sufSum pyRep
          simp
        unfold sufSum at *
        rw [List.drop_append, List.sum_append, hz]
        generalize j - (pyRep (0:Int) m).length = q
        match q with
        | 0 => simp only [List.drop_zero, List.sum_cons, sum_pyRep 0 (T-1) (by omega)]; omega
        | 1 =>
          simp only [List.drop_succ_cons, List.drop_zero, List.sum_cons,
            sum_pyRep 0 (T-1) (by omega)]; omega
        | q + 2 => simp only [List.drop_succ_cons, hz]; omega
      refine ⟨_, rfl, by omega, ⟨?_, ?_, ?_, fun h => absurd ⟨hK, by trivial, hodd⟩ h, fun _ => hs, ?_⟩,
        fun h => absurd ⟨hK, by trivial, hodd⟩ h⟩
      · simp; omega
      · rw [List.sum_append, sum_pyRep _ _ (by omega), List.sum_cons, List.sum_cons,
          sum_pyRep _ _ (by omega)]; omega
      · intro y hy
        simp only [List.mem_append, List.mem_cons] at hy
        rcases hy with hy | rfl | rfl | hy
        · right; left; exact mem_pyRep hy
        · simp
        · simp
        · right; left; exact mem_pyRep hy
      · intro _; left
        intro h1 h0 ⟨h2, h3⟩
        have hm' : K.natAbs = m + 1 := by omega
        simp only [hm'] at h2
        simp [pyRep] at h2
    · rw [if_neg h2]
      rw [is_odd_iff] at h2
      refine ⟨_, rfl, by omega, ?_, fun _ y hy => by rcases hunit y hy with h | h <;> omega⟩
      refine goodBody_of_nonneg hR h2 hlen (by rw [hsum]; omega) (by omega) hunit ?_
      intro hK
      by_cases hR0 : R = 0
      · subst hR0
        right
        refine ⟨by omega, fun j hj hk => ?_⟩
        have : ∀ y ∈ (pyRep (0 : Int) (|K| + T - 0 - 2 * Z) ++ pyRep 1 0 ++ pyRep 0 (2 * Z)),
            y = 0 := by
          intro y hy
          simp only [List.mem_append] at hy
          rcases hy with (hy | hy) | hy
          · exact mem_pyRep hy
          · simp [pyRep] at hy
          · exact mem_pyRep hy
        exact this _ (List.getElem_mem hj)
      · left
        intro h1 h0 ⟨h3, h4⟩
        rw [hlen] at h1 h0
        simp only [List.getElem_append, pyRep, List.length_append, List.length_replicate,
          List.getElem_replicate] at h3 h4
        split_ifs at h3 h4 <;> omega

/-- `Lambda_Splits` never fails on `T ≥ 0`; the shape of its result. -/
theorem Lambda_Splits_ok {K T R : Int} (hT : 0 ≤ T) :
    (∃ body, Lambda_Splits K T R = .ok body ∧ GoodBody K T R 0 body) ∨
    (∃ x body, Lambda_Splits K T R = .ok (x :: body) ∧ ((0 < x ∧ 0 < R) ∨ (x < 0 ∧ R < 0)) ∧
      (x % 2 = 0 ∨ (K = 0 ∧ T = 0 ∧ R % 2 = 1)) ∧ GoodBody K T R x body) := by
  by_cases hR : 0 ≤ R
  · rcases Lambda_Splits_nonneg (K := K) hT hR with ⟨body, h, _, h', _⟩ | ⟨x, body, h, h1, h2, h3, h4, _⟩
    · exact Or.inl ⟨body, h, h'⟩
    · refine Or.inr ⟨x, body, h, Or.inl ⟨h2, ?_⟩, h3, h4⟩
      have := abs_natAbs K
      omega
  · rw [Lambda_Splits_neg (by omega)]
    rcases Lambda_Splits_nonneg (K := K) (R := -R) hT (by omega) with
      ⟨body, h, _, h', h5⟩ | ⟨x, body, h, h1, h2, h3, h4, h5⟩
    · left
      rw [h]
      refine ⟨_, rfl, ?_⟩
      have := goodBody_neg (by omega) h' (by omega) (h5 (by omega))
      simpa using this
    · right
      rw [h]
      refine ⟨-x, _, rfl, Or.inr ⟨by omega, by omega⟩, ?_, ?_⟩
      · rcases h3 with h | h
        · left; omega
        · right; omega
      · have := goodBody_neg (by omega) h4 (by omega) h5
        simpa using this

theorem Lambda_Splits_err {K T R : Int} (hT : T < 0) :
    Lambda_Splits K T R = .error .valueError := by
  unfold Lambda_Splits
  rw [require_nonnegint_err hT]; rfl

end Acm
