import Verif.Model.Spherical
import Verif.Spec.Spherical
import Verif.Lemmas.Py
import Mathlib.Algebra.BigOperators.Intervals
import Mathlib.Algebra.BigOperators.Group.Finset.Piecewise
import Mathlib.Algebra.BigOperators.Ring.Finset
import Mathlib.Data.Nat.Cast.Basic
import Mathlib.Tactic.Ring
import Mathlib.Tactic.IntervalCases

/-! Helper lemmas about dimensions and label lists. -/

namespace Acm

open Acm.Spec

/-- Pure value of `dimSO5r3`. -/
def dimV (v L : Int) : Int :=
  if v < 0 ∨ L < 0 ∨ L > 2 * v then 0
  else
    (if v ≥ (L + 3 * (L % 2)) / 2 then 1 + (v - (L + 3 * (L % 2)) / 2) / 3 else 0)
      - (if v ≥ L - 2 then (v - L + 2) / 3 else 0)

theorem dimSO5r3_ok (v L : Int) : dimSO5r3 v L = .ok (dimV v L) := by
  unfold dimSO5r3 dimV
  by_cases h : v < 0 ∨ L < 0 ∨ L > 2 * v
  · simp [h]
  · rw [if_neg h, if_neg h]
    have hL : 0 ≤ L := by omega
    rw [irem_ok hL (by decide)]
    simp only [py_bind_ok, py_pure]
    rw [Int.fmod_eq_emod_of_nonneg _ (by decide), Int.fdiv_eq_ediv_of_nonneg _ (by decide)]
    rw [if_neg (by omega)]
    split_ifs with h1 h2 h2
    · rw [iquo_ok (by omega) (by decide), iquo_ok (by omega) (by decide)]; rfl
    · rw [iquo_ok (by omega) (by decide)]; simp
    · rw [iquo_ok (by omega) (by decide)]; rfl
    · simp

theorem dimV_step (v L : ℕ) : dimV ((v + 3 : ℕ) : Int) L = dimV v L +
    (if Contributes (v + 3) L (v + 3) then 1 else 0) := by
  unfold dimV Contributes
  split_ifs <;> push_cast at * <;> omega

theorem branching_step (v L : ℕ) : branching (v + 3) L = branching v L +
    (if Contributes (v + 3) L (v + 3) then 1 else 0) := by
  unfold branching
  rw [Finset.range_add_one, Finset.filter_insert, Finset.range_add_one, Finset.filter_insert,
    Finset.range_add_one, Finset.filter_insert]
  rw [if_neg (by unfold Contributes; omega : ¬ Contributes (v + 3) L (v + 1)),
    if_neg (by unfold Contributes; omega : ¬ Contributes (v + 3) L (v + 2))]
  have : (Finset.range (v + 1)).filter (Contributes (v + 3) L) =
      (Finset.range (v + 1)).filter (Contributes v L) := by
    apply Finset.filter_congr
    intro K hK
    rw [Finset.mem_range] at hK
    unfold Contributes; omega
  rw [this]
  split_ifs with h
  · rw [Finset.card_insert_of_notMem]; simp
  · rfl

theorem branching_zero (L : ℕ) : branching 0 L = if L = 0 then 1 else 0 := by
  unfold branching
  rw [Finset.range_one, Finset.filter_singleton]
  by_cases h : L = 0
  · subst h; simp [Contributes]
  · rw [if_neg (by unfold Contributes; omega)]; simp [h]

theorem branching_one (L : ℕ) : branching 1 L = if L = 2 then 1 else 0 := by
  unfold branching
  rw [Finset.range_add_one, Finset.filter_insert, Finset.range_one, Finset.filter_singleton]
  rw [if_neg (by unfold Contributes; omega : ¬ Contributes 1 L 0)]
  by_cases h : L = 2
  · subst h; rw [if_pos (by unfold Contributes; omega)]; simp
  · rw [if_neg (by unfold Contributes; omega)]; simp [h]

theorem branching_two (L : ℕ) : branching 2 L = if L = 2 ∨ L = 4 then 1 else 0 := by
  unfold branching
  rw [Finset.range_add_one, Finset.filter_insert, Finset.range_add_one, Finset.filter_insert,
    Finset.range_one, Finset.filter_singleton]
  rw [if_neg (by unfold Contributes; omega : ¬ Contributes 2 L 0),
   if_neg (by unfold Contributes; omega : ¬ Contributes 2 L 1)]
  by_cases h : L = 2 ∨ L = 4
  · rw [if_pos (by unfold Contributes; omega)]; simp [h]
  · rw [if_neg (by unfold Contributes; omega)]; simp [h]

theorem dimV_eq_branching (v L : ℕ) : dimV v L = branching v L := by
  induction v using Nat.strong_induction_on with
  | _ v ih =>
    match v with
    | 0 => rw [branching_zero]; unfold dimV; split_ifs <;> simp <;> omega
    | 1 => rw [branching_one]; unfold dimV; split_ifs <;> simp <;> omega
    | 2 => rw [branching_two]; unfold dimV; split_ifs <;> simp <;> omega
    | v + 3 =>
      rw [dimV_step, branching_step, ih v (by omega)]
      push_cast; rfl

theorem dimV_nonneg (v L : Int) : 0 ≤ dimV v L := by
  by_cases h : v < 0 ∨ L < 0
  · unfold dimV; rw [if_pos (by omega)]
  · obtain ⟨n, rfl⟩ := Int.eq_ofNat_of_zero_le (by omega : 0 ≤ v)
    obtain ⟨m, rfl⟩ := Int.eq_ofNat_of_zero_le (by omega : 0 ≤ L)
    have := dimV_eq_branching n m
    omega

theorem branching_eq_zero_of_gt {v L : ℕ} (h : 2 * v < L) : branching v L = 0 := by
  unfold branching
  rw [Finset.card_eq_zero, Finset.filter_eq_empty_iff]
  intro K hK
  rw [Finset.mem_range] at hK
  unfold Contributes; omega

theorem branching_pos_two_mul (v : ℕ) : 0 < branching v (2 * v) := by
  unfold branching
  rw [Finset.card_pos]
  exact ⟨v, by simp [Contributes]; omega⟩

/-- Number of `L < 2 * K + 1` contributed by `K` to its own irrep, weighted. -/
theorem sum_contrib (K n : ℕ) (hK : 1 ≤ K) (hn : 2 * K + 1 ≤ n) :
    ∑ L ∈ Finset.range n, (if Contributes K L K then 1 else 0) = K := by
  rw [← Finset.card_filter]
  have : (Finset.range n).filter (fun L => Contributes K L K) =
      insert (2 * K) (Finset.Ico K (2 * K - 1)) := by
    ext L
    simp only [Finset.mem_filter, Finset.mem_range, Finset.mem_insert, Finset.mem_Ico, Contributes]
    constructor
    · rintro ⟨_, _, _, _, _, _⟩; omega
    · intro h; refine ⟨?_, ?_, ?_, ?_, ?_, ?_⟩ <;> first | trivial | omega
  rw [this, Finset.card_insert_of_notMem (by simp), Nat.card_Ico]
  omega

theorem sum_odd_Ico (a b : ℕ) (h : a ≤ b) :
    ∑ L ∈ Finset.Ico a b, ((2 * L + 1 : ℕ) : ℤ) = (b : ℤ) ^ 2 - (a : ℤ) ^ 2 := by
  induction b, h using Nat.le_induction with
  | base => simp
  | succ b h ih =>
    rw [Finset.sum_Ico_succ_top h, ih]; push_cast; ring

theorem sum_contrib_weighted (K n : ℕ) (hK : 1 ≤ K) (hn : 2 * K + 1 ≤ n) :
    ∑ L ∈ Finset.range n, ((2 * L + 1 : ℕ) : ℤ) * (if Contributes K L K then 1 else 0)
      = 3 * (K : ℤ) ^ 2 + 2 := by
  have h1 : ∀ L, ((2 * L + 1 : ℕ) : ℤ) * (if Contributes K L K then 1 else 0) =
      if Contributes K L K then ((2 * L + 1 : ℕ) : ℤ) else 0 := by
    intro L; split_ifs <;> simp
  simp_rw [h1]
  rw [← Finset.sum_filter]
  have : (Finset.range n).filter (fun L => Contributes K L K) =
      insert (2 * K) (Finset.Ico K (2 * K - 1)) := by
    ext L
    simp only [Finset.mem_filter, Finset.mem_range, Finset.mem_insert, Finset.mem_Ico, Contributes]
    constructor
    · rintro ⟨_, _, _, _, _, _⟩; omega
    · intro h; refine ⟨?_, ?_, ?_, ?_, ?_, ?_⟩ <;> first | trivial | omega
  rw [this, Finset.sum_insert (by simp), sum_odd_Ico _ _ (by omega)]
  push_cast [show 1 ≤ 2 * K by omega]
  ring

theorem sum_branching_any (v n : ℕ) (hn : 2 * v + 1 ≤ n) :
    ((∑ L ∈ Finset.range n, branching v L : ℕ) : ℤ) = (v : ℤ) * (v + 3) / 6 + 1 := by
  induction v using Nat.strong_induction_on with
  | _ v ih =>
    match v with
    | 0 =>
      simp only [branching_zero]
      rw [Finset.sum_ite_eq' (Finset.range n) 0]; simp; omega
    | 1 =>
      simp only [branching_one]
      rw [Finset.sum_ite_eq' (Finset.range n) 2]
      rw [if_pos (by simp; omega)]; rfl
    | 2 =>
      simp only [branching_two]
      rw [← Finset.card_filter]
      have : (Finset.range n).filter (fun L => L = 2 ∨ L = 4) = {2, 4} := by
        ext L; simp; omega
      rw [this]; rfl
    | v + 3 =>
      simp only [branching_step]
      rw [Finset.sum_add_distrib, sum_contrib _ _ (by omega) hn]
      have := ih v (by omega) (by omega)
      rw [Nat.cast_add, this]
      push_cast
      have : ((v : ℤ) + 3) * (v + 3 + 3) = v * (v + 3) + (v + 3) * 6 := by ring
      rw [this, Int.add_mul_ediv_right _ _ (by decide)]
      ring

theorem sum_dim_branching (v n : ℕ) (hn : 2 * v + 1 ≤ n) :
    6 * ∑ L ∈ Finset.range n, ((2 * L + 1 : ℕ) : ℤ) * (branching v L : ℤ)
      = ((v : ℤ) + 1) * (v + 2) * (2 * v + 3) := by
  induction v using Nat.strong_induction_on with
  | _ v ih =>
    match v with
    | 0 =>
      simp only [branching_zero]
      have h1 : ∀ L : ℕ, ((2 * L + 1 : ℕ) : ℤ) * ((if L = 0 then 1 else 0 : ℕ) : ℤ) =
        if L = 0 then ((2 * L + 1 : ℕ) : ℤ) else 0 := by intro L; split_ifs <;> simp
      simp_rw [h1]
      rw [Finset.sum_ite_eq' (Finset.range n) 0, if_pos (by simp; omega)]; norm_num
    | 1 =>
      simp only [branching_one]
      have h1 : ∀ L : ℕ, ((2 * L + 1 : ℕ) : ℤ) * ((if L = 2 then 1 else 0 : ℕ) : ℤ) =
        if L = 2 then ((2 * L + 1 : ℕ) : ℤ) else 0 := by intro L; split_ifs <;> simp
      simp_rw [h1]
      rw [Finset.sum_ite_eq' (Finset.range n) 2, if_pos (by simp; omega)]; norm_num
    | 2 =>
      simp only [branching_two]
      have h1 : ∀ L : ℕ, ((2 * L + 1 : ℕ) : ℤ) * ((if L = 2 ∨ L = 4 then 1 else 0 : ℕ) : ℤ) =
        if L = 2 ∨ L = 4 then ((2 * L + 1 : ℕ) : ℤ) else 0 := by intro L; split_ifs <;> simp
      simp_rw [h1]
      rw [← Finset.sum_filter]
      have : (Finset.range n).filter (fun L => L = 2 ∨ L = 4) = {2, 4} := by
        ext L; simp; omega
      rw [this]; rfl
    | v + 3 =>
      have h2 : ∀ L : ℕ, ((2 * L + 1 : ℕ) : ℤ) * (branching (v + 3) L : ℤ) =
        ((2 * L + 1 : ℕ) : ℤ) * (branching v L : ℤ)
        + ((2 * L + 1 : ℕ) : ℤ) * (if Contributes (v + 3) L (v + 3) then 1 else 0) := by
        intro L; rw [branching_step]; push_cast; ring
      simp_rw [h2]
      rw [Finset.sum_add_distrib, sum_contrib_weighted _ _ (by omega) hn, mul_add,
        ih v (by omega) (by omega)]
      push_cast; ring

/-- Sum over a Python range starting at a natural number, as a `Finset` sum. -/
theorem sum_pyRange (a b : ℕ) (g : Int → Int) :
    ((pyRange (a : Int) ((b : Int) + 1)).map g).sum = ∑ x ∈ Finset.Ico a (b + 1), g x := by
  rcases Nat.lt_or_ge b a with h | h
  · rw [pyRange_empty (by omega), Finset.Ico_eq_empty (by omega)]; simp
  · induction b, h using Nat.le_induction with
    | base =>
      rw [pyRange_succ (by omega), pyRange_empty (by omega)]
      simp
    | succ b h ih =>
      rw [Finset.sum_Ico_succ_top (by omega), ← ih]
      rw [pyRange_succ (by push_cast; omega)]
      push_cast
      simp

/-! ### label lists -/

/-- Pure value of `lbsSO5r3_rngVrngL`. -/
def labelsV (v_min v_max L_min L_max : Int) : List Label :=
  (pyRange L_min (L_max + 1)).flatMap fun LL =>
    (pyRange v_min (v_max + 1)).flatMap fun u =>
      (pyRange 1 (dimV u LL + 1)).map fun a => (u, a, LL)

theorem mem_labelsV {v_min v_max L_min L_max : Int} {v a L : Int} :
    (v, a, L) ∈ labelsV v_min v_max L_min L_max ↔
      (v_min ≤ v ∧ v ≤ v_max) ∧ (1 ≤ a ∧ a ≤ dimV v L) ∧ (L_min ≤ L ∧ L ≤ L_max) := by
  unfold labelsV
  simp only [List.mem_flatMap, List.mem_map, mem_pyRange, Prod.mk.injEq]
  constructor
  · rintro ⟨LL, hL, u, hu, a', ha, rfl, rfl, rfl⟩; omega
  · rintro ⟨h1, h2, h3⟩; exact ⟨L, by omega, v, by omega, a, by omega, rfl, rfl, rfl⟩

theorem labelsV_pairwise (v_min v_max L_min L_max : Int) :
    (labelsV v_min v_max L_min L_max).Pairwise LayoutLT := by
  unfold labelsV
  rw [List.pairwise_flatMap]
  refine ⟨fun LL _ => ?_, (pyRange_pairwise _ _).imp ?_⟩
  · rw [List.pairwise_flatMap]
    refine ⟨fun u _ => ?_, (pyRange_pairwise _ _).imp ?_⟩
    · rw [List.pairwise_map]
      exact (pyRange_pairwise _ _).imp (fun h => Or.inr ⟨rfl, Or.inr ⟨rfl, h⟩⟩)
    · intro u u' h x hx y hy
      simp only [List.mem_map] at hx hy
      obtain ⟨a, _, rfl⟩ := hx
      obtain ⟨a', _, rfl⟩ := hy
      exact Or.inr ⟨rfl, Or.inl h⟩
  · intro L L' h x hx y hy
    simp only [List.mem_flatMap, List.mem_map] at hx hy
    obtain ⟨_, _, a, _, rfl⟩ := hx
    obtain ⟨_, _, a', _, rfl⟩ := hy
    exact Or.inl h

theorem layoutLT_irrefl (x : Label) : ¬ LayoutLT x x := by unfold LayoutLT; omega

theorem labelsV_nodup (v_min v_max L_min L_max : Int) :
    (labelsV v_min v_max L_min L_max).Nodup :=
  (labelsV_pairwise v_min v_max L_min L_max).imp
    (fun {x y} h (e : x = y) => layoutLT_irrefl y (by rw [e] at h; exact h))

theorem length_labelsV (v_min v_max L_min L_max : Int) :
    ((labelsV v_min v_max L_min L_max).length : Int) =
      ((pyRange L_min (L_max + 1)).map fun L =>
        ((pyRange v_min (v_max + 1)).map fun v => dimV v L).sum).sum := by
  unfold labelsV
  induction pyRange L_min (L_max + 1) with
  | nil => simp
  | cons L Ls ih =>
    rw [List.flatMap_cons, List.length_append, List.map_cons, List.sum_cons]
    push_cast
    rw [ih]
    congr 1
    induction pyRange v_min (v_max + 1) with
    | nil => simp
    | cons u us ih2 =>
      rw [List.flatMap_cons, List.length_append, List.map_cons, List.sum_cons]
      push_cast
      rw [ih2]
      congr 1
      rw [List.length_map, length_pyRange]
      have := dimV_nonneg u L
      omega

theorem sum_swap (xs ys : List Int) (f : Int → Int → Int) :
    (xs.map fun x => (ys.map fun y => f x y).sum).sum =
      (ys.map fun y => (xs.map fun x => f x y).sum).sum := by
  induction xs with
  | nil => simp
  | cons x xs ih => simp [ih, List.sum_map_add]

theorem dimSO5r3_rngVrngL_ok {v_min v_max L_min L_max : Int}
    (hv : 0 ≤ v_min) (hv2 : v_min ≤ v_max) (hL : 0 ≤ L_min) (hL2 : L_min ≤ L_max) :
    dimSO5r3_rngVrngL v_min v_max L_min L_max =
      .ok (((pyRange v_min (v_max + 1)).map fun v =>
        ((pyRange L_min (L_max + 1)).map fun L => dimV v L).sum).sum) := by
  unfold dimSO5r3_rngVrngL
  rw [require_nonnegint_range_ok hv hv2, require_nonnegint_range_ok hL hL2]
  simp only [py_bind_ok]
  exact pySum_ok (fun v _ => pySum_ok (fun L _ => dimSO5r3_ok v L))

theorem dimSO5r3_rngV_ok {v_min v_max L : Int}
    (hv : 0 ≤ v_min) (hv2 : v_min ≤ v_max) (hL : 0 ≤ L) :
    dimSO5r3_rngV v_min v_max L =
      .ok (((pyRange v_min (v_max + 1)).map fun v => dimV v L).sum) := by
  unfold dimSO5r3_rngV
  rw [require_nonnegint_range_ok hv hv2, require_nonnegint_ok hL]
  simp only [py_bind_ok]
  exact pySum_ok (fun v _ => dimSO5r3_ok v L)

theorem lbsSO5r3_rngVrngL_ok {v_min v_max L_min L_max : Int}
    (hv : 0 ≤ v_min) (hv2 : v_min ≤ v_max) (hL : 0 ≤ L_min) (hL2 : L_min ≤ L_max) :
    lbsSO5r3_rngVrngL v_min v_max L_min L_max = .ok (labelsV v_min v_max L_min L_max) := by
  unfold lbsSO5r3_rngVrngL labelsV
  rw [require_nonnegint_range_ok hv hv2, require_nonnegint_range_ok hL hL2]
  simp only [py_bind_ok]
  refine pyFlat_ok (fun LL _ => pyFlat_ok (fun u _ => ?_))
  rw [dimSO5r3_ok]; rfl

theorem lbsSO5r3_rngVvarL_some_ok {v_min v_max L_min L_max : Int}
    (hv : 0 ≤ v_min) (hv2 : v_min ≤ v_max) (hL : 0 ≤ L_min) (hL2 : L_min ≤ L_max) :
    lbsSO5r3_rngVvarL v_min v_max L_min (some L_max) =
      .ok (labelsV v_min v_max L_min L_max) := by
  unfold lbsSO5r3_rngVvarL labelsV
  rw [require_nonnegint_range_ok hv hv2, require_nonnegint_ok hL]
  simp only [py_bind_ok]
  rw [require_nonnegint_range_ok hL hL2]
  simp only [py_bind_ok]
  refine pyFlat_ok (fun LL _ => pyFlat_ok (fun u _ => ?_))
  rw [dimSO5r3_ok]; rfl

theorem pyRange_singleton (a : Int) : pyRange a (a + 1) = [a] := by
  rw [pyRange_succ (le_refl a), pyRange_empty (le_refl a)]; rfl

theorem lbsSO5r3_rngV_ok {v_min v_max L : Int}
    (hv : 0 ≤ v_min) (hv2 : v_min ≤ v_max) (hL : 0 ≤ L) :
    lbsSO5r3_rngV v_min v_max L = .ok (labelsV v_min v_max L L) := by
  unfold lbsSO5r3_rngV labelsV
  rw [require_nonnegint_range_ok hv hv2, require_nonnegint_ok hL]
  simp only [py_bind_ok]
  rw [pyRange_singleton, List.flatMap_cons, List.flatMap_nil, List.append_nil]
  refine pyFlat_ok (fun u _ => ?_)
  rw [dimSO5r3_ok]; rfl

theorem lbsSO5r3_rngL_ok {v L_min L_max : Int}
    (hv : 0 ≤ v) (hL : 0 ≤ L_min) (hL2 : L_min ≤ L_max) :
    lbsSO5r3_rngL v L_min L_max = .ok (labelsV v v L_min L_max) := by
  unfold lbsSO5r3_rngL labelsV
  rw [require_nonnegint_ok hv, require_nonnegint_range_ok hL hL2]
  simp only [py_bind_ok]
  refine pyFlat_ok (fun LL _ => ?_)
  rw [dimSO5r3_ok, pyRange_singleton]; simp

theorem lbsSO5r3_rngVallL_ok {v_min v_max : Int}
    (hv : 0 ≤ v_min) (hv2 : v_min ≤ v_max) :
    lbsSO5r3_rngVallL v_min v_max = .ok (labelsV v_min v_max 0 (2 * v_max)) := by
  unfold lbsSO5r3_rngVallL labelsV
  rw [require_nonnegint_range_ok hv hv2]
  simp only [py_bind_ok]
  refine pyFlat_ok (fun LL _ => pyFlat_ok (fun u _ => ?_))
  rw [dimSO5r3_ok]; rfl

theorem lbsSO5r3_allL_ok {v : Int} (hv : 0 ≤ v) :
    lbsSO5r3_allL v = .ok ((labelsV v v 0 (2 * v)).map fun x => (x.2.1, x.2.2)) := by
  unfold lbsSO5r3_allL labelsV
  rw [require_nonnegint_ok hv]
  simp only [py_bind_ok]
  rw [List.map_flatMap]
  refine pyFlat_ok (fun LL _ => ?_)
  rw [dimSO5r3_ok, pyRange_singleton]; simp

/-! ### bridging to the specification -/

theorem mem_labelsV_iff (v_min v_max L_min L_max : ℕ) (x : Label) :
    x ∈ labelsV v_min v_max L_min L_max ↔ IsLabel v_min v_max L_min L_max x := by
  obtain ⟨v, a, L⟩ := x
  rw [mem_labelsV]
  unfold IsLabel
  constructor
  · rintro ⟨h1, h2, h3⟩
    obtain ⟨v, rfl⟩ := Int.eq_ofNat_of_zero_le (by omega : 0 ≤ v)
    obtain ⟨a, rfl⟩ := Int.eq_ofNat_of_zero_le (by omega : 0 ≤ a)
    obtain ⟨L, rfl⟩ := Int.eq_ofNat_of_zero_le (by omega : 0 ≤ L)
    rw [dimV_eq_branching] at h2
    exact ⟨v, a, L, rfl, by omega, by omega, by omega, by omega, by omega, by omega⟩
  · rintro ⟨v, a, L, h, h1, h2, h3, h4, h5, h6⟩
    simp only [Prod.mk.injEq] at h
    obtain ⟨rfl, rfl, rfl⟩ := h
    rw [dimV_eq_branching]
    omega

theorem sum_dimV_V (v_min v_max L : ℕ) :
    ((pyRange (v_min : Int) ((v_max : Int) + 1)).map fun v => dimV v L).sum =
      ((∑ v ∈ Finset.Ico v_min (v_max + 1), branching v L : ℕ) : Int) := by
  rw [sum_pyRange]; push_cast
  exact Finset.sum_congr rfl (fun v _ => dimV_eq_branching v L)

theorem sum_dimV_L (v L_min L_max : ℕ) :
    ((pyRange (L_min : Int) ((L_max : Int) + 1)).map fun L => dimV v L).sum =
      ((∑ L ∈ Finset.Ico L_min (L_max + 1), branching v L : ℕ) : Int) := by
  rw [sum_pyRange]; push_cast
  exact Finset.sum_congr rfl (fun L _ => dimV_eq_branching v L)

theorem sum_dimV_VL (v_min v_max L_min L_max : ℕ) :
    ((pyRange (v_min : Int) ((v_max : Int) + 1)).map fun v =>
      ((pyRange (L_min : Int) ((L_max : Int) + 1)).map fun L => dimV v L).sum).sum =
      (spaceDim v_min v_max L_min L_max : Int) := by
  unfold spaceDim
  rw [sum_pyRange]; push_cast
  refine Finset.sum_congr rfl (fun v _ => ?_)
  rw [sum_dimV_L]; push_cast; rfl

theorem length_labelsV_nat (v_min v_max L_min L_max : ℕ) :
    (labelsV v_min v_max L_min L_max).length = spaceDim v_min v_max L_min L_max := by
  have h := length_labelsV v_min v_max L_min L_max
  rw [sum_swap, sum_dimV_VL] at h
  exact_mod_cast h

theorem sum_branching_full (v n : ℕ) (h : 2 * v + 1 ≤ n) :
    ∑ L ∈ Finset.range n, branching v L = ∑ L ∈ Finset.range (2 * v + 1), branching v L := by
  symm
  apply Finset.sum_subset
  · intro x; simp; omega
  · intro x _ hx
    apply branching_eq_zero_of_gt
    simp at hx; omega

end Acm
