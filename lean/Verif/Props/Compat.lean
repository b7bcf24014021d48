import Verif.Model.CompatVal
import Verif.Lemmas.Py
import Verif.Props.Spherical
import Mathlib.Data.List.GetD
import Mathlib.Tactic.Linarith
import Mathlib.Tactic.Ring
import Mathlib.Tactic.NormNum

/-!
# Properties C08 (values of any type) and C78
-/

namespace Acm.Props

open Acm

/-! ## C08 -/

theorem require_intV_eq (x : PyVal) :
    require_intV x = match x.toInt? with | some _ => .ok () | none => .error .typeError := by
  unfold require_intV
  cases x.toInt? <;> rfl

/-- C08: whatever the type of the value, `require_nonnegint` accepts exactly the instances of `int` (with `bool`) that are
not negative, and tells a wrong type from a wrong value. -/
theorem C08_values (x : PyVal) :
    (require_nonnegintV x = match x.toInt? with
      | none => .error .typeError
      | some n => if 0 ≤ n then .ok () else .error .valueError) ∧
    (require_posintV x = match x.toInt? with
      | none => .error .typeError
      | some n => if 0 < n then .ok () else .error .valueError) := by
  cases h : x.toInt? with
  | none =>
    refine ⟨?_, ?_⟩
    · unfold require_nonnegintV
      rw [require_intV_eq, h]
      rfl
    · unfold require_posintV require_nonnegintV
      rw [require_intV_eq, h]
      rfl
  | some n =>
    have e : require_nonnegintV x = if 0 ≤ n then .ok () else .error .valueError := by
      unfold require_nonnegintV
      rw [require_intV_eq, h]
      simp only [PyVal.ltZero, h, py_bind_ok, decide_eq_true_eq]
      split_ifs <;> first | rfl | omega
    refine ⟨e, ?_⟩
    unfold require_posintV
    rw [e, h]
    simp only [Option.getD_some]
    rcases lt_trichotomy n 0 with hn | hn | hn
    · rw [if_neg (by omega : ¬ 0 ≤ n), if_neg (by omega : ¬ 0 < n)]; rfl
    · subst hn; rfl
    · rw [if_pos hn.le, if_pos hn, py_bind_ok, if_neg hn.ne']; rfl

/-- C08: ranges of values of any type: the first value that is no integer gives `TypeError`, unless
the first integer is already negative. -/
theorem C08_values_range (x y : PyVal) :
    require_nonnegint_rangeV x y = match x.toInt?, y.toInt? with
      | none, _ => .error .typeError
      | some a, none => .error (if 0 ≤ a then .typeError else .valueError)
      | some a, some b => if 0 ≤ a ∧ a ≤ b then .ok () else .error .valueError := by
  unfold require_nonnegint_rangeV
  rw [(C08_values x).1, (C08_values y).1]
  cases hx : x.toInt? with
  | none => rfl
  | some a =>
    cases hy : y.toInt? with
    | none =>
      by_cases ha : 0 ≤ a
      · simp only [if_pos ha]; rfl
      · simp only [if_neg ha]; rfl
    | some b =>
      simp only [Option.getD_some]
      by_cases ha : 0 ≤ a
      · rw [if_pos ha, py_bind_ok]
        by_cases hb : 0 ≤ b
        · rw [if_pos hb, py_bind_ok]
          by_cases hab : a > b
          · rw [if_pos hab, if_neg (by omega)]; rfl
          · rw [if_neg hab, if_pos (by omega)]; rfl
        · rw [if_neg hb, if_neg (fun h : 0 ≤ a ∧ a ≤ b => hb (h.1.trans h.2))]; rfl
      · rw [if_neg ha, if_neg (fun h : 0 ≤ a ∧ a ≤ b => ha h.1)]; rfl

/-- C08: on integers the validators are those used in the rest of the model; integer division and parity of any value. -/
theorem C08_values_int (m n : PyVal) :
    (∀ k, require_nonnegintV (.int k) = require_nonnegint k ∧ require_posintV (.int k) = require_posint k) ∧
    (∀ a b, m.toInt? = some a → n.toInt? = some b → iquoV m n = iquo a b ∧ iremV m n = irem a b ∧
      is_evenV m = .ok (is_even a) ∧ is_oddV m = .ok (is_odd a)) ∧
    (m.toInt? = none → iquoV m n = .error .typeError ∧ iremV m n = .error .typeError ∧ is_evenV m = .error .typeError ∧
      is_oddV m = .error .typeError) := by
  have key : ∀ (x : PyVal) k, x.toInt? = some k → require_nonnegintV x = require_nonnegint k ∧ require_posintV x = require_posint k := by
    intro x k h
    rw [(C08_values x).1, (C08_values x).2, C08_require_nonnegint, C08_require_posint, h]
    exact ⟨rfl, rfl⟩
  refine ⟨fun k => key _ k rfl, fun a b ha hb => ⟨?_, ?_, ?_, ?_⟩, fun h => ⟨?_, ?_, ?_, ?_⟩⟩
  · unfold iquoV iquo; rw [(key m a ha).1, (key n b hb).2, ha, hb]; rfl
  · unfold iremV irem; rw [(key m a ha).1, (key n b hb).2, ha, hb]; rfl
  · unfold is_evenV is_even; rw [require_intV_eq, ha]; rfl
  · unfold is_oddV is_odd; rw [require_intV_eq, ha]; rfl
  · unfold iquoV; rw [(C08_values m).1, h]; rfl
  · unfold iremV; rw [(C08_values m).1, h]; rfl
  · unfold is_evenV; rw [require_intV_eq, h]; rfl
  · unfold is_oddV; rw [require_intV_eq, h]; rfl

/-- The cases: `True` passes as 1, a float does not even if it is whole. -/
example : require_posintV (.bool true) = .ok () ∧ require_posintV (.float 2) = .error .typeError ∧
    require_posintV (.int (-2)) = .error .valueError := ⟨rfl, rfl, rfl⟩

/-! ## C78 -/

theorem isclose_zero {z t : ℝ} (ht : 0 ≤ t) : isclose z 0 t = .ok (open Classical in decide (|z| ≤ t)) := by
  unfold isclose
  rw [if_neg (not_lt.2 ht)]
  refine congrArg Except.ok (decide_eq_decide.2 ?_)
  rw [sub_zero, abs_zero, max_eq_left (abs_nonneg z), le_max_iff]
  constructor
  · rintro (h | h)
    · have := abs_nonneg z
      norm_num at h
      linarith
    · exact h
  · exact .inr

/-- C78: `is_zeros` tells whether all numbers are within the tolerance (the relative tolerance of `isclose` plays no part). -/
theorem C78_is_zeros {t : ℝ} (ht : 0 ≤ t) (zs : List ℝ) : ∃ b, is_zeros t zs = .ok b ∧ (b = true ↔ ∀ z ∈ zs, |z| ≤ t) := by
  induction zs with
  | nil => exact ⟨true, rfl, by simp⟩
  | cons z zs ih =>
    obtain ⟨b, hb, hi⟩ := ih
    by_cases h : |z| ≤ t
    · refine ⟨b, ?_, ?_⟩
      · rw [is_zeros, isclose_zero ht, py_bind_ok, if_pos (by simpa using h), hb]
      · rw [hi]; simp [h]
    · refine ⟨false, ?_, ?_⟩
      · rw [is_zeros, isclose_zero ht, py_bind_ok, if_neg (by simpa using h)]
        rfl
      · simp [h]

/-- C78: `is_close` compares element by element, and lists of different lengths are different. -/
theorem C78_is_close {t : ℝ} (ht : 0 ≤ t) (xs ys : List ℝ) : ∃ b, is_close xs ys t = .ok b ∧
    (b = true ↔ List.Forall₂ (fun x y => |x - y| ≤ t) xs ys) := by
  unfold is_close
  by_cases hl : xs.length = ys.length
  · rw [if_neg (not_not.2 hl)]
    obtain ⟨b, hb, hi⟩ := C78_is_zeros ht (List.zipWith (fun x y => x - y) xs ys)
    refine ⟨b, hb, hi.trans ?_⟩
    clear hb hi
    induction xs generalizing ys with
    | nil =>
      cases ys with
      | nil => simp
      | cons y ys => simp at hl
    | cons x xs ih =>
      cases ys with
      | nil => simp at hl
      | cons y ys =>
        rw [List.zipWith_cons_cons, List.forall_mem_cons, List.forall₂_cons, ih ys (by simpa using hl)]
  · rw [if_pos hl]
    refine ⟨false, rfl, ?_⟩
    simp only [Bool.false_eq_true, false_iff]
    intro h
    exact hl h.length_eq

/-- C78: hence it is reflexive and symmetric; a negative tolerance raises unless there is nothing to compare. -/
theorem C78_is_close_laws (t : ℝ) (xs ys : List ℝ) :
    (0 ≤ t → is_close xs xs t = .ok true ∧ is_close xs ys t = is_close ys xs t) ∧
    (t < 0 → xs.length = ys.length → xs ≠ [] → is_close xs ys t = .error .valueError) := by
  refine ⟨fun ht => ⟨?_, ?_⟩, fun ht hl hx => ?_⟩
  · obtain ⟨b, hb, hi⟩ := C78_is_close ht xs xs
    rw [hb, hi.2]
    rw [List.forall₂_same]
    intro x _
    rw [sub_self, abs_zero]; exact ht
  · obtain ⟨b, hb, hi⟩ := C78_is_close ht xs ys
    obtain ⟨c, hc, hj⟩ := C78_is_close ht ys xs
    rw [hb, hc]
    have : (b = true) ↔ (c = true) := by
      rw [hi, hj]
      constructor <;> intro h
      · exact h.flip.imp fun a b hab => by rw [abs_sub_comm]; exact hab
      · exact h.flip.imp fun a b hab => by rw [abs_sub_comm]; exact hab
    rw [Bool.eq_iff_iff.2 this]
  · unfold is_close
    rw [if_neg (not_not.2 hl)]
    cases xs with
    | nil => exact absurd rfl hx
    | cons x xs =>
      cases ys with
      | nil => simp at hl
      | cons y ys =>
        rw [List.zipWith_cons_cons, is_zeros]
        unfold isclose
        rw [if_pos ht]
        rfl

/-- C78: `is_sorted` tells whether the list ascends: every element is at most every later one. -/
theorem C78_is_sorted (vals : List ℝ) : is_sorted vals = true ↔ vals.Pairwise (· ≤ ·) := by
  induction vals with
  | nil => simp [is_sorted]
  | cons x xs ih =>
    cases xs with
    | nil => simp [is_sorted]
    | cons y ys =>
      have e : is_sorted (x :: y :: ys) = true ↔ x ≤ y ∧ is_sorted (y :: ys) = true := by
        simp [is_sorted]
      rw [e, ih, List.pairwise_cons (l := y :: ys)]
      constructor
      · rintro ⟨h1, h2⟩
        refine ⟨fun z hz => ?_, h2⟩
        rcases List.mem_cons.1 hz with rfl | hz
        · exact h1
        · exact h1.trans ((List.pairwise_cons.1 h2).1 z hz)
      · rintro ⟨h1, h2⟩
        exact ⟨h1 y (by simp), h2⟩

theorem flat_getD (n m : ℕ) (f : ℕ → ℕ → ℝ) {i j : ℕ} (hi : i < n) (hj : j < m) :
    ((List.range n).flatMap fun i => (List.range m).map fun j => f i j).getD (i * m + j) 0 = f i j := by
  induction n generalizing i f with
  | zero => omega
  | succ n ih =>
    rw [List.range_succ_eq_map, List.flatMap_cons]
    cases i with
    | zero =>
      rw [Nat.zero_mul, Nat.zero_add, List.getD_append _ _ _ _ (by simpa using hj)]
      simp [hj]
    | succ i =>
      rw [List.getD_append_right _ _ _ _ (by simp; nlinarith)]
      rw [List.flatMap_map]
      have := ih (fun i j => f (i + 1) j) (i := i) (by omega)
      rw [← this]
      congr 1
      simp
      rw [Nat.succ_mul]
      omega

/-- C78: conversion to a SymPy matrix and back is the identity on arrays; the flat list has all elements. -/
theorem C78_conversions (n m : ℕ) (f : ℕ → ℕ → ℝ) :
    Matrix_to_ndarray (ndarray_to_Matrix (Arr.of n m f)) = Arr.of n m f ∧
    (ndarray_to_list (Arr.of n m f)).length = n * m ∧
    ∀ i < n, ∀ j < m, (ndarray_to_list (Arr.of n m f))[i * m + j]? = some (f i j) := by
  have hlen : (ndarray_to_list (Arr.of n m f)).length = n * m := by
    unfold ndarray_to_list
    simp [Arr.of]
  have hent : ∀ i < n, ∀ j < m, (ndarray_to_list (Arr.of n m f)).getD (i * m + j) 0 = f i j := by
    intro i hi j hj
    have := flat_getD n m (Arr.of n m f).e hi hj
    unfold ndarray_to_list
    refine this.trans ?_
    simp [Arr.of, hi, hj]
  refine ⟨?_, hlen, ?_⟩
  · refine Arr.ext rfl rfl ?_
    funext i j
    show (if i < n ∧ j < m then _ else _) = (if i < n ∧ j < m then _ else _)
    split_ifs with h
    · exact hent i h.1 j h.2
    · rfl
  · intro i hi j hj
    have hlt : i * m + j < (ndarray_to_list (Arr.of n m f)).length := by
      rw [hlen]
      calc i * m + j < i * m + m := by omega
        _ = (i + 1) * m := by ring
        _ ≤ n * m := Nat.mul_le_mul_right _ hi
    rw [List.getElem?_eq_getElem hlt, ← hent i hi j hj, List.getD_eq_getElem _ _ hlt]

/-- C78: `is_nd_zeros` tells whether all elements of an array are within the tolerance. -/
theorem C78_is_nd_zeros {t : ℝ} (ht : 0 ≤ t) (n m : ℕ) (f : ℕ → ℕ → ℝ) :
    ∃ b, is_nd_zeros (Arr.of n m f) t = .ok b ∧ (b = true ↔ ∀ i < n, ∀ j < m, |f i j| ≤ t) := by
  obtain ⟨b, hb, hi⟩ := C78_is_zeros ht (ndarray_to_list (Arr.of n m f))
  refine ⟨b, hb, hi.trans ?_⟩
  unfold ndarray_to_list
  simp only [List.mem_flatMap, List.mem_map, List.mem_range]
  constructor
  · intro h i hi' j hj
    have := h _ ⟨i, hi', j, hj, rfl⟩
    simpa [Arr.of, hi', hj] using this
  · rintro h z ⟨i, hi', j, hj, rfl⟩
    have h1 : i < n := hi'
    have h2 : j < m := hj
    simpa [Arr.of, h1, h2] using h i h1 j h2

example : is_close [1, 2] [1, 2 + 1 / 2] 1 = .ok true := by
  obtain ⟨b, hb, hi⟩ := C78_is_close (t := 1) (by norm_num) [1, 2] [1, 2 + 1 / 2]
  rw [hb, hi.2]
  simp
  norm_num

end Acm.Props
