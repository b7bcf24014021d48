import Verif.Model.Compat
import Mathlib.Data.Int.Basic
import Mathlib.Data.List.Basic
import Mathlib.Data.List.Nodup
import Mathlib.Algebra.BigOperators.Group.List.Basic
import Mathlib.Algebra.Order.Ring.Int
import Mathlib.Tactic.Linarith

/-! Helper lemmas about the Python primitives. -/

namespace Acm

@[simp] theorem py_pure {α : Type} (x : α) : (pure x : Py α) = .ok x := rfl
@[simp] theorem py_throw {α : Type} (e : PyErr) : (throw e : Py α) = .error e := rfl
@[simp] theorem py_bind_ok {α β : Type} (x : α) (f : α → Py β) :
    ((Except.ok x : Py α) >>= f) = f x := rfl
@[simp] theorem py_bind_error {α β : Type} (e : PyErr) (f : α → Py β) :
    ((Except.error e : Py α) >>= f) = .error e := rfl

theorem mem_pyRange {a b x : Int} : x ∈ pyRange a b ↔ a ≤ x ∧ x < b := by
  unfold pyRange
  simp only [List.mem_map, List.mem_range]
  constructor
  · rintro ⟨i, hi, rfl⟩; omega
  · rintro ⟨h1, h2⟩; exact ⟨(x - a).toNat, by omega, by omega⟩

theorem length_pyRange (a b : Int) : (pyRange a b).length = (b - a).toNat := by
  simp [pyRange]

theorem pyRange_pairwise (a b : Int) : (pyRange a b).Pairwise (· < ·) := by
  unfold pyRange
  rw [List.pairwise_map]
  exact List.Pairwise.imp (fun h => by omega) List.pairwise_lt_range

theorem pyRange_nodup (a b : Int) : (pyRange a b).Nodup :=
  (pyRange_pairwise a b).imp (fun h => by omega)

theorem pyRange_succ {a b : Int} (h : a ≤ b) : pyRange a (b + 1) = pyRange a b ++ [b] := by
  unfold pyRange
  have : (b + 1 - a).toNat = (b - a).toNat + 1 := by omega
  rw [this, List.range_succ]
  simp; omega

theorem pyRange_empty {a b : Int} (h : b ≤ a) : pyRange a b = [] := by
  unfold pyRange
  have : (b - a).toNat = 0 := by omega
  simp [this]

theorem pyRange_append {a b c : Int} (h : a ≤ b) (h2 : b ≤ c) :
    pyRange a c = pyRange a b ++ pyRange b c := by
  unfold pyRange
  have : (c - a).toNat = (b - a).toNat + (c - b).toNat := by omega
  rw [this, List.range_add]
  simp only [List.map_append, List.map_map]
  congr 1
  apply List.map_congr_left
  intro i _
  simp; omega

theorem pyRange_cons {a b : Int} (h : a < b) : pyRange a b = a :: pyRange (a + 1) b := by
  rw [pyRange_append (a := a) (b := a + 1) (c := b) (by omega) (by omega)]
  simp [pyRange]

theorem getElem_pyRange {a b : Int} {i : Nat} (h : i < (pyRange a b).length) :
    (pyRange a b)[i] = a + i := by
  simp [pyRange]

theorem pySum_ok {xs : List Int} {f : Int → Py Int} {g : Int → Int}
    (h : ∀ x ∈ xs, f x = .ok (g x)) : pySum xs f = .ok (xs.map g).sum := by
  have key : ∀ (acc : Int) (xs : List Int), (∀ x ∈ xs, f x = .ok (g x)) →
      xs.foldlM (fun acc x => do let y ← f x; pure (acc + y)) acc
        = (.ok (acc + (xs.map g).sum) : Py Int) := by
    intro acc xs
    induction xs generalizing acc with
    | nil => simp
    | cons x xs ih =>
      intro h
      rw [List.foldlM_cons, h x (by simp)]
      show List.foldlM _ (acc + g x) xs = _
      rw [ih _ (fun y hy => h y (by simp [hy]))]
      simp [Int.add_assoc]
  unfold pySum
  rw [key 0 xs h]; simp

theorem pyFlat_ok {α β : Type} {xs : List α} {f : α → Py (List β)} {g : α → List β}
    (h : ∀ x ∈ xs, f x = .ok (g x)) : pyFlat xs f = .ok (xs.flatMap g) := by
  induction xs with
  | nil => simp [pyFlat]
  | cons x xs ih =>
    rw [pyFlat, h x (by simp), ih (fun y hy => h y (by simp [hy]))]
    simp

theorem require_nonnegint_ok {x : Int} (h : 0 ≤ x) : require_nonnegint x = .ok () := by
  unfold require_nonnegint; rw [if_neg (by omega)]; rfl

theorem require_nonnegint_err {x : Int} (h : x < 0) : require_nonnegint x = .error .valueError := by
  unfold require_nonnegint; rw [if_pos h]; rfl

theorem require_nonnegint_range_ok {a b : Int} (h : 0 ≤ a) (h2 : a ≤ b) :
    require_nonnegint_range a b = .ok () := by
  unfold require_nonnegint_range
  rw [require_nonnegint_ok h, require_nonnegint_ok (by omega)]
  simp only [py_bind_ok]
  rw [if_neg (by omega)]; rfl

theorem require_nonnegint_range_err {a b : Int} (h : ¬ (0 ≤ a ∧ a ≤ b)) :
    require_nonnegint_range a b = .error .valueError := by
  unfold require_nonnegint_range
  by_cases h1 : a < 0
  · rw [require_nonnegint_err h1]; rfl
  · rw [require_nonnegint_ok (by omega)]
    by_cases h2 : b < 0
    · rw [require_nonnegint_err h2]; rfl
    · rw [require_nonnegint_ok (by omega)]
      simp only [py_bind_ok]
      rw [if_pos (by omega)]; rfl

theorem require_posint_ok {x : Int} (h : 0 < x) : require_posint x = .ok () := by
  unfold require_posint
  rw [require_nonnegint_ok (by omega)]
  simp only [py_bind_ok]; rw [if_neg (by omega)]; rfl

theorem require_posint_err {x : Int} (h : x ≤ 0) : require_posint x = .error .valueError := by
  unfold require_posint
  by_cases h1 : x < 0
  · rw [require_nonnegint_err h1]; rfl
  · rw [require_nonnegint_ok (by omega)]
    simp only [py_bind_ok]; rw [if_pos (by omega)]; rfl

theorem iquo_ok {m n : Int} (h : 0 ≤ m) (h2 : 0 < n) : iquo m n = .ok (m / n) := by
  unfold iquo
  rw [require_nonnegint_ok h, require_posint_ok h2]
  simp [Int.fdiv_eq_ediv_of_nonneg m (le_of_lt h2)]

theorem irem_ok {m n : Int} (h : 0 ≤ m) (h2 : 0 < n) : irem m n = .ok (m % n) := by
  unfold irem
  rw [require_nonnegint_ok h, require_posint_ok h2]
  simp [Int.fmod_eq_emod_of_nonneg m (le_of_lt h2)]

theorem iquo_err {m n : Int} (h : ¬ (0 ≤ m ∧ 0 < n)) : iquo m n = .error .valueError := by
  unfold iquo
  by_cases h1 : m < 0
  · rw [require_nonnegint_err h1]; rfl
  · rw [require_nonnegint_ok (by omega), require_posint_err (by omega)]; rfl

theorem irem_err {m n : Int} (h : ¬ (0 ≤ m ∧ 0 < n)) : irem m n = .error .valueError := by
  unfold irem
  by_cases h1 : m < 0
  · rw [require_nonnegint_err h1]; rfl
  · rw [require_nonnegint_ok (by omega), require_posint_err (by omega)]; rfl

theorem is_even_iff (n : Int) : is_even n = true ↔ n % 2 = 0 := by
  unfold is_even
  rw [Int.fmod_eq_emod_of_nonneg n (by decide)]; simp

theorem is_odd_iff (n : Int) : is_odd n = true ↔ n % 2 = 1 := by
  unfold is_odd
  rw [Int.fmod_eq_emod_of_nonneg n (by decide)]; simp

/-! ### computations with state -/

@[simp] theorem st_lift_ok {σ α β : Type} (x : α) (f : α → StPy σ β) (s : σ) :
    (StPy.lift (.ok x) >>= f) s = f x s := rfl
@[simp] theorem st_lift_error {σ α β : Type} (e : PyErr) (f : α → StPy σ β) (s : σ) :
    (StPy.lift (.error e) >>= f) s = (.error e, s) := rfl
@[simp] theorem st_pure {σ α : Type} (x : α) (s : σ) : (pure x : StPy σ α) s = (.ok x, s) := rfl
@[simp] theorem st_lift {σ α : Type} (x : Py α) (s : σ) : StPy.lift x s = (x, s) := rfl

theorem st_bind {σ α β : Type} (x : StPy σ α) (f : α → StPy σ β) (s : σ) :
    (x >>= f) s = match x s with
      | (.ok a, s') => f a s'
      | (.error e, s') => (.error e, s') := rfl

theorem st_bind_ok {σ α β : Type} {x : StPy σ α} {f : α → StPy σ β} {s s' : σ} {a : α}
    (h : x s = (.ok a, s')) : (x >>= f) s = f a s' := by
  rw [st_bind, h]

theorem st_bind_error {σ α β : Type} {x : StPy σ α} {f : α → StPy σ β} {s s' : σ} {e : PyErr}
    (h : x s = (.error e, s')) : (x >>= f) s = (.error e, s') := by
  rw [st_bind, h]

end Acm
