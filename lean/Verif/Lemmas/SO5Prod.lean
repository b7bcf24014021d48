import Verif.Lemmas.SO5Red
import Verif.Lemmas.Spherical
import Verif.Lemmas.RadialSqrt

/-!
# Lemmas on matrices of spherical operators
-/

namespace Acm

open Acm.Spec

theorem mapM_ok {α β : Type} {xs : List α} {f : α → Py β} {g : α → β}
    (h : ∀ x ∈ xs, f x = .ok (g x)) : xs.mapM f = .ok (xs.map g) := by
  induction xs with
  | nil => rfl
  | cons x xs ih =>
    rw [List.mapM_cons, h x (by simp), py_bind_ok, ih fun y hy => h y (by simp [hy]), py_bind_ok]
    rfl

theorem mapM_eq_ok {α β : Type} {xs : List α} {f : α → Py β} {ys : List β}
    (h : xs.mapM f = .ok ys) : List.Forall₂ (fun x y => f x = .ok y) xs ys := by
  induction xs generalizing ys with
  | nil =>
    rw [List.mapM_nil] at h
    injection h with h
    subst h
    exact .nil
  | cons x xs ih =>
    rw [List.mapM_cons] at h
    obtain ⟨y, h1, h⟩ := py_bind_eq_ok h
    obtain ⟨zs, h2, h⟩ := py_bind_eq_ok h
    injection h with h
    subst h
    exact .cons h1 (ih h2)

theorem forall₂_getD {α β : Type} {R : α → β → Prop} {xs : List α} {ys : List β}
    (h : List.Forall₂ R xs ys) (i : ℕ) (a : α) (hi : xs[i]? = some a) (d : β) :
    R a (ys.getD i d) := by
  induction h generalizing i with
  | nil => simp at hi
  | cons h1 h2 ih =>
    cases i with
    | zero => simp only [List.getElem?_cons_zero, Option.some.injEq] at hi; subst hi; exact h1
    | succ i => exact ih i (by simpa using hi)

theorem square_ofLists {n : ℕ} {xss : List (List ℝ)} (h : xss.length = n)
    (h2 : ∀ xs ∈ xss, xs.length = n) : Square n (Arr.ofLists xss) := by
  have hc : (xss.headD []).length = n := by
    cases xss with
    | nil => simpa using h
    | cons x xs => exact h2 x (by simp)
  refine ⟨h, hc, fun i j hij => ?_⟩
  simp only [Arr.ofLists, Arr.of, h, hc]
  rw [if_neg hij]

theorem square_diag (n : ℕ) (v : ℕ → ℝ) : Square n (Arr.diag n v) :=
  ⟨rfl, rfl, fun i j hij => by simp only [Arr.diag, Arr.of]; rw [if_neg hij]⟩

theorem square_eye (n : ℕ) : Square n (Arr.eye n) :=
  ⟨rfl, rfl, fun i j hij => by simp only [Arr.eye, Arr.of]; rw [if_neg hij]⟩

theorem mat_eye (n : ℕ) : mat n (Arr.eye n) = 1 := by
  ext i j
  simp only [mat, Matrix.of_apply, Arr.eye, Arr.of, Matrix.one_apply]
  rw [if_pos ⟨i.2, j.2⟩]
  simp only [Fin.ext_iff]

theorem RepSO5_Y_rem_ok {CG : CGFun} {y : Label} {v_min v_max L_min L_max : Int}
    {states : List Label} (hs : lbsSO5r3_rngVvarL v_min v_max L_min (some L_max) = .ok states)
    {A : Arr} (h : RepSO5_Y_rem CG y v_min v_max L_min L_max = .ok A) :
    Square states.length A ∧ ∀ i j a b, states[i]? = some a → states[j]? = some b →
      ME_SO5r3 CG a y b = .ok (A.e i j) := by
  unfold RepSO5_Y_rem at h
  rw [hs, py_bind_ok] at h
  obtain ⟨rows, h1, h⟩ := py_bind_eq_ok h
  injection h with h
  subst h
  have h2 := mapM_eq_ok h1
  have hsq : Square states.length (Arr.ofLists rows) := by
    refine square_ofLists h2.length_eq.symm fun xs hxs => ?_
    obtain ⟨i, hi⟩ := List.mem_iff_getElem?.mp hxs
    obtain ⟨hlt, _⟩ := List.getElem?_eq_some_iff.mp hi
    rw [← h2.length_eq] at hlt
    have := forall₂_getD h2 i states[i] (List.getElem?_eq_getElem hlt) []
    rw [List.getD_eq_getElem?_getD, hi] at this
    exact (mapM_eq_ok this).length_eq.symm
  refine ⟨hsq, fun i j a b ha hb => ?_⟩
  have k1 := mapM_eq_ok (forall₂_getD h2 i a ha [])
  have k2 := forall₂_getD k1 j b hb 0
  rw [k2]
  obtain ⟨hi, _⟩ := List.getElem?_eq_some_iff.mp ha
  obtain ⟨hj, _⟩ := List.getElem?_eq_some_iff.mp hb
  have r : (Arr.ofLists rows).rows = states.length := hsq.1
  have c : (Arr.ofLists rows).cols = states.length := hsq.2.1
  simp only [Arr.ofLists, Arr.of] at r c ⊢
  rw [if_pos ⟨by omega, by omega⟩]

theorem diagM_ok {v_min v_max L_min L_max : Int} {states : List Label}
    (hv : 0 ≤ v_min) (hv2 : v_min ≤ v_max) (hL : 0 ≤ L_min) (hL2 : L_min ≤ L_max)
    (hs : lbsSO5r3_rngVvarL v_min v_max L_min (some L_max) = .ok states) (g : Int → ℝ → ℝ) :
    (states.mapM fun s => do
      let n ← dimSO3 s.2.2
      pure (g s.2.2 n) : Py (List ℝ)) = .ok (states.map fun s => g s.2.2 (2 * s.2.2 + 1)) := by
  refine mapM_ok fun s hsm => ?_
  rw [lbsSO5r3_rngVvarL_some_ok hv hv2 hL hL2] at hs
  injection hs with hs
  subst hs
  obtain ⟨v, a, L⟩ := s
  have := (mem_labelsV.mp hsm).2.2.1
  simp only
  rw [dimSO3, require_nonnegint_ok (by omega)]
  simp only [py_bind_ok, py_pure]
  push_cast
  rfl

end Acm
