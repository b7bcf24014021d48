import Verif.Spec.SO5Items
import Verif.Props.SO5Prod
import Verif.Props.SO5Red
import Verif.Props.Harmonics

/-!
# Property C72, continued: which matrix each spherical operator has
-/

namespace Acm.Props

open Acm Acm.Spec

theorem name_label {s : String} {x y : Label} (hx : IsHarmonicName s x) (hy : IsHarmonicName s y) : x = y := by
  obtain ⟨v, a, L, hv, ha, hL, rfl, e⟩ := hx
  obtain ⟨v', a', L', hv', ha', hL', rfl, e'⟩ := hy
  rw [e] at e'
  have e' := List.append_cancel_left e'
  simp only [List.map_cons, List.map_nil, List.cons.injEq, and_true] at e'
  have key : ∀ m < 16, ∀ n < 16, (Nat.digitChar m).toUpper = (Nat.digitChar n).toUpper → m = n := by
    decide +kernel
  rw [key _ hv _ hv' e'.1, key _ ha _ ha' e'.2.1, key _ hL _ hL' e'.2.2]

theorem mapM_exists {α β : Type} {f : α → Py β} : ∀ {l : List α}, (∀ x ∈ l, ∃ y, f x = .ok y) →
    ∃ r, l.mapM f = .ok r
  | [], _ => ⟨[], rfl⟩
  | x :: l, h => by
    obtain ⟨y, hy⟩ := h x (by simp)
    obtain ⟨r, hr⟩ := mapM_exists (l := l) fun z hz => h z (by simp [hz])
    exact ⟨y :: r, by rw [List.mapM_cons, hy, py_bind_ok, hr]; rfl⟩

section
variable {CG : CGFun} {v_min v_max L_min L_max : ℕ} {states : List Label}

theorem harmonic_matrix (hs : lbsSO5r3_rngVvarL v_min v_max L_min (some (L_max : Int)) = .ok states) (y : Label)
    (M : Matrix (Fin states.length) (Fin states.length) ℝ) :
    HarmonicMatrix CG states y M ↔
      ∃ A, RepSO5_Y_rem CG y v_min v_max L_min L_max = .ok A ∧ mat states.length A = M := by
  constructor
  · intro h
    have ok : ∃ A, RepSO5_Y_rem CG y v_min v_max L_min L_max = .ok A := by
      have : ∃ rows, (states.mapM fun i => states.mapM fun j => ME_SO5r3 CG i y j : Py _) = .ok rows := by
        refine mapM_exists fun f hf => mapM_exists fun k hk => ?_
        obtain ⟨i, hi, rfl⟩ := List.getElem_of_mem hf
        obtain ⟨j, hj, rfl⟩ := List.getElem_of_mem hk
        obtain ⟨c, r, h1, h2, _⟩ := h ⟨i, hi⟩ ⟨j, hj⟩
        simp only [Fin.getElem_fin] at h1 h2
        exact ⟨c * r, by unfold ME_SO5r3; rw [h1, py_bind_ok, h2]; rfl⟩
      obtain ⟨rows, hr⟩ := this
      exact ⟨_, by unfold RepSO5_Y_rem; rw [hs, py_bind_ok, hr]; rfl⟩
    obtain ⟨A, hA⟩ := ok
    refine ⟨A, hA, ?_⟩
    ext i j
    obtain ⟨c, r, h1, h2, h3⟩ := h i j
    obtain ⟨c', r', k1, k2, k3⟩ := C72_entries hs hA i j _ _ (List.getElem?_eq_getElem i.2)
      (List.getElem?_eq_getElem j.2)
    simp only [Fin.getElem_fin] at h1 h2
    rw [h1] at k1
    rw [h2] at k2
    injection k1 with k1
    injection k2 with k2
    rw [h3, k1, k2]
    exact k3
  · rintro ⟨A, hA, rfl⟩ i j
    obtain ⟨c, r, k1, k2, k3⟩ := C72_entries hs hA i j _ _ (List.getElem?_eq_getElem i.2)
      (List.getElem?_eq_getElem j.2)
    exact ⟨c, r, k1, k2, k3⟩

theorem item_matrix (hv : v_min ≤ v_max) (hL : L_min ≤ L_max)
    (hs : lbsSO5r3_rngVvarL v_min v_max L_min (some (L_max : Int)) = .ok states) (y : YSym)
    (M : Matrix (Fin states.length) (Fin states.length) ℝ) :
    ItemMatrix CG states y M ↔
      ∃ A, RepSO5r3_item CG v_min v_max L_min L_max y = .ok A ∧ mat states.length A = M := by
  have hv' : (v_min : Int) ≤ v_max := by exact_mod_cast hv
  have hL' : (L_min : Int) ≤ L_max := by exact_mod_cast hL
  have diag : ∀ (f : Int → ℝ) (A : Arr), (∀ (i j : ℕ) (v a L : Int), states[i]? = some (v, a, L) →
      j < states.length → A.e i j = if i = j then f L else 0) →
      mat states.length A = Matrix.diagonal fun i => f states[i].2.2 := by
    intro f A h
    ext i j
    rw [Matrix.diagonal_apply]
    refine (h i j states[i].1 states[i].2.1 states[i].2.2 (List.getElem?_eq_getElem i.2) j.2).trans ?_
    simp only [Fin.ext_iff]
  rcases y with s | t
  · cases s with
    | harm k =>
      have hk := C83_names k
      constructor
      · rintro ⟨y, hy, h⟩
        rw [name_label hy hk] at h
        exact (harmonic_matrix hs _ M).1 h
      · exact fun h => ⟨_, hk, (harmonic_matrix hs _ M).2 h⟩
    | sqLdim =>
      obtain ⟨B, h1, _, h3⟩ := C66_sqLdim_partial (by omega) hv' (by omega) hL' hs
      have e := diag (fun L => -Real.sqrt (2 * L + 1)) B h3
      constructor
      · intro h
        exact ⟨B, h1, e.trans h.symm⟩
      · rintro ⟨A, hA, rfl⟩
        have hA : RepSO5_sqLdim v_min v_max L_min L_max = .ok A := hA
        rw [h1] at hA
        injection hA with hA
        exact hA ▸ e
    | sqLdiv =>
      obtain ⟨B, h1, _, h3⟩ := C66_sqLdiv (by omega) hv' (by omega) hL' hs
      have e := diag (fun L => (-1) ^ L.toNat / Real.sqrt (2 * L + 1)) B h3
      constructor
      · intro h
        exact ⟨B, h1, e.trans h.symm⟩
      · rintro ⟨A, hA, rfl⟩
        have hA : RepSO5_sqLdiv v_min v_max L_min L_max = .ok A := hA
        rw [h1] at hA
        injection hA with hA
        exact hA ▸ e
    | _ => exact ⟨fun h => h.elim, fun ⟨A, hA, _⟩ => by cases hA⟩
  · exact harmonic_matrix hs t M

/-- C72: if every item has a matrix then the code returns the ordered product of these matrices. -/
theorem C72_matrices {CG : CGFun} {v_min v_max L_min L_max : ℕ} {states : List Label}
    (hv : v_min ≤ v_max) (hL : L_min ≤ L_max)
    (hs : lbsSO5r3_rngVvarL v_min v_max L_min (some (L_max : Int)) = .ok states) (ys : List YSym)
    (Ms : List (Matrix (Fin states.length) (Fin states.length) ℝ))
    (h : List.Forall₂ (ItemMatrix CG states) ys Ms) :
    ∃ A, RepSO5r3_Prod_wrk CG ys v_min v_max L_min L_max = .ok A ∧ Square states.length A ∧
      mat states.length A = Ms.prod := by
  have : ∃ As : List Arr, List.Forall₂ (fun y A => RepSO5r3_item CG v_min v_max L_min L_max y = .ok A) ys As ∧
      As.map (mat states.length) = Ms := by
    induction h with
    | nil => exact ⟨[], .nil, rfl⟩
    | cons h1 _ ih =>
      obtain ⟨A, a1, rfl⟩ := (item_matrix hv hL hs _ _).1 h1
      obtain ⟨As, b1, rfl⟩ := ih
      exact ⟨A :: As, .cons a1 b1, rfl⟩
  obtain ⟨As, h1, rfl⟩ := this
  exact C72_product CG hv hL hs ys As h1

/-- C72, conversely: whenever the code returns a matrix, every item has one. -/
theorem C72_only {CG : CGFun} {v_min v_max L_min L_max : ℕ} {states : List Label}
    (hv : v_min ≤ v_max) (hL : L_min ≤ L_max)
    (hs : lbsSO5r3_rngVvarL v_min v_max L_min (some (L_max : Int)) = .ok states) (ys : List YSym) (A : Arr)
    (h : RepSO5r3_Prod_wrk CG ys v_min v_max L_min L_max = .ok A) :
    ∃ Ms, List.Forall₂ (ItemMatrix CG states) ys Ms ∧ mat states.length A = Ms.prod := by
  have items : ∀ (ys : List YSym) (P Q : Option Arr), RepSO5r3_loop CG v_min v_max L_min L_max ys P = .ok Q →
      ∃ Ms, List.Forall₂ (ItemMatrix CG states) ys Ms := by
    intro ys
    induction ys with
    | nil => exact fun _ _ _ => ⟨[], .nil⟩
    | cons y ys ih =>
      intro P Q h
      rw [RepSO5r3_loop] at h
      obtain ⟨M, h1, h⟩ := py_bind_eq_ok h
      obtain ⟨Ms, h2⟩ := ih _ _ h
      exact ⟨_ :: Ms, .cons ((item_matrix hv hL hs _ _).2 ⟨M, h1, rfl⟩) h2⟩
  have : ∃ Ms, List.Forall₂ (ItemMatrix CG states) ys Ms := by
    by_cases h0 : ys.length = 0
    · rw [List.length_eq_zero_iff.1 h0]; exact ⟨[], .nil⟩
    · rw [RepSO5r3_Prod_wrk, if_neg h0] at h
      obtain ⟨Q, h1, _⟩ := py_bind_eq_ok h
      exact items _ _ _ h1
  obtain ⟨Ms, h1⟩ := this
  obtain ⟨B, h2, _, h3⟩ := C72_matrices hv hL hs ys Ms h1
  rw [h] at h2
  injection h2 with h2
  exact ⟨Ms, h1, by rw [h2, h3]⟩

/-- C72: a symbol that is no spherical operator is rejected with `ValueError` if the items before it have
matrices. -/
theorem C72_unknown {CG : CGFun} {v_min v_max L_min L_max : ℕ} {states : List Label}
    (hv : v_min ≤ v_max) (hL : L_min ≤ L_max)
    (hs : lbsSO5r3_rngVvarL v_min v_max L_min (some (L_max : Int)) = .ok states) (ys zs : List YSym) (s : OpSym)
    (hd : s ∉ Spherical_Operators) (h : ∀ y ∈ ys, ∃ M, ItemMatrix CG states y M) :
    RepSO5r3_Prod_wrk CG (ys ++ .sym s :: zs) v_min v_max L_min L_max = .error .valueError := by
  rw [C83_operators.2.2.2] at hd
  refine C72_invalid CG _ _ _ _ ys zs s (fun e => hd (.inr (.inl e))) (fun e => hd (.inr (.inr e)))
    (fun k e => hd (.inl ⟨k, e⟩)) fun y hy => ?_
  obtain ⟨M, hM⟩ := h y hy
  obtain ⟨A, hA, _⟩ := (item_matrix hv hL hs y M).1 hM
  exact ⟨A, hA⟩

end

/-- The matrices of `SpDiag_sqLdiv` and of the harmonic `SpHarm_112` exist on the range `v = 0..1`,
`L = 0..2` when all coefficients are 1. -/
example : ∃ Ms, List.Forall₂ (ItemMatrix (fun _ _ _ => .ok 1) [(0, 1, 0), (1, 1, 2)])
    [.sym .sqLdiv, .sym (.harm .y112)] Ms := by
  refine ⟨[_, Matrix.of fun i j => 1 * (C65_selection
      ([((0 : ℕ), 1, 0), (1, 1, 2)] : List (ℕ × ℕ × ℕ))[i].1 1
      ([((0 : ℕ), 1, 0), (1, 1, 2)] : List (ℕ × ℕ × ℕ))[j].1).choose],
    .cons rfl (.cons ⟨_, C83_names _, fun i j => ⟨1, _, rfl, ?_, rfl⟩⟩ .nil)⟩
  refine Eq.trans ?_ (C65_selection _ 1 _).choose_spec.1
  fin_cases i <;> fin_cases j <;> rfl

example : OpSym.Pi ∉ Spherical_Operators := by decide +kernel

end Acm.Props
