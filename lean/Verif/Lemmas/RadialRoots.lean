import Verif.Spec.Roots
import Verif.Lemmas.RadialProd

/-! The number of square roots in the formal run of `RepRadial_Prod`. -/

set_option linter.unusedSectionVars false

namespace Acm
open Spec

/-- The number of zeros left over when neighbouring zeros are removed in pairs from the front. -/
def zr : List Int → Nat
  | [] => 0
  | [x] => if x = 0 then 1 else 0
  | x :: y :: l => if x = 0 then (if y = 0 then zr l else 1 + zr (y :: l)) else zr (y :: l)

theorem zr_cons {x : Int} (h : x ≠ 0) (l : List Int) : zr (x :: l) = zr l := by
  cases l <;> simp [zr, h]

theorem zr_zero_cons {l : List Int} (h : l.head? ≠ some 0) : zr (0 :: l) = 1 + zr l := by
  cases l with
  | nil => rfl
  | cons y l =>
    simp only [List.head?_cons, ne_eq, Option.some.injEq] at h
    simp [zr, h]

theorem zr_zero_zero (l : List Int) : zr (0 :: 0 :: l) = zr l := by simp [zr]

theorem zr_append {l : List Int} (h : ∀ x ∈ l, x ≠ 0) (r : List Int) : zr (l ++ r) = zr r := by
  induction l with
  | nil => rfl
  | cons x l ih =>
    rw [List.cons_append, zr_cons (h x (by simp)), ih fun y hy => h y (by simp [hy])]

theorem zr_even (a : Nat) (r : List Int) : zr (List.replicate (2 * a) 0 ++ r) = zr r := by
  induction a with
  | zero => simp
  | succ a ih =>
    rw [show 2 * (a + 1) = 2 * a + 1 + 1 by ring, List.replicate_succ, List.replicate_succ]
    simpa [zr_zero_zero] using ih

theorem zr_replicate (n : Nat) : zr (List.replicate n 0) = n % 2 := by
  rcases Nat.even_or_odd' n with ⟨a, rfl | rfl⟩
  · have := zr_even a []
    rw [List.append_nil] at this
    rw [this]; simp [zr]
  · have := zr_even a [0]
    rw [← List.replicate_succ'] at this
    rw [this]; simp [zr]

theorem zr_neg : ∀ l : List Int, zr (l.map fun x => -x) = zr l
  | [] => rfl
  | [x] => by simp [zr]
  | x :: y :: l => by
    have h1 := zr_neg l
    have h2 := zr_neg (y :: l)
    simp only [List.map_cons] at h2 ⊢
    simp only [zr, neg_eq_zero, h1, h2]

section
variable {F : Type} [Field F] [LinearOrder F]

theorem select_roots {K : Int} {s : List Int} {i : Nat} (h0 : 1 ≤ i) (hi : i ≤ s.length) {lam : F}
    {p : FormalProd F} {imm : Nat} (h : bS_DS_select (formal F) K s i lam = .ok (p, imm)) :
    (s[i - 1]'(by omega) ≠ 0 ∧ imm = 1 ∧ roots p = 0) ∨
    (s[i - 1]'(by omega) = 0 ∧ 2 ≤ i ∧ s[i - 2]'(by omega) = 0 ∧ imm = 2 ∧ roots p = 0) ∨
    (s[i - 1]'(by omega) = 0 ∧ ¬ (2 ≤ i ∧ s[i - 2]'(by omega) = 0) ∧ imm = 1 ∧ roots p = 1) := by
  have g1 : pyGet s ((i : Int) - 1) = .ok (s[i - 1]'(by omega)) := pyGet_int s _ (i - 1) (by omega) (by omega)
  have g2 : ((i : Int) > 1 ∧ pyGet s ((i : Int) - 2) = .ok 0) ↔ (2 ≤ i ∧ s[i - 2]'(by omega) = 0) := by
    constructor
    · rintro ⟨a, b⟩
      rw [pyGet_int s _ (i - 2) (by omega) (by omega)] at b
      injection b with b
      exact ⟨by omega, b⟩
    · rintro ⟨a, b⟩
      rw [pyGet_int s _ (i - 2) (by omega) (by omega), b]
      exact ⟨by omega, rfl⟩
  unfold bS_DS_select at h
  rw [g1] at h
  simp only [py_bind_ok, formal, py_pure, py_throw] at h
  by_cases k1 : s[i - 1]'(by omega) > 0
  · left
    rw [if_pos k1] at h
    refine ⟨by omega, ?_⟩
    split_ifs at h <;>
    · obtain ⟨_, _, h⟩ := py_bind_eq_ok h
      injection h with h
      injection h with h1 h2
      subst h1 h2
      simp [roots, Prim.isRoot]
  rw [if_neg k1] at h
  by_cases k2 : s[i - 1]'(by omega) < 0
  · left
    rw [if_pos k2] at h
    refine ⟨by omega, ?_⟩
    split_ifs at h <;>
    · obtain ⟨_, _, h⟩ := py_bind_eq_ok h
      injection h with h
      injection h with h1 h2
      subst h1 h2
      simp [roots, Prim.isRoot]
  rw [if_neg k2] at h
  have k0 : s[i - 1]'(by omega) = 0 := by omega
  right
  by_cases k3 : 2 ≤ i ∧ s[i - 2]'(by omega) = 0
  · left
    rw [if_pos (by have := g2.2 k3; exact ⟨by omega, this.2⟩)] at h
    refine ⟨k0, k3.1, k3.2, ?_⟩
    split_ifs at h <;> first
    | cases h; done
    | obtain ⟨_, _, h⟩ := py_bind_eq_ok h
      injection h with h
      injection h with h1 h2
      subst h1 h2
      simp [roots, Prim.isRoot]
    | injection h with h
      injection h with h1 h2
      subst h1 h2
      simp [roots, Prim.isRoot]
  · right
    rw [if_neg (by rintro ⟨a, b⟩; exact k3 (g2.1 ⟨by omega, b⟩))] at h
    refine ⟨k0, k3, ?_⟩
    split_ifs at h <;>
    · obtain ⟨_, _, h⟩ := py_bind_eq_ok h
      injection h with h
      injection h with h1 h2
      subst h1 h2
      simp [roots, Prim.isRoot]

/-- The number of square roots of a product not yet assigned. -/
def rootsO : Option (FormalProd F) → Nat
  | none => 0
  | some p => roots p

theorem roots_mul (p q : FormalProd F) : roots ((formal F).mul p q) = roots p + roots q := by
  simp [formal, roots]

theorem update_roots {n : Nat} {lamX : Int} {i : Nat} {p q : FormalProd F} {acc : Option (FormalProd F)}
    (ha : i = n → 0 ≤ lamX → acc = none) (h : bS_DS_update (formal F) n lamX i p acc = .ok q) :
    roots q = roots p + rootsO acc := by
  unfold bS_DS_update at h
  split_ifs at h with hc
  · rw [ha hc.1 hc.2]
    injection h with h
    subst h
    rfl
  · obtain ⟨P, h1, h⟩ := py_bind_eq_ok h
    cases acc with
    | none => cases h1
    | some P' =>
      injection h1 with h1
      subst h1
      injection h with h
      subst h
      exact roots_mul _ _

theorem loop_roots {K : Int} {s : List Int} {lamX : Int} : ∀ (i : Nat), i ≤ s.length →
    ∀ (lam lam' : F) (acc acc' : Option (FormalProd F)), (i = s.length → 0 ≤ lamX → acc = none) →
    bS_DS_loop (formal F) K s s.length lamX i lam acc = .ok (lam', acc') →
    rootsO acc' = rootsO acc + zr (s.take i).reverse := by
  intro i
  induction i using Nat.strong_induction_on with
  | _ i ih =>
    intro hi lam lam' acc acc' ha h
    match i, ih, hi, ha, h with
    | 0, _, _, _, h =>
      injection h with h
      injection h with h1 h2
      subst h2
      simp [zr]
    | i + 1, ih, hi, ha, h =>
      rw [bS_DS_loop] at h
      obtain ⟨⟨p, imm⟩, e1, h⟩ := py_bind_eq_ok h
      obtain ⟨q, e2, h⟩ := py_bind_eq_ok h
      obtain ⟨sp, e3, h⟩ := py_bind_eq_ok h
      have hq := update_roots ha e2
      have ht : (s.take (i + 1)).reverse = s[i] :: (s.take i).reverse := by
        rw [List.take_succ_eq_append_getElem (by omega), List.reverse_append]; rfl
      rcases select_roots (by omega) hi e1 with ⟨c1, rfl, c3⟩ | ⟨c1, c2, c3, rfl, c5⟩ | ⟨c1, c2, rfl, c4⟩
      · simp only [if_true] at h
        have := ih i (by omega) (by omega) _ _ _ _ (fun a => by omega) h
        rw [this, ht, zr_cons (by simpa using c1)]
        simp only [rootsO] at *
        omega
      · simp only [show ¬ (2 = 1) by decide, if_false] at h
        obtain ⟨k, rfl⟩ : ∃ k, i = k + 1 := ⟨i - 1, by omega⟩
        simp only at h
        have := ih k (by omega) (by omega) _ _ _ _ (fun a => by omega) h
        have ht' : (s.take (k + 1)).reverse = s[k] :: (s.take k).reverse := by
          rw [List.take_succ_eq_append_getElem (by omega), List.reverse_append]; rfl
        have c1' : s[k + 1] = 0 := by simpa using c1
        have c3' : s[k] = 0 := by simpa using c3
        rw [this, ht, ht', c1', c3', zr_zero_zero]
        simp only [rootsO] at *
        omega
      · simp only [if_true] at h
        have := ih i (by omega) (by omega) _ _ _ _ (fun a => by omega) h
        have c1' : s[i] = 0 := by simpa using c1
        rw [this, ht, c1', zr_zero_cons]
        · simp only [rootsO] at *
          omega
        · intro hh
          cases i with
          | zero => simp at hh
          | succ k =>
            rw [List.take_succ_eq_append_getElem (by omega), List.reverse_append] at hh
            simp at hh
            exact c2 ⟨by omega, by simpa using hh⟩

end

theorem set_two (a b : Nat) : ((List.replicate (a + 1 + (1 + b)) (0 : Int)).set a 1).set (a + 1) (-1) =
    List.replicate a 0 ++ 1 :: -1 :: List.replicate b 0 := by
  induction a with
  | zero => rw [show 0 + 1 + (1 + b) = b + 1 + 1 by omega, List.replicate_succ, List.replicate_succ]; rfl
  | succ a ih =>
    rw [show a + 1 + 1 + (1 + b) = (a + 1 + (1 + b)) + 1 by omega, List.replicate_succ, List.set_cons_succ,
      List.set_cons_succ, ih]
    rfl

theorem splits_roots_nonneg {K T R : Int} (hT : 0 ≤ T) (hR : 0 ≤ R) (hne : ¬ (K = 0 ∧ T = 0 ∧ R % 2 = 1))
    {s : List Int} (h : Lambda_Splits K T R = .ok s) :
    zr (if s.length > (|K| + T).toNat then s.tail else s).reverse = ((K + T + R) % 2).toNat := by
  have hK := abs_natAbs K
  have hRa : |R| = R := abs_of_nonneg hR
  unfold Lambda_Splits at h
  obtain ⟨_, _, h⟩ := py_bind_eq_ok h
  simp only [hRa, if_neg (not_lt.2 hR)] at h
  by_cases h1 : R - (|K| + T) > 0
  · rw [if_pos h1] at h
    by_cases h2 : is_even (R - (|K| + T)) = true
    · rw [if_pos h2] at h
      injection h with h
      subst h
      rw [is_even_iff] at h2
      rw [if_pos (by simp [pyRep]), List.tail_cons]
      have : zr ((pyRep 1 (|K| + T)).reverse ++ []) = zr [] := zr_append (by
        intro x hx
        rw [List.mem_reverse] at hx
        rw [mem_pyRep hx]; decide) []
      rw [List.append_nil] at this
      rw [this]
      simp only [zr]
      omega
    · rw [if_neg h2] at h
      by_cases h3 : |K| + T > 0
      · rw [if_pos h3] at h
        injection h with h
        subst h
        rw [is_even_iff] at h2
        rw [if_pos (by simp [pyRep]; omega), List.tail_cons, List.reverse_cons, zr_append]
        · simp only [zr, if_true]; omega
        · intro x hx
          rw [List.mem_reverse] at hx
          rw [mem_pyRep hx]; decide
      · rw [is_even_iff] at h2
        exact absurd ⟨by omega, by omega, by omega⟩ hne
  · rw [if_neg h1] at h
    rw [iquo_ok (by omega) (by omega), py_bind_ok, iquo_ok hT (by omega), py_bind_ok] at h
    set zt := min (-(R - (|K| + T)) / 2) (T / 2) with hzt
    by_cases h2 : K < 0 ∧ R = 0 ∧ is_odd T = true
    · rw [if_pos h2] at h
      obtain ⟨k1, rfl, k3⟩ := h2
      rw [is_odd_iff] at k3
      have e : pyRep (0 : Int) (|K| + T - 0 - 2 * zt) ++ pyRep 1 0 ++ pyRep 0 (2 * zt) =
          List.replicate (K.natAbs - 1 + 1 + (1 + (T.toNat - 1))) 0 := by
        have e0 : pyRep (1 : Int) 0 = [] := rfl
        rw [e0, List.append_nil]
        simp only [pyRep]
        rw [List.replicate_append_replicate]
        congr 1
        omega
      rw [e] at h
      rw [pySet_nat _ _ (K.natAbs - 1) (by omega) (by simp; omega), py_bind_ok,
        pySet_nat _ _ (K.natAbs - 1 + 1) (by omega) (by simp), set_two] at h
      injection h with h
      subst h
      rw [if_neg (by simp; omega)]
      simp only [List.reverse_append, List.reverse_cons, List.reverse_replicate, List.append_assoc,
        List.cons_append, List.nil_append]
      have h2 : T.toNat - 1 = 2 * ((T.toNat - 1) / 2) := by omega
      rw [h2, zr_even, zr_cons (by decide), zr_cons (by decide), zr_replicate]
      omega
    · rw [if_neg h2] at h
      injection h with h
      subst h
      rw [if_neg (by simp [pyRep]; omega)]
      simp only [pyRep, List.reverse_append, List.reverse_replicate]
      rw [show (2 * zt).toNat = 2 * zt.toNat by omega, zr_even, zr_append (by
        intro x hx; rw [List.eq_of_mem_replicate hx]; decide), zr_replicate]
      omega

theorem splits_roots {K T R : Int} (hT : 0 ≤ T) (hne : ¬ (K = 0 ∧ T = 0 ∧ R % 2 = 1))
    {s : List Int} (h : Lambda_Splits K T R = .ok s) :
    zr (if s.length > (|K| + T).toNat then s.tail else s).reverse = ((K + T + R) % 2).toNat := by
  by_cases hR : 0 ≤ R
  · exact splits_roots_nonneg hT hR hne h
  · rw [Lambda_Splits_neg (by omega)] at h
    obtain ⟨s', h1, h⟩ := py_bind_eq_ok h
    injection h with h
    subst h
    have := splits_roots_nonneg hT (by omega) (by omega) h1
    rw [List.length_map, ← List.map_tail, ← apply_ite (List.map fun x => -x), ← List.map_reverse, zr_neg, this]
    omega

section
variable {F : Type} [Field F] [LinearOrder F]

/-- A monomial needs a square root exactly if its degree and the change of lambda differ in parity. -/
theorem bS_DS_roots {K T R : Int} (hT : 0 ≤ T) {lam : F} {p : FormalProd F}
    (h : RepRadial_bS_DS (formal F) K T lam R = .ok p) : roots p = ((K + T + R) % 2).toNat := by
  unfold RepRadial_bS_DS at h
  by_cases h0 : lam ≤ 0 ∨ lam + (R : F) ≤ 0
  · rw [if_pos h0] at h; cases h
  rw [if_neg h0] at h
  by_cases h1 : K = 0 ∧ T = 0 ∧ is_odd R = true
  · rw [if_pos h1] at h
    obtain ⟨rfl, rfl, k3⟩ := h1
    rw [is_odd_iff] at k3
    have : ((0 + 0 + R) % 2).toNat = 1 := by omega
    rw [this]
    simp only [formal, py_pure, py_bind_ok] at h
    split_ifs at h <;>
    · injection h with h
      subst h
      simp [roots, Prim.isRoot]
  · rw [if_neg h1] at h
    rw [is_odd_iff] at h1
    obtain ⟨s, e1, h⟩ := py_bind_eq_ok h
    have hz := splits_roots hT h1 e1
    simp only at h
    set lamX : Int := if s.length > (|K| + T).toNat then s.headD 0 else 0 with hX
    set body := if s.length > (|K| + T).toNat then s.tail else s with hb
    obtain ⟨_, e2, h⟩ := py_bind_eq_ok h
    have hlen : body.length = (|K| + T).toNat := by
      unfold pyAssert at e2
      split_ifs at e2 with hh
      simpa using hh
    suffices key : ∀ (lam1 : F) (acc : Option (FormalProd F)), (rootsO acc = 0 ∧ (0 ≤ lamX → acc = none)) →
        (do
          let x ← bS_DS_loop (formal F) K body (|K| + T).toNat lamX (|K| + T).toNat lam1 acc
          bS_DS_finish (formal F) (|K| + T).toNat lamX x.1 x.2) = .ok p → roots p = ((K + T + R) % 2).toNat by
      split_ifs at h with hh
      · obtain ⟨_, _, h⟩ := py_bind_eq_ok h
        exact key _ _ ⟨by simp [rootsO, roots, Prim.isRoot], fun _ => by omega⟩ h
      · exact key _ _ ⟨rfl, fun _ => rfl⟩ h
    clear h
    intro lam1 acc hacc h
    obtain ⟨⟨lam2, acc'⟩, e4, h⟩ := py_bind_eq_ok h
    rw [← hlen] at e4 h
    have hl := loop_roots body.length le_rfl _ _ _ _ (fun _ => hacc.2) e4
    rw [List.take_length, hz, hacc.1, zero_add] at hl
    unfold bS_DS_finish at h
    suffices last : ∀ P : Option (FormalProd F), rootsO P = rootsO acc' →
        readVar (if body.length = 0 ∧ lamX = 0 then some (formal F).eye else P) = .ok p →
        roots p = ((K + T + R) % 2).toNat by
      simp only at h
      by_cases c1 : lamX > 0
      · rw [if_pos c1] at h
        obtain ⟨_, _, h⟩ := py_bind_eq_ok h
        obtain ⟨_, e5, h⟩ := py_bind_eq_ok h
        injection e5 with e5
        subst e5
        by_cases c2 : body.length > 0
        · rw [if_pos c2] at h
          obtain ⟨Q, e6, h⟩ := py_bind_eq_ok h
          refine last _ ?_ h
          cases acc' with
          | none => cases e6
          | some a =>
            injection e6 with e6
            subst e6
            simp [rootsO, formal, roots, Prim.isRoot]
        · rw [if_neg c2] at h
          refine last _ ?_ h
          have hb0 : body.length = 0 := by omega
          rw [hb0] at e4
          injection e4 with e4
          injection e4 with _ e4
          subst e4
          rw [hacc.1]
          simp [rootsO, roots, Prim.isRoot]
      · rw [if_neg c1] at h
        exact last _ rfl h
    clear h
    intro P hP h
    split_ifs at h with c1
    · injection h with h
      subst h
      have hb0 : body = [] := List.eq_nil_of_length_eq_zero c1.1
      rw [hb0] at hz
      rw [← hz]
      simp [roots, formal, zr]
    · cases P with
      | none => cases h
      | some a =>
        injection h with h
        subst h
        rw [← hl, ← hP]
        rfl

end

end Acm
