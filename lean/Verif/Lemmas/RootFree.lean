import Verif.Lemmas.RootCount

/-! A product whose parity fits the change of lambda does not depend on the square root routines. -/

set_option linter.unusedSectionVars false

namespace Acm
open Spec

section
variable {F M : Type} [Field F] [LinearOrder F]

theorem select_free (A : RadAlg F M) (f g : F → Py M) {K : Int} {s : List Int} {i : Nat} (h0 : 1 ≤ i)
    (hi : i ≤ s.length)
    (hz : ¬ (s[i - 1]'(by omega) = 0 ∧ ¬ (2 ≤ i ∧ s[i - 2]'(by omega) = 0))) (lam : F) :
    bS_DS_select { A with b2_sqrt := f, b2_sqrtInv := g } K s i lam = bS_DS_select A K s i lam := by
  have g1 : pyGet s ((i : Int) - 1) = .ok (s[i - 1]'(by omega)) := pyGet_int s _ (i - 1) (by omega) (by omega)
  unfold bS_DS_select
  rw [g1]
  simp only [py_bind_ok]
  by_cases k1 : s[i - 1]'(by omega) > 0
  · rw [if_pos k1, if_pos k1]
  rw [if_neg k1, if_neg k1]
  by_cases k2 : s[i - 1]'(by omega) < 0
  · rw [if_pos k2, if_pos k2]
  rw [if_neg k2, if_neg k2]
  have k3 : (i : Int) > 1 ∧ pyGet s ((i : Int) - 2) = .ok 0 := by
    have : 2 ≤ i ∧ s[i - 2]'(by omega) = 0 := by
      by_contra hc
      exact hz ⟨by omega, hc⟩
    rw [pyGet_int s _ (i - 2) (by omega) (by omega), this.2]
    exact ⟨by omega, rfl⟩
  have k4 : i > 1 ∧ pyGet s ((i : Int) - 2) = .ok 0 := ⟨by omega, k3.2⟩
  rw [if_pos k4, if_pos k4]

theorem loop_free (A : RadAlg F M) (f g : F → Py M) {K : Int} {s : List Int} {n : Nat} {lamX : Int} :
    ∀ (i : Nat), i ≤ s.length → zr (s.take i).reverse = 0 → ∀ (lam : F) (acc : Option M),
    bS_DS_loop { A with b2_sqrt := f, b2_sqrtInv := g } K s n lamX i lam acc =
      bS_DS_loop A K s n lamX i lam acc := by
  intro i
  induction i using Nat.strong_induction_on with
  | _ i ih =>
    intro hi hz lam acc
    match i, ih, hi, hz with
    | 0, _, _, _ => rfl
    | i + 1, ih, hi, hz =>
      have ht : (s.take (i + 1)).reverse = s[i] :: (s.take i).reverse := by
        rw [List.take_succ_eq_append_getElem (by omega), List.reverse_append]; rfl
      rw [ht] at hz
      have hz' : ¬ (s[i + 1 - 1]'(by omega) = 0 ∧ ¬ (2 ≤ i + 1 ∧ s[i + 1 - 2]'(by omega) = 0)) := by
        rintro ⟨a, b⟩
        have a' : s[i] = 0 := by simpa using a
        rw [a', zr_zero_cons] at hz
        · omega
        · intro hh
          rcases Nat.eq_zero_or_pos i with rfl | hp
          · simp at hh
          · obtain ⟨k, rfl⟩ : ∃ k, i = k + 1 := ⟨i - 1, by omega⟩
            rw [List.take_succ_eq_append_getElem (by omega), List.reverse_append] at hh
            exact b ⟨by omega, by simpa using hh⟩
      rw [bS_DS_loop, bS_DS_loop, select_free A f g (by omega) hi hz' lam]
      cases hs : bS_DS_select A K s (i + 1) lam with
      | error e => rfl
      | ok r =>
        obtain ⟨y, imm⟩ := r
        obtain ⟨x, e1, _⟩ := select_sim A K s (i + 1) lam y imm hs
        simp only [py_bind_ok]
        have hu : ∀ z, bS_DS_update { A with b2_sqrt := f, b2_sqrtInv := g } n lamX (i + 1) z acc =
            bS_DS_update A n lamX (i + 1) z acc := fun z => rfl
        rw [hu]
        cases bS_DS_update A n lamX (i + 1) y acc with
        | error e => rfl
        | ok P =>
          simp only [py_bind_ok]
          cases pyGet s (i : Int) with
          | error e => rfl
          | ok sp =>
            simp only [py_bind_ok]
            rcases select_roots (by omega) hi e1 with ⟨c1, rfl, _⟩ | ⟨c1, c2, c3, rfl, _⟩ | ⟨c1, c2, _, _⟩
            · rw [if_pos rfl, if_pos rfl]
              rw [zr_cons (by simpa using c1)] at hz
              exact ih i (by omega) (by omega) hz _ _
            · rw [if_neg (by decide), if_neg (by decide)]
              obtain ⟨k, rfl⟩ : ∃ k, i = k + 1 := ⟨i - 1, by omega⟩
              have c1' : s[k + 1] = 0 := by simpa using c1
              have c3' : s[k] = 0 := by simpa using c3
              rw [List.take_succ_eq_append_getElem (by omega), List.reverse_append, c1', c3'] at hz
              change zr (0 :: 0 :: (s.take k).reverse) = 0 at hz
              rw [zr_zero_zero] at hz
              exact ih k (by omega) (by omega) hz _ _
            · exact absurd ⟨c1, c2⟩ hz'

theorem bS_DS_free (A : RadAlg F M) (f g : F → Py M) {K T R : Int} (hT : 0 ≤ T) (hp : (K + T + R) % 2 = 0)
    (lam : F) : RepRadial_bS_DS { A with b2_sqrt := f, b2_sqrtInv := g } K T lam R =
      RepRadial_bS_DS A K T lam R := by
  unfold RepRadial_bS_DS
  by_cases h0 : lam ≤ 0 ∨ lam + (R : F) ≤ 0
  · rw [if_pos h0, if_pos h0]
  rw [if_neg h0, if_neg h0]
  have h1 : ¬ (K = 0 ∧ T = 0 ∧ is_odd R = true) := by
    rw [is_odd_iff]; omega
  rw [if_neg h1, if_neg h1]
  cases hs : Lambda_Splits K T R with
  | error e => rfl
  | ok s =>
    have hz := splits_roots hT (by rw [is_odd_iff] at h1; exact h1) hs
    rw [hp] at hz
    simp only [py_bind_ok]
    generalize hb : (if s.length > (|K| + T).toNat then s.tail else s) = body at hz ⊢
    generalize (if s.length > (|K| + T).toNat then s.headD 0 else 0) = lamX
    cases ha : pyAssert (decide (body.length = (|K| + T).toNat)) with
    | error e => rfl
    | ok u =>
      have hlen : body.length = (|K| + T).toNat := by
        unfold pyAssert at ha
        split_ifs at ha with hh
        simpa using hh
      simp only [py_bind_ok]
      rw [← hlen]
      have hl : ∀ lam1 acc, bS_DS_loop { A with b2_sqrt := f, b2_sqrtInv := g } K body body.length lamX
          body.length lam1 acc = bS_DS_loop A K body body.length lamX body.length lam1 acc :=
        fun lam1 acc => loop_free A f g body.length le_rfl (by rw [List.take_length]; exact hz) _ _
      simp only [hl]
      rfl

theorem representation_free (A : RadAlg F M) (f g : F → Py M) {op : KTSOp} (hv : op.Valid) {R : Int}
    (hp : (op.maxVar + R) % 2 = 0) (lam : F) :
    op.representation { A with b2_sqrt := f, b2_sqrtInv := g } lam R = op.representation A lam R := by
  cases op with
  | KT K T =>
    have hK := abs_natAbs K
    simp only [KTSOp.maxVar] at hp
    exact bS_DS_free A f g hv (by omega) lam
  | S s => rfl

theorem shfs_free (A : RadAlg F M) (f g : F → Py M) (lam : F) : ∀ (ops : List KTSOp) (shfs : List Int),
    (∀ op ∈ ops, op.Valid) → mism (ops.map KTSOp.maxVar) shfs = 0 →
    RepRadialshfs_loop { A with b2_sqrt := f, b2_sqrtInv := g } lam ops shfs =
      RepRadialshfs_loop A lam ops shfs
  | [], _, _, _ => rfl
  | _ :: _, [], _, _ => rfl
  | op :: ops, R :: shfs, hv, hm => by
    simp only [List.map_cons, mism] at hm
    have h0 := mism_nonneg (ops.map KTSOp.maxVar) shfs
    simp only [RepRadialshfs_loop]
    rw [shfs_free A f g lam ops shfs (fun o ho => hv o (by simp [ho])) (by omega)]
    cases RepRadialshfs_loop A lam ops shfs with
    | error e => rfl
    | ok r =>
      simp only [py_bind_ok]
      rw [representation_free A f g (hv op (by simp)) (by omega)]

end

end Acm
