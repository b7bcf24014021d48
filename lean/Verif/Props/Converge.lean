import Verif.Props.LowerBound
import Verif.Props.Variational

/-!
# Energies converge when the range of `nu` grows (C132)
-/

namespace Acm.Props

open Acm Acm.Spec

theorem radHam_nestable {a b : XArgs} {ls : Int → Int} (h1 : ∀ v, b.v_min ≤ v → v ≤ b.v_max → 1 < a.lambda_base + ls v) (c11 c20 c21 c23 : Coeff) :
    Nestable a.lambda_base ls a b (ACM_Hamiltonian (c11 := c11) (c20 := c20) (c21 := c21) (c23 := c23)) := by
  let G : Coeff × OperatorProduct → Prop := fun t => ∃ r hs, t.2 = oneRadial r hs ∧ r ≠ some .other ∧
    (hs.length ≤ 1 ∨ a.v_min = b.v_min ∧ a.v_max = b.v_max) ∧
    ∀ v v', b.v_min ≤ v → v ≤ b.v_max → b.v_min ≤ v' → v' ≤ b.v_max → MayCouple hs v v' →
      (∃ prim, closedForm r (ls v' - ls v) = some prim) ∧ ¬ ((r = some .bm2 ∨ r = some .D2b) ∧ a.lambda_base + ls v = 1)
  show ∀ t ∈ _, G t
  have hG : ∀ (c : Coeff) (r : Option RadSym), (∃ prim, closedForm r 0 = some prim) → r ≠ some .other → G (c, oneRadial r []) := by
    intro c r h2 h3
    refine ⟨r, [], rfl, h3, .inl (Nat.zero_le _), fun v v' k1 k2 _ _ hm => ?_⟩
    have hm : v' = v := hm
    subst hm
    rw [sub_self]
    exact ⟨h2, fun e => (h1 v' k1 k2).ne' e.2⟩
  unfold ACM_Hamiltonian
  simp only [zero_mul]
  repeat' first
    | (refine mem_addTerm (P := G) (fun h => absurd rfl h) ?_)
    | (refine mem_addTerm (P := G) (fun _ => hG _ none ⟨_, rfl⟩ (by simp)) ?_)
    | (refine mem_addTerm (P := G) (fun _ => hG _ (some .b2) ⟨_, rfl⟩ (by simp)) ?_)
    | (refine mem_addTerm (P := G) (fun _ => hG _ (some .bm2) ⟨_, rfl⟩ (by simp)) ?_)
  split_ifs
  · simp
  · intro t ht
    rw [List.mem_cons, List.mem_singleton] at ht
    rcases ht with rfl | rfl
    · exact hG _ (some .D2b) ⟨_, rfl⟩ (by simp)
    · exact hG _ (some .bm2) ⟨_, rfl⟩ (by simp)

/-- C132: the energies converge when the range of `nu` grows.  For `c11 < 0`, `c21 ≥ 0`, any `c20`, any `c23` for which the roots
exist, any width, and any `lambda` above 1 in the range: for every angular momentum `L` that has states, the `k`-th energy
(counted from the lowest, from 0) tends to a limit `E` when `nu_max` grows and all else is kept.  From some `nu_max` on the
diagonalisation, whatever was computed before it, reports a `k`-th energy in `[E, E + ε)`; so the limit is reached from above, and it
is not below the lower bound of C131. -/
theorem C132_converges {a : XArgs} (h : LegalRanges a) {env : XEnv} (hla : LinAlgOk env.la) {c11 c20 c21 c23 : ℝ} (h11 : c11 < 0)
    (h21 : 0 ≤ c21) (ha : a.anorm ≠ 0) {lam : LambdaFunction} {ls : Int → Int}
    (hl : ∀ v, a.v_min ≤ v → v ≤ a.v_max → lam v = .ok (ls v))
    (h1 : ∀ v, a.v_min ≤ v → v ≤ a.v_max → 1 < a.lambda_base + ls v)
    {mu : Int → ℝ} (hmu : ∀ v : Int, a.v_min ≤ v → v ≤ a.v_max → (mu v - 1) ^ 2 = (v + 3 / 2) ^ 2 - c23 / c11)
    {L : Int} (hL : a.L_min ≤ L ∧ L ≤ a.L_max) {states : List Label} (hst : lbsSO5r3_rngV a.v_min a.v_max L = .ok states)
    (hne : states ≠ []) (k : ℕ) :
    ∃ E : ℝ, (∃ f ∈ states, c20 + 2 * √(-c11 * c21) * mu f.1 ≤ E) ∧
      ∀ ε : ℝ, 0 < ε → ∃ N : Int, ∀ n, N ≤ n → ∀ s : FState, MemoOk env s.xs → s.glb.lam_fun = lam →
        ∃ r s', DigXspace env (ACM_Hamiltonian (c11 := kC c11) (c20 := kC c20) (c21 := kC c21) (c23 := kC c23))
            { a with nu_max := n } s = (.ok r, s') ∧
          ∃ x ∈ r, x.L = L ∧ ∃ e, x.vals[k]? = some e ∧ E ≤ e ∧ e < E + ε := by
  have hL0 : 0 ≤ L := le_trans h.2.2.1 hL.1
  have hst' : states = labelsV a.v_min a.v_max L L := by
    rw [lbsSO5r3_rngV_ok h.2.1.1 h.2.1.2 hL0] at hst
    injection hst with hst
    exact hst.symm
  have hlen : 0 < states.length := List.length_pos_of_ne_nil hne
  have ht : Op_Tame (ACM_Hamiltonian (c11 := kC c11) (c20 := kC c20) (c21 := kC c21) (c22 := kC 0) (c23 := kC c23)) = true :=
    gammaFree_tame (C130_acm c11 c20 c21 0 c23)
  have hleg : ∀ n, a.nu_min ≤ n → LegalRanges { a with nu_max := n } := fun n hn => ⟨⟨h.1.1, hn⟩, h.2⟩
  -- One run.
  have run : ∀ n, a.nu_min + k ≤ n → ∀ s : FState, MemoOk env s.xs → s.glb.lam_fun = lam → ∃ r s',
      DigXspace env (ACM_Hamiltonian (c11 := kC c11) (c20 := kC c20) (c21 := kC c21) (c23 := kC c23))
        { a with nu_max := n } s = (.ok r, s') ∧ (r.map LEig.L).Nodup ∧
      ∃ x ∈ r, x.L = L ∧ ∃ e, x.vals[k]? = some e ∧ ∃ f ∈ states, c20 + 2 * √(-c11 * c21) * mu f.1 ≤ e := by
    intro n hn s hs hs2
    have hn' : a.nu_min ≤ n := by omega
    obtain ⟨r, s', hr, ho, hx⟩ := C131_lowest (hleg n hn') hla h11 h21 (le_refl 0) ha hs (ls := ls) (c20 := c20) (c23 := c23)
      (by rw [hs2]; exact hl) h1 hmu
    have hdim : dimXspace a.nu_min n a.v_min a.v_max L none = .ok ((states.length * (n - a.nu_min + 1).toNat : ℕ) : Int) := by
      rw [dimXspace_ldim ⟨⟨h.1.1, hn'⟩, h.2.1⟩ hL0, hst']
      rfl
    have hpos : k < states.length * (n - a.nu_min + 1).toNat := by
      have : k + 1 ≤ (n - a.nu_min + 1).toNat := by omega
      nlinarith
    have hmem : L ∈ r.map LEig.L := (ho.2 L).2 ⟨hL, _, hdim, by exact_mod_cast (by omega : states.length * (n - a.nu_min + 1).toNat ≠ 0)⟩
    obtain ⟨x, hxr, rfl⟩ := List.mem_map.1 hmem
    obtain ⟨_, h32⟩ := C32_partial ht (hleg n hn') hs hr
    have hxl := (h32 x hxr).1
    rw [show dimXspace ({ a with nu_max := n } : XArgs).nu_min ({ a with nu_max := n } : XArgs).nu_max
      ({ a with nu_max := n } : XArgs).v_min ({ a with nu_max := n } : XArgs).v_max x.L none = _ from hdim] at hxl
    injection hxl with hxl
    have hk : k < x.vals.length := by omega
    obtain ⟨states', e1, e2⟩ := hx x hxr
    have : states' = states := by
      have := e1.symm.trans hst
      injection this
    subst this
    exact ⟨r, s', hr, ho.1.imp ne_of_lt, x, hxr, rfl, _, List.getElem?_eq_getElem hk, e2 _ (List.getElem_mem hk)⟩
  -- Two runs.
  have mono : ∀ n m, a.nu_min + k ≤ n → n ≤ m → ∀ s t : FState, MemoOk env s.xs → s.glb.lam_fun = lam → MemoOk env t.xs →
      t.glb.lam_fun = lam → ∀ r s' r' t',
      DigXspace env (ACM_Hamiltonian (c11 := kC c11) (c20 := kC c20) (c21 := kC c21) (c23 := kC c23))
        { a with nu_max := n } s = (.ok r, s') →
      DigXspace env (ACM_Hamiltonian (c11 := kC c11) (c20 := kC c20) (c21 := kC c21) (c23 := kC c23))
        { a with nu_max := m } t = (.ok r', t') → (r'.map LEig.L).Nodup → ∀ x ∈ r, ∀ y ∈ r', x.L = L → y.L = L →
      ∀ e e', x.vals[k]? = some e → y.vals[k]? = some e' → e' ≤ e := by
    intro n m hn hnm s t hs hs2 ht ht2 r s' r' t' hr hr' hnd x hx y hy hxL hyL e e' he he'
    have := C96_variational_partial (a := { a with nu_max := n }) (b := { a with nu_max := m }) (hleg n (by omega)) (hleg m (by omega))
      ⟨⟨rfl, rfl⟩, ⟨le_refl _, hnm⟩, ⟨le_refl _, le_refl _⟩, le_refl _, le_refl _⟩ ha hla hs ht (ls := ls)
      (by rw [hs2]; exact hl) (ht2.trans hs2.symm) (fun v k1 k2 => lt_trans one_pos (h1 v k1 k2))
      (radHam_nestable h1 (kC c11) (kC c20) (kC c21) (kC c23)) hr hr'
    obtain ⟨y', hy', hyL', hle⟩ := this x hx
    have hyy : y' = y := List.inj_on_of_nodup_map hnd hy' hy (by rw [hyL', hxL, hyL])
    subst hyy
    obtain ⟨hk, rfl⟩ := List.getElem?_eq_some_iff.1 he
    obtain ⟨hk', rfl⟩ := List.getElem?_eq_some_iff.1 he'
    obtain ⟨_, hle⟩ := hle k hk
    exact hle
  let s0 : FState := ⟨{ Glb.init with lam_fun := lam }, fun _ => none, fun _ _ => none, fun _ => none, []⟩
  have hs0 : MemoOk env s0.xs := memoOk_start env lam
  choose r0 t0 hr0 hnd0 x0 hx0 hxL0 e0 he0 f0 hf0 hb0 using fun i : ℕ => run (a.nu_min + k + i) (by omega) s0 hs0 rfl
  have hanti : Antitone e0 := by
    intro i j hij
    exact mono _ _ (by omega) (by omega) s0 s0 hs0 rfl hs0 rfl _ _ _ _ (hr0 i) (hr0 j) (hnd0 j) _ (hx0 i) _ (hx0 j) (hxL0 i) (hxL0 j)
      _ _ (he0 i) (he0 j)
  obtain ⟨f, hf, hfm⟩ := states.toFinset.exists_min_image (fun f => c20 + 2 * √(-c11 * c21) * mu f.1)
    ⟨f0 0, List.mem_toFinset.2 (hf0 0)⟩
  have hlow : ∀ i, c20 + 2 * √(-c11 * c21) * mu f.1 ≤ e0 i := fun i =>
    (hfm _ (List.mem_toFinset.2 (hf0 i))).trans (hb0 i)
  have hbdd : BddBelow (Set.range e0) := ⟨_, by rintro _ ⟨i, rfl⟩; exact hlow i⟩
  refine ⟨⨅ i, e0 i, ⟨f, List.mem_toFinset.1 hf, le_ciInf hlow⟩, fun ε hε => ?_⟩
  obtain ⟨i, hi⟩ := exists_lt_of_ciInf_lt (lt_add_of_pos_right (⨅ i, e0 i) hε)
  refine ⟨a.nu_min + k + i, fun n hn s hs hs2 => ?_⟩
  obtain ⟨r, s', hr, hnd, x, hx, hxL, e, he, _⟩ := run n (by omega) s hs hs2
  refine ⟨r, s', hr, x, hx, hxL, e, he, ?_, ?_⟩
  · obtain ⟨j, rfl⟩ : ∃ j : ℕ, n = a.nu_min + k + j := ⟨(n - a.nu_min - k).toNat, by omega⟩
    exact (ciInf_le hbdd j).trans (mono _ _ (by omega) (le_refl _) s s0 hs hs2 hs0 rfl _ _ _ _ hr (hr0 j) (hnd0 j) _ hx _ (hx0 j) hxL
      (hxL0 j) _ _ he (he0 j))
  · exact lt_of_le_of_lt (mono _ _ (by omega) hn s0 s hs0 rfl hs hs2 _ _ _ _ (hr0 i) hr hnd _ (hx0 i) _ hx (hxL0 i) hxL _ _ (he0 i) he) hi

/-- The tenth energy with L = 2 for an oscillator with a Davidson term converges, in a basis that is not matched to it. -/
example (env : XEnv) (hla : LinAlgOk env.la) : ∃ E : ℝ, ∀ ε : ℝ, 0 < ε → ∃ N : Int, ∀ n, N ≤ n →
    ∀ s : FState, MemoOk env s.xs → s.glb.lam_fun = lambda_sho_fun →
      ∃ r s', DigXspace env (ACM_Hamiltonian (c11 := kC (-1 / 2)) (c20 := kC 3) (c21 := kC 1) (c23 := kC 5))
          ⟨3, 5 / 2, 0, n, 0, 12, 0, 8⟩ s = (.ok r, s') ∧
        ∃ x ∈ r, x.L = 2 ∧ ∃ e, x.vals[9]? = some e ∧ E ≤ e ∧ e < E + ε := by
  obtain ⟨E, _, hE⟩ := C132_converges (a := ⟨3, 5 / 2, 0, 10, 0, 12, 0, 8⟩) (by unfold LegalRanges; simp) hla (c11 := -1 / 2) (c20 := 3) (c21 := 1)
    (c23 := 5) (by norm_num) (by norm_num) (by norm_num) (lam := lambda_sho_fun) (ls := fun v => v)
    (fun v h1 _ => by
      unfold lambda_sho_fun
      rw [require_nonnegint_ok h1]
      rfl)
    (fun v h1 _ => by
      have : (0 : ℝ) ≤ v := by exact_mod_cast h1
      show (1 : ℝ) < 5 / 2 + v
      linarith)
    (mu := fun v => 1 + √((v + 3 / 2) ^ 2 + 10))
    (fun v _ _ => by
      rw [add_sub_cancel_left, Real.sq_sqrt (by positivity)]
      ring)
    (L := 2) (by simp) (lbsSO5r3_rngV_ok (by decide) (by decide) (by decide)) (by decide +kernel) 9
  exact ⟨E, hE⟩

end Acm.Props
