import Verif.Props.WidthLimit

/-!
# How far the lowest energies are from the exact ones (C135)
-/

namespace Acm.Props

open Acm Acm.Spec

theorem gw_prod {lam : ℝ} (h : 0 < lam) (t : ℝ) (n : ℕ) : gw lam t n ^ 2 = t ^ (2 * n) * ∏ i ∈ Finset.range n, (lam + i) / (i + 1) := by
  induction n with
  | zero => simp [gw]
  | succ n ih =>
    have h1 : (0 : ℝ) ≤ (lam + n) / (n + 1) := by positivity
    rw [gw, mul_pow, mul_pow, Real.sq_sqrt h1, ih, Finset.prod_range_succ]
    ring

/-- C135: for `c11 < 0`, `c21 > 0`, any `c20` and `c23`, with lambdas of the basis that are matched to the Hamiltonian,
`(lambda_v - 1)^2 = (v + 3/2)^2 - c23 / c11`, and with `nu` from 0, the lowest energy that is reported for an angular momentum is
not below the least of the exact energies `E_v = c20 + 2 sqrt(-c11 c21) lambda_v` of its states, and above none of them by more than
`(p a - q / a)^2 (lambda_v + N) t^(2 N) (lambda_v)_N / N!`, where `p = sqrt(-c11)`, `q = sqrt(c21)`, `a` is the width, `N` is `nu_max` and
`t = (p a^2 - q) / (p a^2 + q)`. -/
theorem C135_error {a : XArgs} (h : LegalRanges a) (h0 : a.nu_min = 0) {env : XEnv} (hla : LinAlgOk env.la) {c11 c20 c21 c23 : ℝ}
    (h11 : c11 < 0) (h21 : 0 < c21) (ha : a.anorm ≠ 0) {s : FState} (hs : MemoOk env s.xs) {ls : Int → Int}
    (hl : ∀ v, a.v_min ≤ v → v ≤ a.v_max → s.glb.lam_fun v = .ok (ls v))
    (h1 : ∀ v, a.v_min ≤ v → v ≤ a.v_max → 1 < a.lambda_base + ls v)
    (hd : ∀ v : Int, a.v_min ≤ v → v ≤ a.v_max → (a.lambda_base + ls v - 1) ^ 2 = (v + 3 / 2) ^ 2 - c23 / c11) :
    ∃ r s', DigXspace env (ACM_Hamiltonian (c11 := kC c11) (c20 := kC c20) (c21 := kC c21) (c23 := kC c23)) a s = (.ok r, s') ∧
      OccupiedL a (r.map LEig.L) ∧ ∀ x ∈ r, ∃ states e, lbsSO5r3_rngV a.v_min a.v_max x.L = .ok states ∧ x.vals[0]? = some e ∧
        (∃ f ∈ states, c20 + 2 * √(-c11 * c21) * (a.lambda_base + ls f.1) ≤ e) ∧
        ∀ f ∈ states, e ≤ c20 + 2 * √(-c11 * c21) * (a.lambda_base + ls f.1) +
          (√(-c11) * a.anorm - √c21 / a.anorm) ^ 2 * (a.lambda_base + ls f.1 + a.nu_max) *
            ((√(-c11) * a.anorm ^ 2 - √c21) / (√(-c11) * a.anorm ^ 2 + √c21)) ^ (2 * a.nu_max.toNat) *
            ∏ i ∈ Finset.range a.nu_max.toNat, (a.lambda_base + ls f.1 + i) / (i + 1) := by
  obtain ⟨r, s', hr, ho, hx⟩ := C131_lowest (mu := fun v => a.lambda_base + ls v) (c20 := c20) (c22 := 0) h hla h11 h21.le (le_refl 0) ha hs hl h1 hd
  refine ⟨r, s', hr, ho, fun x hxr => ?_⟩
  obtain ⟨states, hst, hlow⟩ := hx x hxr
  have hL0 : 0 ≤ x.L := by
    have := ((ho.2 x.L).1 (List.mem_map_of_mem hxr)).1; have := h.2.2.1; omega
  have hst' : states = labelsV a.v_min a.v_max x.L x.L := by
    have := hst.symm.trans (lbsSO5r3_rngV_ok h.2.1.1 h.2.1.2 hL0)
    injection this
  have hne : x.vals ≠ [] := by
    have h5 := (C32_partial (gammaFree_tame (C130_acm c11 c20 c21 0 c23)) h hs hr).2 x hxr
    obtain ⟨d, e1, e2⟩ := ((ho.2 x.L).1 (List.mem_map_of_mem hxr)).2
    have e3 := e1.symm.trans h5.1
    injection e3 with e3
    rintro e4
    rw [e4] at e3
    exact e2 e3
  obtain ⟨e, he⟩ : ∃ e, x.vals[0]? = some e := ⟨_, List.getElem?_eq_getElem (List.length_pos_of_ne_nil hne)⟩
  refine ⟨states, e, hst, he, hlow e (List.mem_of_getElem? he), fun f hf => ?_⟩
  rw [hst'] at hf
  have hv := state_v (a := a.at x.L) hf
  have ha2 : 0 < a.anorm ^ 2 := by positivity
  have hp : 0 < √(-c11) := Real.sqrt_pos.2 (by linarith)
  have hq : 0 < √c21 := Real.sqrt_pos.2 h21
  have hd0 : √(-c11) * a.anorm ^ 2 + √c21 ≠ 0 := by positivity
  have hup := ground_upper (P := √(-c11) * a.anorm) (Q := √c21 / a.anorm)
    (t := (√(-c11) * a.anorm ^ 2 - √c21) / (√(-c11) * a.anorm ^ 2 + √c21)) h h0 hla h11 ha hs hl h1 hd
    (by rw [mul_pow, Real.sq_sqrt (by linarith)]) (by rw [div_pow, Real.sq_sqrt h21.le])
    (by field_simp) hr hxr hf he
  rw [gw_prod (lt_trans one_pos (h1 f.1 hv.1 hv.2)), mul_assoc 2, show √(-c11) * a.anorm * (√c21 / a.anorm) = √(-c11) * √c21 by field_simp,
    ← Real.sqrt_mul (by linarith)] at hup
  have hn : ((a.nu_max.toNat : ℕ) : ℝ) = (a.nu_max : ℝ) := by
    have h6 : 0 ≤ a.nu_max := h0.symm.le.trans h.1.2
    exact_mod_cast congrArg (fun z : Int => (z : ℝ)) (Int.toNat_of_nonneg h6)
  rw [hn] at hup
  refine hup.trans (le_of_eq ?_)
  ring

/-- `-Laplacian + beta^2` with 21 functions of double the width: the lowest energy for `L = 0` is 5, to five decimals. -/
example (env : XEnv) (hla : LinAlgOk env.la) (s : FState) (hs : MemoOk env s.xs) (hl : s.glb.lam_fun = lambda_sho_fun) :
    ∃ r s', DigXspace env (ACM_Hamiltonian (c11 := kC (-1)) (c20 := kC 0) (c21 := kC 1) (c23 := kC 0)) ⟨2, 5 / 2, 0, 20, 0, 6, 0, 6⟩ s = (.ok r, s') ∧
      ∃ x ∈ r, x.L = 0 ∧ ∃ e, x.vals[0]? = some e ∧ 5 ≤ e ∧ e ≤ 5 + 1 / 100000 := by
  obtain ⟨r, s', hr, ho, hx⟩ := C135_error (a := ⟨2, 5 / 2, 0, 20, 0, 6, 0, 6⟩) (by unfold LegalRanges; simp) rfl hla (c11 := -1) (c20 := 0) (c21 := 1)
    (c23 := 0) (by norm_num) (by norm_num) (by norm_num) hs (ls := fun v => v)
    (fun v h1 _ => by
      rw [hl]
      unfold lambda_sho_fun
      rw [require_nonnegint_ok h1]
      rfl)
    (fun v h1 _ => by
      have : (0 : ℝ) ≤ v := by exact_mod_cast h1
      show (1 : ℝ) < 5 / 2 + v
      linarith)
    (fun v _ _ => by
      show (5 / 2 + (v : ℝ) - 1) ^ 2 = _
      ring)
  refine ⟨r, s', hr, ?_⟩
  obtain ⟨x, hxr, hxL⟩ := List.mem_map.1 ((ho.2 0).2 ⟨by simp, 63, by decide +kernel, by decide⟩)
  obtain ⟨states, e, hst, he, ⟨f, hf, e1⟩, e2⟩ := hx x hxr
  have hst' : states = labelsV 0 6 0 0 := by
    rw [hxL] at hst
    have := hst.symm.trans (lbsSO5r3_rngV_ok (by decide) (by decide) (by decide))
    injection this
  subst hst'
  refine ⟨x, hxr, hxL, e, he, ?_, ?_⟩
  · have h0 : (0 : ℝ) ≤ (f.1 : ℝ) := by exact_mod_cast (state_v (a := ⟨2, 5 / 2, 0, 20, 0, 6, 0, 0⟩) hf).1
    norm_num at e1
    linarith
  · have := e2 (0, 1, 0) (by decide +kernel)
    refine this.trans ?_
    rw [show Int.toNat 20 = 20 from rfl]
    norm_num [Finset.prod_range_succ]

end Acm.Props
