import Verif.Lemmas.RadialTriple
import Verif.Props.FullPi
import Verif.Props.MomentumTypes

/-!
# Exactly where the operator `[pi x q x pi]` is represented: C36
-/

namespace Acm.Props

open Acm Acm.Spec

section
variable {env : XEnv} {lam : LambdaFunction} {a : XArgs}

theorem piqpi_up (h : LegalRanges a) {M : Arr} (hM : RepXspace_PiqPi env lam a = .ok M) {s t : Label} (hs : s ∈ a.states)
    (ht : t ∈ a.states) (hv : t.1 = s.1 + 3 ∨ t.1 = s.1 - 3) (hL : t.2.2 = s.2.2) :
    ∃ k l, lam s.1 = .ok k ∧ lam t.1 = .ok l ∧ ((l - k) % 2 = 0 ∨ 0 < l - k) := by
  rw [PiqPi_eq h] at hM
  obtain ⟨i, j, k, b, e, hb⟩ := block_of (fun M => ⟨rfl, rfl⟩) h hM hs ht
  obtain ⟨v, x, L⟩ := s
  obtain ⟨v', x', L'⟩ := t
  unfold piqpiBlock at hb
  dsimp only at hb hv hL e ⊢
  rw [if_neg (not_not.2 hL)] at hb
  obtain ⟨l, el, hb⟩ := py_bind_eq_ok hb
  refine ⟨k, l, e, el, ?_⟩
  have fin : ∀ {c1 c2 c3 : ℝ} {P : Arr}, xLC env a [(c1, [.b, .D2b]), (c2, [.bm]), (c3, [.Db])] k l 1 = .ok P →
      (l - k) % 2 = 0 ∨ 0 < l - k := by
    intro c1 c2 c3 P hP
    obtain ⟨⟨Ps, hPs⟩, hA⟩ := C81_terms _ _ _ _ _ _ _ _ _ hP
    have hA := hA (by have := h.1.1; have := h.1.2; omega) _ _ rfl
    cases hPs with
    | cons hP _ =>
      obtain ⟨h1, h2⟩ := prod_positive hP
      by_contra hc
      rw [not_or] at hc
      rcases hA with hA | hA
      · refine symbolic_bD2b h1 h2 ?_ ?_ hA <;> omega
      · have := hA (c2, [.bm]) (by simp)
        rw [symbolic_bm h1 h2] at this
        omega
  rcases hv with rfl | rfl
  · rw [if_pos (by ring)] at hb
    obtain ⟨P, hP, -⟩ := py_bind_eq_ok hb
    exact fin hP
  · rw [if_neg (by omega), if_pos (by ring)] at hb
    obtain ⟨P, hP, -⟩ := py_bind_eq_ok hb
    exact fin hP

/-- C36.  If the matrix of `[pi x q x pi]` is returned, the shift of `lambda` changes by an even number from any state
to any other of the same angular momentum that has three units of seniority more. -/
theorem C36_even {env : XEnv} {lam : LambdaFunction} {a : XArgs}
    (h : LegalRanges a) {states : List Label}
    (hst : lbsSO5r3_rngVvarL a.v_min a.v_max a.L_min (some a.L_max) = .ok states) {M : Arr}
    (hM : RepXspace_PiqPi env lam a = .ok M) {s t : Label} (hs : s ∈ states)
    (ht : t ∈ states) (hv : t.1 = s.1 + 3) (hL : t.2.2 = s.2.2) :
    ∃ k l, lam s.1 = .ok k ∧ lam t.1 = .ok l ∧ (l - k) % 2 = 0 := by
  rw [states_ok h] at hst
  injection hst with hst
  subst hst
  obtain ⟨k, l, e1, e2, h1⟩ := piqpi_up h hM hs ht (.inl hv) hL
  obtain ⟨l', k', e3, e4, h2⟩ := piqpi_up h hM ht hs (.inr (by omega)) hL.symm
  rw [e1] at e4
  rw [e2] at e3
  injection e3 with e3
  injection e4 with e4
  subst e3 e4
  exact ⟨k, l, e1, e2, by omega⟩

/-- C36 fails also between states that differ by three units of seniority: in no basis that respects parity, such as
that of the harmonic oscillator and the default one, is `[pi x q x pi]` represented on a range that has two such states
with the same angular momentum. -/
theorem C36_parity_fails {env : XEnv} {lam : LambdaFunction} {a : XArgs}
    (hlam : ParityBasis lam) (h : LegalRanges a) {states : List Label}
    (hst : lbsSO5r3_rngVvarL a.v_min a.v_max a.L_min (some a.L_max) = .ok states) {s t : Label} (hs : s ∈ states)
    (ht : t ∈ states) (hv : t.1 = s.1 + 3) (hL : t.2.2 = s.2.2) (M : Arr) : RepXspace_PiqPi env lam a ≠ .ok M := by
  intro hM
  obtain ⟨k, l, e1, e2, h2⟩ := C36_even h hst hM hs ht hv hL
  have := hlam _ _ e1
  have := hlam _ _ e2
  omega

/-- C36 fails for Hamiltonians: no sum of products of operators in which `[pi x q x pi]` occurs is represented in a basis
that respects parity, if the range has two states with the same angular momentum whose seniorities differ by one or
three. -/
theorem C36_sum_fails {env : XEnv} {a : XArgs}
    (h : LegalRanges a) {s : XState} (hs : MemoOk env s) (hlam : ParityBasis s.lam_fun)
    {states : List Label} (hst : lbsSO5r3_rngVvarL a.v_min a.v_max a.L_min (some a.L_max) = .ok states) {x y : Label}
    (hx : x ∈ states) (hy : y ∈ states) (hv : y.1 = x.1 + 1 ∨ y.1 = x.1 + 3) (hL : y.2.2 = x.2.2) {ts : OperatorSum}
    {t : Coeff × OperatorProduct} (ht : t ∈ ts) (hpi : .PiqPi ∈ t.2) (M : Arr) : (RepXspace env ts a s).1 ≠ .ok M := by
  intro hM
  obtain ⟨P, hP⟩ := (C30_exists h hs ts).1 ⟨M, hM⟩ t ht
  rw [prod_eq hs] at hP
  obtain ⟨X, hX⟩ := prod_segs h hP _ (whole_mem rfl rfl [] [] hpi)
  have hX : RepXspace_PiqPi env s.lam_fun a = .ok X := hX
  rcases hv with hv | hv
  · obtain ⟨e, he⟩ := C36_never env s.lam_fun h hst hx hy hL hv
    rw [hX] at he
    cases he
  · exact C36_parity_fails hlam h hst hx hy hv hL X hX

theorem odd_exists {la : LinAlg} (hla : LinAlgOk la) {anorm l : ℝ} (hi : ∀ n : Int, l ≠ n) {R : Int} (h : 0 < l)
    (h' : 0 < l + (R : ℝ)) {lo hi' lap : ℕ} (hr : lo ≤ hi') {w : List RadSym} {K T : Int}
    (hw : Parse_RadialOp_List w = .ok [.KT K T]) (ho : (|K| + T) % 2 = 1) (hb : K < 0 → T % 2 = 0) :
    ∃ P, RepRadialProd la anorm w l R lo hi' lap = .ok P := by
  refine (C16_matrix la hla anorm w [.KT K T] l hi R lo hi' lap hr hw fun K' T' hm hK => ?_).2 ⟨h, h', .inl ⟨.inl ⟨_,
    List.mem_singleton.2 rfl, ho⟩, ?_⟩⟩
  · rw [List.mem_singleton] at hm
    injection hm with e1 e2
    subst e1 e2
    exact hb hK
  · rcases le_or_gt 0 R with hR | hR
    · exact .inl hR
    · refine .inr (.inl ?_)
      have : oddMonomials [.KT K T] = 1 := by
        unfold oddMonomials degree
        simp [ho]
      rw [this]
      have := abs_pos.2 hR.ne
      omega

/-- C36, exactly where the operator is represented: in a basis in which `lambda` is positive and not an integer (it is
5/2 plus an integer by default), the matrix of `[pi x q x pi]` is returned if and only if no two states with the same
angular momentum differ by one unit of seniority, and the shift of `lambda` changes by an even number between any two
that differ by three, provided that the Clebsch-Gordan coefficients are returned.

What is missing: the other ranges and bases, see `C36_never` and `C36_parity_fails`. -/
theorem C36_exact_partial {env : XEnv} {lam : LambdaFunction} {a : XArgs}
    (hla : LinAlgOk env.la) (h : LegalRanges a) (ha : a.anorm ≠ 0) {states : List Label}
    (hst : lbsSO5r3_rngVvarL a.v_min a.v_max a.L_min (some a.L_max) = .ok states) {ls : Int → Int}
    (hl : ∀ s ∈ states, lam s.1 = .ok (ls s.1)) (hp : ∀ s ∈ states, 0 < a.lambda_base + ls s.1)
    (hi : ∀ n : Int, a.lambda_base ≠ n)
    (hCG : ∀ s ∈ states, ∀ t ∈ states, ∃ c, env.CG s (3, 1, 0) t = .ok c) :
    (∃ M, RepXspace_PiqPi env lam a = .ok M) ↔
      ∀ s ∈ states, ∀ t ∈ states, t.2.2 = s.2.2 → t.1 ≠ s.1 + 1 ∧ (t.1 = s.1 + 3 → (ls t.1 - ls s.1) % 2 = 0) := by
  refine ⟨fun ⟨M, hM⟩ s hs t ht hL => ⟨fun hv => ?_, fun hv => ?_⟩, fun hev => ?_⟩
  · obtain ⟨e, he⟩ := C36_never env lam h hst hs ht hL hv
    rw [hM] at he
    cases he
  · obtain ⟨k, l, e1, e2, e3⟩ := C36_even h hst hM hs ht hv hL
    rw [hl s hs] at e1
    rw [hl t ht] at e2
    injection e1 with e1
    injection e2 with e2
    rw [e1, e2]
    exact e3
  rw [states_ok h] at hst
  injection hst with hst
  subst hst
  rw [PiqPi_eq h]
  obtain ⟨lo, hi', e1, e2, hr, e3⟩ := nat_ranges h
  refine fill_exists h (fun M => ⟨rfl, rfl⟩) fun s hs t ht => ?_
  have lc : (ls t.1 - ls s.1) % 2 = 0 → ∀ c d e : ℝ, ∃ P,
      xLC env a [(c, [.b, .D2b]), (d, [.bm]), (e, [.Db])] (ls s.1) (ls t.1) 1 = .ok P ∧
        P.rows = a.rdim ∧ P.cols = a.rdim := by
    intro hR c d e
    unfold xLC
    rw [e1, e2, e3]
    have hp1 := hp s hs
    have hp2 : 0 < a.lambda_base + (ls s.1 : ℝ) + ((ls t.1 - ls s.1 : Int) : ℝ) := by
      have := hp t ht
      push_cast
      linarith
    have hi1 : ∀ n : Int, a.lambda_base + (ls s.1 : ℝ) ≠ n := fun n hn => hi (n - ls s.1) (by push_cast; linarith)
    obtain ⟨P1, f1⟩ := odd_exists hla (anorm := a.anorm) hi1 hp1 hp2 (lap := 1) hr (w := [.b, .D2b]) (K := 1) (T := 2)
      (by decide +kernel) (by decide) (by decide)
    obtain ⟨P2, f2⟩ := odd_exists hla (anorm := a.anorm) hi1 hp1 hp2 (lap := 1) hr (w := [.bm]) (K := -1) (T := 0)
      (by decide +kernel) (by decide) (by decide)
    obtain ⟨P3, f3⟩ := odd_exists hla (anorm := a.anorm) hi1 hp1 hp2 (lap := 1) hr (w := [.Db]) (K := 0) (T := 1)
      (by decide +kernel) (by decide) (by decide)
    obtain ⟨M, g1, g2, -⟩ := C81_value_partial env.la hla a.anorm ha [(c, [.b, .D2b]), (d, [.bm]), (e, [.Db])]
      (a.lambda_base + (ls s.1 : ℝ)) (ls t.1 - ls s.1) lo hi' 1 (by omega) [P1, P2, P3]
      (.cons f1 (.cons f2 (.cons f3 .nil))) fun _ t rest e => by
        injection e with e1 e2
        subst e1 e2
        refine .inr fun x hx => ?_
        rcases List.mem_cons.1 hx with rfl | hx
        · rw [symbolic_bm hp1 hp2]; omega
        · rw [List.mem_singleton] at hx
          subst hx
          rw [symbolic_Db hp1 hp2]; omega
    exact ⟨M, g1, g2.1, g2.2.1⟩
  obtain ⟨c, hc⟩ := hCG s hs t ht
  obtain ⟨n, hn⟩ := state_v_nat h hs
  obtain ⟨m, hm⟩ := state_v_nat h ht
  have hls := hl _ hs
  have hlt := hl _ ht
  have hev1 := hev s hs t ht
  have hev2 := hev t ht s hs
  obtain ⟨v, x, L⟩ := s
  obtain ⟨v', x', L'⟩ := t
  dsimp only at hn hm hls hlt hev1 hev2 lc
  subst hn hm
  by_cases hL : L' = L
  swap
  · exact ⟨_, none, hls, fun i j => by unfold piqpiBlock; dsimp only; rw [if_pos hL]; rfl, fun B hB => by cases hB⟩
  obtain ⟨a1, a3⟩ := hev1 hL
  obtain ⟨b1, b3⟩ := hev2 hL.symm
  by_cases hv : (m : Int) - n = 3
  · obtain ⟨P, hP, r1, r2⟩ := lc (a3 (by omega)) 1 ((((n : Int) : ℝ) + 2) * (((n : Int) : ℝ) + 4)) (-2 * ((n : Int) : ℝ) - 5)
    obtain ⟨q, -, hq⟩ := C64_QxQxQred_p3 n
    refine ⟨_, some ((P.smul (q * (Convert_316 * Convert_red))).smul c), hls, fun i j => ?_, ?_⟩
    · unfold piqpiBlock
      dsimp only
      rw [if_neg (not_not.2 hL), hlt, py_bind_ok, if_pos hv, hP, py_bind_ok, hq, py_bind_ok, hc]
      rfl
    · rintro B ⟨⟩
      exact ⟨r1, r2⟩
  by_cases hv' : (m : Int) - n = -3
  · obtain ⟨P, hP, r1, r2⟩ := lc (by have := b3 (by omega); omega) 1 ((((n : Int) : ℝ) - 1) * (((n : Int) : ℝ) + 1))
      (2 * ((n : Int) : ℝ) + 1)
    obtain ⟨q, -, -, hq⟩ := C64_QxQxQred_m3_partial n (by omega)
    refine ⟨_, some ((P.smul (q * (Convert_316 * Convert_red) * Real.sqrt (2 * n / (n + 2)))).smul c), hls,
      fun i j => ?_, ?_⟩
    · unfold piqpiBlock
      dsimp only
      rw [if_neg (not_not.2 hL), hlt, py_bind_ok, if_neg hv, if_pos hv', hP, py_bind_ok, hq, py_bind_ok, hc]
      rfl
    · rintro B ⟨⟩
      exact ⟨r1, r2⟩
  · refine ⟨_, none, hls, fun i j => ?_, fun B hB => by cases hB⟩
    unfold piqpiBlock
    dsimp only
    rw [if_neg (not_not.2 hL), hlt, py_bind_ok, if_neg hv, if_neg hv', if_neg (by omega), if_neg (by omega)]
    rfl

/-- On the range `v = 0..6`, `L = 0` with the states `(0,1,0)`, `(3,1,0)` and `(6,1,0)`, the operator is represented in
the basis with fixed `lambda`, if the coefficients are known, and in no basis that respects parity. -/
example (env : XEnv) (hla : LinAlgOk env.la) (hCG : ∀ s t u, ∃ c, env.CG s t u = .ok c) :
    (∃ M, RepXspace_PiqPi env lambda_fix_fun ⟨1, 5 / 2, 0, 7, 0, 6, 0, 0⟩ = .ok M) ∧
      ∀ M, RepXspace_PiqPi env lambda_acm_fun ⟨1, 5 / 2, 0, 7, 0, 6, 0, 0⟩ ≠ .ok M := by
  have h : LegalRanges ⟨1, 5 / 2, 0, 7, 0, 6, 0, 0⟩ := by simp [LegalRanges]
  have hst : lbsSO5r3_rngVvarL 0 6 0 (some 0) = .ok [(0, 1, 0), (3, 1, 0), (6, 1, 0)] := by decide +kernel
  constructor
  · refine (C36_exact_partial hla h (by norm_num) hst (ls := fun _ => 0) (by decide +kernel) (fun _ _ => by norm_num)
      (fun n hn => ?_) fun _ _ _ _ => hCG _ _ _).2 (by decide)
    have : (5 : ℝ) = 2 * n := by linarith
    have : (5 : Int) = 2 * n := by exact_mod_cast this
    omega
  · exact C36_parity_fails C100_bases.2.1 h hst (s := (0, 1, 0)) (t := (3, 1, 0)) (by simp) (by simp) rfl rfl

end

end Acm.Props
