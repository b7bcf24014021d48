import Verif.Lemmas.Momentum
import Verif.Lemmas.Py

/-!
# C88: the momentum operators
-/

namespace Acm.Props

open Acm Acm.Spec Acm.Spec.Momentum Acm.Momentum MvPolynomial

/-! ## Radial operators on powers -/

theorem act_pow (t : RadSym) (f : ℝ → ℝ) (c s : ℝ) (hf : ∀ x, 0 < x → f x = c * x ^ s) : ∀ x, 0 < x →
    act t f x = match t with
      | .b => c * x ^ (s + 1)
      | .bm => c * x ^ (s - 1)
      | .b2 => c * x ^ (s + 2)
      | .bm2 => c * x ^ (s - 2)
      | .Db => c * s * x ^ (s - 1)
      | .D2b => c * s * (s - 1) * x ^ (s - 2)
      | .bDb => c * s * x ^ s
      | _ => 0 := by
  have hd : ∀ (g : ℝ → ℝ) (c s : ℝ), (∀ x, 0 < x → g x = c * x ^ s) → ∀ x, 0 < x →
      deriv g x = c * s * x ^ (s - 1) := by
    intro g c s hg x hx
    have : g =ᶠ[nhds x] fun y => c * y ^ s := by
      filter_upwards [lt_mem_nhds hx] with y hy using hg y hy
    rw [this.deriv_eq, deriv_const_mul _ (Real.differentiableAt_rpow_const_of_ne s hx.ne'), Real.deriv_rpow_const]
    ring
  intro x hx
  have e1 : x ^ (s + 1) = x * x ^ s := by rw [Real.rpow_add hx, Real.rpow_one, mul_comm]
  have e2 : x ^ (s - 1) = x ^ s / x := by rw [Real.rpow_sub hx, Real.rpow_one]
  have e3 : x ^ (s + 2) = x ^ 2 * x ^ s := by rw [Real.rpow_add hx, Real.rpow_two, mul_comm]
  have e4 : x ^ (s - 2) = x ^ s / x ^ 2 := by rw [Real.rpow_sub hx, Real.rpow_two]
  have h1 := hd f c s hf
  have h2 := hd (deriv f) (c * s) (s - 1) h1 x hx
  cases t <;> simp only [act]
  · rw [hf x hx, e3]; ring
  · rw [hf x hx, e4]; ring
  · rw [h2, sub_sub]; norm_num
  · rw [h1 x hx, e2]; field_simp
  · rw [hf x hx, e1]; ring
  · rw [hf x hx, e2]; ring
  · rw [h1 x hx]

/-- Two first-order terms. -/
theorem denotes_first (c : ℝ) : Denotes [(1, [.Db]), (c, [.bm])] (fun s => s + c) (-1) := by
  intro s x hx
  have h := fun t => act_pow t (fun y => y ^ s) 1 s (fun y _ => (one_mul _).symm) x hx
  simp only [lcAct, wordAct, List.map_cons, List.map_nil, List.foldr_cons, List.foldr_nil, List.sum_cons, List.sum_nil, h]
  rw [← sub_eq_add_neg]
  ring

theorem denotes_second (c d : ℝ) : Denotes [(1, [.D2b]), (c, [.bm2]), (d, [.bm2, .bDb])]
    (fun s => s * (s - 1) + c + d * s) (-2) := by
  intro s x hx
  have h := fun t => act_pow t (fun y => y ^ s) 1 s (fun y _ => (one_mul _).symm)
  have h2 := act_pow .bm2 _ _ _ (h .bDb) x hx
  simp only [lcAct, wordAct, List.map_cons, List.map_nil, List.foldr_cons, List.foldr_nil, List.sum_cons, List.sum_nil, h2,
    h _ x hx]
  rw [← sub_eq_add_neg]
  ring

theorem denotes_second' (c : ℝ) : Denotes [(1, [.D2b]), (c, [.bm2])] (fun s => s * (s - 1) + c) (-2) := by
  intro s x hx
  have h := fun t => act_pow t (fun y => y ^ s) 1 s (fun y _ => (one_mul _).symm)
  simp only [lcAct, wordAct, List.map_cons, List.map_nil, List.foldr_cons, List.foldr_nil, List.sum_cons, List.sum_nil,
    h _ x hx]
  rw [← sub_eq_add_neg]
  ring

theorem denotes_third (c d : ℝ) : Denotes [(1, [.b, .D2b]), (c, [.bm]), (d, [.Db])]
    (fun s => s * (s - 1) + c + d * s) (-1) := by
  intro s x hx
  have h := fun t => act_pow t (fun y => y ^ s) 1 s (fun y _ => (one_mul _).symm)
  have h2 := act_pow .b _ _ _ (h .D2b) x hx
  simp only [lcAct, wordAct, List.map_cons, List.map_nil, List.foldr_cons, List.foldr_nil, List.sum_cons, List.sum_nil, h2,
    h _ x hx]
  rw [← sub_eq_add_neg, show s - 2 + 1 = s - 1 by ring]
  ring

theorem denotes_third' (c : ℝ) : Denotes [(1, [.b, .D2b]), (c, [.bm])] (fun s => s * (s - 1) + c) (-1) := by
  intro s x hx
  have h := fun t => act_pow t (fun y => y ^ s) 1 s (fun y _ => (one_mul _).symm)
  have h2 := act_pow .b _ _ _ (h .D2b) x hx
  simp only [lcAct, wordAct, List.map_cons, List.map_nil, List.foldr_cons, List.foldr_nil, List.sum_cons, List.sum_nil, h2,
    h _ x hx]
  rw [← sub_eq_add_neg, show s - 2 + 1 = s - 1 by ring]
  ring

/-! ## C88 -/

/-- C88, the momentum: the gradient of a state of seniority `v` has parts of seniority `v + 1` and `v - 1`, the same as
those of `q`, each times a radial operator; the blocks of `RepXspace_Pi` are these radial operators times the
reduced matrix elements of `q`. -/
theorem C88_pi (v : ℕ) : ∃ up down : List (ℝ × List RadSym), ∃ gu gd : ℝ → ℝ,
    Denotes up gu (-1) ∧ Denotes down gd (-1) ∧
    (∀ (z : Fin 5 → ℂ) (h : P) (k : ℕ), Harmonic v h →
      Harmonic (v + 1) (U z v h) ∧ Harmonic (v - 1) (D z v h) ∧ q z h = U z v h + R (D z v h) ∧
      R (pi z ((R ^ k) h)) = (gu (v + 2 + 2 * k) : ℂ) • (R ^ k) (U z v h) +
        (gd (v + 2 + 2 * k) : ℂ) • (R ^ k) (R (D z v h))) ∧
    ∀ env lam a i j al L al' L' l, |L' - L| ≤ 2 →
      piBlock env lam a i j (v, al, L) (v + 1, al', L') l
        = factorBlock env lam a up 0 1 (Qred_p1 v) (1, 1, 2) (v, al, L) (v + 1, al', L') l ∧
      piBlock env lam a i j (v, al, L) (v - 1, al', L') l
        = factorBlock env lam a down 0 1 (Qred_m1 v) (1, 1, 2) (v, al, L) (v - 1, al', L') l := by
  refine ⟨_, _, _, _, denotes_first (-(v : Int) - 2), denotes_first ((v : Int) + 1), ?_, ?_⟩
  · intro z h k hh
    refine ⟨harm_U hh, harm_D hh, q_split z v h, ?_⟩
    rw [gradient z v k h]
    push_cast
    congr 2 <;> ring
  · intro env lam a i j al L al' L' l hL
    have hL' := abs_le.1 hL
    have c0 : ¬ (L' - L > 2 ∨ L' - L < -2) := by omega
    have c1 : (v : Int) + 1 - v = 1 := by omega
    have c2 : ¬ (v : Int) - 1 - v = 1 := by omega
    have c3 : (v : Int) - 1 - v = -1 := by omega
    constructor
    · simp only [piBlock, factorBlock, xLC, one_mul, if_neg c0, if_pos c1]
    · simp only [piBlock, factorBlock, xLC, one_mul, if_neg c0, if_neg c2, if_pos c3]

/-- C88, `[pi x pi]`: the parts of a second derivative of a state of seniority `v` are those of `q q`, each times a
radial operator; the blocks that the loop body of `RepXspace_PiPi` computes are these radial operators
times the reduced matrix elements of `[q x q]` (the minus sign is that of `(-i)^2`). -/
theorem C88_pipi (v : ℕ) : ∃ l2 l0 lm2 : List (ℝ × List RadSym), ∃ g2 g0 gm2 : ℝ → ℝ,
    Denotes l2 g2 (-2) ∧ Denotes l0 g0 (-2) ∧ Denotes lm2 gm2 (-2) ∧
    (∀ (z : Fin 5 → ℂ) (h : P) (k : ℕ), Null z → Harmonic v h →
      ∃ Q2 Q0 Qm2 : P, Harmonic (v + 2) Q2 ∧ Harmonic v Q0 ∧ Harmonic (v - 2) Qm2 ∧
      q z (q z h) = Q2 + R Q0 + R (R Qm2) ∧
      R (R (pi z (pi z ((R ^ k) h)))) = (g2 (v + 2 + 2 * k) : ℂ) • (R ^ k) Q2 +
        (g0 (v + 2 + 2 * k) : ℂ) • (R ^ k) (R Q0) + (gm2 (v + 2 + 2 * k) : ℂ) • (R ^ k) (R (R Qm2))) ∧
    ∀ env lam T a i j al L al' L' l, |L' - L| ≤ T →
      pipiBlock env lam T a i j (v, al, L) (v + 2, al', L') l
        = factorBlock env lam a l2 0 (-1) (QxQred_p2 v) (2, 1, T) (v, al, L) (v + 2, al', L') l ∧
      pipiBlock env lam T a i j (v, al, L) (v, al', L') l
        = factorBlock env lam a l0 0 (-1) (QxQred_0 v) (2, 1, T) (v, al, L) (v, al', L') l ∧
      pipiBlock env lam T a i j (v, al, L) (v - 2, al', L') l
        = factorBlock env lam a lm2 0 (-1) (QxQred_m2 v) (2, 1, T) (v, al, L) (v - 2, al', L') l := by
  refine ⟨_, _, _, _, _, _, denotes_second ((((v : Int) : ℝ) + 2) * (((v : Int) : ℝ) + 4)) (-2 * ((v : Int) : ℝ) - 5),
    denotes_second' (-(((v : Int) : ℝ) + 1) * (((v : Int) : ℝ) + 2)),
    denotes_second ((((v : Int) : ℝ) - 1) * (((v : Int) : ℝ) + 1)) (2 * ((v : Int) : ℝ) + 1), ?_, ?_⟩
  · intro z h k hz hh
    refine ⟨U z (v + 1) (U z v h), U z (v - 1) (D z v h) + D z (v + 1) (U z v h), D z (v - 1) (D z v h), ?_, ?_, ?_,
      qq_split v h, ?_⟩
    · exact_mod_cast harm_U (z := z) (harm_U (z := z) hh)
    · exact harm_add (harm_UD hh) (harm_DU hh)
    · exact harm_DD hh
    · rw [pipi_split hz v k h]
      push_cast
      congr 3 <;> ring
  · intro env lam T a i j al L al' L' l hL
    have hL' := abs_le.1 hL
    have c0 : ¬ (L' - L > T ∨ L' - L < -T) := by omega
    have c1 : (v : Int) + 2 - v = 2 := by omega
    have c2 : ¬ (v : Int) - v = 2 := by omega
    have c3 : ¬ (v : Int) - v = -2 := by omega
    have c4 : (v : Int) - v = 0 := by omega
    have c5 : ¬ (v : Int) - 2 - v = 2 := by omega
    have c6 : (v : Int) - 2 - v = -2 := by omega
    refine ⟨?_, ?_, ?_⟩
    · simp only [pipiBlock, factorBlock, xLC, neg_one_mul, if_neg c0, if_pos c1]
    · simp only [pipiBlock, factorBlock, xLC, neg_one_mul, if_neg c0, if_neg c2, if_neg c3, if_pos c4]
    · simp only [pipiBlock, factorBlock, xLC, neg_one_mul, if_neg c0, if_neg c5, if_pos c6]

/-- C88, `[pi x q x pi]`, the parts whose seniority is changed by three.  The parts of `pi q pi` of a state of seniority `v`
are: those of `q q q` for a change by three, each times a radial operator; for a change by one, the part of
`q q q` times a radial operator, and a second radial operator times the contribution of the paths through
`v + 2` or `v - 2` (`V`, `W`), with the factors `-(2 v + 5)` and `2 v + 1`.  The blocks that the loop body of
`RepXspace_PiqPi` computes for a change by three are the radial operators times the reduced matrix
elements of `[q x q x q]`.

What is missing for a change by one: `v_fin = v_init + 1` raises (C36), `v_fin = v_init - 1` has the wrong
factor (`C88_piqpi_fails`). -/
theorem C88_piqpi_partial (v : ℕ) : ∃ l3 lm3 l1 lu ld : List (ℝ × List RadSym), ∃ g3 gm3 g1 gu gd : ℝ → ℝ,
    Denotes l3 g3 (-1) ∧ Denotes lm3 gm3 (-1) ∧ Denotes l1 g1 (-1) ∧ Denotes lu gu (-1) ∧ Denotes ld gd (-1) ∧
    (∀ (z : Fin 5 → ℂ) (h : P) (k : ℕ), Null z → Harmonic v h →
      ∃ Q3 Q1 Qm1 Qm3 V W : P, Harmonic (v + 3) Q3 ∧ Harmonic (v + 1) Q1 ∧ Harmonic (v - 1) Qm1 ∧
      Harmonic (v - 3) Qm3 ∧ Harmonic (v + 1) V ∧ Harmonic (v - 1) W ∧
      q z (q z (q z h)) = Q3 + R Q1 + R (R Qm1) + R (R (R Qm3)) ∧
      V = D z (v + 2) (U z (v + 1) (U z v h)) ∧ W = U z (v - 2) (D z (v - 1) (D z v h)) ∧
      R (R (pi z (q z (pi z ((R ^ k) h))))) = (g3 (v + 2 + 2 * k) : ℂ) • (R ^ k) Q3 +
        (R ^ k) (R ((g1 (v + 2 + 2 * k) : ℂ) • Q1 - ((2 * v + 5) * gu (v + 2 + 2 * k) : ℂ) • V)) +
        (R ^ k) (R (R ((g1 (v + 2 + 2 * k) : ℂ) • Qm1 + ((2 * v + 1) * gd (v + 2 + 2 * k) : ℂ) • W))) +
        (gm3 (v + 2 + 2 * k) : ℂ) • (R ^ k) (R (R (R Qm3)))) ∧
    ∀ env lam a i j al al' L l,
      piqpiBlock env lam a i j (v, al, L) (v + 3, al', L) l
        = factorBlock env lam a l3 1 1 (QxQxQred_p3 v) (3, 1, 0) (v, al, L) (v + 3, al', L) l ∧
      piqpiBlock env lam a i j (v, al, L) (v - 3, al', L) l
        = factorBlock env lam a lm3 1 1 (QxQxQred_m3 v) (3, 1, 0) (v, al, L) (v - 3, al', L) l := by
  refine ⟨_, _, _, _, _, _, _, _, _, _,
    denotes_third ((((v : Int) : ℝ) + 2) * (((v : Int) : ℝ) + 4)) (-2 * ((v : Int) : ℝ) - 5),
    denotes_third ((((v : Int) : ℝ) - 1) * (((v : Int) : ℝ) + 1)) (2 * ((v : Int) : ℝ) + 1),
    denotes_third' (-(((v : Int) : ℝ) + 1) * (((v : Int) : ℝ) + 2)),
    denotes_first (-((v : Int) : ℝ) - 2), denotes_first (((v : Int) : ℝ) + 1), ?_, ?_⟩
  · intro z h k hz hh
    have hDU := harm_DU (z := z) hh
    have hUD := harm_UD (z := z) hh
    have hUU := harm_U' (z := z) (w := v + 1) (harm_U (z := z) hh) (by push_cast; ring)
    have hV := harm_D' (z := z) (w := v + 2) hUU (Or.inl (by push_cast; ring))
    have hW := harm_UDD (z := z) hh
    refine ⟨U z (v + 2) (U z (v + 1) (U z v h)),
      D z (v + 2) (U z (v + 1) (U z v h)) + U z v (D z (v + 1) (U z v h)) + U z v (U z (v - 1) (D z v h)),
      U z (v - 2) (D z (v - 1) (D z v h)) + D z v (U z (v - 1) (D z v h)) + D z v (D z (v + 1) (U z v h)),
      D z (v - 2) (D z (v - 1) (D z v h)), _, _, harm_U' hUU (by push_cast; ring),
      harm_add (harm_add hV (harm_U hDU)) (harm_U hUD), harm_add (harm_add hW (harm_D hUD)) (harm_D hDU),
      harm_DDD hh, hV, hW, qqq_split v h, rfl, rfl, ?_⟩
    have a3 : ((((v : ℝ) + 2 + 2 * k) * (((v : ℝ) + 2 + 2 * k) - 1) + (((v : Int) : ℝ) + 2) * (((v : Int) : ℝ) + 4)
        + (-2 * ((v : Int) : ℝ) - 5) * ((v : ℝ) + 2 + 2 * k) : ℝ) : ℂ) = 4 * k * (k - 1) := by
      push_cast; ring
    have am3 : ((((v : ℝ) + 2 + 2 * k) * (((v : ℝ) + 2 + 2 * k) - 1) + (((v : Int) : ℝ) - 1) * (((v : Int) : ℝ) + 1)
        + (2 * ((v : Int) : ℝ) + 1) * ((v : ℝ) + 2 + 2 * k) : ℝ) : ℂ)
        = (2 * k + 2 * v + 3) * (2 * k + 2 * v + 1) := by
      push_cast; ring
    have a1 : ((((v : ℝ) + 2 + 2 * k) * (((v : ℝ) + 2 + 2 * k) - 1)
        + -(((v : Int) : ℝ) + 1) * (((v : Int) : ℝ) + 2) : ℝ) : ℂ) = 2 * k * (2 * k + 2 * v + 3) := by
      push_cast; ring
    have au : ((((v : ℝ) + 2 + 2 * k) + (-((v : Int) : ℝ) - 2) : ℝ) : ℂ) = 2 * k := by push_cast; ring
    have ad : ((((v : ℝ) + 2 + 2 * k) + (((v : Int) : ℝ) + 1) : ℝ) : ℂ) = 2 * k + 2 * v + 3 := by push_cast; ring
    rw [a3, am3, a1, au, ad, piqpi_split hz v k h]
    simp only [Int.cast_natCast]
  · intro env lam a i j al al' L l
    have c1 : (v : Int) + 3 - v = 3 := by omega
    have c2 : ¬ (v : Int) - 3 - v = 3 := by omega
    have c3 : (v : Int) - 3 - v = -3 := by omega
    refine ⟨?_, ?_⟩
    · simp only [piqpiBlock, factorBlock, xLC, one_mul, ne_eq, not_true_eq_false, if_false, if_pos c1]
    · simp only [piqpiBlock, factorBlock, xLC, one_mul, ne_eq, not_true_eq_false, if_false, if_neg c2, if_pos c3]

/-- C88 fails for `[pi x q x pi]` and `v_fin = v_init - 1`: the second radial operator has the factor `2 v`
(line 1310: `-(2 * v_init)`, `QixQxQred` contains a minus sign; the Maple code has `2*v_init+1`).  `piqpiDown` is `l1` times the
reduced matrix element of `[q x q x q]` plus `ld` times `-2 v` times `QixQxQred`; with `2 v` the
part of `pi q pi` with seniority `v - 1` is not what it should be. -/
theorem C88_piqpi_fails (v : ℕ) (hv : 2 ≤ v) : ∃ l1 ld : List (ℝ × List RadSym), ∃ g1 gd : ℝ → ℝ,
    Denotes l1 g1 (-1) ∧ Denotes ld gd (-1) ∧
    (∀ env a l l', piqpiDown env a v (v - 1) l l' = (do
      let M ← RepRadial_LC env.la l1 a.anorm (a.lambda_base + l) (l' - l) a.nu_min a.nu_max 0
      let M' ← RepRadial_LC env.la ld a.anorm (a.lambda_base + l) (l' - l) a.nu_min a.nu_max 0
      let c ← QxQxQred_m1 v
      let c' ← QixQxQred env.CG v (v - 1) (v - 2)
      pure ((M.smul c).add (M'.smul (-(2 * ((v : Int) : ℝ)) * c'))))) ∧
    ¬ ∀ (z : Fin 5 → ℂ) (h : P) (k : ℕ), Null z → Harmonic v h →
      ∃ Q3 Q1 Qm1 Qm3 H1 : P, Harmonic (v + 3) Q3 ∧ Harmonic (v + 1) Q1 ∧ Harmonic (v - 1) Qm1 ∧
      Harmonic (v - 3) Qm3 ∧ Harmonic (v + 1) H1 ∧ q z (q z (q z h)) = Q3 + R Q1 + R (R Qm1) + R (R (R Qm3)) ∧
      ∃ c3 cm3 : ℂ, R (R (pi z (q z (pi z ((R ^ k) h))))) = (R ^ k) (c3 • Q3 + R H1 +
        R (R ((g1 (v + 2 + 2 * k) : ℂ) • Qm1 +
          (2 * v * gd (v + 2 + 2 * k) : ℂ) • U z (v - 2) (D z (v - 1) (D z v h)))) + R (R (R (cm3 • Qm3)))) := by
  refine ⟨_, _, _, _, denotes_third' (-(((v : Int) : ℝ) + 1) * (((v : Int) : ℝ) + 2)),
    denotes_first (((v : Int) : ℝ) + 1), ?_, ?_⟩
  · intro env a l l'
    simp only [piqpiDown, xLC, show (v : Int) - 1 - 1 = v - 2 by ring]
  · intro H
    obtain ⟨Q3, Q1, Qm1, Qm3, H1, h3, h1, hm1, hm3, hH, hq, c3, cm3, hp⟩ := H zv (zpow wv v) 0 null_zv (harm_zpow null_wv v)
    have hh := harm_zpow null_wv v
    have hDU := harm_DU (z := zv) hh
    have hUD := harm_UD (z := zv) hh
    have hUU := harm_U' (z := zv) (w := v + 1) (harm_U (z := zv) hh) (by push_cast; ring)
    have hUUU := harm_U' (z := zv) (w := v + 2) hUU (by push_cast; ring)
    have hV := harm_D' (z := zv) (w := v + 2) hUU (Or.inl (by push_cast; ring))
    have hW := harm_UDD (z := zv) hh
    have hDDD := harm_DDD (z := zv) hh
    have hs1 := harm_add (harm_add hV (harm_U (z := zv) hDU)) (harm_U (z := zv) hUD)
    have hsm1 := harm_add (harm_add hW (harm_D (z := zv) hUD)) (harm_D (z := zv) hDU)
    have hW0 := UDD_ne hv
    rw [qqq_split v] at hq
    rw [piqpi_split null_zv v 0] at hp
    have em := parts_third hUUU hs1 hsm1 hDDD h3 h1 hm1 hm3 hq
    rw [em] at hp
    replace em := parts_third' hUUU (harm_sub (harm_smul _ hs1) (harm_smul _ hV))
      (harm_add (harm_smul _ hm1) (harm_smul _ hW)) hDDD (harm_smul c3 h3) hH
      (harm_add (harm_smul _ hm1) (harm_smul _ hW)) (harm_smul cm3 hm3) hp
    have hc : (((v : ℝ) + 2 + 2 * ((0 : ℕ) : ℝ)) * ((v : ℝ) + 2 + 2 * ((0 : ℕ) : ℝ) - 1)
        + -(((v : Int) : ℝ) + 1) * (((v : Int) : ℝ) + 2) : ℝ) = 0 := by push_cast; ring
    have hd : (((v : ℝ) + 2 + 2 * ((0 : ℕ) : ℝ) + (((v : Int) : ℝ) + 1) : ℝ) : ℂ) = 2 * v + 3 := by push_cast; ring
    rw [hc, hd, ← sub_eq_zero] at em
    have : (2 * v + 3 : ℂ) • U zv (v - 2) (D zv (v - 1) (D zv v (zpow wv v))) = 0 := by
      rw [← em]
      push_cast
      module
    rcases smul_eq_zero.1 this with h | h
    · have : ((2 * v + 3 : ℕ) : ℂ) = 0 := by push_cast; exact h
      have := Nat.cast_eq_zero.1 this
      omega
    · exact hW0 h

/-- The hypotheses can be met: a null vector and a state of seniority `v`, for every `v`. -/
example (v : ℕ) : Null zv ∧ Harmonic v (zpow wv v) ∧ zpow wv v ≠ 0 := by
  refine ⟨null_zv, harm_zpow null_wv v, fun h => ?_⟩
  have := congrArg (eval xv) h
  simp [zpow, wv, xv, Fin.sum_univ_succ] at this

end Acm.Props
