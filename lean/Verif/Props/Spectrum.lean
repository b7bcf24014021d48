import Verif.Lemmas.RadialHam
import Verif.Spec.Spectrum

/-!
# Property C95: the exactly solvable Hamiltonians
-/

namespace Acm.Props

open Acm Acm.Spec

theorem map_addTerm {F : Coeff × OperatorProduct → ℝ} {op : OperatorSum} {c c2 : Coeff} {prod : OperatorProduct}
    (h : c = 0 → F (c2, prod) = 0) : ((addTerm op c c2 prod).map F).sum = (op.map F).sum + F (c2, prod) := by
  unfold addTerm
  split_ifs with hc
  · rw [List.map_append, List.sum_append]
    simp
  · rw [h (not_not.1 hc), add_zero]

/-- The matrix elements of five products between equal spherical states, for `lambda = l`, when nu runs from lo to hi: the
square of beta^2 is the square of the truncated matrix. -/
noncomputable def radElem (lo hi : ℕ) (a l : ℝ) (i j : ℕ) : OperatorProduct → ℝ
  | [] => if i = j then 1 else 0
  | [.rad .b2] => a ^ (-2 : Int) * (vSp l i j + vSm l i j + 2 * vS0 l i j)
  | [.rad .b2, .rad .b2] => a ^ (-4 : Int) * ∑ k ∈ Finset.Icc lo hi,
      (vSp l i k + vSm l i k + 2 * vS0 l i k) * (vSp l k j + vSm l k j + 2 * vS0 l k j)
  | [.rad .bm2] => a ^ (2 : Int) * vbm2 l i j
  | [.rad .D2b] => a ^ (2 : Int) * (vSp l i j + vSm l i j - 2 * vS0 l i j + (l - 3 / 2) * (l - 1 / 2) * vbm2 l i j)
  | _ => 0

theorem radHam_terms (c11 c20 c21 c22 c23 : Coeff) : ∀ t ∈ ACM_Hamiltonian (c11 := c11) (c20 := c20) (c21 := c21) (c22 := c22) (c23 := c23),
    t.2 = [] ∨ t.2 = [.rad .b2] ∨ t.2 = [.rad .bm2] ∨ t.2 = [.rad .D2b] ∨ t.2 = [.rad .b2, .rad .b2] := by
  unfold ACM_Hamiltonian
  simp only [zero_mul]
  repeat' first
    | (refine mem_addTerm (P := fun t => t.2 = [] ∨ t.2 = [.rad .b2] ∨ t.2 = [.rad .bm2] ∨ t.2 = [.rad .D2b] ∨ t.2 = [.rad .b2, .rad .b2])
        (fun h => absurd rfl h) ?_)
    | (refine mem_addTerm (P := fun t => t.2 = [] ∨ t.2 = [.rad .b2] ∨ t.2 = [.rad .bm2] ∨ t.2 = [.rad .D2b] ∨ t.2 = [.rad .b2, .rad .b2])
        (fun h => by simp) ?_)
  split_ifs
  · simp
  · simp

theorem radHam_sum (c11 c20 c21 c22 c23 : Coeff) (x : XspaceLabel) (f : OperatorProduct → ℝ) :
    ((ACM_Hamiltonian (c11 := c11) (c20 := c20) (c21 := c21) (c22 := c22) (c23 := c23)).map fun t => t.1 x * f t.2).sum =
      c11 x * (f [.rad .D2b] - (2 + x.2.1 * (x.2.1 + 3)) * f [.rad .bm2]) + c20 x * f [] + c21 x * f [.rad .b2]
        + c22 x * f [.rad .b2, .rad .b2]
        + c23 x * f [.rad .bm2] := by
  have h11 : (((open Classical in if c11 = 0 then []
      else [(c11, [OpSym.rad .D2b]), (-c11 * (2 + SENIORITY * (SENIORITY + 3)), [.rad .bm2])] : OperatorSum).map
        fun t => t.1 x * f t.2).sum) = c11 x * (f [.rad .D2b] - (2 + x.2.1 * (x.2.1 + 3)) * f [.rad .bm2]) := by
    split_ifs with h0
    · rw [h0]; simp
    · simp [SENIORITY]
      ring
  unfold ACM_Hamiltonian
  simp only []
  repeat rw [map_addTerm (by intro h; simp [h])]
  rw [h11]
  simp

/-- The matrix of the Hamiltonian `c11 laplacian + c20 + c21 beta^2 + c23 / beta^2`, with coefficients that may depend on
the labels: it connects only states with the same spherical labels. -/
theorem radHam_matrix {a : XArgs} (h : LegalRanges a) {env : XEnv} (hla : LinAlgOk env.la) (ha : a.anorm ≠ 0)
    {lam : LambdaFunction} {ls : Int → Int} (hl : ∀ v, a.v_min ≤ v → v ≤ a.v_max → lam v = .ok (ls v))
    (hpos : ∀ v, a.v_min ≤ v → v ≤ a.v_max → 0 < a.lambda_base + ls v)
    (hne : ∀ v, a.v_min ≤ v → v ≤ a.v_max → a.lambda_base + ls v ≠ 1) (c11 c20 c21 c22 c23 : Coeff) :
    ∃ M, allMat env a (ACM_Hamiltonian (c11 := c11) (c20 := c20) (c21 := c21) (c22 := c22) (c23 := c23)) lam = .ok M ∧ Square a.dim M ∧
      ∀ p q x y, a.xlabels[p]? = some x → a.xlabels[q]? = some y →
        M.e p q = if x.2 = y.2 then
          c11 y * (radElem a.nu_min.toNat a.nu_max.toNat a.anorm (a.lambda_base + ls y.2.1) x.1.toNat y.1.toNat [.rad .D2b] - (2 + y.2.1 * (y.2.1 + 3)) *
              radElem a.nu_min.toNat a.nu_max.toNat a.anorm (a.lambda_base + ls y.2.1) x.1.toNat y.1.toNat [.rad .bm2])
            + c20 y * radElem a.nu_min.toNat a.nu_max.toNat a.anorm (a.lambda_base + ls y.2.1) x.1.toNat y.1.toNat []
            + c21 y * radElem a.nu_min.toNat a.nu_max.toNat a.anorm (a.lambda_base + ls y.2.1) x.1.toNat y.1.toNat [.rad .b2]
            + c22 y * radElem a.nu_min.toNat a.nu_max.toNat a.anorm (a.lambda_base + ls y.2.1) x.1.toNat y.1.toNat [.rad .b2, .rad .b2]
            + c23 y * radElem a.nu_min.toNat a.nu_max.toNat a.anorm (a.lambda_base + ls y.2.1) x.1.toNat y.1.toNat [.rad .bm2]
          else 0 := by
  let lab : ℕ → XspaceLabel := fun p => a.xlabels.getD p (0, 0, 0, 0)
  have hlab : ∀ {p x}, a.xlabels[p]? = some x → lab p = x := fun hp => by
    simp only [lab, List.getD_eq_getElem?_getD, hp, Option.getD_some]
  have hlab' : ∀ {p}, p < a.dim → a.xlabels[p]? = some (lab p) := fun hp => by
    rw [← length_xlabels] at hp
    rw [List.getElem?_eq_getElem hp, ← hlab (List.getElem?_eq_getElem hp)]
  let f : OperatorProduct → ℕ → ℕ → ℝ := fun w p q =>
    if (lab p).2 = (lab q).2 then radElem a.nu_min.toNat a.nu_max.toNat a.anorm (a.lambda_base + ls (lab q).2.1) (lab p).1.toNat (lab q).1.toNat w else 0
  have hrad : ∀ {r : RadSym} {prim : Prim} (_ : closedForm (some r) 0 = some prim) (_ : (OpSym.rad r).radial? = some r)
      (g : ℝ → ℕ → ℕ → ℝ) (_ : ∀ l, 0 < l → l ≠ 1 → Entries (primME prim l) (g l))
      (_ : ∀ l i j, radElem a.nu_min.toNat a.nu_max.toNat a.anorm l i j [.rad r] = a.anorm ^ symExpo r * g l i j),
      ∃ P, prodMat env a [.rad r] lam = .ok P ∧ ∀ p q, p < a.dim → q < a.dim → P.e p q = f [.rad r] p q := by
    intro r prim hc hr g hg he
    obtain ⟨M, hM, hMe⟩ := twin_radial h hla ha (lam := lam) hc hl hpos (fun v h1 h2 hs => hne v h1 h2 hs.2) (g := g)
      (fun v h1 h2 => hg _ (hpos v h1 h2) (hne v h1 h2))
    refine ⟨M, by rw [prodMat_rad h hr]; exact hM, fun p q hp hq => ?_⟩
    rw [hMe p q _ _ (hlab' hp) (hlab' hq)]
    simp only [f, he]
  have hf : ∀ t ∈ ACM_Hamiltonian (c11 := c11) (c20 := c20) (c21 := c21) (c22 := c22) (c23 := c23), ∃ P, prodMat env a t.2 lam = .ok P ∧
      ∀ p q, p < a.dim → q < a.dim → P.e p q = f t.2 p q := by
    intro t ht
    rcases radHam_terms c11 c20 c21 c22 c23 t ht with e | e | e | e | e <;> rw [e]
    · obtain ⟨n, hn, hT⟩ := C29_identity h env lam (states_ok h) (fun s => ls s.1)
        (fun s hs => hl _ (state_v hs).1 (state_v hs).2) (fun s hs => hpos _ (state_v hs).1 (state_v hs).2)
      rw [dimXspace_ok h] at hn
      injection hn with hn
      have hn : a.dim = n := by exact_mod_cast hn
      subst hn
      refine ⟨_, by rw [prodMat_empty h]; exact hT, fun p q hp hq => ?_⟩
      have hxp := hlab' hp
      have hxq := hlab' hq
      have hnd : a.xlabels.Nodup := C27_distinct h (lbsXspace_ok h)
      have hiff : p = q ↔ lab p = lab q := by
        constructor
        · rintro rfl; rfl
        · intro hh
          refine (List.getElem?_inj (by rw [length_xlabels]; exact hp) hnd).1 ?_
          rw [hxp, hxq, hh]
      obtain ⟨_, x1, _, hx1, _, hn1⟩ := xlabels_split (nu := (lab p).1) (s := (lab p).2) hxp
      obtain ⟨_, x2, _, hx2, _, hn2⟩ := xlabels_split (nu := (lab q).1) (s := (lab q).2) hxq
      have h0 := h.1.1
      have hnu : (lab p).1.toNat = (lab q).1.toNat ↔ (lab p).1 = (lab q).1 := by omega
      have : (Arr.eye a.dim).e p q = if p = q then 1 else 0 := by
        simp only [Arr.eye, Arr.of]
        split_ifs <;> first | rfl | (exfalso; omega)
      rw [this]
      have hpe : lab p = lab q ↔ (lab p).1 = (lab q).1 ∧ (lab p).2 = (lab q).2 := Prod.ext_iff
      simp only [f, radElem, hiff, hpe, hnu]
      by_cases h1 : (lab p).1 = (lab q).1 <;> by_cases h2 : (lab p).2 = (lab q).2 <;> simp [h1, h2]
    · exact hrad rfl rfl _ (fun l hl _ => b2_ok hl) fun _ _ _ => rfl
    · exact hrad rfl rfl _ (fun l hl h1 => bm2_ok hl h1) fun _ _ _ => rfl
    · exact hrad rfl rfl _ (fun l hl h1 => D2b_ok hl h1) fun _ _ _ => rfl
    · obtain ⟨n0, e0⟩ := Int.eq_ofNat_of_zero_le h.1.1
      obtain ⟨n1, e1⟩ := Int.eq_ofNat_of_zero_le (h.1.1.trans h.1.2)
      have hle := h.1.2
      obtain ⟨M, hM, hMe⟩ := twin_diag h hla ha (lam := lam) (rs := [.b2, .b2]) hl
        (G := fun v f i => radElem a.nu_min.toNat a.nu_max.toNat a.anorm (a.lambda_base + ls v) f.toNat i.toNat
          [.rad .b2, .rad .b2]) fun v h1 h2 => by
        obtain ⟨y, y1, _, y2⟩ := banded_window env.la hla ha (ops := [.b2, .b2]) (hpos v h1 h2) (nu_min := n0) (nu_max := n1)
          (nu_lap := 0) (by omega) (.cons ⟨.b2, rfl, b2_ok (hpos v h1 h2)⟩ (.cons ⟨.b2, rfl, b2_ok (hpos v h1 h2)⟩ .nil))
        refine ⟨y, by rw [e0, e1]; exact y1, fun f i hf hi => ?_⟩
        rw [y2 _ (by omega) _ (by omega), show n0 + (f - a.nu_min).toNat = f.toNat by omega,
          show n0 + (i - a.nu_min).toNat = i.toNat by omega]
        have hi' : i.toNat ∈ Finset.Icc n0 n1 := Finset.mem_Icc.2 (by omega)
        simp only [windowProd, opId, mul_ite, mul_one, mul_zero, Finset.sum_ite_eq', Nat.sub_zero, Nat.add_zero, if_pos hi',
          e0, e1, Int.toNat_natCast, radElem]
        rfl
      refine ⟨M, ?_, fun p q hp hq => ?_⟩
      · unfold prodMat
        rw [check_ok h, py_bind_ok, show segsOf [.rad .b2, .rad .b2] [] [] = [.twin [.b2, .b2] []] from rfl]
        simp only [segMat, segsMat]
        rw [hM]
        rfl
      · rw [hMe p q _ _ (hlab' hp) (hlab' hq)]
  obtain ⟨M, hM, hsq, hMe⟩ := rep_sum h hf
  refine ⟨M, hM, hsq, fun p q x y hp hq => ?_⟩
  have hp' : p < a.dim := by rw [← length_xlabels]; exact (List.getElem?_eq_some_iff.1 hp).1
  rw [hMe p q y hp' hq, radHam_sum c11 c20 c21 c22 c23 y fun w => f w p q]
  simp only [f, hlab hp, hlab hq]
  split_ifs
  · rfl
  · ring

/-- The condition under which the basis diagonalises the Hamiltonian. -/
theorem radHam_diagonal {c11 c20 c21 c23 a l v : ℝ} (h11 : c11 ≠ 0) (ha : 0 < a) (hk : c11 * a ^ 4 = -c21)
    (hd : (l - 1) ^ 2 = (v + 3 / 2) ^ 2 - c23 / c11) (lo hi i j : ℕ) :
    c11 * (radElem lo hi a l i j [.rad .D2b] - (2 + v * (v + 3)) * radElem lo hi a l i j [.rad .bm2]) + c20 * radElem lo hi a l i j []
      + c21 * radElem lo hi a l i j [.rad .b2] + c23 * radElem lo hi a l i j [.rad .bm2]
      = if i = j then c20 - c11 * a ^ 2 * (4 * j + 2 * l) else 0 := by
  have hd' : c11 * (l - 1) ^ 2 = c11 * (v + 3 / 2) ^ 2 - c23 := by rw [hd]; field_simp
  have e1 : c21 * a ^ (-2 : Int) = -(c11 * a ^ 2) := by
    have : c21 = -(c11 * a ^ 4) := by linarith
    rw [this, zpow_neg]
    have : a ≠ 0 := ha.ne'
    field_simp
  have e2 : c11 * ((l - 3 / 2) * (l - 1 / 2) - (2 + v * (v + 3))) + c23 = 0 := by linear_combination hd'
  have e3 : a ^ (2 : Int) = a ^ 2 := by norm_cast
  have key : c11 * (radElem lo hi a l i j [.rad .D2b] - (2 + v * (v + 3)) * radElem lo hi a l i j [.rad .bm2])
      + c21 * radElem lo hi a l i j [.rad .b2] + c23 * radElem lo hi a l i j [.rad .bm2] = -(4 * c11 * a ^ 2) * vS0 l i j := by
    simp only [radElem, e3]
    linear_combination (vSp l i j + vSm l i j + 2 * vS0 l i j) * e1 + a ^ 2 * vbm2 l i j * e2
  have : c11 * (radElem lo hi a l i j [.rad .D2b] - (2 + v * (v + 3)) * radElem lo hi a l i j [.rad .bm2]) + c20 * radElem lo hi a l i j []
      + c21 * radElem lo hi a l i j [.rad .b2] + c23 * radElem lo hi a l i j [.rad .bm2]
      = -(4 * c11 * a ^ 2) * vS0 l i j + c20 * radElem lo hi a l i j [] := by rw [← key]; ring
  rw [this]
  simp only [vS0, radElem]
  split_ifs
  · ring
  · ring

/-- C95: let the Hamiltonian be `c11 laplacian + c20 + c21 beta^2 + c23 / beta^2` (the five-dimensional harmonic
oscillator, and the Davidson potential), with the scale and the lambdas of the basis matched to it: `a^4 = -c21 / c11`,
and `(lambda_v - 1)^2 = (v + 3/2)^2 - c23 / c11` for every seniority in the range.  Then `DigXspace` succeeds, reports
exactly the occupied angular momenta, and for each of them the energies `c20 - c11 a^2 (4 nu + 2 lambda_v)` of the labels
`(nu, v, alpha, L)` with this L, in ascending order and with the right multiplicities, however the basis is truncated. -/
theorem C95_spectrum {a : XArgs} (h : LegalRanges a) {env : XEnv} (hla : LinAlgOk env.la) {c11 c20 c21 c23 : ℝ}
    (h11 : c11 ≠ 0) (ha : 0 < a.anorm) (hk : c11 * a.anorm ^ 4 = -c21) {s : FState} (hs : MemoOk env s.xs)
    {ls : Int → Int} (hl : ∀ v, a.v_min ≤ v → v ≤ a.v_max → s.glb.lam_fun v = .ok (ls v))
    (hpos : ∀ v, a.v_min ≤ v → v ≤ a.v_max → 0 < a.lambda_base + ls v ∧ a.lambda_base + ls v ≠ 1)
    (hd : ∀ v, a.v_min ≤ v → v ≤ a.v_max → (a.lambda_base + ls v - 1) ^ 2 = (v + 3 / 2) ^ 2 - c23 / c11) :
    ∃ r s', DigXspace env (ACM_Hamiltonian (c11 := kC c11) (c20 := kC c20) (c21 := kC c21) (c23 := kC c23)) a s
        = (.ok r, s') ∧ OccupiedL a (r.map LEig.L) ∧
      ∀ x ∈ r, ∃ xs, lbsXspace a.nu_min a.nu_max a.v_min a.v_max x.L (some x.L) = .ok xs ∧
        IsSpectrum (oscEnergy c11 c20 a.anorm fun v => a.lambda_base + ls v) xs x.vals := by
  set ham := ACM_Hamiltonian (c11 := kC c11) (c20 := kC c20) (c21 := kC c21) (c23 := kC c23) with hham
  have ht : Op_Tame ham = true := by
    rw [C63_tame]
    intro t ht
    rcases radHam_terms _ _ _ _ _ t ht with e | e | e | e | e <;> rw [e] <;> simp
  have hmat : ∀ L, 0 ≤ L → ∃ M, allMat env (a.at L) ham s.glb.lam_fun = .ok M ∧ Square (a.at L).dim M ∧
      ∀ p q, p < (a.at L).dim → q < (a.at L).dim → M.e p q = if p = q then
        oscEnergy c11 c20 a.anorm (fun v => a.lambda_base + ls v) ((a.at L).xlabels.getD p (0, 0, 0, 0)) else 0 := by
    intro L hL
    have hleg := legal_at h hL
    obtain ⟨M, hM, hsq, hMe⟩ := radHam_matrix hleg hla (env := env) (lam := s.glb.lam_fun) ha.ne' hl
      (fun v h1 h2 => (hpos v h1 h2).1) (fun v h1 h2 => (hpos v h1 h2).2) (kC c11) (kC c20) (kC c21) 0 (kC c23)
    refine ⟨M, hM, hsq, fun p q hp hq => ?_⟩
    have hnd : (a.at L).xlabels.Nodup := C27_distinct hleg (lbsXspace_ok hleg)
    rw [← length_xlabels] at hp hq
    have hxp := List.getElem?_eq_getElem hp
    have hxq := List.getElem?_eq_getElem hq
    rw [hMe p q _ _ hxp hxq]
    obtain ⟨_, x1, _, hx1, _, hn1⟩ := xlabels_split (nu := (a.at L).xlabels[p].1) (s := (a.at L).xlabels[p].2) hxp
    obtain ⟨_, x2, _, hx2, hst, hn2⟩ := xlabels_split (nu := (a.at L).xlabels[q].1) (s := (a.at L).xlabels[q].2) hxq
    have hv := state_v (List.mem_of_getElem? hst)
    have h0 := hleg.1.1
    have hdia := radHam_diagonal (c20 := c20) (v := ((a.at L).xlabels[q].2.1 : ℝ)) h11 ha hk (hd _ hv.1 hv.2)
      (a.at L).nu_min.toNat (a.at L).nu_max.toNat (a.at L).xlabels[p].1.toNat (a.at L).xlabels[q].1.toNat
    have e1 : (a.at L).anorm = a.anorm := rfl
    have e2 : (a.at L).lambda_base = a.lambda_base := rfl
    simp only [kC, e1, e2, Pi.zero_apply, zero_mul, add_zero, hdia]
    have hiff : p = q ↔ (a.at L).xlabels[p] = (a.at L).xlabels[q] := (hnd.getElem_inj_iff).symm
    have hnu : (a.at L).xlabels[p].1.toNat = (a.at L).xlabels[q].1.toNat ↔
        (a.at L).xlabels[p].1 = (a.at L).xlabels[q].1 := by omega
    by_cases hpq : p = q
    · subst hpq
      rw [if_pos rfl, if_pos rfl, if_pos rfl, List.getD_eq_getElem?_getD, hxp, Option.getD_some]
      unfold oscEnergy
      have : (((a.at L).xlabels[p].1.toNat : ℕ) : ℝ) = ((a.at L).xlabels[p].1 : ℝ) := by
        have : (((a.at L).xlabels[p].1.toNat : ℕ) : Int) = (a.at L).xlabels[p].1 := by omega
        exact_mod_cast congrArg (Int.cast (R := ℝ)) this
      rw [this]
    · rw [if_neg hpq]
      by_cases h2 : (a.at L).xlabels[p].2 = (a.at L).xlabels[q].2
      · rw [if_pos h2, if_neg]
        rw [hnu]
        exact fun h1 => hpq (hiff.2 (Prod.ext h1 h2))
      · rw [if_neg h2]
  obtain ⟨r, s', hr⟩ := digTame_total (ts := ham) h _ (range_nonneg h) s hs fun L hL => by
    obtain ⟨M, hM, _⟩ := hmat L (range_nonneg h L hL)
    exact ⟨M, hM⟩
  have hdig : DigXspace env ham a s = (.ok r, s') := by
    unfold DigXspace
    rw [check_ok h, st_lift_ok, if_pos ht]
    exact hr
  obtain ⟨ho, hx⟩ := C32_partial ht h hs hdig
  refine ⟨r, s', hdig, ho, fun x hxr => ?_⟩
  have hL : 0 ≤ x.L := by
    have := ((ho.2 x.L).1 (List.mem_map_of_mem hxr)).1; have := h.2.2.1; omega
  obtain ⟨_, M, v, e1, e2, e3⟩ := hx x hxr
  obtain ⟨M', hM', hsq, hMe⟩ := hmat x.L hL
  rw [rep_eq (legal_at h hL) hs] at e1
  have : M' = M := by
    have h1 : allMat env (a.at x.L) ham s.xs.lam_fun = .ok M' := hM'
    rw [e1] at h1
    injection h1 with h1
    exact h1.symm
  subst this
  refine ⟨(a.at x.L).xlabels, lbsXspace_ok (legal_at h hL), ?_⟩
  obtain ⟨h1, h2⟩ := eig_diag hla hsq.1 hsq.2.1 hMe e2
  rw [e3, hsq.1]
  refine ⟨h1.trans (List.Perm.of_eq ?_), h2⟩
  refine List.ext_getElem (by simp [length_xlabels]) fun i hi hi' => ?_
  rw [List.length_map, List.length_range, ← length_xlabels] at hi
  rw [List.getElem_map, List.getElem_map, List.getElem_range, List.getD_eq_getElem?_getD, List.getElem?_eq_getElem hi,
    Option.getD_some]

/-- C95 for the harmonic oscillator in the basis of `lambda_sho_fun` with `lambda_base = 5/2`: with
`H = (-laplacian + a^4 beta^2) / 2` the energies are `a^2 (2 nu + v + 5/2)`. -/
theorem C95_oscillator {a : XArgs} (h : LegalRanges a) {env : XEnv} (hla : LinAlgOk env.la) (ha : 0 < a.anorm)
    (hb : a.lambda_base = 5 / 2) {s : FState} (hs : MemoOk env s.xs) (hf : s.glb.lam_fun = lambda_sho_fun) :
    ∃ r s', DigXspace env (ACM_Hamiltonian (c11 := kC (-1 / 2)) (c21 := kC (a.anorm ^ 4 / 2))) a s = (.ok r, s') ∧
      OccupiedL a (r.map LEig.L) ∧
      ∀ x ∈ r, ∃ xs, lbsXspace a.nu_min a.nu_max a.v_min a.v_max x.L (some x.L) = .ok xs ∧
        IsSpectrum (fun y => a.anorm ^ 2 * (2 * y.1 + y.2.1 + 5 / 2)) xs x.vals := by
  have h0 : ∀ v, a.v_min ≤ v → (0 : ℝ) ≤ v := fun v hv => by
    have := h.2.1.1
    exact_mod_cast this.trans hv
  obtain ⟨r, s', h1, h2, h3⟩ := C95_spectrum h hla (c11 := -1 / 2) (c20 := 0) (c21 := a.anorm ^ 4 / 2) (c23 := 0)
    (by norm_num) ha (by ring) hs (ls := id) (fun v hv _ => by
      rw [hf]
      unfold lambda_sho_fun
      rw [require_nonnegint_ok (h.2.1.1.trans hv)]
      rfl) (fun v hv _ => by
      have := h0 v hv
      rw [hb]
      simp only [id]
      constructor
      · positivity
      · intro hh; linarith) (fun v _ _ => by rw [hb]; simp only [id]; ring)
  have e0 : (kC 0 : Coeff) = 0 := rfl
  rw [e0] at h1
  refine ⟨r, s', h1, h2, fun x hx => ?_⟩
  obtain ⟨xs, h4, h5⟩ := h3 x hx
  refine ⟨xs, h4, ?_⟩
  have : oscEnergy (-1 / 2) 0 a.anorm (fun v => a.lambda_base + (id v : Int)) =
      fun y : XspaceLabel => a.anorm ^ 2 * (2 * y.1 + y.2.1 + 5 / 2) := by
    funext y
    unfold oscEnergy
    rw [hb]
    simp only [id]
    ring
  rwa [this] at h5

/-- The hypotheses of C95 are met: all states with nu up to 10, v up to 12, L up to 8 in the initial state with the basis of
the harmonic oscillator. -/
example (env : XEnv) : ∃ a : XArgs, LegalRanges a ∧ 0 < a.anorm ∧ a.lambda_base = 5 / 2 ∧
    MemoOk env (XState.start lambda_sho_fun) :=
  ⟨⟨2, 5 / 2, 0, 10, 0, 12, 0, 8⟩, by unfold LegalRanges; simp, by norm_num, rfl, memoOk_start env _⟩

/-- The same with a Davidson potential: at v = 0 with c23 / c11 = -27/4 the matched lambda is 4. -/
example : ∃ (a : XArgs) (c11 c21 c23 : ℝ), LegalRanges a ∧ c11 ≠ 0 ∧ c23 ≠ 0 ∧ 0 < a.anorm ∧ c11 * a.anorm ^ 4 = -c21 ∧
    ∀ v, a.v_min ≤ v → v ≤ a.v_max → lambda_acm_fun v = .ok 0 ∧ (a.lambda_base + (0 : Int) - 1) ^ 2 = (v + 3 / 2) ^ 2 - c23 / c11 := by
  refine ⟨⟨1, 4, 0, 3, 0, 0, 0, 0⟩, -1 / 2, 1 / 2, 27 / 8, by unfold LegalRanges; simp, by norm_num, by norm_num, by norm_num,
    by norm_num, fun v h1 h2 => ?_⟩
  have h1 : 0 ≤ v := h1
  have h2 : v ≤ 0 := h2
  obtain rfl : v = 0 := by omega
  exact ⟨by decide +kernel, by norm_num⟩

end Acm.Props
