import Verif.Props.Ground
import Verif.Props.Subspace
import Mathlib.Analysis.Calculus.LocalExtr.Basic
import Mathlib.Analysis.Calculus.Deriv.Add
import Mathlib.Analysis.Calculus.Deriv.Mul
import Mathlib.Analysis.SpecialFunctions.Sqrt

/-!
# C126: diagonal amplitudes and the energies of a Hamiltonian with an added term
-/

namespace Acm.Props

open Acm.Spec

/-! ### matrices -/

/-- Two matrices in their own eigenvectors. -/
theorem two_bases {n : ℕ} {α γ : ℕ → ℝ} {HA HB PA PC : Matrix (Fin n) (Fin n) ℝ} {d : ℝ} (p1 : PA.transpose * PA = 1)
    (p2 : PC.transpose * PC = 1) (q1 : PA.transpose * HA * PA = Matrix.diagonal fun i : Fin n => α i)
    (q2 : PC.transpose * (HA + d • HB) * PC = Matrix.diagonal fun i : Fin n => γ i) (s2 : ∀ i j, i ≤ j → j < n → γ i ≤ γ j)
    (S : Finset (Fin n)) :
    ∑ i ∈ Finset.range S.card, γ i ≤ ∑ p ∈ S, (α p + d * (PA.transpose * HB * PA) p p) := by
  have p1' := mul_eq_one_comm.1 p1
  have h1 : (PA.transpose * PC).transpose * (PA.transpose * PC) = 1 := by
    rw [Matrix.transpose_mul, Matrix.transpose_transpose,
      show PC.transpose * PA * (PA.transpose * PC) = PC.transpose * (PA * PA.transpose) * PC by simp only [Matrix.mul_assoc], p1',
      Matrix.mul_one, p2]
  have h2 : (PA.transpose * PC).transpose * (PA.transpose * (HA + d • HB) * PA) * (PA.transpose * PC) =
      Matrix.diagonal fun i : Fin n => γ i := by
    rw [← q2, Matrix.transpose_mul, Matrix.transpose_transpose,
      show PC.transpose * PA * (PA.transpose * (HA + d • HB) * PA) * (PA.transpose * PC) =
        PC.transpose * (PA * PA.transpose) * (HA + d • HB) * (PA * PA.transpose) * PC by simp only [Matrix.mul_assoc], p1',
      Matrix.mul_one, Matrix.mul_one]
  refine (ky_fan h1 h2 s2 S).trans (le_of_eq (Finset.sum_congr rfl fun p _ => ?_))
  rw [Matrix.mul_add, Matrix.add_mul, q1, Matrix.mul_smul, Matrix.smul_mul, Matrix.add_apply, Matrix.diagonal_apply_eq, Matrix.smul_apply,
    smul_eq_mul]

/-- The diagonal of a matrix in a basis is that of its symmetric part. -/
theorem sym_diag {n : ℕ} (P M : Matrix (Fin n) (Fin n) ℝ) (p : Fin n) :
    (P.transpose * ((1 / 2 : ℝ) • (M + M.transpose)) * P) p p = (P.transpose * M * P) p p := by
  have h : (P.transpose * M.transpose * P) p p = (P.transpose * M * P) p p := by
    have : P.transpose * M.transpose * P = (P.transpose * M * P).transpose := by
      rw [Matrix.transpose_mul, Matrix.transpose_mul, Matrix.transpose_transpose, Matrix.mul_assoc]
    rw [this, Matrix.transpose_apply]
  rw [Matrix.mul_smul, Matrix.smul_mul, Matrix.smul_apply, Matrix.mul_add, Matrix.add_mul, Matrix.add_apply, h, smul_eq_mul]
  ring

/-- The sums over the first and the last `k` rows. -/
theorem two_sums {n : ℕ} {α γ : ℕ → ℝ} {HA HB PA PC : Matrix (Fin n) (Fin n) ℝ} {d : ℝ} (p1 : PA.transpose * PA = 1)
    (p2 : PC.transpose * PC = 1) (q1 : PA.transpose * HA * PA = Matrix.diagonal fun i : Fin n => α i)
    (q2 : PC.transpose * (HA + d • HB) * PC = Matrix.diagonal fun i : Fin n => γ i) (s2 : ∀ i j, i ≤ j → j < n → γ i ≤ γ j)
    {g : ℕ → ℝ} (hg : ∀ p : Fin n, (PA.transpose * HB * PA) p p = g p) {S : Finset ℕ} (hS : ∀ p ∈ S, p < n) :
    ∑ i ∈ Finset.range S.card, γ i ≤ ∑ p ∈ S, (α p + d * g p) := by
  have hf : (S.attachFin hS).card = S.card := Finset.card_attachFin S hS
  have h := two_bases p1 p2 q1 q2 s2 (S.attachFin hS)
  rw [hf] at h
  refine h.trans (le_of_eq ?_)
  have : S = (S.attachFin hS).map Fin.valEmbedding := by
    ext i
    simp only [Finset.mem_map, Finset.mem_attachFin, Fin.valEmbedding_apply]
    exact ⟨fun h => ⟨⟨i, hS i h⟩, h, rfl⟩, by rintro ⟨p, hp, rfl⟩; exact hp⟩
  conv_rhs => rw [this, Finset.sum_map]
  exact Finset.sum_congr rfl fun p _ => by rw [hg]; rfl

/-! ### the blocks of the amplitudes -/

/-- The levels and the eigenvectors of one angular momentum, as returned. -/
theorem level_basis {env : XEnv} (hla : LinAlgOk env.la) {ham : OperatorSum} (ht : Op_Tame ham = true) {a : XArgs} {s s1 : FState}
    (hs : MemoOk env s.xs) {r : List LEig} (hr : DigXspace env ham a s = (.ok r, s1)) {x : LEig} (hx : x ∈ r) :
    ∃ (M : Arr) (v : ℕ → ℝ), (RepXspace env ham (a.at x.L) s.xs).1 = .ok M ∧ Square x.vals.length M ∧
      (a.at x.L).dim = x.vals.length ∧ x.vals = (List.range x.vals.length).map v ∧
      x.basis.rows = x.vals.length ∧ x.basis.cols = x.vals.length ∧
      (mat x.vals.length x.basis).transpose * mat x.vals.length x.basis = 1 ∧
      (mat x.vals.length x.basis).transpose *
        ((1 / 2 : ℝ) • (mat x.vals.length M + (mat x.vals.length M).transpose)) * mat x.vals.length x.basis =
        Matrix.diagonal (fun i : Fin x.vals.length => v i) ∧ ∀ i j, i ≤ j → j < x.vals.length → v i ≤ v j := by
  have hleg : LegalRanges a := (dig_eig hs hr).1
  obtain ⟨ho, hd⟩ := C32_partial ht hleg hs hr
  obtain ⟨_, M, v, e1, e2, e3⟩ := hd x hx
  have hL : 0 ≤ x.L := by
    have := ((ho.2 x.L).1 (List.mem_map_of_mem hx)).1
    have := hleg.2.2.1
    omega
  have e0 := e1
  rw [rep_eq (legal_at hleg hL) hs] at e0
  have hsq := allMat_square (legal_at hleg hL) e0
  have hn : x.vals.length = (a.at x.L).dim := by rw [e3, hsq.1]; simp
  rw [← hn] at hsq
  obtain ⟨v', P, k1, k2, k3, k4, k5, k6⟩ := C70_eigen env.la hla _ M hsq.1 hsq.2.1
  rw [e2] at k1
  injection k1 with k1
  injection k1 with k1 k2'
  subst k1 k2'
  exact ⟨M, v, e1, hsq, hn.symm, by conv_lhs => rw [e3, hsq.1], k2, k3, k4, k5, k6⟩

/-- The labels in the block of an angular momentum. -/
theorem flat_block {β : Type} (f : Int → List β) (d : Int → ℕ) (hd : ∀ L, (f L).length = d L) : ∀ (Ls : List Int) (acc : ℕ) (L : Int)
    (k : ℕ) (e : Int), (L, (k : Int), e) ∈ blocksFrom d acc Ls → acc ≤ k ∧ ∀ i < d L, (Ls.flatMap f)[k - acc + i]? = (f L)[i]? := by
  intro Ls
  induction Ls with
  | nil => intro acc L k e h; cases h
  | cons K Ls ih =>
    intro acc L k e h
    rcases List.mem_cons.1 h with h | h
    · injection h with h1 h2
      injection h2 with h2 h3
      subst h1
      have : k = acc := by exact_mod_cast h2
      subst this
      refine ⟨le_rfl, fun i hi => ?_⟩
      rw [Nat.sub_self, Nat.zero_add, List.flatMap_cons, List.getElem?_append_left (by rw [hd]; exact hi)]
    · obtain ⟨h1, h2⟩ := ih _ _ _ _ h
      refine ⟨by omega, fun i hi => ?_⟩
      rw [List.flatMap_cons, List.getElem?_append_right (by rw [hd]; omega), hd, ← h2 i hi]
      congr 1
      omega

/-- The diagonal blocks of the amplitudes of an operator of angular momentum 0: its matrices for the single angular momenta, between
the eigenvectors. -/
theorem diag_block {env : FEnv} (hla : LinAlgOk env.x.la) {fs : FileSys} {dir : Option (List Char)} (hcg : env.x.CG = fileCG fs dir)
    {A B : OperatorSum} (hA : Op_Tame A = true) (hB : Op_AM B = 0) {a : XArgs} {s s1 t : FState} (hs : MemoOk env.x s.xs)
    (hm : MemoOk env.x t.xs) (hlam : t.xs.lam_fun = s.xs.lam_fun) {r : List LEig} (hr : DigXspace env.x A a s = (.ok r, s1))
    {R : LBlockArray} (hR : (AmpXspeig env B (r.map LEig.basis) a (r.map LEig.L) t).1 = .ok R) {x : LEig} (hx : x ∈ r) :
    ∃ M G, (RepXspace env.x B (a.at x.L) s.xs).1 = .ok M ∧ R.get_block x.L x.L = .ok G ∧ G.rows = x.vals.length ∧
      G.cols = x.vals.length ∧ ∀ i j : Fin x.vals.length,
        G.e i j = ((mat x.vals.length x.basis).transpose * mat x.vals.length M * mat x.vals.length x.basis) i j := by
  obtain ⟨⟨CG, la⟩, jn⟩ := env
  have hleg : LegalRanges a := (dig_eig hs hr).1
  obtain ⟨ho, hd⟩ := C32_partial hA hleg hs hr
  have hne := amp_some hR
  obtain ⟨l0, h0⟩ : ∃ l0, (r.map LEig.L).head? = some l0 := by
    cases hh : r.map LEig.L with
    | nil => exact absurd hh hne
    | cons l ls => exact ⟨l, rfl⟩
  obtain ⟨l1, h1⟩ : ∃ l1, (r.map LEig.L).getLast? = some l1 := ⟨_, List.getLast?_eq_some_getLast hne⟩
  have hle := narrow_legal hleg ho h0 h1
  have hR0 := hR
  rw [(amp_eq hleg ho h0 h1 hm _).1] at hR0
  obtain ⟨T, hT, hTR⟩ := py_bind_eq_ok hR0
  clear hTR
  have hT1 : (RepXspace ⟨CG, la⟩ B (XArgs.narrow a l0 l1) t.xs).1 = .ok T := by
    rw [rep_eq hle hm]
    exact hT
  have hb : List.Forall₂ (fun P L => P.cols = P.rows ∧ dimXspace a.nu_min a.nu_max a.v_min a.v_max L none = .ok (P.rows : Int))
      (r.map LEig.basis) (r.map LEig.L) := by
    rw [List.forall₂_map_left_iff, List.forall₂_map_right_iff, List.forall₂_same]
    intro x hx
    obtain ⟨k1, k2, _⟩ := basis_shape hla hA hs hr hx
    exact ⟨by rw [k1, k2], by rw [k1]; exact (hd x hx).1⟩
  obtain ⟨R1, e1, n1, r1, c1, b1⟩ := C73_blocks (env := ⟨⟨CG, la⟩, jn⟩) hla hleg ho h0 h1 hb hm hT1
  rw [hR] at e1
  injection e1 with e1
  subst e1
  obtain ⟨Bk, t1, G, g1, g2, g3, g4⟩ := b1 _ _ _ _ (pair_mem hx) (pair_mem hx)
  obtain ⟨p1, p2, p3⟩ := basis_shape hla hA hs hr hx
  have hxL : x.L ∈ r.map LEig.L := List.mem_map_of_mem hx
  have hL0 : l0 ≤ x.L ∧ x.L ≤ l1 := by
    have hocc := ((narrow_occupied ho h0 h1).2 x.L).1 hxL
    exact hocc.1
  have hLn : 0 ≤ x.L := by
    have := ((ho.2 x.L).1 hxL).1
    have := hleg.2.2.1
    omega
  obtain ⟨M, hM, hsqM, _, hent⟩ := C103_blocks hcg hle (l0 := x.L) (l1 := x.L) hL0.1 le_rfl hL0.2 hm hs hlam.symm hB hT1
    (lbsXspace_ok hle) (lbsXspace_ok (a := a.at x.L) (legal_at hleg hLn))
  have hsqT := allMat_square hle ((rep_eq hle hm B).symm.trans hT1)
  have hn : (a.at x.L).dim = x.vals.length := by
    obtain ⟨_, _, _, _, k, _⟩ := level_basis hla hA hs hr hx
    exact k
  have i1 := hla.inv_shape _ _ p1 p2
  refine ⟨M, G, hM, g1, g2.trans i1.1, g3.trans p2, fun i j => ?_⟩
  have hBc : Bk.cols = x.vals.length := by
    rw [get_block_cols t1 g1 c1, g3]
    exact p2
  rw [g4 i j (lt_of_lt_of_eq i.2 i1.1.symm) (lt_of_lt_of_eq j.2 p2.symm), block_entry hla p1 p2 p3 hBc p2 i j]
  suffices key : (Matrix.of fun (i j : Fin x.vals.length) => Bk.e i j) = mat x.vals.length M by rw [key]
  ext p q
  show Bk.e p q = M.e p q
  -- the position of the block
  have hS := made_of_new n1
  obtain ⟨_, _, hSe⟩ := new_iff.1 n1
  have hgb := t1
  unfold LBlockArray.get_block at hgb
  obtain ⟨b, hb1, hgb⟩ := py_bind_eq_ok hgb
  obtain ⟨c, hc1, hgb⟩ := py_bind_eq_ok hgb
  dsimp only at hb1 hc1
  rw [hb1] at hc1
  injection hc1 with hc1
  subst hc1
  obtain ⟨k, rfl, hk⟩ := made_block hS hb1
  have hmem := get_block_mem hb1
  rw [made_blocks hS] at hmem
  rw [hSe] at hmem hk hgb
  dsimp only at hmem hk hgb
  have hflat : (XArgs.narrow a l0 l1).xlabels = (r.map LEig.L).flatMap fun L => (a.at L).xlabels := by
    rw [narrow_xlabels hleg ho h0 h1, xlabels_flat, ← occupied_eq hleg ho]
  obtain ⟨_, hpos⟩ := flat_block (fun L => (a.at L).xlabels) (ldim a.nu_min a.nu_max a.v_min a.v_max) (fun L => length_xlabels _) _ _ _ _ _
    hmem
  have hld : ldim a.nu_min a.nu_max a.v_min a.v_max x.L = x.vals.length := by rw [← hn]; rfl
  have hlab : ∀ i < x.vals.length, ∃ f, (XArgs.narrow a l0 l1).xlabels[k + i]? = some f ∧ (a.at x.L).xlabels[i]? = some f := fun i hi => by
    have h := hpos i (by rw [hld]; exact hi)
    rw [Nat.sub_zero, ← hflat] at h
    have hi' : i < (a.at x.L).xlabels.length := by rw [length_xlabels, hn]; exact hi
    exact ⟨_, by rw [h, List.getElem?_eq_getElem hi'], List.getElem?_eq_getElem hi'⟩
  obtain ⟨f, f1, f2⟩ := hlab p p.2
  obtain ⟨g, g1', g2'⟩ := hlab q q.2
  rw [hent _ _ _ _ f g f1 g1' f2 g2']
  have hkT : k + x.vals.length ≤ (XArgs.narrow a l0 l1).dim := by
    have hp : 0 < x.vals.length := by have := p.2; omega
    obtain ⟨f, f1, _⟩ := hlab (x.vals.length - 1) (by omega)
    have := (List.getElem?_eq_some_iff.1 f1).1
    rw [length_xlabels] at this
    omega
  injection hgb with hgb
  rw [← hgb, slice_nat, hld, hsqT.1, hsqT.2.1]
  unfold Arr.of
  dsimp only
  rw [min_eq_left (by omega), min_eq_left (by omega), if_pos ⟨by omega, by omega⟩]

/-- Everything for one angular momentum: the levels without and with the added operator, and the diagonal amplitudes of the operator. -/
theorem perturbed {env : FEnv} (hla : LinAlgOk env.x.la) {fs : FileSys} {dir : Option (List Char)} (hcg : env.x.CG = fileCG fs dir)
    {A B C : OperatorSum} {d : ℝ} (hc : IsComb 1 d A B C) (hA : Op_Tame A = true) (hB : Op_AM B = 0) {a : XArgs} {s sA sC t t' : FState}
    (hs : MemoOk env.x s.xs) (hm : MemoOk env.x t.xs) (hlam : t.xs.lam_fun = s.xs.lam_fun) (hm' : MemoOk env.x t'.xs)
    (hlam' : t'.xs.lam_fun = s.xs.lam_fun) {rA rC : List LEig} (dA : DigXspace env.x A a s = (.ok rA, sA))
    (dC : DigXspace env.x C a s = (.ok rC, sC)) {R R' : LBlockArray}
    (hR : (AmpXspeig env B (rA.map LEig.basis) a (rA.map LEig.L) t).1 = .ok R)
    (hR' : (AmpXspeig env B (rC.map LEig.basis) a (rC.map LEig.L) t').1 = .ok R')
    {x z : LEig} (hx : x ∈ rA) (hz : z ∈ rC) (hxz : z.L = x.L) :
    ∃ (n : ℕ) (α γ : ℕ → ℝ) (G G' : Arr) (HA HB PA PC : Matrix (Fin n) (Fin n) ℝ), x.vals = (List.range n).map α ∧
      z.vals = (List.range n).map γ ∧ R.get_block x.L x.L = .ok G ∧ R'.get_block x.L x.L = .ok G' ∧ (G.rows = n ∧ G.cols = n) ∧
      (G'.rows = n ∧ G'.cols = n) ∧ PA.transpose * PA = 1 ∧ PC.transpose * PC = 1 ∧
      PA.transpose * HA * PA = Matrix.diagonal (fun i : Fin n => α i) ∧
      PC.transpose * (HA + d • HB) * PC = Matrix.diagonal (fun i : Fin n => γ i) ∧ (∀ i j, i ≤ j → j < n → α i ≤ α j) ∧
      (∀ i j, i ≤ j → j < n → γ i ≤ γ j) ∧ (∀ p : Fin n, (PA.transpose * HB * PA) p p = G.e p p) ∧
      ∀ p : Fin n, (PC.transpose * HB * PC) p p = G'.e p p := by
  have hleg : LegalRanges a := (dig_eig hs dA).1
  have hC := comb_tame hc hA (C103_tame hB)
  obtain ⟨oA, _⟩ := C32_partial hA hleg hs dA
  have h0 : 0 ≤ x.L := by
    have := ((oA.2 x.L).1 (List.mem_map_of_mem hx)).1
    have := hleg.2.2.1
    omega
  obtain ⟨MA, α, a1, _, a2, a3, _, _, a4, a5, a6⟩ := level_basis hla hA hs dA hx
  obtain ⟨MC, γ, c1, _, c2, c3, _, _, c4, c5, c6⟩ := level_basis hla hC hs dC hz
  obtain ⟨MB, G, b1, b2, b3, b4, b5⟩ := diag_block hla hcg hA hB hs hm hlam dA hR hx
  obtain ⟨MB', G', b1', b2', b3', b4', b5'⟩ := diag_block hla hcg hC hB hs hm' hlam' dC hR' hz
  obtain ⟨zL, zv, zb⟩ := z
  dsimp only at *
  subst hxz
  rw [b1] at b1'
  injection b1' with b1'
  subst b1'
  obtain ⟨M, hM, _, _, e⟩ := C112_matrix (legal_at hleg h0) hs hc a1 b1
  rw [c1] at hM
  injection hM with hM
  subst hM
  have hl : zv.length = x.vals.length := by rw [← a2, ← c2]
  rw [hl] at c3 b3' b4'
  generalize zv.length = m at *
  subst hl
  refine ⟨_, α, γ, G, G', _, (1 / 2 : ℝ) • (mat x.vals.length MB + (mat x.vals.length MB).transpose), _, mat x.vals.length zb, a3, c3, b2, b2',
    ⟨b3, b4⟩, ⟨b3', b4'⟩, a4, c4, a5, ?_, a6, c6, fun p => by rw [sym_diag, b5], fun p => by rw [sym_diag, b5']⟩
  rw [← c5]
  congr 2
  ext i j
  simp only [Matrix.smul_apply, Matrix.add_apply, Matrix.transpose_apply, mat, Matrix.of_apply, smul_eq_mul, e]
  ring

theorem getD_vals {n : ℕ} {xs : List ℝ} {v : ℕ → ℝ} (h : xs = (List.range n).map v) {i : ℕ} (hi : i < n) : xs.getD i 0 = v i := by
  subst h
  simp [List.getD, hi]

/-- C126: an operator `B` of angular momentum 0 is added to the Hamiltonian `A` with a coefficient `d`.  Take any set of levels of `A`
with one angular momentum: their energies, each with `d` times the diagonal amplitude of `B` in that level (the element of the result of
`AmpXspeig` for `B` with the eigenvectors of `A`), add up to at least as many of the lowest energies of the new Hamiltonian, and at
most to as many of the highest. -/
theorem C126_levels {env : FEnv} (hla : LinAlgOk env.x.la) {fs : FileSys} {dir : Option (List Char)} (hcg : env.x.CG = fileCG fs dir)
    {A B C : OperatorSum} {d : ℝ} (hc : IsComb 1 d A B C) (hA : Op_Tame A = true) (hB : Op_AM B = 0) {a : XArgs} {s sA sC t : FState}
    (hs : MemoOk env.x s.xs) (hm : MemoOk env.x t.xs) (hlam : t.xs.lam_fun = s.xs.lam_fun) {rA rC : List LEig}
    (dA : DigXspace env.x A a s = (.ok rA, sA)) (dC : DigXspace env.x C a s = (.ok rC, sC)) {R : LBlockArray}
    (hR : (AmpXspeig env B (rA.map LEig.basis) a (rA.map LEig.L) t).1 = .ok R)
    {x z : LEig} (hx : x ∈ rA) (hz : z ∈ rC) (hxz : z.L = x.L) :
    ∃ G, R.get_block x.L x.L = .ok G ∧ G.rows = x.vals.length ∧ G.cols = x.vals.length ∧ z.vals.length = x.vals.length ∧
      ∀ S : Finset ℕ, (∀ p ∈ S, p < x.vals.length) →
        (z.vals.take S.card).sum ≤ ∑ p ∈ S, (x.vals.getD p 0 + d * G.e p p) ∧
        ∑ p ∈ S, (x.vals.getD p 0 + d * G.e p p) ≤ (z.vals.drop (z.vals.length - S.card)).sum := by
  obtain ⟨R', hR', _⟩ := C112_strength hla hA (comb_tame hc hA (C103_tame hB)) hs hs dA dC hm hR
  obtain ⟨n, α, γ, G, G', HA, HB, PA, PC, e1, e2, g1, g2, ⟨g3, g4⟩, _, p1, p2, q1, q2, s1, s2, k1, k2⟩ :=
    perturbed hla hcg hc hA hB hs hm hlam hm hlam dA dC hR hR' hx hz hxz
  have n1 : x.vals.length = n := by rw [e1]; simp
  have n2 : z.vals.length = n := by rw [e2]; simp
  refine ⟨G, g1, by rw [g3, n1], by rw [g4, n1], by rw [n1, n2], ?_⟩
  rw [n1, n2]
  have val : ∀ S : Finset ℕ, (∀ p ∈ S, p < n) → ∑ p ∈ S, (x.vals.getD p 0 + d * G.e p p) = ∑ p ∈ S, (α p + d * G.e p p) :=
    fun S hS => Finset.sum_congr rfl fun p hp => by rw [getD_vals e1 (hS p hp)]
  have card : ∀ S : Finset ℕ, (∀ p ∈ S, p < n) → S.card ≤ n := fun S hS => by
    have := Finset.card_le_card (show S ⊆ Finset.range n from fun p hp => Finset.mem_range.2 (hS p hp))
    rwa [Finset.card_range] at this
  have low : ∀ S : Finset ℕ, (∀ p ∈ S, p < n) → (z.vals.take S.card).sum ≤ ∑ p ∈ S, (α p + d * G.e p p) := fun S hS => by
    rw [e2, take_sum γ (card S hS)]
    exact two_sums (g := fun p => G.e p p) p1 p2 q1 q2 s2 k1 hS
  have tot : z.vals.sum = ∑ p ∈ Finset.range n, (α p + d * G.e p p) := by
    have t1 := sum_vals e2 id
    rw [List.map_id] at t1
    have t2 : ∑ p : Fin n, G.e p p = ∑ p, HB p p := by
      rw [← Finset.sum_congr rfl fun p _ => k1 p, show ∑ f, (PA.transpose * HB * PA) f f = (PA.transpose * HB * PA).trace from rfl,
        Matrix.trace_mul_comm, ← Matrix.mul_assoc, mul_eq_one_comm.1 p1, Matrix.one_mul]
      rfl
    rw [t1, Finset.sum_range, Finset.sum_add_distrib, ← Finset.mul_sum, t2]
    simp only [id]
    rw [(trace_eig p2 q2).1, (trace_eig p1 q1).1, Finset.mul_sum, ← Finset.sum_add_distrib]
    exact Finset.sum_congr rfl fun p _ => by rw [Matrix.add_apply, Matrix.smul_apply, smul_eq_mul]
  intro S hS
  rw [val S hS]
  refine ⟨low S hS, ?_⟩
  have hsub : S ⊆ Finset.range n := fun p hp => Finset.mem_range.2 (hS p hp)
  have hcs := low (Finset.range n \ S) fun p hp => Finset.mem_range.1 (Finset.mem_sdiff.1 hp).1
  rw [Finset.card_sdiff_of_subset hsub, Finset.card_range] at hcs
  have h1 := Finset.sum_sdiff (f := fun p => α p + d * G.e p p) hsub
  have h2 := List.sum_take_add_sum_drop z.vals (n - S.card)
  linarith

/-- C126: the sum of the `k` lowest energies of one angular momentum changes at most by `d` times the sum of the diagonal amplitudes of
the added operator in the old `k` lowest levels, and at least by `d` times the sum of those in the new ones. -/
theorem C126_between {env : FEnv} (hla : LinAlgOk env.x.la) {fs : FileSys} {dir : Option (List Char)} (hcg : env.x.CG = fileCG fs dir)
    {A B C : OperatorSum} {d : ℝ} (hc : IsComb 1 d A B C) (hA : Op_Tame A = true) (hB : Op_AM B = 0) {a : XArgs} {s sA sC t t' : FState}
    (hs : MemoOk env.x s.xs) (hm : MemoOk env.x t.xs) (hlam : t.xs.lam_fun = s.xs.lam_fun) (hm' : MemoOk env.x t'.xs)
    (hlam' : t'.xs.lam_fun = s.xs.lam_fun) {rA rC : List LEig} (dA : DigXspace env.x A a s = (.ok rA, sA))
    (dC : DigXspace env.x C a s = (.ok rC, sC)) {R R' : LBlockArray}
    (hR : (AmpXspeig env B (rA.map LEig.basis) a (rA.map LEig.L) t).1 = .ok R)
    (hR' : (AmpXspeig env B (rC.map LEig.basis) a (rC.map LEig.L) t').1 = .ok R')
    {x z : LEig} (hx : x ∈ rA) (hz : z ∈ rC) (hxz : z.L = x.L) :
    ∃ G G', R.get_block x.L x.L = .ok G ∧ R'.get_block x.L x.L = .ok G' ∧ z.vals.length = x.vals.length ∧ ∀ k ≤ x.vals.length,
      d * ∑ i ∈ Finset.range k, G'.e i i ≤ (z.vals.take k).sum - (x.vals.take k).sum ∧
      (z.vals.take k).sum - (x.vals.take k).sum ≤ d * ∑ i ∈ Finset.range k, G.e i i := by
  obtain ⟨n, α, γ, G, G', HA, HB, PA, PC, e1, e2, g1, g2, _, _, p1, p2, q1, q2, s1, s2, k1, k2⟩ :=
    perturbed hla hcg hc hA hB hs hm hlam hm' hlam' dA dC hR hR' hx hz hxz
  have n1 : x.vals.length = n := by rw [e1]; simp
  have n2 : z.vals.length = n := by rw [e2]; simp
  refine ⟨G, G', g1, g2, by rw [n1, n2], fun k hk => ?_⟩
  rw [n1] at hk
  rw [e1, e2, take_sum α hk, take_sum γ hk]
  have hS : ∀ p ∈ Finset.range k, p < n := fun p hp => lt_of_lt_of_le (Finset.mem_range.1 hp) hk
  have u1 := two_sums (g := fun p => G.e p p) p1 p2 q1 q2 s2 k1 hS
  have q1' : PA.transpose * (HA + d • HB + (-d) • HB) * PA = Matrix.diagonal fun i : Fin n => α i := by
    rw [neg_smul, add_neg_cancel_right, q1]
  have u2 := two_sums (g := fun p => G'.e p p) p2 p1 q2 q1' s1 k2 hS
  rw [Finset.card_range, Finset.sum_add_distrib, ← Finset.mul_sum] at u1 u2
  constructor <;> linarith

/-- C126: the diagonal amplitude of an operator of angular momentum 0 in a level is the derivative of the energy of that level with
respect to the coefficient of the operator in the Hamiltonian: if the energies of the levels up to number `k` are differentiable, the
derivative of that of level `k` is the diagonal element number `k` of the result of `AmpXspeig`. -/
theorem C126_derivative {env : FEnv} (hla : LinAlgOk env.x.la) {fs : FileSys} {dir : Option (List Char)} (hcg : env.x.CG = fileCG fs dir)
    {A B : OperatorSum} {C : ℝ → OperatorSum} (hc : ∀ d, IsComb 1 d A B (C d)) (hA : Op_Tame A = true) (hB : Op_AM B = 0) {a : XArgs}
    {s sA t : FState} {sC : ℝ → FState} (hs : MemoOk env.x s.xs) (hm : MemoOk env.x t.xs) (hlam : t.xs.lam_fun = s.xs.lam_fun)
    {rA : List LEig} {rC : ℝ → List LEig} (dA : DigXspace env.x A a s = (.ok rA, sA))
    (dC : ∀ d, DigXspace env.x (C d) a s = (.ok (rC d), sC d)) {R : LBlockArray}
    (hR : (AmpXspeig env B (rA.map LEig.basis) a (rA.map LEig.L) t).1 = .ok R)
    {x : LEig} {z : ℝ → LEig} (hx : x ∈ rA) (hz : ∀ d, z d ∈ rC d) (hxz : ∀ d, (z d).L = x.L) :
    ∃ G, R.get_block x.L x.L = .ok G ∧ ∀ k, k < x.vals.length → ∀ D : ℕ → ℝ,
      (∀ i ≤ k, HasDerivAt (fun d => (z d).vals.getD i 0) (D i) 0) → D k = G.e k k := by
  choose G g1 g2 g3 g4 g5 using fun d => C126_levels hla hcg (hc d) hA hB hs hm hlam dA (dC d) hR hx (hz d) (hxz d)
  have hG : ∀ d, G d = G 0 := fun d => by
    have := (g1 d).symm.trans (g1 0)
    injection this
  have ts : ∀ (l : List ℝ) (k : ℕ), k ≤ l.length → (l.take k).sum = ∑ i ∈ Finset.range k, l.getD i 0 := by
    intro l k
    induction k with
    | zero => intro _; simp
    | succ k ih =>
      intro hk
      rw [Finset.sum_range_succ, ← ih (by omega), List.take_succ_eq_append_getElem (by omega), List.sum_append,
        List.getD_eq_getElem?_getD, List.getElem?_eq_getElem (by omega), Option.getD_some]
      simp
  have up : ∀ k ≤ x.vals.length, ∀ d, ∑ i ∈ Finset.range k, (z d).vals.getD i 0 ≤
      ∑ i ∈ Finset.range k, x.vals.getD i 0 + d * ∑ i ∈ Finset.range k, (G 0).e i i := fun k hk d => by
    have h := (g5 d (Finset.range k) fun p hp => lt_of_lt_of_le (Finset.mem_range.1 hp) hk).1
    rw [Finset.card_range, ts _ _ (by rw [g4]; exact hk), Finset.sum_add_distrib, ← Finset.mul_sum, hG] at h
    exact h
  obtain ⟨R', hR', _⟩ := C112_strength hla hA (comb_tame (hc 0) hA (C103_tame hB)) hs hs dA (dC 0) hm hR
  obtain ⟨_, _, _, _, _, same⟩ := C126_between hla hcg (hc 0) hA hB hs hm hlam hm hlam dA (dC 0) hR hR' hx (hz 0) (hxz 0)
  have start : ∀ k ≤ x.vals.length, ∑ i ∈ Finset.range k, (z 0).vals.getD i 0 = ∑ i ∈ Finset.range k, x.vals.getD i 0 := fun k hk => by
    obtain ⟨h1, h2⟩ := same k hk
    rw [zero_mul, ts _ _ (by rw [g4]; exact hk), ts _ _ hk] at h1 h2
    linarith
  refine ⟨G 0, g1 0, fun k hk D hD => ?_⟩
  have sums : ∀ j ≤ k + 1, ∑ i ∈ Finset.range j, D i = ∑ i ∈ Finset.range j, (G 0).e i i := fun j hj => by
    have h1 : HasDerivAt (fun d => ∑ i ∈ Finset.range j, (z d).vals.getD i 0) (∑ i ∈ Finset.range j, D i) 0 :=
      HasDerivAt.fun_sum fun i hi => hD i (by have := Finset.mem_range.1 hi; omega)
    have h2 : HasDerivAt (fun d : ℝ => d * ∑ i ∈ Finset.range j, (G 0).e i i) (∑ i ∈ Finset.range j, (G 0).e i i) 0 := by
      have := (hasDerivAt_id (0 : ℝ)).mul_const (∑ i ∈ Finset.range j, (G 0).e i i)
      rwa [one_mul] at this
    have h3 := h1.sub h2
    have h4 : IsLocalMax (fun d => (∑ i ∈ Finset.range j, (z d).vals.getD i 0) - d * ∑ i ∈ Finset.range j, (G 0).e i i) 0 := by
      refine Filter.Eventually.of_forall fun d => ?_
      have k1 := up j (by omega) d
      have k2 := start j (by omega)
      dsimp only
      rw [zero_mul, k2]
      linarith
    have := h4.hasDerivAt_eq_zero h3
    linarith
  have e1 := sums (k + 1) le_rfl
  have e2 := sums k (by omega)
  rw [Finset.sum_range_succ, Finset.sum_range_succ, e2] at e1
  linarith

/-- Two numbers from their sum and the sum of their squares. -/
theorem from_sums {e f p q : ℝ} (h : e ≤ f) (h1 : e + f = p) (h2 : e ^ 2 + f ^ 2 = q) :
    e = (p - Real.sqrt (2 * q - p ^ 2)) / 2 ∧ f = (p + Real.sqrt (2 * q - p ^ 2)) / 2 := by
  have : 2 * q - p ^ 2 = (f - e) ^ 2 := by rw [← h1, ← h2]; ring
  rw [this, Real.sqrt_sq (by linarith)]
  constructor <;> linarith

/-- The seniority is added to a Hamiltonian that is not diagonal on two states: all hypotheses are met, the energies of both levels
are differentiable. -/
theorem perturb_meets {la : LinAlg} (hla : LinAlgOk la) : ∃ (A B : OperatorSum) (C : ℝ → OperatorSum) (a : XArgs) (s sA : FState)
    (sC : ℝ → FState) (M : Arr) (rA : List LEig) (rC : ℝ → List LEig) (R : LBlockArray) (x : LEig) (z : ℝ → LEig) (D : ℕ → ℝ),
    (∀ d, IsComb 1 d A B (C d)) ∧ Op_Tame A = true ∧ Op_AM B = 0 ∧ MemoOk ⟨fileCG onesFS none, la⟩ s.xs ∧
    (RepXspace ⟨fileCG onesFS none, la⟩ A a s.xs).1 = .ok M ∧ M.e 1 0 ≠ 0 ∧
    DigXspace ⟨fileCG onesFS none, la⟩ A a s = (.ok rA, sA) ∧ (∀ d, DigXspace ⟨fileCG onesFS none, la⟩ (C d) a s = (.ok (rC d), sC d)) ∧
    (AmpXspeig ⟨⟨fileCG onesFS none, la⟩, fun _ _ => 0⟩ B (rA.map LEig.basis) a (rA.map LEig.L) s).1 = .ok R ∧ x ∈ rA ∧
    (∀ d, z d ∈ rC d) ∧ (∀ d, (z d).L = x.L) ∧ x.vals.length = 2 ∧
    ∀ i ≤ 1, HasDerivAt (fun d => (z d).vals.getD i 0) (D i) 0 := by
  obtain ⟨s, M, rA, sA, hm, hlam, ha, hn, hp, hp1, hM, h10, hr⟩ := twoStates_meets hla
  have ht : Op_Tame (ACM_Hamiltonian (c30 := kC 1)) = true := by
    have h1 : kC 1 ≠ (0 : Coeff) := fun h => by have := congrFun h (0, 0, 0, 0); simp [kC] at this
    have hop : ACM_Hamiltonian (c30 := kC 1) = [(kC 1 * kC Convert_310, [.rad .b, .harm .y310])] := by
      simp [ACM_Hamiltonian, addTerm, h1]
    rw [hop]; rfl
  have ht' : Op_Tame [(SENIORITY, [])] = true := rfl
  obtain ⟨rB, sB, hr', _⟩ := C108_energies (env := ⟨fileCG onesFS none, la⟩) hla ha hm (ls := fun v => v % 2)
    (fun v h1 _ => by
      rw [hlam]
      obtain ⟨n, rfl⟩ := Int.eq_ofNat_of_zero_le (show 0 ≤ v from h1)
      rw [show lambda_acm_fun (n : Int) = .ok ((n % 2 : ℕ) : Int) from (C48_simple n).2.2.1]
      push_cast
      rfl)
    (fun v h1 _ => by
      have h2 : (0 : ℝ) ≤ ((v % 2 : Int) : ℝ) := by exact_mod_cast Int.emod_nonneg v (by norm_num)
      linarith) (op := [(SENIORITY, [])]) (by simp [Diagonal])
  have hc := fun d => C112_combination 1 d (ACM_Hamiltonian (c30 := kC 1)) [(SENIORITY, [])]
  choose rC sC hrC l1 l2 using fun d => C112_exists (hc d) ht ht' hm hr hr'
  obtain ⟨ho, hd⟩ := C32_partial ht ha hm hr
  have hLs : rA.map LEig.L = [0] := by rw [occupied_eq ha ho]; decide +kernel
  rw [hLs] at l1 l2
  have one : ∀ {r : List LEig}, r.map LEig.L = [0] → ∃ x ∈ r, x.L = 0 := fun h => List.mem_map.1 (h ▸ List.mem_singleton_self (0 : Int))
  obtain ⟨x, hx, ex⟩ := one hLs
  obtain ⟨y, hy, ey⟩ := one (l2 0)
  choose z hz ez using fun d => one (l1 d)
  have hat : twoStates.at 0 = twoStates := rfl
  obtain ⟨N, hN, n1, n2, _⟩ := C112_energies hla ht' hm hr' hy
  rw [ey, hat] at hN
  have hb : List.Forall₂ (fun P L => P.cols = P.rows ∧ dimXspace twoStates.nu_min twoStates.nu_max twoStates.v_min twoStates.v_max L none =
      .ok (P.rows : Int)) (rA.map LEig.basis) (rA.map LEig.L) := by
    rw [List.forall₂_map_left_iff, List.forall₂_map_right_iff, List.forall₂_same]
    intro x hx
    obtain ⟨k1, k2, _⟩ := basis_shape hla ht hm hr hx
    exact ⟨by rw [k1, k2], by rw [k1]; exact (hd x hx).1⟩
  obtain ⟨R, hR, _⟩ := C73_blocks (env := ⟨⟨fileCG onesFS none, la⟩, fun _ _ => 0⟩) hla ha ho (l0 := 0) (l1 := 0)
    (by rw [hLs]; rfl) (by rw [hLs]; rfl) hb hm hN
  have hdim : twoStates.dim = 2 := by rw [← length_xlabels]; decide +kernel
  obtain ⟨_, _, _, _, hx2, _⟩ := level_basis hla ht hm hr hx
  rw [ex, hat, hdim] at hx2
  have hsym : M.e 0 1 = M.e 1 0 := by
    have h := C97_acm_partial ha hn hp hp1 onesFS none hla hm hlam 0 0 0 0 0 1 0 0 0 0 0 (M := M) (by
      rw [show kC 0 = (0 : Coeff) from rfl]
      exact hM)
    have hsq := allMat_square ha ((rep_eq ha hm _).symm.trans hM)
    exact h 0 (by rw [hsq.1, hdim]; decide) 1 (by rw [hsq.1, hdim]; decide)
  set p : ℝ → ℝ := fun d => (M.e 0 0 + d * N.e 0 0) + (M.e 1 1 + d * N.e 1 1) with hpd
  set q : ℝ → ℝ := fun d => (M.e 0 0 + d * N.e 0 0) ^ 2 + (M.e 1 1 + d * N.e 1 1) ^ 2 +
    2 * (M.e 1 0 + d * ((N.e 0 1 + N.e 1 0) / 2)) ^ 2 with hqd
  have lev : ∀ d, (z d).vals.getD 0 0 = (p d - Real.sqrt (2 * q d - p d ^ 2)) / 2 ∧
      (z d).vals.getD 1 0 = (p d + Real.sqrt (2 * q d - p d ^ 2)) / 2 := by
    intro d
    have tC := comb_tame (hc d) ht ht'
    obtain ⟨_, _, _, _, hz2, _⟩ := level_basis hla tC hm (hrC d) (hz d)
    rw [ez, hat, hdim] at hz2
    obtain ⟨Q, hQ, _, _, t1, t2⟩ := C112_energies hla tC hm (hrC d) (hz d)
    rw [ez, hat] at hQ
    obtain ⟨Q', hQ', _, _, hQe⟩ := C112_matrix ha hm (hc d) hM hN
    rw [hQ] at hQ'
    injection hQ' with hQ'
    subst hQ'
    have hmono : ((z d).vals).Pairwise (· ≤ ·) := by
      obtain ⟨_, v, _, _, _, hv, _, _, _, _, hmono⟩ := level_basis hla tC hm (hrC d) (hz d)
      rw [hv, List.pairwise_map]
      refine List.pairwise_lt_range.imp_of_mem fun {i j} _ hj hij => hmono i j hij.le (List.mem_range.1 hj)
    rw [← hz2] at t1 t2
    generalize (z d).vals = l at *
    match l, hz2 with
    | [e, f], _ =>
      simp only [Finset.sum_range_succ, Finset.sum_range_zero, zero_add, hQe, List.sum_cons, List.sum_nil, List.map_cons, List.map_nil,
        add_zero, one_mul, hsym] at t1 t2
      have hef : e ≤ f := by simpa using hmono
      refine from_sums hef (t1.trans ?_) (t2.trans ?_)
      · rw [hpd]
      · rw [hqd]; ring
  have hpos : 2 * q 0 - p 0 ^ 2 ≠ 0 := by
    have : 2 * q 0 - p 0 ^ 2 = (M.e 0 0 - M.e 1 1) ^ 2 + 4 * M.e 1 0 ^ 2 := by
      rw [hpd, hqd]
      ring
    rw [this]
    positivity
  have dp : DifferentiableAt ℝ p 0 := by rw [hpd]; fun_prop
  have dq : DifferentiableAt ℝ (fun d => Real.sqrt (2 * q d - p d ^ 2)) 0 := by
    refine DifferentiableAt.sqrt ?_ hpos
    rw [hpd, hqd]
    fun_prop
  refine ⟨_, _, _, twoStates, s, sA, sC, M, rA, rC, R, x, z, fun i => deriv (fun d => (z d).vals.getD i 0) 0, hc, ht, rfl, hm, hM, h10, hr,
    hrC, hR, hx, hz, fun d => by rw [ez, ex], hx2.symm, fun i hi => DifferentiableAt.hasDerivAt ?_⟩
  interval_cases i
  · simp only [fun d => (lev d).1]
    exact (dp.sub dq).div_const 2
  · simp only [fun d => (lev d).2]
    exact (dp.add dq).div_const 2

-- C126: all hypotheses of the three theorems are met.
example {la : LinAlg} (hla : LinAlgOk la) := perturb_meets hla

end Acm.Props
