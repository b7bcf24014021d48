import Verif.Lemmas.RadialSingle
import Verif.Props.FullSum
import Verif.Props.RadialFormed
import Verif.Props.RadialLC
import Verif.Props.RootsFull
import Verif.Props.SO5Red
import Verif.Props.Symmetric
import Verif.Spec.Roots

/-!
# Where the momentum operators are represented: C101
-/

namespace Acm.Props

open Acm Acm.Spec

/-- A product that is represented starts and ends at a positive `lambda`. -/
theorem prod_positive {la : LinAlg} {anorm lam : ℝ} {w : List RadSym} {R lo hi lap : Int} {P : Arr}
    (h : RepRadialProd la anorm w lam R lo hi lap = .ok P) : 0 < lam ∧ 0 < lam + (R : ℝ) := by
  constructor <;> by_contra hc
  · have := h.symm.trans (C16_rejects _ _ _ _ _ _ _ _ (.inl (not_lt.1 hc))); cases this
  · have := h.symm.trans (C16_rejects _ _ _ _ _ _ _ _ (.inr (.inl (not_lt.1 hc)))); cases this

/-- What a returned linear combination, whose first product is `w`, says about the arrays. -/
theorem lc_addable {la : LinAlg} {anorm lam c : ℝ} {w : List RadSym} {rest : List (ℝ × List RadSym)} {R lo hi : Int}
    {M : Arr} (hr : lo ≤ hi) (h0 : 0 ≤ lo) (h : RepRadial_LC la ((c, w) :: rest) anorm lam R lo hi 0 = .ok M) :
    0 < lam ∧ 0 < lam + (R : ℝ) ∧ (Symbolic w lam R ∨ ∀ u ∈ rest, ¬ Symbolic u.2 lam R) := by
  obtain ⟨⟨Ps, hP⟩, hA⟩ := C81_terms _ _ _ _ _ _ _ _ _ h
  cases hP with
  | cons hP _ =>
    obtain ⟨h1, h2⟩ := prod_positive hP
    exact ⟨h1, h2, hA (by omega) _ _ rfl⟩

section
variable {env : XEnv} {lam : LambdaFunction} {a : XArgs}

/-- The block of a returned momentum operator for a pair of states. -/
theorem block_of {body : BlockFun} {post : Arr → Arr} (hp : KeepsShape post) (h : LegalRanges a) {M : Arr}
    (hM : fillBlocks lam (a.rdim : Int) (a.states.length : Int) a.states body post = .ok M) {s t : Label}
    (hs : s ∈ a.states) (ht : t ∈ a.states) :
    ∃ i j l b, lam s.1 = .ok l ∧ body i j s t l = .ok b := by
  obtain ⟨j, hj, rfl⟩ := List.mem_iff_getElem.1 hs
  obtain ⟨i, hi, rfl⟩ := List.mem_iff_getElem.1 ht
  obtain ⟨bs, hb, -⟩ := (fillBlocks_iff (rdim_pos h) hp).1 hM
  obtain ⟨⟨init, fin, l, g1, g2, g3, g4⟩, -⟩ := hb i hi j hj
  rw [List.getElem?_eq_getElem hj] at g1
  rw [List.getElem?_eq_getElem hi] at g2
  injection g1 with g1
  injection g2 with g2
  subst g1 g2
  exact ⟨i, j, l, _, g3, g4⟩

theorem pi_up (h : LegalRanges a) {M : Arr} (hM : RepXspace_Pi env lam a = .ok M) {s t : Label} (hs : s ∈ a.states)
    (ht : t ∈ a.states) (hv : t.1 = s.1 + 1 ∨ t.1 = s.1 - 1) (hL : |t.2.2 - s.2.2| ≤ 2) :
    ∃ k l, lam s.1 = .ok k ∧ lam t.1 = .ok l ∧ ((l - k) % 2 = 0 ∨ 0 < l - k) := by
  rw [Pi_eq h] at hM
  obtain ⟨i, j, k, b, e, hb⟩ := block_of (fun M => ⟨rfl, rfl⟩) h hM hs ht
  rw [abs_le] at hL
  obtain ⟨v, x, L⟩ := s
  obtain ⟨v', x', L'⟩ := t
  unfold piBlock at hb
  dsimp only at hb hv hL e ⊢
  rw [if_neg (by omega)] at hb
  obtain ⟨l, el, hb⟩ := py_bind_eq_ok hb
  refine ⟨k, l, e, el, ?_⟩
  have fin : ∀ {c1 c2 : ℝ} {P : Arr}, xLC env a [(c1, [.Db]), (c2, [.bm])] k l 0 = .ok P →
      (l - k) % 2 = 0 ∨ 0 < l - k := by
    intro c1 c2 P hP
    obtain ⟨h1, h2, h3⟩ := lc_addable h.1.2 h.1.1 hP
    rw [symbolic_Db h1 h2] at h3
    rcases h3 with h3 | h3
    · exact .inr h3.2
    · have := h3 (c2, [.bm]) (by simp)
      rw [symbolic_bm h1 h2] at this
      omega
  rcases hv with rfl | rfl
  · rw [if_pos (by ring)] at hb
    obtain ⟨P, hP, -⟩ := py_bind_eq_ok hb
    exact fin hP
  · rw [if_neg (by omega), if_pos (by ring)] at hb
    obtain ⟨P, hP, -⟩ := py_bind_eq_ok hb
    exact fin hP

/-- C101.  If the matrix of the momentum is returned, the shift of `lambda` changes by an even number from any state
to any other that has one unit of seniority more and an angular momentum within 2. -/
theorem C101_even {env : XEnv} {lam : LambdaFunction} {a : XArgs}
    (h : LegalRanges a) {states : List Label}
    (hst : lbsSO5r3_rngVvarL a.v_min a.v_max a.L_min (some a.L_max) = .ok states) {M : Arr}
    (hM : RepXspace_Pi env lam a = .ok M) {s t : Label} (hs : s ∈ states)
    (ht : t ∈ states) (hv : t.1 = s.1 + 1) (hL : |t.2.2 - s.2.2| ≤ 2) :
    ∃ k l, lam s.1 = .ok k ∧ lam t.1 = .ok l ∧ (l - k) % 2 = 0 := by
  rw [states_ok h] at hst
  injection hst with hst
  subst hst
  obtain ⟨k, l, e1, e2, h1⟩ := pi_up h hM hs ht (.inl hv) hL
  obtain ⟨l', k', e3, e4, h2⟩ := pi_up h hM ht hs (.inr (by omega)) (by rwa [abs_sub_comm])
  rw [e1] at e4
  rw [e2] at e3
  injection e3 with e3
  injection e4 with e4
  subst e3 e4
  exact ⟨k, l, e1, e2, by omega⟩

/-- C101 fails for the momentum: in no basis that respects parity, such as that of the harmonic oscillator and the
default one, is the momentum represented between neighbouring states. -/
theorem C101_pi_fails {env : XEnv} {lam : LambdaFunction} {a : XArgs}
    (hlam : ParityBasis lam) (h : LegalRanges a) {states : List Label}
    (hst : lbsSO5r3_rngVvarL a.v_min a.v_max a.L_min (some a.L_max) = .ok states) {s t : Label} (hs : s ∈ states)
    (ht : t ∈ states) (hv : t.1 = s.1 + 1) (hL : |t.2.2 - s.2.2| ≤ 2) (M : Arr) : RepXspace_Pi env lam a ≠ .ok M := by
  intro hM
  obtain ⟨k, l, e1, e2, h2⟩ := C101_even h hst hM hs ht hv hL
  have := hlam _ _ e1
  have := hlam _ _ e2
  omega

theorem pipi_up (h : LegalRanges a) {K : Int} {M : Arr} (hM : RepXspace_PiPi env lam K a = .ok M) {s t : Label}
    (hs : s ∈ a.states) (ht : t ∈ a.states) (hv : t.1 = s.1 + 2 ∨ t.1 = s.1 - 2) (hL : |t.2.2 - s.2.2| ≤ K) :
    ∃ k l, lam s.1 = .ok k ∧ lam t.1 = .ok l ∧ 0 < l - k := by
  rw [PiPi_eq h _ _ ((abs_nonneg _).trans hL)] at hM
  obtain ⟨i, j, k, b, e, hb⟩ := block_of (fun M => by split_ifs <;> exact ⟨rfl, rfl⟩) h hM hs ht
  rw [abs_le] at hL
  obtain ⟨v, x, L⟩ := s
  obtain ⟨v', x', L'⟩ := t
  unfold pipiBlock at hb
  dsimp only at hb hv hL e ⊢
  rw [if_neg (by omega)] at hb
  obtain ⟨l, el, hb⟩ := py_bind_eq_ok hb
  refine ⟨k, l, e, el, ?_⟩
  have fin : ∀ {c1 c2 c3 : ℝ} {P : Arr}, xLC env a [(c1, [.D2b]), (c2, [.bm2]), (c3, [.bm2, .bDb])] k l 0 = .ok P →
      0 < l - k := by
    intro c1 c2 c3 P hP
    obtain ⟨h1, h2, h3⟩ := lc_addable h.1.2 h.1.1 hP
    rw [symbolic_D2b h1 h2] at h3
    rcases h3 with h3 | h3
    · exact h3
    · have g1 := h3 (c2, [.bm2]) (by simp)
      have g2 := h3 (c3, [.bm2, .bDb]) (by simp)
      rw [symbolic_bm2 h1 h2] at g1
      rw [symbolic_bm2bDb h1 h2] at g2
      omega
  rcases hv with rfl | rfl
  · rw [if_pos (by ring)] at hb
    obtain ⟨P, hP, -⟩ := py_bind_eq_ok hb
    exact fin hP
  · rw [if_neg (by omega), if_pos (by ring)] at hb
    obtain ⟨P, hP, -⟩ := py_bind_eq_ok hb
    exact fin hP

/-- C101 fails for the squares of the momentum: in no basis at all are they represented between states whose
seniorities differ by two and whose angular momenta differ by no more than that of the operator. -/
theorem C101_pipi_fails {env : XEnv} {lam : LambdaFunction} {a : XArgs}
    (h : LegalRanges a) {states : List Label}
    (hst : lbsSO5r3_rngVvarL a.v_min a.v_max a.L_min (some a.L_max) = .ok states) {s t : Label} (hs : s ∈ states)
    (ht : t ∈ states) (hv : t.1 = s.1 + 2) (K : Int) (hL : |t.2.2 - s.2.2| ≤ K) (M : Arr) :
    RepXspace_PiPi env lam K a ≠ .ok M := by
  intro hM
  rw [states_ok h] at hst
  injection hst with hst
  subst hst
  obtain ⟨k, l, e1, e2, h1⟩ := pipi_up h hM hs ht (.inl hv) hL
  obtain ⟨l', k', e3, e4, h2⟩ := pipi_up h hM ht hs (.inr (by omega)) (by rwa [abs_sub_comm])
  rw [e1] at e4
  rw [e2] at e3
  injection e3 with e3
  injection e4 with e4
  omega

/-! ### Sums of operators -/

theorem whole_mem {op : OpSym} (h1 : op.radial? = none) (h2 : op.isSpherical = false) {ops : List OpSym} :
    ∀ (rs : List RadSym) (ss : List OpSym), op ∈ ops → .whole op ∈ segsOf ops rs ss := by
  induction ops with
  | nil => intro _ _ h; cases h
  | cons o ops ih =>
    intro rs ss h
    rcases List.mem_cons.1 h with rfl | h
    · rw [segsOf, h1]
      simp only [h2, Bool.false_eq_true, if_false]
      split_ifs <;> simp
    · rw [segsOf]
      cases o.radial? with
      | some r => exact ih _ _ h
      | none =>
        simp only
        split_ifs
        · exact ih _ _ h
        · simp [ih _ _ h]
        · simp [ih _ _ h]

theorem segs_ok {gs : List Seg} : ∀ {x M : Arr}, segsMat env a lam x gs = .ok M → ∀ g ∈ gs, ∃ y, segMat env a lam g = .ok y := by
  induction gs with
  | nil => intro x M _ g hg; cases hg
  | cons g gs ih =>
    intro x M h g' hg
    rw [segsMat] at h
    obtain ⟨y, hy, h⟩ := py_bind_eq_ok h
    rcases List.mem_cons.1 hg with rfl | hg
    · exact ⟨y, hy⟩
    · exact ih h g' hg

theorem prod_segs (h : LegalRanges a) {ops : List OpSym} {M : Arr} (hM : prodMat env a ops lam = .ok M) :
    ∀ g ∈ segsOf ops [] [], ∃ y, segMat env a lam g = .ok y := by
  unfold prodMat at hM
  rw [check_ok h, py_bind_ok] at hM
  cases hs : segsOf ops [] [] with
  | nil => exact absurd hs (segsOf_ne_nil _ _ _)
  | cons g gs =>
    rw [hs] at hM
    obtain ⟨y, hy, hM⟩ := py_bind_eq_ok hM
    intro g' hg
    rcases List.mem_cons.1 hg with rfl | hg
    · exact ⟨y, hy⟩
    · exact segs_ok hM g' hg

/-- C101 fails for Hamiltonians: no sum of products of operators in which the momentum occurs is represented in a
basis that respects parity, if the range has neighbouring states. -/
theorem C101_sum_pi_fails {env : XEnv} {a : XArgs}
    (h : LegalRanges a) {s : XState} (hs : MemoOk env s) (hlam : ParityBasis s.lam_fun)
    {states : List Label} (hst : lbsSO5r3_rngVvarL a.v_min a.v_max a.L_min (some a.L_max) = .ok states) {x y : Label}
    (hx : x ∈ states) (hy : y ∈ states) (hv : y.1 = x.1 + 1) (hL : |y.2.2 - x.2.2| ≤ 2) {ts : OperatorSum}
    {t : Coeff × OperatorProduct} (ht : t ∈ ts) (hpi : .Pi ∈ t.2) (M : Arr) : (RepXspace env ts a s).1 ≠ .ok M := by
  intro hM
  obtain ⟨P, hP⟩ := (C30_exists h hs ts).1 ⟨M, hM⟩ t ht
  rw [prod_eq hs] at hP
  obtain ⟨X, hX⟩ := prod_segs h hP _ (whole_mem rfl rfl [] [] hpi)
  exact C101_pi_fails hlam h hst hx hy hv hL X hX

/-- C101 fails for Hamiltonians: no sum of products of operators in which a square of the momentum occurs is
represented, in any basis, if the range has states whose seniorities differ by two and whose angular momenta by no
more than two. -/
theorem C101_sum_pipi_fails {env : XEnv} {a : XArgs}
    (h : LegalRanges a) {s : XState} (hs : MemoOk env s)
    {states : List Label} (hst : lbsSO5r3_rngVvarL a.v_min a.v_max a.L_min (some a.L_max) = .ok states) {x y : Label}
    (hx : x ∈ states) (hy : y ∈ states) (hv : y.1 = x.1 + 2) (hL : |y.2.2 - x.2.2| ≤ 2) {ts : OperatorSum}
    {t : Coeff × OperatorProduct} (ht : t ∈ ts) (hpi : .PiPi2 ∈ t.2 ∨ .PiPi4 ∈ t.2) (M : Arr) :
    (RepXspace env ts a s).1 ≠ .ok M := by
  intro hM
  obtain ⟨P, hP⟩ := (C30_exists h hs ts).1 ⟨M, hM⟩ t ht
  rw [prod_eq hs] at hP
  rcases hpi with hpi | hpi
  · obtain ⟨X, hX⟩ := prod_segs h hP _ (whole_mem rfl rfl [] [] hpi)
    exact C101_pipi_fails h hst hx hy hv 2 hL X hX
  · obtain ⟨X, hX⟩ := prod_segs h hP _ (whole_mem rfl rfl [] [] hpi)
    exact C101_pipi_fails h hst hx hy hv 4 (by omega) X hX

/-- Three bases that respect parity and a range with the states `(0,1,0)`, `(1,1,2)` and `(2,1,2)`. -/
example (env : XEnv) : LegalRanges ⟨1, 5 / 2, 0, 5, 0, 2, 0, 2⟩ ∧ ParityBasis lambda_sho_fun ∧
    ParityBasis lambda_acm_fun ∧ ParityBasis lambda_jig_fun ∧ MemoOk env (XState.start lambda_acm_fun) ∧
    lbsSO5r3_rngVvarL 0 2 0 (some 2) = .ok [(0, 1, 0), (1, 1, 2), (2, 1, 2)] :=
  ⟨by simp [LegalRanges], C100_bases.1, C100_bases.2.1, C100_bases.2.2.1, memoOk_start _ _, by decide +kernel⟩

/-! ### Where they are represented -/

/-- An even change of `lambda` for one factor. -/
theorem splits_even {K T R : Int} (hT : 0 ≤ T) (hKT : |K| + T = 1) (hR : R % 2 = 0) (h0 : R ≠ 0) :
    Lambda_Splits K T R = .ok [R, 0] := by
  unfold Lambda_Splits
  rw [require_nonnegint_ok hT, py_bind_ok, hKT]
  have ha : |R| = R ∨ |R| = -R := abs_choice R
  have hp : 0 < |R| := abs_pos.2 h0
  simp only [py_pure]
  rw [if_pos (by omega), if_neg (by rw [is_even_iff]; omega), if_pos (by omega), py_bind_ok]
  by_cases h : R < 0
  · rw [if_pos h]
    have : |R| = -R := abs_of_neg h
    rw [this]
    simp [pyRep]
  · rw [if_neg h]
    have : |R| = R := abs_of_nonneg (by omega)
    rw [this]
    simp [pyRep]

/-- `d/dbeta` and `1/beta` with an even change of `lambda`. -/
theorem one_even {la : LinAlg} (hla : LinAlgOk la) {anorm l : ℝ} {R : Int} (h : 0 < l) (h' : 0 < l + (R : ℝ))
    (hR : R % 2 = 0) {lo hi : ℕ} (hr : lo ≤ hi) :
    (∃ P, RepRadialProd la anorm [.Db] l R lo hi 0 = .ok P) ∧ ∃ P, RepRadialProd la anorm [.bm] l R lo hi 0 = .ok P := by
  have hm : (lo : Int) - min 0 (lo : Int) = lo ∧ (hi : Int) + 0 = hi := by omega
  have hS : ∀ x : ℝ, 0 < x → ∃ S, (radMat la anorm (lo : Int) (hi : Int)).b2_sqrtInv x = .ok S := fun x hx => by
    obtain ⟨B, R, S, -, -, hS, -⟩ := C26_sqrt la hla x hx lo hi hr
    exact ⟨S, hS⟩
  have hD : ∀ x : ℝ, 0 < x → ∃ S, (radMat la anorm (lo : Int) (hi : Int)).rep .bDb x = .ok S := fun x hx =>
    rep_exists (m := .bDb) (bDb_ok hx)
  have h0 : ¬ (l ≤ 0 ∨ l + (R : ℝ) ≤ 0) := by rintro (h | h) <;> linarith
  unfold RepRadialProd
  rw [prod_single (K := 0) (T := 1) (by norm_num) (by decide +kernel) h h',
    prod_single (K := -1) (T := 0) (by norm_num) (by decide +kernel) h h', hm.1, hm.2]
  rcases lt_trichotomy R 0 with hn | rfl | hn
  · obtain ⟨S, hS⟩ := hS _ h'
    obtain ⟨D, hD⟩ := hD _ h'
    obtain ⟨J, hJ⟩ : ∃ J, (radMat la anorm (lo : Int) (hi : Int)).id_ml l (Int.fdiv (-R) 2) = .ok J :=
      regular_ok hla hr (f := (.idMl (Int.fdiv (-R) 2), l)) ⟨h, by
        have e : Prim.shift (.idMl (Int.fdiv (-R) 2)) = R := by
          simp only [Prim.shift]
          rw [Int.fdiv_eq_ediv_of_nonneg _ (by decide)]
          omega
        dsimp only
        rwa [e], by simp⟩
    constructor
    · rw [bsds_neg _ (s := [0]) (n := 1) h0 (by simp) (splits_even (by decide) (by decide) hR hn.ne) (by decide) rfl hn
        (by rw [is_even_iff]; exact hR)]
      simp [bS_DS_loop, bS_DS_select, bS_DS_update, pyGet, pyAssert, hD, hS, hJ, py_pure, py_bind_ok, bS_DS_finish, readVar,
        hn.not_gt, hn.not_ge]
    · rw [bsds_neg _ (s := [0]) (n := 1) h0 (by simp) (splits_even (by decide) (by decide) hR hn.ne) (by decide) rfl hn
        (by rw [is_even_iff]; exact hR)]
      simp [bS_DS_loop, bS_DS_select, bS_DS_update, pyGet, pyAssert, hS, hJ, py_pure, py_bind_ok, bS_DS_finish, readVar,
        hn.not_gt, hn.not_ge]
  · obtain ⟨S, hS⟩ := hS _ h
    obtain ⟨D, hD⟩ := hD _ h
    constructor
    · rw [bsds_none _ (s := [0]) (n := 1) h0 (by decide) (by decide +kernel) (by decide) rfl]
      simp [bS_DS_loop, bS_DS_select, bS_DS_update, pyGet, pyAssert, hD, hS, py_pure, py_bind_ok, bS_DS_finish, readVar]
    · rw [bsds_none _ (s := [0]) (n := 1) h0 (by decide) (by decide +kernel) (by decide) rfl]
      simp [bS_DS_loop, bS_DS_select, bS_DS_update, pyGet, pyAssert, hS, py_pure, py_bind_ok, bS_DS_finish, readVar]
  · obtain ⟨S, hS⟩ := hS _ h
    obtain ⟨D, hD⟩ := hD _ h
    obtain ⟨J, hJ⟩ : ∃ J, (radMat la anorm (lo : Int) (hi : Int)).id_pl l (Int.fdiv R 2) = .ok J :=
      regular_ok hla hr (f := (.idPl (Int.fdiv R 2), l)) ⟨h, by
        have e : Prim.shift (.idPl (Int.fdiv R 2)) = R := by
          simp only [Prim.shift]
          rw [Int.fdiv_eq_ediv_of_nonneg _ (by decide)]
          omega
        dsimp only
        rwa [e], by simp⟩
    have hev : is_even R = true := by rw [is_even_iff]; exact hR
    constructor
    · rw [bsds_pos _ (s := [0]) (n := 1) h0 (by simp) (splits_even (by decide) (by decide) hR hn.ne') (by decide) rfl hn]
      simp [bS_DS_loop, bS_DS_select, bS_DS_update, pyGet, pyAssert, hD, hS, hJ, py_pure, py_bind_ok, bS_DS_finish, readVar,
        hn, hn.le, hev]
    · rw [bsds_pos _ (s := [0]) (n := 1) h0 (by simp) (splits_even (by decide) (by decide) hR hn.ne') (by decide) rfl hn]
      simp [bS_DS_loop, bS_DS_select, bS_DS_update, pyGet, pyAssert, hS, hJ, py_pure, py_bind_ok, bS_DS_finish, readVar,
        hn, hn.le, hev]

theorem D2b_same {la : LinAlg} {anorm l : ℝ} (h : 0 < l) (h1 : l ≠ 1) {lo hi : ℕ} :
    (∃ P, RepRadialProd la anorm [.D2b] l 0 lo hi 0 = .ok P) ∧ ∃ P, RepRadialProd la anorm [.bm2] l 0 lo hi 0 = .ok P := by
  obtain ⟨x, hx⟩ := rep_exists (la := la) (anorm := anorm) (lo := lo) (hi := hi) (m := .D2b) (D2b_ok h h1)
  obtain ⟨y, hy⟩ := rep_exists (la := la) (anorm := anorm) (lo := lo) (hi := hi) (m := .bm2) (bm2_ok h h1)
  have hx' : RepRadial ME_Radial_D2b l lo hi = .ok x := hx
  have hy' : RepRadial ME_Radial_bm2 l lo hi = .ok y := hy
  refine ⟨?_, ?_⟩
  · rw [radial_D2b h (by omega), hx']; exact ⟨_, rfl⟩
  · rw [radial_bm2 h (by omega), hy']; exact ⟨_, rfl⟩

theorem LC_exists {la : LinAlg} (hla : LinAlgOk la) {anorm l c d : ℝ} (ha : anorm ≠ 0) {u w : List RadSym} {R : Int}
    {lo hi : ℕ} (hr : lo ≤ hi) (hu : ∃ P, RepRadialProd la anorm u l R lo hi 0 = .ok P)
    (hw : ∃ P, RepRadialProd la anorm w l R lo hi 0 = .ok P) (hs : ¬ Symbolic w l R) :
    ∃ P, RepRadial_LC la [(c, u), (d, w)] anorm l R lo hi 0 = .ok P ∧ P.rows = hi + 1 - lo ∧ P.cols = hi + 1 - lo := by
  obtain ⟨P, hP⟩ := hu
  obtain ⟨Q, hQ⟩ := hw
  obtain ⟨M, h1, h2, -⟩ := C81_value_partial la hla anorm ha [(c, u), (d, w)] l R lo hi 0 (by omega) [P, Q]
    (.cons hP (.cons hQ .nil)) fun _ t rest e => by
      injection e with e1 e2
      subst e1 e2
      exact .inr fun x hx => by
        rw [List.mem_singleton] at hx
        subst hx
        exact hs
  exact ⟨M, h1, h2.1, h2.2.1⟩

theorem fill_exists (h : LegalRanges a) {body : BlockFun} {post : Arr → Arr} (hp : KeepsShape post)
    (hb : ∀ s ∈ a.states, ∀ t ∈ a.states, ∃ l b, lam s.1 = .ok l ∧ (∀ i j, body i j s t l = .ok b) ∧ BlockShape a.rdim b) :
    ∃ M, fillBlocks lam (a.rdim : Int) (a.states.length : Int) a.states body post = .ok M := by
  have key : ∀ i j, ∃ b, (i < a.states.length → j < a.states.length →
      BodyGives lam a.states body i j b ∧ BlockShape a.rdim b) := by
    intro i j
    by_cases hij : i < a.states.length ∧ j < a.states.length
    swap
    · exact ⟨none, fun h1 h2 => absurd ⟨h1, h2⟩ hij⟩
    obtain ⟨l, b, h1, h2, h3⟩ := hb _ (List.getElem_mem hij.2) _ (List.getElem_mem hij.1)
    exact ⟨b, fun _ _ => ⟨⟨_, _, l, List.getElem?_eq_getElem hij.2, List.getElem?_eq_getElem hij.1, h1, h2 i j⟩, h3⟩⟩
  choose bs hbs using key
  exact ⟨_, (fillBlocks_iff (rdim_pos h) hp).2 ⟨bs, fun i hi j hj => hbs i j hi hj, rfl⟩⟩

theorem nat_ranges (h : LegalRanges a) : ∃ lo hi : ℕ, a.nu_min = lo ∧ a.nu_max = hi ∧ lo ≤ hi ∧ a.rdim = hi + 1 - lo := by
  obtain ⟨lo, e1⟩ := Int.eq_ofNat_of_zero_le h.1.1
  obtain ⟨hi, e2⟩ := Int.eq_ofNat_of_zero_le (h.1.1.trans h.1.2)
  refine ⟨lo, hi, e1, e2, ?_, ?_⟩
  · have := h.1.2; omega
  · have := h.1.2; unfold XArgs.rdim; omega

theorem state_v_nat (h : LegalRanges a) {s : Label} (hs : s ∈ a.states) : ∃ n : ℕ, s.1 = n := by
  obtain ⟨v, al, L, rfl, -⟩ := state_nat h hs
  exact ⟨v, rfl⟩

/-- C101, the part that holds, and exactly: in a basis in which `lambda` is positive, the matrix of the momentum is
returned if and only if the shift of `lambda` changes by an even number between any two states whose seniorities
differ by one and whose angular momenta differ by no more than two, provided that the Clebsch-Gordan coefficients are
returned.

What is missing: the other bases, see `C101_even` and `C101_pi_fails`. -/
theorem C101_pi_partial {env : XEnv} {lam : LambdaFunction} {a : XArgs}
    (hla : LinAlgOk env.la) (h : LegalRanges a) (ha : a.anorm ≠ 0) {states : List Label}
    (hst : lbsSO5r3_rngVvarL a.v_min a.v_max a.L_min (some a.L_max) = .ok states) {ls : Int → Int}
    (hl : ∀ s ∈ states, lam s.1 = .ok (ls s.1)) (hp : ∀ s ∈ states, 0 < a.lambda_base + ls s.1)
    (hCG : ∀ s ∈ states, ∀ t ∈ states, ∃ c, env.CG s (1, 1, 2) t = .ok c) :
    (∃ M, RepXspace_Pi env lam a = .ok M) ↔
      ∀ s ∈ states, ∀ t ∈ states, t.1 = s.1 + 1 → |t.2.2 - s.2.2| ≤ 2 → (ls t.1 - ls s.1) % 2 = 0 := by
  refine ⟨fun ⟨M, hM⟩ s hs t ht hv hL => ?_, fun hev => ?_⟩
  · obtain ⟨k, l, e1, e2, e3⟩ := C101_even h hst hM hs ht hv hL
    rw [hl s hs] at e1
    rw [hl t ht] at e2
    injection e1 with e1
    injection e2 with e2
    rw [e1, e2]
    exact e3
  rw [states_ok h] at hst
  injection hst with hst
  subst hst
  rw [Pi_eq h]
  obtain ⟨lo, hi, e1, e2, hr, e3⟩ := nat_ranges h
  refine fill_exists h (fun M => ⟨rfl, rfl⟩) fun s hs t ht => ?_
  have lc : (ls t.1 - ls s.1) % 2 = 0 → ∀ c d : ℝ, ∃ P, xLC env a [(c, [.Db]), (d, [.bm])] (ls s.1) (ls t.1) 0 = .ok P ∧
      P.rows = a.rdim ∧ P.cols = a.rdim := by
    intro hR c d
    unfold xLC
    rw [e1, e2, e3]
    have hp1 := hp s hs
    have hp2 : 0 < a.lambda_base + (ls s.1 : ℝ) + ((ls t.1 - ls s.1 : Int) : ℝ) := by
      have := hp t ht
      push_cast
      linarith
    obtain ⟨h1, h2⟩ := one_even hla (anorm := a.anorm) hp1 hp2 hR hr
    refine LC_exists hla ha hr h1 h2 ?_
    rw [symbolic_bm hp1 hp2]
    omega
  obtain ⟨c, hc⟩ := hCG s hs t ht
  obtain ⟨n, hn⟩ := state_v_nat h hs
  obtain ⟨m, hm⟩ := state_v_nat h ht
  have hls := hl _ hs
  have hlt := hl _ ht
  have hev1 := hev s hs t ht
  have hev2 := hev t ht s hs
  rw [abs_sub_comm] at hev2
  obtain ⟨v, x, L⟩ := s
  obtain ⟨v', x', L'⟩ := t
  dsimp only at hn hm hls hlt hev1 hev2 lc
  subst hn hm
  by_cases hL : L' - L > 2 ∨ L' - L < -2
  · exact ⟨_, none, hls, fun i j => by unfold piBlock; dsimp only; rw [if_pos hL]; rfl, fun B hB => by cases hB⟩
  have habs : |L' - L| ≤ 2 := by rw [abs_le]; omega
  by_cases hv : (m : Int) - n = 1
  · obtain ⟨P, hP, r1, r2⟩ := lc (hev1 (by omega) habs) 1 (-((n : Int) : ℝ) - 2)
    obtain ⟨q, -, hq⟩ := C64_Qred_p1 n
    refine ⟨_, some ((P.smul (q * (Convert_112 * Convert_red))).smul c), hls, fun i j => ?_, ?_⟩
    · unfold piBlock
      dsimp only
      rw [if_neg hL, hlt, py_bind_ok, if_pos hv, hP, py_bind_ok, hq, py_bind_ok, hc]
      rfl
    · rintro B ⟨⟩
      exact ⟨r1, r2⟩
  by_cases hv' : (m : Int) - n = -1
  · obtain ⟨P, hP, r1, r2⟩ := lc (by have := hev2 (by omega) habs; omega) 1 (((n : Int) : ℝ) + 1)
    obtain ⟨q, -, hq⟩ := C64_Qred_m1 n (by omega)
    refine ⟨_, some ((P.smul (q * (Convert_112 * Convert_red))).smul c), hls, fun i j => ?_, ?_⟩
    · unfold piBlock
      dsimp only
      rw [if_neg hL, hlt, py_bind_ok, if_neg hv, if_pos hv', hP, py_bind_ok, hq, py_bind_ok, hc]
      rfl
    · rintro B ⟨⟩
      exact ⟨r1, r2⟩
  · refine ⟨_, none, hls, fun i j => ?_, fun B hB => by cases hB⟩
    unfold piBlock
    dsimp only
    rw [if_neg hL, hlt, py_bind_ok, if_neg hv, if_neg hv']
    rfl

/-- C101, the part that holds.  If no two states of the range differ by two in seniority, or if those that do differ
in angular momentum by more than that of the operator, the matrix of a square of the momentum is returned in every
basis in which `lambda` is positive and not 1, provided that the Clebsch-Gordan coefficients are.

What is missing: the other ranges, see `C101_pipi_fails`. -/
theorem C101_diagonal_partial {env : XEnv} {lam : LambdaFunction} {a : XArgs}
    (hla : LinAlgOk env.la) (h : LegalRanges a) (ha : a.anorm ≠ 0) {states : List Label}
    (hst : lbsSO5r3_rngVvarL a.v_min a.v_max a.L_min (some a.L_max) = .ok states) {K : Int} (hK : 0 ≤ K)
    (hl : ∀ s ∈ states, ∃ k, lam s.1 = .ok k ∧ 0 < a.lambda_base + k ∧ a.lambda_base + k ≠ 1)
    (hv : ∀ s ∈ states, ∀ t ∈ states, |t.2.2 - s.2.2| ≤ K → t.1 ≠ s.1 + 2)
    (hCG : ∀ s ∈ states, ∀ t ∈ states, ∃ c, env.CG s (2, 1, K) t = .ok c) :
    ∃ M, RepXspace_PiPi env lam K a = .ok M := by
  rw [states_ok h] at hst
  injection hst with hst
  subst hst
  rw [PiPi_eq h _ _ hK]
  obtain ⟨lo, hi, e1, e2, hr, e3⟩ := nat_ranges h
  refine fill_exists h (keepsShape_neg K) fun s hs t ht => ?_
  obtain ⟨c, hc⟩ := hCG s hs t ht
  obtain ⟨n, hn⟩ := state_v_nat h hs
  obtain ⟨k, hls, hp, h1⟩ := hl _ hs
  obtain ⟨k', hlt, -⟩ := hl _ ht
  have g1 := hv s hs t ht
  have g2 := hv t ht s hs
  rw [abs_sub_comm] at g2
  obtain ⟨v, x, L⟩ := s
  obtain ⟨v', x', L'⟩ := t
  dsimp only at hn hls hlt g1 g2
  subst hn
  by_cases hL : L' - L > K ∨ L' - L < -K
  · exact ⟨k, none, hls, fun i j => by unfold pipiBlock; dsimp only; rw [if_pos hL]; rfl, fun B hB => by cases hB⟩
  have habs : |L' - L| ≤ K := by rw [abs_le]; omega
  have g1 := g1 habs
  have g2 := g2 habs
  by_cases hv0 : v' - n = 0
  · have : v' = n := by omega
    subst this
    rw [hls] at hlt
    injection hlt with hlt
    subst hlt
    have lc : ∀ c d : ℝ, ∃ P, xLC env a [(c, [.D2b]), (d, [.bm2])] k k 0 = .ok P ∧ P.rows = a.rdim ∧ P.cols = a.rdim := by
      intro c d
      unfold xLC
      rw [sub_self, e1, e2, e3]
      obtain ⟨f1, f2⟩ := D2b_same (la := env.la) (anorm := a.anorm) hp h1 (lo := lo) (hi := hi)
      refine LC_exists hla ha hr f1 f2 ?_
      rw [symbolic_bm2 hp (by push_cast; linarith)]
      simp
    obtain ⟨P, hP, r1, r2⟩ := lc 1 (-(((n : Int) : ℝ) + 1) * (((n : Int) : ℝ) + 2))
    obtain ⟨q, -, hq⟩ := C64_QxQred_0 n
    refine ⟨k, some ((P.smul (-(q * -(Convert_212 * Convert_red)))).smul c), hls, fun i j => ?_, ?_⟩
    · unfold pipiBlock
      dsimp only
      rw [if_neg hL, hls, py_bind_ok, if_neg (by omega), if_neg (by omega), if_pos (by omega), hP, py_bind_ok, hq,
        py_bind_ok, hc]
      rfl
    · rintro B ⟨⟩
      exact ⟨r1, r2⟩
  · refine ⟨k, none, hls, fun i j => ?_, fun B hB => by cases hB⟩
    unfold pipiBlock
    dsimp only
    rw [if_neg hL, hlt, py_bind_ok, if_neg (by omega), if_neg (by omega), if_neg hv0]
    rfl

/-- In the basis with fixed `lambda` the momentum is represented on `v = 0..5`, `L = 0..6`, if the coefficients are
known; and its squares are on the range with the states `(4,1,2)` to `(4,1,8)` in the default basis. -/
example (env : XEnv) (hla : LinAlgOk env.la) (hCG : ∀ s t u, ∃ c, env.CG s t u = .ok c) :
    (∃ M, RepXspace_Pi env lambda_fix_fun ⟨1, 5 / 2, 0, 7, 0, 5, 0, 6⟩ = .ok M) ∧
      ∃ M, RepXspace_PiPi env lambda_acm_fun 2 ⟨1, 5 / 2, 0, 7, 4, 4, 2, 8⟩ = .ok M := by
  constructor
  · have h : LegalRanges ⟨1, 5 / 2, 0, 7, 0, 5, 0, 6⟩ := by simp [LegalRanges]
    refine (C101_pi_partial hla h (by norm_num) (states_ok h) (ls := fun _ => 0) (fun s hs => ?_) (fun _ _ => by norm_num)
      fun _ _ _ _ => hCG _ _ _).2 fun _ _ _ _ _ _ => rfl
    obtain ⟨n, hn⟩ := state_v_nat h hs
    rw [hn]
    unfold lambda_fix_fun
    rw [require_nonnegint_ok (by omega)]
    rfl
  · have h : LegalRanges ⟨1, 5 / 2, 0, 7, 4, 4, 2, 8⟩ := by simp [LegalRanges]
    have h4 : ∀ s ∈ XArgs.states ⟨1, 5 / 2, 0, 7, 4, 4, 2, 8⟩, s.1 = 4 := fun s hs => by
      have := state_v hs
      dsimp only at this
      omega
    refine C101_diagonal_partial hla h (by norm_num) (states_ok h) (by norm_num) (fun s hs => ⟨0, ?_, by norm_num, by norm_num⟩)
      (fun s hs t ht _ => by rw [h4 s hs, h4 t ht]; decide) fun _ _ _ _ => hCG _ _ _
    rw [h4 s hs]
    decide +kernel

end

/-- C101: the exception is `TypeError`.  In the default basis, on the range with the states `(0,1,0)` and `(1,1,2)`
and the radial number 0, the momentum raises it, if the coefficient is known. -/
theorem C101_type_error {env : XEnv} {c : ℝ} (hc : env.CG (0, 1, 0) (1, 1, 2) (1, 1, 2) = .ok c) :
    RepXspace_Pi env lambda_acm_fun ⟨1, 5 / 2, 0, 0, 0, 1, 0, 2⟩ = .error .typeError := by
  have h : LegalRanges ⟨1, 5 / 2, 0, 0, 0, 1, 0, 2⟩ := by simp [LegalRanges]
  have hst : XArgs.states ⟨1, 5 / 2, 0, 0, 0, 1, 0, 2⟩ = [(0, 1, 0), (1, 1, 2)] := by
    have g : lbsSO5r3_rngVvarL 0 1 0 (some 2) = .ok [(0, 1, 0), (1, 1, 2)] := by decide +kernel
    have := (states_ok h).symm.trans g
    injection this
  rw [Pi_eq h, hst]
  refine fillBlocks_error (i := 0) (j := 1) (rdim_pos h) (fun M => ⟨rfl, rfl⟩) (by decide) (by decide) rfl rfl
    (l := 1) (by decide +kernel) ?_ ?_
  · unfold piBlock
    dsimp only
    rw [if_neg (by decide), show lambda_acm_fun 0 = .ok 0 by decide +kernel, py_bind_ok, if_neg (by decide),
      if_pos (by decide)]
    unfold xLC
    dsimp only
    have hl : (5 / 2 : ℝ) + ((1 : Int) : ℝ) = 5 / 2 + 1 := by norm_num
    rw [hl, show (0 : Int) - 1 = -1 by rfl]
    have h1 : (0 : ℝ) < 5 / 2 + 1 := by norm_num
    have h2 : (0 : ℝ) < 5 / 2 + 1 + ((-1 : Int) : ℝ) := by norm_num
    have hD : ∃ P, RepRadialProd env.la 1 [.Db] (5 / 2 + 1) (-1) 0 0 0 = .ok P := by
      rw [radial_Db_ml (by norm_num) le_rfl, rep_one (Db_ml_ok (by norm_num))]; exact ⟨_, rfl⟩
    have hb : ∃ P, RepRadialProd env.la 1 [.bm] (5 / 2 + 1) (-1) 0 0 0 = .ok P := by
      rw [radial_bm_ml (by norm_num) le_rfl, rep_one (bm_ml_ok (by norm_num))]; exact ⟨_, rfl⟩
    have := C81_fails env.la 1 (1, [.Db]) (((1 : Int) : ℝ) + 1, [.bm]) [] [] (5 / 2 + 1) (-1) 0 0 0 (by decide)
      (fun v hv => by
        simp only [List.cons_append, List.nil_append, List.mem_cons, List.not_mem_nil, or_false] at hv
        rcases hv with rfl | rfl
        · exact hD
        · exact hb)
      (fun v hv => by
        rw [List.mem_singleton] at hv
        subst hv
        rw [symbolic_Db h1 h2]
        decide) (by rw [symbolic_bm h1 h2]; decide)
    rw [List.cons_append, List.nil_append] at this
    rw [this, py_bind_error]
  · intro i j hi hj hb
    have hj0 : j = 0 := by omega
    subst hj0
    have hi' : i = 0 ∨ i = 1 := by
      have : i < 2 := hi
      omega
    rcases hi' with rfl | rfl
    · refine ⟨none, ⟨(0, 1, 0), (0, 1, 0), 0, rfl, rfl, by decide +kernel, ?_⟩, fun B hB => by cases hB⟩
      unfold piBlock
      dsimp only
      rw [if_neg (by decide), show lambda_acm_fun 0 = .ok 0 by decide +kernel, py_bind_ok, if_neg (by decide),
        if_neg (by decide)]
      rfl
    · obtain ⟨q, -, hq⟩ := C64_Qred_p1 0
      have hP : ∃ P, xLC env ⟨1, 5 / 2, 0, 0, 0, 1, 0, 2⟩ [(1, [.Db]), (-((0 : Int) : ℝ) - 2, [.bm])] 0 1 0 = .ok P ∧
          P.rows = 1 ∧ P.cols = 1 := by
        unfold xLC
        dsimp only
        rw [show (1 : Int) - 0 = 1 by rfl, LC_up (by norm_num)]
        exact ⟨_, rfl, rfl, rfl⟩
      obtain ⟨P, hP, r1, r2⟩ := hP
      refine ⟨some ((P.smul (q * (Convert_112 * Convert_red))).smul c), ⟨(0, 1, 0), (1, 1, 2), 0, rfl, rfl, by decide +kernel, ?_⟩, ?_⟩
      · unfold piBlock
        dsimp only
        rw [if_neg (by decide), show lambda_acm_fun 1 = .ok 1 by decide +kernel, py_bind_ok, if_pos (by decide), hP,
          py_bind_ok]
        erw [hq]
        rw [py_bind_ok, hc]
        rfl
      · rintro B ⟨⟩
        exact ⟨r1, r2⟩

end Acm.Props
