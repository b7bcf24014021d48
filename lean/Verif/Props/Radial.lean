import Verif.Lemmas.RadialSqrt
import Verif.Lemmas.RadialBanded
import Verif.Lemmas.RadialDb
import Verif.Lemmas.RadialId
import Verif.Props.RadialWords

/-!
# Properties C17-C26: radial matrix elements and matrices

Statements about the model in `Verif.Model.Radial`, phrased with the vocabulary of
`Verif.Spec.Radial`: operators are infinite matrices, products are convergent sums over all
intermediate labels.
-/

namespace Acm.Props

open Acm Acm.Spec

/-! ## C17 -/

/-- C17: whatever the overlap `nu_lap`, a matrix returned by `RepRadial_Prod` is square of
size `nu_max-nu_min+1`, and its `(i,j)` entry is `anorm^e` times the element between
`nu_min+i` and `nu_min+j` of the product of the elementary operators, with the intermediate
labels restricted to the enlarged range; those elementary operators denote the requested
product (C16). -/
theorem C17_window (la : LinAlg) (hla : LinAlgOk la) (anorm : ℝ) (ha : anorm ≠ 0)
    (ops : List RadSym) (lam : ℝ) (lambda_var : Int) (nu_min nu_max nu_lap : ℕ)
    (hr : nu_min ≤ nu_max + 1) (y : Arr)
    (h : RepRadialProd la anorm ops lam lambda_var nu_min nu_max nu_lap = .ok y) :
    Square (nu_max + 1 - nu_min) y ∧ ∃ (p : FormalProd ℝ) (gs : List (ℕ → ℕ → ℝ)),
      Chain p.factors lam (lam + lambda_var) ∧
      (∀ (W : Type) [Monoid W] (I : Interp W),
        wordOf I p.factors = (ops.map (symWord I)).prod) ∧
      p.expo = (ops.map symExpo).sum ∧
      List.Forall₂ (PrimElement la (nu_min - nu_lap) (nu_max + nu_lap)) p.factors gs ∧
      ∀ i < nu_max + 1 - nu_min, ∀ j < nu_max + 1 - nu_min, y.e i j = anorm ^ p.expo *
        windowProd (nu_min - nu_lap) (nu_max + nu_lap) gs (nu_min + i) (nu_min + j) := by
  obtain ⟨p, z, h1, h2, h3, h4, h5⟩ := C16_radial_product _ _ _ _ _ _ _ _ _ h
  have elo : (nu_min : Int) - min (nu_lap : Int) nu_min = ((nu_min - nu_lap : ℕ) : Int) := by omega
  have ehi : (nu_max : Int) + nu_lap = ((nu_max + nu_lap : ℕ) : Int) := by omega
  rw [elo, ehi] at h1
  obtain ⟨hz, gs, k1, k2⟩ := denotes_window hla ha h1
  have key : Square (nu_max + 1 - nu_min) y ∧ ∀ i < nu_max + 1 - nu_min,
      ∀ j < nu_max + 1 - nu_min, y.e i j = z.e (min nu_lap nu_min + i) (min nu_lap nu_min + j) := by
    by_cases h0 : nu_lap = 0
    · subst h0
      rw [if_pos Int.natCast_zero] at h2
      subst h2
      refine ⟨hz, fun i _ j _ => ?_⟩
      simp
    · rw [if_neg (by exact_mod_cast h0)] at h2
      have e1 : min (nu_lap : Int) nu_min = ((min nu_lap nu_min : ℕ) : Int) := by omega
      have e2 : 1 + (nu_max : Int) - nu_min + ((min nu_lap nu_min : ℕ) : Int)
          = ((min nu_lap nu_min + (nu_max + 1 - nu_min) : ℕ) : Int) := by omega
      rw [e1, e2] at h2
      subst h2
      exact slice_ok hz (by omega)
  refine ⟨key.1, p, gs, h3, h4, h5, k1, fun i hi j hj => ?_⟩
  rw [key.2 i hi j hj, k2 _ (by omega) _ (by omega)]
  congr 2 <;> omega

/-! ## C18 -/

theorem opProd_banded {f : ℕ → ℕ → ℝ} (hf : Banded f) (Q : ℕ → ℕ → ℝ) : ∃ P, OpProd f Q P :=
  ⟨_, tridiag_mul (fun i k h1 h2 h3 => hf i k (by omega)) Q⟩

/-- C18: banded operators can always be multiplied, with exactly one result. -/
theorem C18_product_exists (fs : List (ℕ → ℕ → ℝ)) (hb : ∀ f ∈ fs, Banded f) :
    ∃! P, IsProd fs P := by
  induction fs with
  | nil => exact ⟨opId, .nil, fun P h => by cases h; rfl⟩
  | cons f fs ih =>
    obtain ⟨Q, hQ, hu⟩ := ih fun g hg => hb g (List.mem_cons_of_mem _ hg)
    obtain ⟨P, hP⟩ := opProd_banded (hb f List.mem_cons_self) Q
    refine ⟨P, .cons hQ hP, fun P' h => ?_⟩
    cases h with
    | @cons _ _ Q' _ hQ' hP' =>
      have := hu Q' hQ'
      subst this
      funext i j
      exact (hP' i j).unique (hP i j)

/-- C18: for banded factors, restricting the intermediate labels to the enlarged range changes
nothing as soon as `nu_lap` is at least the number of factors minus one. -/
theorem C18_window_exact (fs : List (ℕ → ℕ → ℝ)) (P : ℕ → ℕ → ℝ) (hb : ∀ f ∈ fs, Banded f)
    (hP : IsProd fs P) (nu_min nu_max nu_lap : ℕ) (hl : fs.length ≤ nu_lap + 1) (i j : ℕ)
    (hi : i < nu_max + 1 - nu_min) (hj : j < nu_max + 1 - nu_min) :
    windowProd (nu_min - nu_lap) (nu_max + nu_lap) fs (nu_min + i) (nu_min + j)
      = P (nu_min + i) (nu_min + j) := by
  refine isProd_window fs P hb hP _ _ ?_ ?_ (by omega) (by omega) <;>
    rw [Finset.mem_Icc] <;> omega

theorem primElement_agree {la : LinAlg} {lo hi : ℕ} {pl : Prim × ℝ} {f g : ℕ → ℕ → ℝ}
    (hf : PrimElement la lo hi pl f) (hg : PrimElement la lo hi pl g) :
    ∀ i ∈ Finset.Icc lo hi, ∀ j ∈ Finset.Icc lo hi, f i j = g i j := by
  intro i hi j hj
  obtain ⟨p, lam⟩ := pl
  cases p with
  | me m =>
    have := (hf i hi j hj).symm.trans (hg i hi j hj)
    injection this
  | idPl r =>
    have := (hf i hi j hj).symm.trans (hg i hi j hj)
    injection this
  | idMl r =>
    have := (hf i hi j hj).symm.trans (hg i hi j hj)
    injection this
  | sqrtB2 =>
    obtain ⟨A, a1, a2⟩ := hf
    obtain ⟨B, b1, b2⟩ := hg
    rw [a1] at b1
    injection b1 with b1
    subst b1
    rw [Finset.mem_Icc] at hi hj
    have := (a2 (i - lo) (j - lo) (by omega) (by omega)).symm.trans
      (b2 (i - lo) (j - lo) (by omega) (by omega))
    rwa [show lo + (i - lo) = i by omega, show lo + (j - lo) = j by omega] at this
  | sqrtInvB2 =>
    obtain ⟨A, a1, a2⟩ := hf
    obtain ⟨B, b1, b2⟩ := hg
    rw [a1] at b1
    injection b1 with b1
    subst b1
    rw [Finset.mem_Icc] at hi hj
    have := (a2 (i - lo) (j - lo) (by omega) (by omega)).symm.trans
      (b2 (i - lo) (j - lo) (by omega) (by omega))
    rwa [show lo + (i - lo) = i by omega, show lo + (j - lo) = j by omega] at this

theorem windowProd_congr {la : LinAlg} {lo hi : ℕ} : ∀ {ps : List (Prim × ℝ)}
    {fs gs : List (ℕ → ℕ → ℝ)}, List.Forall₂ (PrimElement la lo hi) ps fs →
    List.Forall₂ (PrimElement la lo hi) ps gs → ∀ i ∈ Finset.Icc lo hi, ∀ j ∈ Finset.Icc lo hi,
    windowProd lo hi fs i j = windowProd lo hi gs i j := by
  intro ps
  induction ps with
  | nil =>
    intro fs gs hf hg i _ j _
    cases hf
    cases hg
    rfl
  | cons p ps ih =>
    intro fs gs hf hg i hi' j hj
    cases hf with
    | cons f1 f2 =>
      cases hg with
      | cons g1 g2 =>
        simp only [windowProd]
        refine Finset.sum_congr rfl fun k hk => ?_
        rw [primElement_agree f1 g1 i hi' k hk, ih f2 g2 k hk j hj]

/-- C18: if the elementary operators that `RepRadial_Prod` multiplies are all banded and there
are at most `nu_lap + 1` of them, the returned matrix is the window of the untruncated operator
product. -/
theorem C18_exact (la : LinAlg) (hla : LinAlgOk la) (anorm : ℝ) (ha : anorm ≠ 0)
    (ops : List RadSym) (lam : ℝ) (lambda_var : Int) (nu_min nu_max nu_lap : ℕ)
    (hr : nu_min ≤ nu_max + 1) (y : Arr)
    (h : RepRadialProd la anorm ops lam lambda_var nu_min nu_max nu_lap = .ok y) :
    ∃ p : FormalProd ℝ, Chain p.factors lam (lam + lambda_var) ∧
      (∀ (W : Type) [Monoid W] (I : Interp W),
        wordOf I p.factors = (ops.map (symWord I)).prod) ∧
      p.expo = (ops.map symExpo).sum ∧
      ∀ fs P, List.Forall₂ (PrimElement la (nu_min - nu_lap) (nu_max + nu_lap)) p.factors fs →
        (∀ f ∈ fs, Banded f) → IsProd fs P → fs.length ≤ nu_lap + 1 →
        ∀ i < nu_max + 1 - nu_min, ∀ j < nu_max + 1 - nu_min,
          y.e i j = anorm ^ p.expo * P (nu_min + i) (nu_min + j) := by
  obtain ⟨_, p, gs, h3, h4, h5, k1, k2⟩ := C17_window la hla anorm ha ops lam lambda_var nu_min
    nu_max nu_lap hr y h
  refine ⟨p, h3, h4, h5, fun fs P f1 f2 f3 f4 i hi j hj => ?_⟩
  rw [k2 i hi j hj, ← C18_window_exact fs P f2 f3 nu_min nu_max nu_lap f4 i j hi hj]
  rw [windowProd_congr k1 f1] <;> rw [Finset.mem_Icc] <;> omega

theorem forall₂_filterMap {la : LinAlg} {lo hi : ℕ} {lam : ℝ} : ∀ {ops : List RadSym}
    {fs : List (ℕ → ℕ → ℝ)},
    List.Forall₂ (fun s f => ∃ m, bandedME s = some m ∧ Entries (m.fn lam) f) ops fs →
    List.Forall₂ (PrimElement la lo hi) (symFactors lam ops) fs := by
  intro ops
  induction ops with
  | nil =>
    intro fs h
    cases h
    exact .nil
  | cons s ops ih =>
    intro fs h
    cases h with
    | cons h1 h2 =>
      obtain ⟨m, hm, he⟩ := h1
      unfold symFactors
      rw [List.filterMap_cons_some (b := (Prim.me m, lam)) (by simp [hm])]
      exact .cons (fun i _ j _ => he i j) (ih h2)

theorem banded_entries {lam : ℝ} (h : 0 < lam) {s : RadSym} {m : RadME} (hm : bandedME s = some m) :
    ∃ f, Entries (m.fn lam) f ∧ Banded f := by
  cases s <;> simp only [bandedME, Option.some.injEq, reduceCtorEq] at hm <;> subst hm
  · exact ⟨_, Sm_ok h, fun i j hij => by simp only [vSm]; rw [if_neg (by omega)]⟩
  · exact ⟨_, S0_ok lam, fun i j hij => by simp only [vS0]; rw [if_neg (by omega)]⟩
  · exact ⟨_, Sp_ok h, fun i j hij => by simp only [vSp]; rw [if_neg (by omega)]⟩
  · refine ⟨_, b2_ok h, fun i j hij => ?_⟩
    simp only [vSp, vSm, vS0]
    rw [if_neg (by omega), if_neg (by omega), if_neg (by omega)]
    simp
  · refine ⟨_, bDb_ok h, fun i j hij => ?_⟩
    simp only [vSp, vSm, opId]
    rw [if_neg (by omega), if_neg (by omega), if_neg (by omega)]
    simp

theorem entries_unique {ME : ℕ → ℕ → Py ℝ} {f g : ℕ → ℕ → ℝ} (hf : Entries ME f)
    (hg : Entries ME g) : f = g := by
  funext i j
  have := (hf i j).symm.trans (hg i j)
  injection this

/-- C18, end to end: a product of any number of `S-`, `S0`, `S+`, `beta^2` and
`beta d/dbeta` (no shift of `lambda`) never raises, and with `nu_lap` at least the number of
operators minus one every entry is the entry of the untruncated product of the listed
operators, times the power of `anorm` that belongs to them. -/
theorem C18_banded_product (la : LinAlg) (hla : LinAlgOk la) (anorm : ℝ) (ha : anorm ≠ 0)
    (ops : List RadSym) (lam : ℝ) (hlam : 0 < lam) (nu_min nu_max nu_lap : ℕ)
    (hr : nu_min ≤ nu_max + 1) (hl : ops.length ≤ nu_lap + 1) (fs : List (ℕ → ℕ → ℝ))
    (hfs : List.Forall₂ (fun s f => ∃ m, bandedME s = some m ∧ Entries (m.fn lam) f) ops fs)
    (P : ℕ → ℕ → ℝ) (hP : IsProd fs P) :
    ∃ y, RepRadialProd la anorm ops lam 0 nu_min nu_max nu_lap = .ok y ∧
      Square (nu_max + 1 - nu_min) y ∧
      ∀ i < nu_max + 1 - nu_min, ∀ j < nu_max + 1 - nu_min,
        y.e i j = anorm ^ (ops.map symExpo).sum * P (nu_min + i) (nu_min + j) := by
  have hsome : ∀ s ∈ ops, (bandedME s).isSome := by
    intro s hs
    obtain ⟨i, hi, rfl⟩ := List.getElem_of_mem hs
    obtain ⟨m, hm, _⟩ := hfs.get hi (by rw [← hfs.length_eq]; exact hi)
    simp only [List.get_eq_getElem] at hm
    rw [hm]; rfl
  have hb : ∀ f ∈ fs, Banded f := by
    intro f hf
    obtain ⟨i, hi, rfl⟩ := List.getElem_of_mem hf
    obtain ⟨m, hm, he⟩ := hfs.get (by rw [hfs.length_eq]; exact hi) hi
    simp only [List.get_eq_getElem] at hm he
    obtain ⟨g, g1, g2⟩ := banded_entries hlam hm
    rw [entries_unique he g1]
    exact g2
  have hlen : fs.length ≤ nu_lap + 1 := by rw [← hfs.length_eq]; exact hl
  set lo : ℕ := nu_min - nu_lap with hlo
  set hi : ℕ := nu_max + nu_lap with hhi
  have hrep : ∀ m ∈ [RadME.Sm, .S0, .Sp, .b2, .bDb],
      ∃ y, (radMat la anorm lo hi).rep m lam = .ok y := by
    intro m hm
    have : ∃ s, bandedME s = some m := by
      simp only [List.mem_cons, List.not_mem_nil, or_false] at hm
      rcases hm with rfl | rfl | rfl | rfl | rfl
      · exact ⟨.Sm, rfl⟩
      · exact ⟨.S0, rfl⟩
      · exact ⟨.Sp, rfl⟩
      · exact ⟨.b2, rfl⟩
      · exact ⟨.bDb, rfl⟩
    obtain ⟨s, hs⟩ := this
    obtain ⟨f, hf, _⟩ := banded_entries hlam hs
    exact ⟨_, ofM_eq fun i _ j _ => hf _ _⟩
  obtain ⟨kops, z, e1, e2, e3⟩ := prod_even (radMat la anorm lo hi) hlam hrep ops hsome
  obtain ⟨hz, gs, k1, k2⟩ := denotes_window hla ha e3
  have hz' : ∀ i < hi + 1 - lo, ∀ j < hi + 1 - lo,
      z.e i j = anorm ^ (ops.map symExpo).sum * windowProd lo hi fs (lo + i) (lo + j) := by
    intro i h1 j h2
    rw [k2 i h1 j h2]
    congr 1
    refine windowProd_congr k1 (forall₂_filterMap hfs) _ ?_ _ ?_ <;> rw [Finset.mem_Icc] <;> omega
  have elo : (nu_min : Int) - min (nu_lap : Int) nu_min = (lo : Int) := by omega
  have ehi : (nu_max : Int) + nu_lap = (hi : Int) := by omega
  have run : RepRadialProd la anorm ops lam 0 nu_min nu_max nu_lap
      = .ok (if (nu_lap : Int) = 0 then z else z.slice (min nu_lap nu_min : ℕ)
          ((min nu_lap nu_min + (nu_max + 1 - nu_min) : ℕ)) (min nu_lap nu_min : ℕ)
          ((min nu_lap nu_min + (nu_max + 1 - nu_min) : ℕ))) := by
    unfold RepRadialProd RepRadial_Prod
    rw [if_neg (by linarith), if_neg (by push_cast; linarith), e1]
    simp only [py_bind_ok]
    rw [elo, ehi, e2]
    simp only [py_bind_ok]
    have a1 : min (nu_lap : Int) nu_min = ((min nu_lap nu_min : ℕ) : Int) := by omega
    have a2 : 1 + (nu_max : Int) - nu_min + ((min nu_lap nu_min : ℕ) : Int)
        = ((min nu_lap nu_min + (nu_max + 1 - nu_min) : ℕ) : Int) := by omega
    rw [a1, a2]
    by_cases h0 : (nu_lap : Int) = 0
    · rw [if_pos h0, if_pos h0]; rfl
    · rw [if_neg h0, if_neg h0]; rfl
  refine ⟨_, run, ?_⟩
  have key : ∀ w, w = (if (nu_lap : Int) = 0 then z else z.slice (min nu_lap nu_min : ℕ)
          ((min nu_lap nu_min + (nu_max + 1 - nu_min) : ℕ)) (min nu_lap nu_min : ℕ)
          ((min nu_lap nu_min + (nu_max + 1 - nu_min) : ℕ))) →
      Square (nu_max + 1 - nu_min) w ∧ ∀ i < nu_max + 1 - nu_min, ∀ j < nu_max + 1 - nu_min,
        w.e i j = z.e (min nu_lap nu_min + i) (min nu_lap nu_min + j) := by
    rintro w rfl
    by_cases h0 : nu_lap = 0
    · subst h0
      rw [if_pos Int.natCast_zero]
      refine ⟨hz, fun i _ j _ => ?_⟩
      simp
    · rw [if_neg (by exact_mod_cast h0)]
      exact slice_ok hz (by omega)
  obtain ⟨s1, s2⟩ := key _ rfl
  refine ⟨s1, fun i h1 j h2 => ?_⟩
  rw [s2 i h1 j h2, hz' _ (by omega) _ (by omega)]
  congr 1
  have := C18_window_exact fs P hb hP nu_min nu_max nu_lap hlen i j h1 h2
  rw [← this]
  congr 1 <;> omega

/-- The hypotheses are met by, for instance, `beta^2 S- beta d/dbeta` at `lambda = 5/2`
(and linear algebra routines that meet the contract exist). -/
example : ∃ la, LinAlgOk la ∧ ∃ fs P, List.Forall₂ (fun s f => ∃ m, bandedME s = some m ∧
    Entries (m.fn (5 / 2)) f) [RadSym.b2, .Sm, .bDb] fs ∧ IsProd fs P := by
  obtain ⟨la, hla⟩ := linAlg_exists
  have hl : (0 : ℝ) < 5 / 2 := by norm_num
  obtain ⟨f, f1, f2⟩ := banded_entries hl (s := .b2) rfl
  obtain ⟨g, g1, g2⟩ := banded_entries hl (s := .Sm) rfl
  obtain ⟨k, k1, k2⟩ := banded_entries hl (s := .bDb) rfl
  obtain ⟨P, hP, _⟩ := C18_product_exists [f, g, k] (by
    simp only [List.mem_cons, List.not_mem_nil, or_false]
    rintro x (rfl | rfl | rfl) <;> assumption)
  exact ⟨la, hla, [f, g, k], P, .cons ⟨_, rfl, f1⟩ (.cons ⟨_, rfl, g1⟩ (.cons ⟨_, rfl, k1⟩ .nil)), hP⟩

/-! ## C19 -/

/-- C19: the SU(1,1) relations `[S-,S+] = 2 S0`, `[S0,S+] = S+`, `[S0,S-] = -S-` and the
Casimir relation `S0^2 - S0 - S+ S- = (lambda/2)(lambda/2 - 1)`. -/
theorem C19_su11 (lam : ℝ) (h : 0 < lam) :
    ∃ s0 sp sm : ℕ → ℕ → ℝ, Entries (ME_Radial_S0 lam) s0 ∧ Entries (ME_Radial_Sp lam) sp ∧
      Entries (ME_Radial_Sm lam) sm ∧
      Commutator sm sp (fun i j => 2 * s0 i j) ∧ Commutator s0 sp sp ∧
      Commutator s0 sm (fun i j => -sm i j) ∧
      ∃ s0s0 spsm, OpProd s0 s0 s0s0 ∧ OpProd sp sm spsm ∧
        ∀ i j, s0s0 i j - s0 i j - spsm i j = lam / 2 * (lam / 2 - 1) * opId i j := by
  refine ⟨_, _, _, S0_ok lam, Sp_ok h, Sm_ok h, ⟨_, _, SmSp h, SpSm h, ?_⟩,
    ⟨_, _, opProd_diag vS0_off _, opProd_diag_right vS0_off _, ?_⟩,
    ⟨_, _, opProd_diag vS0_off _, opProd_diag_right vS0_off _, ?_⟩,
    _, _, opProd_diag vS0_off _, SpSm h, ?_⟩
  · intro i j
    simp only [vS0, opId]
    by_cases hij : i = j
    · subst hij; simp; ring
    · simp [hij]
  · intro i j
    simp only [vS0, vSp]
    by_cases hij : i = j + 1
    · subst hij; simp; ring
    · simp [hij]
  · intro i j
    simp only [vS0, vSm]
    by_cases hij : j = i + 1
    · subst hij; simp; ring
    · simp [hij]
  · intro i j
    simp only [vS0, opId]
    by_cases hij : i = j
    · subst hij; simp; ring
    · simp [hij]

/-- The matrix elements are not trivial: `S+` connects 0 to 1 with `sqrt(lambda)`. -/
example : ME_Radial_Sp 4 1 0 = .ok 2 := by
  rw [Sp_ok (by norm_num) 1 0]
  simp only [vSp]
  norm_num
  rw [show (4 : ℝ) = 2 ^ 2 by norm_num, Real.sqrt_sq (by norm_num)]

/-- C19: `S+` and `S-` are adjoint. -/
theorem C19_adjoint (lam : ℝ) (h : 0 < lam) :
    ∃ sp sm, Entries (ME_Radial_Sp lam) sp ∧ Entries (ME_Radial_Sm lam) sm ∧ Transposed sp sm :=
  ⟨_, _, Sp_ok h, Sm_ok h, fun _ _ => rfl⟩

/-! ## C20 -/

/-- C20: `beta^2 = S+ + S- + 2 S0`, symmetric; `beta d/dbeta = S- - S+ - 1/2`, so that
`beta d/dbeta + 1/2` is antisymmetric. -/
theorem C20_b2_bDb (lam : ℝ) (h : 0 < lam) :
    ∃ s0 sp sm b2 bDb : ℕ → ℕ → ℝ, Entries (ME_Radial_S0 lam) s0 ∧ Entries (ME_Radial_Sp lam) sp ∧
      Entries (ME_Radial_Sm lam) sm ∧ Entries (ME_Radial_b2 lam) b2 ∧
      Entries (ME_Radial_bDb lam) bDb ∧
      (∀ i j, b2 i j = sp i j + sm i j + 2 * s0 i j) ∧ Symm b2 ∧
      (∀ i j, bDb i j = sm i j - sp i j - 1 / 2 * opId i j) ∧
      (∀ i j, bDb i j + 1 / 2 * opId i j = -(bDb j i + 1 / 2 * opId j i)) := by
  refine ⟨_, _, _, _, _, S0_ok lam, Sp_ok h, Sm_ok h, b2_ok h, bDb_ok h, fun _ _ => rfl, ?_,
    fun _ _ => rfl, ?_⟩
  · intro i j
    have e1 : vSp lam j i = vSm lam i j := rfl
    have e2 : vSm lam j i = vSp lam i j := rfl
    have e3 : vS0 lam j i = vS0 lam i j := by
      simp only [vS0]
      by_cases hij : i = j
      · rw [hij]
      · rw [if_neg hij, if_neg (Ne.symm hij)]
    simp only [e1, e2, e3]
    ring
  · intro i j
    have e1 : vSp lam j i = vSm lam i j := rfl
    have e2 : vSm lam j i = vSp lam i j := rfl
    simp only [e1, e2]
    ring

theorem vbm2_symm (lam : ℝ) (i j : ℕ) : vbm2 lam i j = vbm2 lam j i := by
  unfold vbm2
  rw [min_comm, max_comm, Nat.add_comm]

/-- C20: `d^2/dbeta^2 = S+ + S- - 2 S0 + (lambda-3/2)(lambda-1/2)/beta^2`, symmetric, for all
positive `lambda` except 1. -/
theorem C20_D2b (lam : ℝ) (h : 0 < lam) (hne : lam ≠ 1) :
    ∃ s0 sp sm bm2 D2b : ℕ → ℕ → ℝ, Entries (ME_Radial_S0 lam) s0 ∧
      Entries (ME_Radial_Sp lam) sp ∧ Entries (ME_Radial_Sm lam) sm ∧
      Entries (ME_Radial_bm2 lam) bm2 ∧ Entries (ME_Radial_D2b lam) D2b ∧
      (∀ i j, D2b i j = sp i j + sm i j - 2 * s0 i j
        + (lam - 3 / 2) * (lam - 1 / 2) * bm2 i j) ∧ Symm D2b := by
  refine ⟨_, _, _, _, _, S0_ok lam, Sp_ok h, Sm_ok h, bm2_ok h hne, D2b_ok h hne, fun _ _ => rfl, ?_⟩
  intro i j
  have e1 : vSp lam j i = vSm lam i j := rfl
  have e2 : vSm lam j i = vSp lam i j := rfl
  have e3 : vS0 lam j i = vS0 lam i j := by
    simp only [vS0]
    by_cases hij : i = j
    · rw [hij]
    · rw [if_neg hij, if_neg (Ne.symm hij)]
  simp only [e1, e2, e3, vbm2_symm lam j i]
  ring

example : ∃ lam : ℝ, 0 < lam ∧ lam ≠ 1 := ⟨5 / 2, by norm_num, by norm_num⟩

/-! ## C21 -/

/-- C21: lowering and raising `beta` are transposes of each other, for every real `lambda`
(including those for which they raise). -/
theorem C21_adjoint (lam : ℝ) (i j : ℕ) : ME_Radial_b_ml (lam + 1) i j = ME_Radial_b_pl lam j i := by
  unfold ME_Radial_b_ml ME_Radial_b_pl
  by_cases h1 : i = j + 1
  · subst h1
    rw [if_pos rfl, if_pos (by push_cast; ring)]
  · have h3 : ¬ (j : ℤ) = i - 1 := by omega
    rw [if_neg h1, if_neg h3]
    by_cases h2 : i = j
    · subst h2
      rw [if_pos rfl, if_pos rfl]
      congr 1
      ring
    · rw [if_neg h2, if_neg (Ne.symm h2)]

/-- C21: `beta` lowering after `beta` raising is `beta^2`. -/
theorem C21_up_down (lam : ℝ) (h : 0 < lam) :
    ∃ bp bm b2, Entries (ME_Radial_b_pl lam) bp ∧ Entries (ME_Radial_b_ml (lam + 1)) bm ∧
      Entries (ME_Radial_b2 lam) b2 ∧ OpProd bm bp b2 :=
  ⟨_, _, _, b_pl_ok h, b_ml_ok h, b2_ok h, b_ml_b_pl h⟩

/-- C21: `beta` raising after `beta` lowering is `beta^2`. -/
theorem C21_down_up (lam : ℝ) (h : 1 < lam) :
    ∃ bp bm b2, Entries (ME_Radial_b_pl (lam - 1)) bp ∧ Entries (ME_Radial_b_ml lam) bm ∧
      Entries (ME_Radial_b2 lam) b2 ∧ OpProd bp bm b2 := by
  have h' : 0 < lam - 1 := by linarith
  have e : lam - 1 + 1 = lam := by ring
  have h1 := b_ml_ok h'
  have h2 := b_pl_b_ml h'
  rw [e] at h1 h2
  exact ⟨_, _, _, b_pl_ok h', h1, b2_ok (by linarith), h2⟩

example : (∃ lam : ℝ, 1 < lam) ∧ ME_Radial_b_pl 4 0 0 = .ok 2 := by
  refine ⟨⟨2, by norm_num⟩, ?_⟩
  rw [b_pl_ok (by norm_num) 0 0]
  simp only [vb_pl]
  norm_num
  rw [show (4 : ℝ) = 2 ^ 2 by norm_num, Real.sqrt_sq (by norm_num)]

/-! ## C22 -/

/-- C22: `1/beta` raising and `beta` lowering are inverse to each other, on both sides; so are
`1/beta` lowering and `beta` raising; and `1/beta` lowering and raising are transposes. -/
theorem C22_inverse (lam : ℝ) (h : 0 < lam) :
    ∃ bp bm ip im, Entries (ME_Radial_b_pl lam) bp ∧ Entries (ME_Radial_b_ml (lam + 1)) bm ∧
      Entries (ME_Radial_bm_pl lam) ip ∧ Entries (ME_Radial_bm_ml (lam + 1)) im ∧
      Transposed ip im ∧ OpProd bm ip opId ∧ OpProd ip bm opId ∧ OpProd bp im opId ∧
      OpProd im bp opId := by
  have hT : ∀ i j, opId j i = opId i j := fun i j => by
    simp only [opId]
    by_cases hij : i = j
    · rw [hij]
    · rw [if_neg hij, if_neg (Ne.symm hij)]
  exact ⟨_, _, _, _, b_pl_ok h, b_ml_ok h, bm_pl_ok h, bm_ml_ok h, fun _ _ => rfl, b_ml_bm_pl h,
    opProd_congr (opProd_transpose (b_pl_bm_ml h)) hT, b_pl_bm_ml h,
    opProd_congr (opProd_transpose (b_ml_bm_pl h)) hT⟩

/-- C22: the same with the lower `lambda - 1`, as used by products that lower first. -/
theorem C22_inverse_down (lam : ℝ) (h : 1 < lam) :
    ∃ bp im, Entries (ME_Radial_b_pl (lam - 1)) bp ∧ Entries (ME_Radial_bm_ml lam) im ∧
      OpProd bp im opId ∧ OpProd im bp opId := by
  have h' : 0 < lam - 1 := by linarith
  obtain ⟨bp, bm, ip, im, h1, h2, h3, h4, h5, h6, h7, h8, h9⟩ := C22_inverse (lam - 1) h'
  rw [show lam - 1 + 1 = lam by ring] at h4
  exact ⟨bp, im, h1, h4, h8, h9⟩

example : (0 : ℝ) < 5 / 2 ∧ (1 : ℝ) < 5 / 2 := by norm_num

/-! ## C23 -/

/-- C23: for every positive `lambda` except 1, `1/beta^2` is symmetric and is a two-sided
inverse of `beta^2`. -/
theorem C23_bm2_inverse (lam : ℝ) (h : 0 < lam) (hne : lam ≠ 1) :
    ∃ b2 bm2, Entries (ME_Radial_b2 lam) b2 ∧ Entries (ME_Radial_bm2 lam) bm2 ∧ Symm bm2 ∧
      OpProd b2 bm2 opId ∧ OpProd bm2 b2 opId := by
  refine ⟨_, _, b2_ok h, bm2_ok h hne, vbm2_symm lam, b2_bm2 h hne, ?_⟩
  intro i j
  have := opProd_transpose (b2_bm2 h hne) i j
  beta_reduce at this
  have e0 : opId j i = opId i j := by
    simp only [opId]
    by_cases hij : i = j
    · rw [hij]
    · rw [if_neg hij, if_neg (Ne.symm hij)]
  rw [e0] at this
  refine this.congr_fun ?_ |> id
  intro k
  have e1 : vSp lam j k = vSm lam k j := rfl
  have e2 : vSm lam j k = vSp lam k j := rfl
  have e3 : vS0 lam j k = vS0 lam k j := by
    simp only [vS0]
    by_cases hij : j = k
    · rw [hij]
    · rw [if_neg hij, if_neg (Ne.symm hij)]
  rw [vbm2_symm lam k i, e1, e2, e3]
  ring

/-- C23: at `lambda = 1` an exception is raised. -/
theorem C23_raises (i j : ℕ) : ME_Radial_bm2 1 i j = .error .valueError := by
  unfold ME_Radial_bm2
  have h0 : (1 : ℝ) ≠ -1 := by norm_num
  rw [if_neg h0, if_neg]
  · unfold ME_Radial_pt
    rw [if_pos rfl]
    rfl
  · rintro ⟨_, h | h⟩
    · have : (0 : ℝ) ≤ i := by positivity
      have : (0 : ℝ) ≤ j := by positivity
      linarith
    · have : (0 : ℝ) ≤ i := by positivity
      linarith

/-- C23, outside the domain: where the Gamma functions have poles (an integer `lambda` at most
`-mu` for one of the labels), and for `lambda = -1`, the function raises `ValueError`. -/
theorem C23_rejects (n : ℤ) (i j : ℕ) (h : n = -1 ∨ n ≤ -(i : ℤ) ∨ n ≤ -(j : ℤ)) :
    ME_Radial_bm2 n i j = .error .valueError := by
  unfold ME_Radial_bm2
  by_cases h1 : (n : ℝ) = -1
  · rw [if_pos h1]; rfl
  rw [if_neg h1, if_pos]
  · rfl
  refine ⟨⟨n, rfl⟩, ?_⟩
  rcases h with h | h | h
  · exact absurd (by rw [h]; norm_num) h1
  · right; exact_mod_cast h
  · left; exact_mod_cast h

example : ME_Radial_bm2 (-1) 0 3 = .error .valueError := by
  have := C23_rejects (-1) 0 3 (.inl rfl)
  simpa using this

/-- C23: for `lambda > 1` it is also the product of the two forms of `1/beta`. -/
theorem C23_bm_bm (lam : ℝ) (h : 1 < lam) :
    ∃ ip im bm2, Entries (ME_Radial_bm_pl lam) ip ∧ Entries (ME_Radial_bm_ml (lam + 1)) im ∧
      Entries (ME_Radial_bm2 lam) bm2 ∧ OpProd im ip bm2 :=
  ⟨_, _, _, bm_pl_ok (by linarith), bm_ml_ok (by linarith), bm2_ok (by linarith) (by linarith),
    bm_ml_bm_pl h⟩

/-! ## C24 -/

/-- C24: `beta` (lowering) after `d/dbeta` (raising) is `beta d/dbeta`, and without a net
shift of `lambda` the commutator `[d/dbeta, beta]` is 1. -/
theorem C24_up_down (lam : ℝ) (h : 0 < lam) :
    ∃ bp bm Dp Dm bDb, Entries (ME_Radial_b_pl lam) bp ∧ Entries (ME_Radial_b_ml (lam + 1)) bm ∧
      Entries (ME_Radial_Db_pl lam) Dp ∧ Entries (ME_Radial_Db_ml (lam + 1)) Dm ∧
      Entries (ME_Radial_bDb lam) bDb ∧ OpProd bm Dp bDb ∧
      (∃ Dmbp, OpProd Dm bp Dmbp ∧ ∀ i j, Dmbp i j - bDb i j = opId i j) ∧
      (∀ i j, Dm i j = -Dp j i) := by
  refine ⟨_, _, _, _, _, b_pl_ok h, b_ml_ok h, Db_pl_ok h, Db_ml_ok h, bDb_ok h, b_ml_Db_pl h,
    ⟨fun i j => -(vSm lam j i - vSp lam j i - 1 / 2 * opId j i), ?_, ?_⟩, vDb_ml_eq lam⟩
  · intro i j
    have := (opProd_transpose (b_ml_Db_pl h) i j).neg
    refine this.congr_fun ?_ |> id
    intro k
    beta_reduce
    rw [vDb_ml_eq]
    ring
  · intro i j
    have e1 : vSp lam j i = vSm lam i j := rfl
    have e2 : vSm lam j i = vSp lam i j := rfl
    have e0 : opId j i = opId i j := by
      simp only [opId]
      by_cases hij : i = j
      · rw [hij]
      · rw [if_neg hij, if_neg (Ne.symm hij)]
    simp only [e1, e2, e0]
    ring

/-- C24: the same for lowering first. -/
theorem C24_down_up (lam : ℝ) (h : 1 < lam) :
    ∃ bp bm Dp Dm bDb, Entries (ME_Radial_b_pl (lam - 1)) bp ∧ Entries (ME_Radial_b_ml lam) bm ∧
      Entries (ME_Radial_Db_pl (lam - 1)) Dp ∧ Entries (ME_Radial_Db_ml lam) Dm ∧
      Entries (ME_Radial_bDb lam) bDb ∧ OpProd bp Dm bDb ∧
      (∃ Dpbm, OpProd Dp bm Dpbm ∧ ∀ i j, Dpbm i j - bDb i j = opId i j) := by
  have h' : 0 < lam - 1 := by linarith
  have e : lam - 1 + 1 = lam := by ring
  have h1 := b_ml_ok h'
  have h2 := Db_ml_ok h'
  have h3 := b_pl_Db_ml h'
  rw [e] at h1 h2 h3
  refine ⟨_, _, _, _, _, b_pl_ok h', h1, Db_pl_ok h', h2, bDb_ok (by linarith), h3,
    ⟨fun i j => -(vSm lam j i - vSp lam j i - 1 / 2 * opId j i), ?_, ?_⟩⟩
  · intro i j
    have := (opProd_transpose h3 i j).neg
    refine this.congr_fun ?_ |> id
    intro k
    beta_reduce
    rw [vDb_ml_eq]
    ring
  · intro i j
    have e1 : vSp lam j i = vSm lam i j := rfl
    have e2 : vSm lam j i = vSp lam i j := rfl
    have e0 : opId j i = opId i j := by
      simp only [opId]
      by_cases hij : i = j
      · rw [hij]
      · rw [if_neg hij, if_neg (Ne.symm hij)]
    simp only [e1, e2, e0]
    ring

/-- C24: with a net shift of `lambda` by 2 the commutator `[d/dbeta, beta]` is the identity
operator between the two bases. -/
theorem C24_shifted_commutator (lam : ℝ) (h : 0 < lam) :
    ∃ bp bp' Dp Dp' one, Entries (ME_Radial_b_pl lam) bp ∧ Entries (ME_Radial_b_pl (lam + 1)) bp' ∧
      Entries (ME_Radial_Db_pl lam) Dp ∧ Entries (ME_Radial_Db_pl (lam + 1)) Dp' ∧
      Entries (fun i j => ME_Radial_id_pl lam i j 1) one ∧
      ∃ X Y, OpProd Dp' bp X ∧ OpProd bp' Dp Y ∧ ∀ i j, X i j - Y i j = one i j := by
  obtain ⟨X, Y, h1, h2, h3⟩ := Db_b_comm h
  exact ⟨_, _, _, _, _, b_pl_ok h, b_pl_ok (by linarith), Db_pl_ok h, Db_pl_ok (by linarith),
    id_pl_ok h 1, X, Y, h1, h2, h3⟩

/-- C24: for `lambda > 1`, `d/dbeta` twice (up and down) is `d^2/dbeta^2`. -/
theorem C24_second_derivative (lam : ℝ) (h : 1 < lam) :
    ∃ Dp Dm D2, Entries (ME_Radial_Db_pl lam) Dp ∧ Entries (ME_Radial_Db_ml (lam + 1)) Dm ∧
      Entries (ME_Radial_D2b lam) D2 ∧ OpProd Dm Dp D2 :=
  ⟨_, _, _, Db_pl_ok (by linarith), Db_ml_ok (by linarith), D2b_ok (by linarith) (by linarith),
    Db_ml_Db_pl h⟩

example : (0 : ℝ) < 5 / 2 ∧ (1 : ℝ) < 5 / 2 := by norm_num

/-! ## C25 -/

/-- C25: a shift by `2r` followed by a shift by `2s` is the shift by `2(r+s)`; in particular
`r = 1` or `s = 1` gives the one-step recursions. -/
theorem C25_composition (lam : ℝ) (h : 0 < lam) (r s : ℕ) :
    ∃ a b c, Entries (fun i j => ME_Radial_id_pl lam i j r) a ∧
      Entries (fun i j => ME_Radial_id_pl (lam + 2 * r) i j s) b ∧
      Entries (fun i j => ME_Radial_id_pl lam i j (r + s)) c ∧ OpProd b a c :=
  ⟨_, _, _, id_pl_ok h r, id_pl_ok (by positivity) s, id_pl_ok h (r + s), id_comp h r s⟩

/-- C25: the shift by 2 is `beta (1/beta)` and `(1/beta) beta`, all raising. -/
theorem C25_single_shift (lam : ℝ) (h : 0 < lam) :
    ∃ b b' i i' one, Entries (ME_Radial_b_pl lam) b ∧ Entries (ME_Radial_b_pl (lam + 1)) b' ∧
      Entries (ME_Radial_bm_pl lam) i ∧ Entries (ME_Radial_bm_pl (lam + 1)) i' ∧
      Entries (fun i j => ME_Radial_id_pl lam i j 1) one ∧ OpProd b' i one ∧ OpProd i' b one :=
  ⟨_, _, _, _, _, b_pl_ok h, b_pl_ok (by linarith), bm_pl_ok h, bm_pl_ok (by linarith),
    id_pl_ok h 1, b_bm h, bm_b h⟩

/-- C25: the lowering shift is the transpose of the raising shift. -/
theorem C25_transpose (lam : ℝ) (h : 0 < lam) (r : ℕ) :
    ∃ a b, Entries (fun i j => ME_Radial_id_pl lam i j r) a ∧
      Entries (fun i j => ME_Radial_id_ml (lam + 2 * r) i j r) b ∧ Transposed a b :=
  ⟨_, _, id_pl_ok h r, id_ml_ok h r, fun _ _ => rfl⟩

/-- C25: no shift is the identity. -/
theorem C25_zero (lam : ℝ) (h : 0 < lam) :
    Entries (fun i j => ME_Radial_id_pl lam i j 0) opId := by
  intro i j
  rw [id_pl_ok h 0 i j, id_zero h]

/-- A single shift at `lambda = 2`, from label 0 to label 0. -/
example : MF_Radial_id_pl 2 0 0 1 = 2 := by
  rw [MF_one]; norm_num

/-! ## C26 -/

/-- C26: every truncated matrix of `beta^2`, for any range and any `lambda > 0`, is symmetric
positive definite. -/
theorem C26_b2_posDef (lam : ℝ) (h : 0 < lam) (nu_min nu_max : ℕ) :
    ∃ B, RepRadial ME_Radial_b2 lam nu_min nu_max = .ok B ∧ Square (nu_max + 1 - nu_min) B ∧
      (∀ i < nu_max + 1 - nu_min, ∀ j < nu_max + 1 - nu_min,
        ME_Radial_b2 lam (nu_min + i) (nu_min + j) = .ok (B.e i j)) ∧
      (mat (nu_max + 1 - nu_min) B).PosDef :=
  RepRadial_b2_ok h nu_min nu_max

/-- C26: hence, with routines that do what NumPy documents, the square root and the inverse
square root of `beta^2` never fail; they are positive definite, square to `beta^2` and its
inverse, and are inverse to each other. -/
theorem C26_sqrt (la : LinAlg) (hla : LinAlgOk la) (lam : ℝ) (h : 0 < lam) (nu_min nu_max : ℕ)
    (hr : nu_min ≤ nu_max) :
    ∃ B R S, RepRadial ME_Radial_b2 lam nu_min nu_max = .ok B ∧
      RepRadial_b2_sqrt la lam nu_min nu_max = .ok R ∧
      RepRadial_b2_sqrtInv la lam nu_min nu_max = .ok S ∧
      Square (nu_max + 1 - nu_min) R ∧ Square (nu_max + 1 - nu_min) S ∧
      (let M := mat (nu_max + 1 - nu_min)
       M R * M R = M B ∧ M S * M S = (M B)⁻¹ ∧ M R * M S = 1 ∧ M S * M R = 1 ∧
         (M R).PosDef ∧ (M S).PosDef) := by
  obtain ⟨B, b1, b2, b3, b4⟩ := RepRadial_b2_ok h nu_min nu_max
  obtain ⟨R, S, r1, r2, r3, r4, r5, r6, r7, r8⟩ := Matrix_sqrt_ok hla b2.1 b2.2.1 b4
  refine ⟨B, R, S, b1, ?_, ?_, r3, r4, r5, ?_, r7, mul_eq_one_comm.1 r7, r6, r8⟩
  · unfold RepRadial_b2_sqrt require_nonnegint_range require_nonnegint
    rw [if_neg (by linarith)]
    simp only [py_pure]
    rw [if_neg (by omega), if_neg (by omega)]
    simp only [py_bind_ok]
    rw [if_neg (by omega)]
    simp only [py_bind_ok]
    rw [b1]
    simp only [py_bind_ok]
    exact r1
  · unfold RepRadial_b2_sqrtInv
    rw [b1]
    simp only [py_bind_ok]
    exact r2
  · rw [eq_comm]
    apply Matrix.inv_eq_right_inv
    rw [← r5]
    calc _ = mat _ R * (mat _ R * mat _ S) * mat _ S := by simp only [Matrix.mul_assoc]
      _ = 1 := by rw [r7, Matrix.mul_one, r7]

/-- Routines that meet the contract exist, so the theorem is not vacuous. -/
example : (∃ la, LinAlgOk la) ∧ (0 : ℝ) < 5 / 2 ∧ 3 ≤ 7 := ⟨linAlg_exists, by norm_num, by norm_num⟩

/-- C26: without positivity the square root of a `lambda <= 0` matrix is refused. -/
theorem C26_rejects (la : LinAlg) (lam : ℝ) (h : lam ≤ 0) (nu_min nu_max : Int) :
    RepRadial_b2_sqrt la lam nu_min nu_max = .error .valueError := by
  unfold RepRadial_b2_sqrt
  rw [if_pos h]
  rfl

end Acm.Props
