import Verif.Lemmas.RadialTotal
import Verif.Props.Radial
import Verif.Props.RadialAccept

/-!
# Property C16: exactly when the matrix of a radial product is formed
-/

set_option linter.unusedSectionVars false

namespace Acm.Props

open Acm Acm.Spec

section
variable {F : Type} [Field F] [LinearOrder F] [IsStrictOrderedRing F]

/-- C16, exactly when a product is formed: if and only if the bookkeeping succeeds (`C16_acceptance`) and all the
elementary matrices that it asks for exist. -/
theorem C16_formed {M : Type} (A : Int → Int → RadAlg F M) (slice : M → Int → Int → M) (rbs_op : List RadSym) (lam : F)
    (lambda_var nu_min nu_max nu_lap : Int) :
    (∃ y, RepRadial_Prod A slice rbs_op lam lambda_var nu_min nu_max nu_lap = .ok y) ↔
    ∃ p, RepRadial_Prod (fun _ _ => formal F) (fun x _ _ => x) rbs_op lam lambda_var nu_min nu_max nu_lap = .ok p ∧
      ∀ f ∈ p.factors, FactorOk (A (nu_min - min nu_lap nu_min) (nu_max + nu_lap)) f :=
  prod_formed A slice rbs_op lam lambda_var nu_min nu_max nu_lap

/-- No monomial has negative powers of `beta` and an odd number of derivatives. -/
def NoBadMonomial (ops : List KTSOp) : Prop := ∀ K T, .KT K T ∈ ops → K < 0 → T % 2 = 0

theorem chain_int {fs : List (Prim × F)} : ∀ {a c : F}, Chain fs a c → (∃ n : Int, c = a + n) ∧
    ∀ f ∈ fs, ∃ n : Int, f.2 = a + n := by
  induction fs with
  | nil => rintro a c rfl; exact ⟨⟨0, by simp⟩, by simp⟩
  | cons g fs ih =>
    rintro a c ⟨h1, h2⟩
    obtain ⟨⟨n, hn⟩, hf⟩ := ih h1
    refine ⟨⟨n + g.1.shift, by rw [h2, hn]; push_cast; ring⟩, fun f hm => ?_⟩
    rcases List.mem_cons.1 hm with rfl | hm
    · exact ⟨n, hn⟩
    · exact hf f hm

theorem not_int_ne_one {lam x : F} (hi : ∀ n : Int, lam ≠ n) (h : ∃ n : Int, x = lam + n) : x ≠ 1 := by
  rintro rfl
  obtain ⟨n, hn⟩ := h
  exact hi (1 - n) (by push_cast; linarith)

theorem pyGet_mem {α : Type} {xs : List α} {i : Int} {x : α} (h : pyGet xs i = .ok x) : x ∈ xs := by
  unfold pyGet at h
  dsimp only at h
  generalize (if i < 0 then i + (xs.length : Int) else i) = j at h
  by_cases hj : 0 ≤ j
  · rw [if_pos hj] at h
    cases hx : xs[j.toNat]? with
    | none => rw [hx] at h; cases h
    | some y =>
      rw [hx] at h
      injection h with h
      subst h
      exact List.mem_of_getElem? hx
  · rw [if_neg hj] at h; cases h

theorem loop_regular {lam : F} (hi : ∀ n : Int, lam ≠ n) (h0 : 0 < lam) : ∀ (ops : List KTSOp) (shfs : List Int)
    (r : F × Option (FormalProd F)), (∀ op ∈ ops, op.Valid) → NoBadMonomial ops →
    RepRadialshfs_loop (formal F) lam ops shfs = .ok r →
    0 < r.1 ∧ (∃ n : Int, r.1 = lam + n) ∧ ∀ p, r.2 = some p → ∀ f ∈ p.factors, RegularFactor f
  | [], _, r, _, _, h => by
    injection h with h
    subst h
    exact ⟨h0, ⟨0, by simp⟩, by simp⟩
  | _ :: _, [], r, _, _, h => by cases h
  | op :: ops, R :: shfs, r, hv, hb, h => by
    simp only [RepRadialshfs_loop] at h
    obtain ⟨⟨l, acc⟩, h1, h⟩ := py_bind_eq_ok h
    obtain ⟨q, h2, h⟩ := py_bind_eq_ok h
    injection h with h
    dsimp only at h h2
    obtain ⟨g1, ⟨n, g2⟩, g3⟩ := loop_regular hi h0 ops shfs _ (fun o ho => hv o (List.mem_cons_of_mem _ ho))
      (fun K T hm => hb K T (List.mem_cons_of_mem _ hm)) h1
    dsimp only at g1 g2 g3
    have key : 0 < l + (R : F) ∧ ∀ f ∈ q.factors, RegularFactor f := by
      cases op with
      | KT K T =>
        have hT : 0 ≤ T := hv _ (List.mem_cons_self ..)
        have hl : 0 < l + (R : F) := by
          by_contra hc
          have := C11_bS_DS_rejects (formal F) K T R l (.inr (not_lt.1 hc))
          rw [show RepRadial_bS_DS (formal F) K T l R = .ok q from h2] at this
          cases this
        refine ⟨hl, fun f hf => ?_⟩
        have hp := C12_positive_lambda_partial K T R l hT g1 hl
          (fun hK _ hT2 => by have := hb K T (List.mem_cons_self ..) hK; omega) q h2 f hf
        obtain ⟨q', e, hc, -⟩ := C11_bS_DS_factorisation K T R l hT g1 hl
        rw [show RepRadial_bS_DS (formal F) K T l R = .ok q from h2] at e
        injection e with e
        subst e
        refine ⟨hp.1, hp.2, fun _ => not_int_ne_one hi ?_⟩
        obtain ⟨m, hm⟩ := (chain_int hc).2 f hf
        exact ⟨n + m, by rw [hm, g2]; push_cast; ring⟩
      | S s =>
        unfold KTSOp.representation at h2
        by_cases hR : R ≠ 0
        · simp only [if_pos hR] at h2; cases h2
        simp only [if_neg hR] at h2
        rw [not_not] at hR
        subst hR
        obtain ⟨m, hm, h2⟩ := py_bind_eq_ok h2
        injection h2 with h2
        subst h2
        refine ⟨by simpa using g1, fun f hf => ?_⟩
        rw [List.mem_singleton] at hf
        subst hf
        have hm' : m = .Sm ∨ m = .S0 ∨ m = .Sp := by
          have := pyGet_mem hm
          simpa using this
        rcases hm' with rfl | rfl | rfl <;> exact ⟨g1, by simpa [Prim.shift] using g1, by simp⟩
    rw [← h]
    refine ⟨key.1, ⟨n + R, by rw [g2]; push_cast; ring⟩, fun p hp f hf => ?_⟩
    dsimp only at hp
    cases acc with
    | none =>
      injection hp with hp
      subst hp
      exact key.2 f hf
    | some a =>
      injection hp with hp
      subst hp
      rcases List.mem_append.1 hf with hf | hf
      · exact key.2 f hf
      · exact g3 a rfl f hf

end

theorem me_exists {la : LinAlg} {anorm : ℝ} {lo hi : ℕ} {m : RadME} {lam : ℝ} {f : ℕ → ℕ → ℝ} (hf : Entries (m.fn lam) f) :
    ∃ y, (radMat la anorm (lo : Int) (hi : Int)).rep m lam = .ok y := ⟨_, ofM_eq fun _ _ _ _ => hf _ _⟩

/-- The elementary matrix of a regular factor exists. -/
theorem regular_ok {la : LinAlg} (hla : LinAlgOk la) {anorm : ℝ} {lo hi : ℕ} (hr : lo ≤ hi) {f : Prim × ℝ}
    (h : RegularFactor f) : FactorOk (radMat la anorm lo hi) f := by
  obtain ⟨p, l⟩ := f
  obtain ⟨h1, h2, h3⟩ := h
  dsimp only at h1 h2 h3
  have ml : ∀ x : ℝ, 0 < l + ((-1 : Int) : ℝ) → l = (l - 1) + 1 ∧ 0 < l - 1 := fun _ h => ⟨by ring, by push_cast at h; linarith⟩
  cases p with
  | me m =>
    cases m with
    | Sm => exact me_exists (m := .Sm) (Sm_ok h1)
    | S0 => exact me_exists (m := .S0) (S0_ok l)
    | Sp => exact me_exists (m := .Sp) (Sp_ok h1)
    | b2 => exact me_exists (m := .b2) (b2_ok h1)
    | bm2 => exact me_exists (m := .bm2) (bm2_ok h1 (h3 (.inl rfl)))
    | D2b => exact me_exists (m := .D2b) (D2b_ok h1 (h3 (.inr rfl)))
    | bDb => exact me_exists (m := .bDb) (bDb_ok h1)
    | b_pl => exact me_exists (m := .b_pl) (b_pl_ok h1)
    | bm_pl => exact me_exists (m := .bm_pl) (bm_pl_ok h1)
    | Db_pl => exact me_exists (m := .Db_pl) (Db_pl_ok h1)
    | b_ml =>
      obtain ⟨e, h'⟩ := ml l h2
      rw [e]
      exact me_exists (m := .b_ml) (b_ml_ok h')
    | bm_ml =>
      obtain ⟨e, h'⟩ := ml l h2
      rw [e]
      exact me_exists (m := .bm_ml) (bm_ml_ok h')
    | Db_ml =>
      obtain ⟨e, h'⟩ := ml l h2
      rw [e]
      exact me_exists (m := .Db_ml) (Db_ml_ok h')
  | idPl r =>
    exact ⟨_, ofM_eq (fun i _ j _ => id_pl_ok h1 r.toNat ((lo : Int).toNat + i) ((lo : Int).toNat + j))⟩
  | idMl r =>
    obtain ⟨x, e, hx⟩ : ∃ x : ℝ, l = x + 2 * (r.toNat : ℝ) ∧ 0 < x := by
      rcases le_total 0 r with hr0 | hr0
      · refine ⟨l - 2 * (r.toNat : ℝ), by ring, ?_⟩
        have : ((r.toNat : Int) : ℝ) = (r : ℝ) := by rw [Int.toNat_of_nonneg hr0]
        simp only [Prim.shift] at h2
        push_cast at h2 this
        linarith
      · exact ⟨l, by rw [Int.toNat_of_nonpos hr0]; simp, h1⟩
    subst e
    exact ⟨_, ofM_eq (fun i _ j _ => id_ml_ok hx r.toNat ((lo : Int).toNat + i) ((lo : Int).toNat + j))⟩
  | sqrtB2 => obtain ⟨-, R, -, -, hR, -⟩ := C26_sqrt la hla l h1 lo hi hr; exact ⟨R, hR⟩
  | sqrtInvB2 => obtain ⟨-, -, S, -, -, hS, -⟩ := C26_sqrt la hla l h1 lo hi hr; exact ⟨S, hS⟩

/-- C16, the matrices: for a product without monomials that have negative powers of `beta` and an odd number of
derivatives, and a `lambda` that is not an integer (it is 5/2 by default), the matrix is returned if and only if both
ends are positive and the shift is one of those described by `Reachable`; on every range and for every extension. -/
theorem C16_matrix (la : LinAlg) (hla : LinAlgOk la) (anorm : ℝ) (rbs_op : List RadSym) (ops : List KTSOp) (lam : ℝ)
    (hi : ∀ n : Int, lam ≠ n) (lambda_var : Int) (nu_min nu_max nu_lap : ℕ) (hr : nu_min ≤ nu_max)
    (hparse : Parse_RadialOp_List rbs_op = .ok ops) (hb : ∀ K T, .KT K T ∈ ops → K < 0 → T % 2 = 0) :
    (∃ y, RepRadialProd la anorm rbs_op lam lambda_var nu_min nu_max nu_lap = .ok y) ↔
    0 < lam ∧ 0 < lam + lambda_var ∧ Reachable ops lam lambda_var := by
  unfold RepRadialProd
  rw [C16_formed, ← C16_acceptance rbs_op ops lam lambda_var nu_min nu_max nu_lap hparse]
  refine ⟨fun ⟨p, h, _⟩ => ⟨p, h⟩, fun ⟨p, h⟩ => ⟨p, h, ?_⟩⟩
  obtain ⟨h0, -⟩ := (C16_acceptance rbs_op ops lam lambda_var nu_min nu_max nu_lap hparse).1 ⟨p, h⟩
  have ho : RadSym.other ∉ rbs_op := by
    intro ho
    rw [parse_err _ ho] at hparse
    cases hparse
  obtain ⟨ops₁, e1, hv, -⟩ := parse_ok rbs_op ho
  rw [hparse] at e1
  injection e1 with e1
  subst e1
  unfold RepRadial_Prod at h
  simp only [ite_self] at h
  split_ifs at h
  obtain ⟨⟨ops', shfs⟩, e2, h⟩ := py_bind_eq_ok h
  obtain ⟨q, e3, h⟩ := py_bind_eq_ok h
  injection h with h
  subst h
  have hops : ∀ op ∈ ops', op ∈ ops ∨ op = .KT 0 0 := by
    unfold RepRadial_Prod_plan at e2
    rw [hparse, py_bind_ok] at e2
    obtain ⟨l, -, e2⟩ := py_bind_eq_ok e2
    split_ifs at e2
    · injection e2 with e2
      injection e2 with e2 _
      intro op hop
      rw [← e2] at hop
      exact (List.mem_cons.1 hop).symm
    · injection e2 with e2
      injection e2 with e2 _
      intro op hop
      rw [← e2] at hop
      simpa using List.mem_append.1 hop
    · injection e2 with e2
      injection e2 with e2 _
      intro op hop
      rw [← e2] at hop
      exact .inl hop
  have hlo : (nu_min : Int) - min (nu_lap : Int) nu_min = ((nu_min - min nu_lap nu_min : ℕ) : Int) := by omega
  have hhi : (nu_max : Int) + nu_lap = ((nu_max + nu_lap : ℕ) : Int) := by omega
  rw [hlo, hhi]
  unfold RepRadialshfs_Prod at e3
  obtain ⟨r, e4, e3⟩ := py_bind_eq_ok e3
  have hreg := (loop_regular hi h0 ops' shfs r (fun op hop => by
    rcases hops op hop with h | rfl
    · exact hv op h
    · exact le_refl (0 : Int)) (fun K T hm hK => by
    rcases hops _ hm with h | h
    · exact hb K T h hK
    · injection h with h1 h2
      omega) e4).2.2
  intro f hf
  refine regular_ok hla (by omega) ?_
  obtain ⟨l, P⟩ := r
  cases P with
  | none => injection e3 with e3; subst e3; cases hf
  | some P => injection e3 with e3; subst e3; exact hreg _ rfl f hf

/-- `beta d/dbeta beta^2`, raised by two, at `lambda = 5/2`: the hypotheses hold, and the matrix is returned on every
range. -/
example (la : LinAlg) (hla : LinAlgOk la) (lo hi lap : ℕ) (hr : lo ≤ hi) :
    ∃ y, RepRadialProd la 1 [.bDb, .b2] (5 / 2) 2 lo hi lap = .ok y := by
  refine (C16_matrix la hla 1 [.bDb, .b2] [.KT 1 1, .KT 2 0] (5 / 2) (fun n h => ?_) 2 lo hi lap hr (by decide +kernel)
    (fun K T hm hK => ?_)).2 ⟨by norm_num, by norm_num, .inl ⟨.inr (.inl (by decide)), .inl (by decide)⟩⟩
  · have : (5 : ℝ) = 2 * n := by linarith
    have : (5 : Int) = 2 * n := by exact_mod_cast this
    omega
  · simp at hm
    omega

end Acm.Props
