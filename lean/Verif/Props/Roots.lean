import Verif.Lemmas.RootFree
import Mathlib.Data.Rat.Cast.Order

/-!
# The square roots in a product of radial operators (C99)
-/

set_option linter.unusedSectionVars false

namespace Acm.Props
open Acm Acm.Spec

variable {F : Type} [Field F] [LinearOrder F] [IsStrictOrderedRing F]

/-- C99.  Whenever `RepRadial_Prod` returns a matrix - for any list of radial operators, any `lambda_var`,
any range and overlap, and any matrix primitives `A` - that matrix is the (window of the) evaluation of a
product as in C16 which contains one square root of the matrix of `beta^2` or its inverse if the number of
operators that are odd in `beta` and `lambda_var` differ in parity, and none otherwise. -/
theorem C99_roots {M : Type} (A : Int → Int → RadAlg F M) (slice : M → Int → Int → M)
    (rbs_op : List RadSym) (lam : F) (lambda_var nu_min nu_max nu_lap : Int) (y : M)
    (h : RepRadial_Prod A slice rbs_op lam lambda_var nu_min nu_max nu_lap = .ok y) :
    ∃ p z, Denotes (A (nu_min - min nu_lap nu_min) (nu_max + nu_lap)) p z ∧
      y = (if nu_lap = 0 then z
        else slice z (min nu_lap nu_min) (1 + nu_max - nu_min + min nu_lap nu_min)) ∧
      Chain p.factors lam (lam + lambda_var) ∧
      (∀ (W : Type) [Monoid W] (I : Interp W),
        wordOf I p.factors = (rbs_op.map (symWord I)).prod) ∧
      p.expo = (rbs_op.map symExpo).sum ∧
      (roots p : Int) = ((rbs_op.countP RadSym.isOdd : ℕ) - lambda_var) % 2 := by
  unfold RepRadial_Prod at h
  by_cases h1 : lam ≤ 0
  · rw [if_pos h1] at h; cases h
  rw [if_neg h1] at h
  by_cases h2 : lam + (lambda_var : F) ≤ 0
  · rw [if_pos h2] at h; cases h
  rw [if_neg h2] at h
  obtain ⟨⟨ops, shfs⟩, e1, h⟩ := py_bind_eq_ok h
  obtain ⟨z, e2, h⟩ := py_bind_eq_ok h
  have ho : RadSym.other ∉ rbs_op := by
    intro ho
    unfold RepRadial_Prod_plan at e1
    rw [parse_err _ ho] at e1
    cases e1
  obtain ⟨parsed, ops', shfs', g1, g2, g3⟩ := plan_ok rbs_op lambda_var ho
  rw [e1] at g2
  injection g2 with g2
  injection g2 with g2 g2'
  subst g2 g2'
  obtain ⟨p, f1, f2⟩ := shfsProd_sim _ ops lam shfs z e2
  have hp : Chain p.factors lam (lam + (shfs.sum : F)) ∧
      (∀ (W : Type) [Monoid W] (I : Interp W), wordOf I p.factors = (ops.map (opWord I)).prod) ∧
      p.expo = (ops.map opExpo).sum ∧ (roots p : Int) = mism (ops.map KTSOp.maxVar) shfs := by
    unfold RepRadialshfs_Prod at f1
    obtain ⟨⟨lam', P⟩, k1, k2⟩ := py_bind_eq_ok f1
    have c5 := shfs_roots lam ops shfs lam' P g3.valid g3.len k1
    obtain ⟨rfl, c2, c3, c4⟩ := shfs_formal lam ops shfs lam' P g3.len g3.valid k1
    cases P with
    | none =>
      injection k2 with k2
      subst k2
      exact ⟨c2, c3, c4, c5⟩
    | some P =>
      injection k2 with k2
      subst k2
      exact ⟨c2, c3, c4, c5⟩
  obtain ⟨p1, p2, p3, p4⟩ := hp
  refine ⟨p, z, f2, ?_, ?_, fun W _ I => (p2 W I).trans (g3.word W I), p3.trans g3.expo, ?_⟩
  · by_cases h0 : nu_lap = 0
    · simp only [if_pos h0] at h ⊢
      injection h with h
      exact h.symm
    · simp only [if_neg h0] at h ⊢
      injection h with h
      exact h.symm
  · rw [← g3.sum]; exact p1
  · have m1 := mism_mod (ops.map KTSOp.maxVar) shfs (by simpa using g3.len)
    have m2 := mism_plan ho e1
    have m3 := mism_nonneg (ops.map KTSOp.maxVar) shfs
    have m4 := sum_expo_mod (ops := ops)
    have m5 := sum_symExpo_mod rbs_op
    rw [g3.expo] at m4
    have m6 := g3.sum
    omega

example : ∃ y, RepRadial_Prod (fun _ _ => formal ℚ) (fun x _ _ => x) [.b, .Db, .bm2, .b] (5 / 2) 2 0 3 0 = .ok y ∧
    roots y = 1 := ⟨⟨[(.me .b_pl, 7/2), (.me .Db_pl, 5/2), (.sqrtInvB2, 5/2)], 1⟩, by decide +kernel, by decide⟩

/-- C99, when no square root is needed.  If the number of operators odd in `beta` and `lambda_var` have the
same parity, then the outcome (a matrix or an exception) does not change when the two square root routines
are replaced by anything else. -/
theorem C99_independent {M : Type} (A : Int → Int → RadAlg F M) (f g : Int → Int → F → Py M)
    (slice : M → Int → Int → M) (rbs_op : List RadSym) (lam : F) (lambda_var nu_min nu_max nu_lap : Int)
    (hp : ((rbs_op.countP RadSym.isOdd : ℕ) - lambda_var) % 2 = 0) :
    RepRadial_Prod (fun a b => { A a b with b2_sqrt := f a b, b2_sqrtInv := g a b }) slice rbs_op lam
      lambda_var nu_min nu_max nu_lap =
    RepRadial_Prod A slice rbs_op lam lambda_var nu_min nu_max nu_lap := by
  unfold RepRadial_Prod
  by_cases h1 : lam ≤ 0
  · rw [if_pos h1, if_pos h1]
  rw [if_neg h1, if_neg h1]
  by_cases h2 : lam + (lambda_var : F) ≤ 0
  · rw [if_pos h2, if_pos h2]
  rw [if_neg h2, if_neg h2]
  by_cases ho : RadSym.other ∈ rbs_op
  · unfold RepRadial_Prod_plan
    rw [parse_err _ ho]
    rfl
  obtain ⟨parsed, ops, shfs, g1, g2, g3⟩ := plan_ok rbs_op lambda_var ho
  rw [g2]
  simp only [py_bind_ok]
  have m1 := mism_mod (ops.map KTSOp.maxVar) shfs (by simpa using g3.len)
  have m2 := mism_plan ho g2
  have m3 := mism_nonneg (ops.map KTSOp.maxVar) shfs
  have m4 := sum_expo_mod (ops := ops)
  have m5 := sum_symExpo_mod rbs_op
  rw [g3.expo] at m4
  have m6 := g3.sum
  have := shfs_free (A (nu_min - min nu_lap nu_min) (nu_max + nu_lap)) 
    (f (nu_min - min nu_lap nu_min) (nu_max + nu_lap)) (g (nu_min - min nu_lap nu_min) (nu_max + nu_lap)) lam ops shfs
    g3.valid (by omega)
  unfold RepRadialshfs_Prod
  rw [this]

example : (([RadSym.b, .Db, .bm2, .b].countP RadSym.isOdd : ℕ) - (-3 : Int)) % 2 = 0 := by decide

theorem denotes_no_roots {M : Type} {A : RadAlg F M} (hf : ∀ x, ∃ e, A.b2_sqrt x = .error e)
    (hg : ∀ x, ∃ e, A.b2_sqrtInv x = .error e) {p : FormalProd F} {z : M} (h : Denotes A p z) : roots p = 0 := by
  induction h with
  | eye => rfl
  | rep _ => rfl
  | id_pl _ => rfl
  | id_ml _ => rfl
  | b2_sqrt h =>
    obtain ⟨e, he⟩ := hf _
    rw [he] at h
    cases h
  | b2_sqrtInv h =>
    obtain ⟨e, he⟩ := hg _
    rw [he] at h
    cases h
  | mul _ _ h1 h2 => exact (roots_mul _ _).trans (by rw [h1, h2])
  | scale _ _ h1 => exact h1

/-- C99, when a square root is needed.  If the number of operators odd in `beta` and `lambda_var` differ in
parity, then no matrix is returned when the two square root routines raise. -/
theorem C99_needed {M : Type} (A : Int → Int → RadAlg F M) (hf : ∀ a b x, ∃ e, (A a b).b2_sqrt x = .error e)
    (hg : ∀ a b x, ∃ e, (A a b).b2_sqrtInv x = .error e) (slice : M → Int → Int → M) (rbs_op : List RadSym)
    (lam : F) (lambda_var nu_min nu_max nu_lap : Int)
    (hp : ((rbs_op.countP RadSym.isOdd : ℕ) - lambda_var) % 2 = 1) (y : M) :
    RepRadial_Prod A slice rbs_op lam lambda_var nu_min nu_max nu_lap ≠ .ok y := by
  intro h
  obtain ⟨p, z, h1, _, _, _, _, h2⟩ := C99_roots A slice rbs_op lam lambda_var nu_min nu_max nu_lap y h
  rw [denotes_no_roots (hf _ _) (hg _ _) h1, hp] at h2
  cases h2

example : (([RadSym.b, .Db, .bm2, .b].countP RadSym.isOdd : ℕ) - (2 : Int)) % 2 = 1 := by decide

end Acm.Props
