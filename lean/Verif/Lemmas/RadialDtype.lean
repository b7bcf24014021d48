import Verif.Lemmas.RadialHom
import Verif.Model.Radial
import Verif.Spec.Dtype

/-!
# The `dtype` of radial matrices
-/

namespace Acm

open Acm.Spec

open Classical in
/-- The `dtype` of the matrix of a formal product on a range which is not empty. -/
noncomputable def formalDtype {F : Type} (p : FormalProd F) : Dtype :=
  if ∃ f ∈ p.factors, Prim.symbolic f.1 = true then .object else .float64

theorem formalDtype_hom {lo hi : Int} (h : lo ≤ hi) : RadHom (formal ℝ) (radDtype lo hi) formalDtype where
  rep m l := by
    show Except.ok _ = Except.ok _
    rw [if_neg (not_lt.2 h)]
    cases m <;> simp [formalDtype, RadME.dtype, Prim.symbolic]
  id_pl l r := by
    show Except.ok _ = Except.ok _
    simp [formalDtype, Prim.symbolic]
  id_ml l r := by
    show Except.ok _ = Except.ok _
    simp [formalDtype, Prim.symbolic]
  b2_sqrt l := by
    show Except.ok _ = Except.ok _
    simp [formalDtype, Prim.symbolic]
  b2_sqrtInv l := by
    show Except.ok _ = Except.ok _
    simp [formalDtype, Prim.symbolic]
  mul x y := by
    show Dtype.matmul _ _ = formalDtype ⟨x.factors ++ y.factors, x.expo + y.expo⟩
    unfold formalDtype
    by_cases h1 : ∃ f ∈ x.factors, Prim.symbolic f.1 = true
    · rw [if_pos h1]
      have : ∃ f ∈ x.factors ++ y.factors, Prim.symbolic f.1 = true :=
        let ⟨f, a, b⟩ := h1; ⟨f, List.mem_append.2 (.inl a), b⟩
      rw [if_pos this]
      rfl
    · rw [if_neg h1]
      by_cases h2 : ∃ f ∈ y.factors, Prim.symbolic f.1 = true
      · rw [if_pos h2]
        have : ∃ f ∈ x.factors ++ y.factors, Prim.symbolic f.1 = true :=
          let ⟨f, a, b⟩ := h2; ⟨f, List.mem_append.2 (.inr a), b⟩
        rw [if_pos this]
        rfl
      · rw [if_neg h2]
        have : ¬ ∃ f ∈ x.factors ++ y.factors, Prim.symbolic f.1 = true := by
          rintro ⟨f, a, b⟩
          rcases List.mem_append.1 a with a | a
          · exact h1 ⟨f, a, b⟩
          · exact h2 ⟨f, a, b⟩
        rw [if_neg this]
        rfl
  scale k x := rfl
  eye := by
    show Dtype.float64 = _
    simp [formalDtype, formal]

theorem float_hom {lo hi : Int} (h : hi < lo) : RadHom (formal ℝ) (radDtype lo hi) fun _ => .float64 where
  rep m l := by
    show Except.ok _ = Except.ok _
    rw [if_pos h]
  id_pl l r := rfl
  id_ml l r := rfl
  b2_sqrt l := rfl
  b2_sqrtInv l := rfl
  mul x y := rfl
  scale k x := rfl
  eye := rfl

/-- The formal product does not depend on the range. -/
theorem formal_range {F : Type} [Field F] [LinearOrder F] (w : List RadSym) (lam : F) (lv lo hi nl lo' hi' nl' : Int) :
    RepRadial_Prod (fun _ _ => formal F) (fun x _ _ => x) w lam lv lo hi nl
      = RepRadial_Prod (fun _ _ => formal F) (fun x _ _ => x) w lam lv lo' hi' nl' := by
  unfold RepRadial_Prod
  simp only [ite_self]

open Classical in
theorem dtype_eq (w : List RadSym) (lam : ℝ) (lv lo hi nl : Int) :
    RepRadialProd_dtype w lam lv lo hi nl
      = (RepRadial_Prod (fun _ _ => formal ℝ) (fun x _ _ => x) w lam lv 0 0 0).map fun p =>
        if hi + nl < lo - min nl lo then .float64 else formalDtype p := by
  rw [formal_range w lam lv 0 0 0 lo hi nl]
  unfold RepRadialProd_dtype
  rw [prod_map (A := fun _ _ => formal ℝ) (f := fun a b p => if b < a then .float64 else formalDtype p)]
  intro a b
  by_cases h : b < a
  · simp only [if_pos h]; exact float_hom h
  · simp only [if_neg h]; exact formalDtype_hom (not_lt.1 h)

/-- If real matrices can be multiplied, so can formal ones. -/
theorem prod_formal {F M : Type} [Field F] [LinearOrder F] [IsStrictOrderedRing F]
    {A : Int → Int → RadAlg F M} {slice : M → Int → Int → M}
    {w : List RadSym} {lam : F} {lv lo hi nl : Int} {y : M}
    (h : RepRadial_Prod A slice w lam lv lo hi nl = .ok y) :
    ∃ p, RepRadial_Prod (fun _ _ => formal F) (fun x _ _ => x) w lam lv 0 0 0 = .ok p := by
  rw [formal_range w lam lv 0 0 0 lo hi nl]
  unfold RepRadial_Prod at h ⊢
  by_cases h1 : lam ≤ 0
  · rw [if_pos h1] at h; cases h
  rw [if_neg h1] at h ⊢
  by_cases h2 : lam + (lv : F) ≤ 0
  · rw [if_pos h2] at h; cases h
  rw [if_neg h2] at h ⊢
  obtain ⟨⟨ops, shfs⟩, e1, h⟩ := py_bind_eq_ok h
  obtain ⟨z, e2, h⟩ := py_bind_eq_ok h
  obtain ⟨p, f1, _⟩ := shfsProd_sim _ ops lam shfs z e2
  refine ⟨p, ?_⟩
  rw [e1]
  simp only [py_bind_ok, ite_self]
  rw [f1]
  rfl

/-- The `dtype` of a matrix that is returned. -/
theorem dtype_ok {la : LinAlg} {anorm : ℝ} {w : List RadSym} {lam : ℝ} {lv lo hi nl : Int} {P : Arr}
    (h : RepRadialProd la anorm w lam lv lo hi nl = .ok P) :
    ∃ d, RepRadialProd_dtype w lam lv lo hi nl = .ok d ∧
      (d = .object ↔ lo - min nl lo ≤ hi + nl ∧ Symbolic w lam lv) := by
  classical
  obtain ⟨p, hp⟩ := prod_formal h
  rw [dtype_eq, hp]
  refine ⟨_, rfl, ?_⟩
  dsimp only
  by_cases hr : hi + nl < lo - min nl lo
  · rw [if_pos hr]
    simp only [reduceCtorEq, false_iff, not_and]
    omega
  · rw [if_neg hr]
    unfold formalDtype
    have hs : Symbolic w lam lv ↔ ∃ f ∈ p.factors, Prim.symbolic f.1 = true := by
      constructor
      · rintro ⟨q, hq, hf⟩
        rw [hp] at hq
        injection hq with hq
        subst hq
        exact hf
      · exact fun hf => ⟨p, hp, hf⟩
    rw [hs]
    by_cases hf : ∃ f ∈ p.factors, Prim.symbolic f.1 = true
    · rw [if_pos hf]
      exact ⟨fun _ => ⟨not_lt.1 hr, hf⟩, fun _ => rfl⟩
    · rw [if_neg hf]
      simp only [reduceCtorEq, false_iff, not_and]
      exact fun _ => hf

end Acm
