import Verif.Lemmas.FullOps
import Mathlib.Algebra.BigOperators.Group.List.Lemmas

/-!
# Lemmas on `RepXspace_Prod`
-/

namespace Acm

open Acm.Spec

/-- Evaluate a non-empty list of segments. -/
def evalAll {σ M : Type} (A : XAlg σ M) : List Seg → StPy σ M
  | [] => StPy.lift (throw .assertionError)
  | g :: gs => do
    let x ← g.eval A
    evalSegs A x gs

/-- The segments of a product, read from the left: `rs`, `ss` are the radial and spherical
symbols pending. -/
def segsOf : List OpSym → List RadSym → List OpSym → List Seg
  | [], rs, ss => [.twin rs ss]
  | op :: ops, rs, ss =>
    match op.radial? with
    | some r => segsOf ops (rs ++ [r]) ss
    | none =>
      if op.isSpherical then segsOf ops rs (ss ++ [op])
      else if rs ≠ [] ∨ ss ≠ [] then .twin rs ss :: .whole op :: segsOf ops [] []
      else .whole op :: segsOf ops rs ss

theorem segsOf_ne_nil (ops : List OpSym) (rs : List RadSym) (ss : List OpSym) : segsOf ops rs ss ≠ [] := by
  induction ops generalizing rs ss with
  | nil => simp [segsOf]
  | cons op ops ih =>
    unfold segsOf
    cases op.radial? with
    | some r => exact ih _ _
    | none => simp only; split_ifs <;> first | exact ih _ _ | simp

/-- Evaluate segments after an optional left factor. -/
def evalFrom {σ M : Type} (A : XAlg σ M) (run : Option M) (gs : List Seg) : StPy σ M :=
  match run with
  | some x => evalSegs A x gs
  | none => evalAll A gs

theorem evalFrom_cons {σ M : Type} (A : XAlg σ M) (run : Option M) (g : Seg) (gs : List Seg) (s : σ) :
    evalFrom A run (g :: gs) s = (do let y ← g.eval A; evalFrom A (some (runMul A run y)) gs : StPy σ M) s := by
  cases run <;> rfl

theorem st_bind_congr {σ α β : Type} {x : StPy σ α} {f g : α → StPy σ β} {s : σ}
    (h : ∀ a s', f a s' = g a s') : (x >>= f) s = (x >>= g) s := by
  rw [st_bind, st_bind]
  rcases x s with ⟨_ | a, s'⟩
  · rfl
  · exact h a s'

theorem st_bind_assoc {σ α β γ : Type} (x : StPy σ α) (f : α → StPy σ β) (g : β → StPy σ γ) (s : σ) :
    (x >>= f >>= g) s = (x >>= fun a => f a >>= g) s := by
  rw [st_bind, st_bind, st_bind]
  rcases x s with ⟨_ | a, s'⟩
  · rfl
  · rfl

theorem eval_whole {σ M : Type} (A : XAlg σ M) (op : OpSym) :
    prodWhole A op = Seg.eval A (.whole op) := by
  cases op <;> rfl

/-- The product code evaluates the segments from left to right. -/
theorem xProd_segs {σ M : Type} (A : XAlg σ M) (ops : List OpSym) (s0 : ProdState M) (s : σ) :
    (do let t ← prodLoop A ops s0; let x ← A.twin t.nu_ops t.sph_ops; pure (runMul A t.run_Mat x) :
      StPy σ M) s = evalFrom A s0.run_Mat (segsOf ops s0.nu_ops s0.sph_ops) s := by
  induction ops generalizing s0 s with
  | nil =>
    rw [segsOf, evalFrom_cons]
    exact st_bind_congr fun a s' => rfl
  | cons op ops ih =>
    rw [prodLoop, st_bind_assoc]
    unfold prodStep segsOf
    cases hr : op.radial? with
    | some r =>
      simp only
      exact ih ⟨s0.run_Mat, s0.nu_ops ++ [r], s0.sph_ops⟩ s
    | none =>
      simp only
      by_cases hs : op.isSpherical = true
      · rw [if_pos hs, if_pos hs]
        exact ih ⟨s0.run_Mat, s0.nu_ops, s0.sph_ops ++ [op]⟩ s
      · rw [if_neg hs, if_neg hs]
        unfold prodFlush
        by_cases h0 : s0.nu_ops ≠ [] ∨ s0.sph_ops ≠ []
        · rw [if_pos h0, if_pos h0, evalFrom_cons, st_bind_assoc, st_bind_assoc]
          refine st_bind_congr fun y s1 => ?_
          rw [evalFrom_cons, ← eval_whole]
          show ((do let x ← prodWhole A op; pure ⟨some (runMul A (some (runMul A s0.run_Mat y)) x), [], []⟩ :
            StPy σ (ProdState M)) >>= _) s1 = _
          rw [st_bind_assoc]
          refine st_bind_congr fun x s2 => ?_
          exact ih ⟨some (runMul A (some (runMul A s0.run_Mat y)) x), [], []⟩ s2
        · rw [if_neg h0, if_neg h0, evalFrom_cons, ← eval_whole]
          show ((do let x ← prodWhole A op; pure ⟨some (runMul A s0.run_Mat x), s0.nu_ops, s0.sph_ops⟩ :
            StPy σ (ProdState M)) >>= _) s = _
          rw [st_bind_assoc]
          refine st_bind_congr fun x s2 => ?_
          exact ih ⟨some (runMul A s0.run_Mat x), s0.nu_ops, s0.sph_ops⟩ s2

theorem xProd_eq {σ M : Type} (A : XAlg σ M) (ops : List OpSym) (s : σ) :
    xProd A ops s = evalAll A (segsOf ops [] []) s :=
  xProd_segs A ops ⟨none, [], []⟩ s

/-- Spherical symbols. -/
theorem isSpherical_iff {op : OpSym} : op.isSpherical = true ↔
    (∃ k, op = .harm k) ∨ op = .sqLdim ∨ op = .sqLdiv := by
  cases op <;> simp [OpSym.isSpherical]

theorem radial?_some {op : OpSym} {r : RadSym} (h : op.radial? = some r) : op = .rad r ∧ r ≠ .other := by
  cases op with
  | rad q =>
    cases q <;> simp only [OpSym.radial?, Option.some.injEq, reduceCtorEq] at h <;> subst h <;>
      exact ⟨rfl, by decide⟩
  | _ => cases h

/-- The segments denote the same operator as the product, whenever radial and spherical
operators commute. -/
theorem segsOf_word {W : Type} [Monoid W] (R : RadSym → W) (S : OpSym → W)
    (hc : ∀ (r : RadSym) (s : OpSym), s.isSpherical = true → Commute (R r) (S s)) (ops : List OpSym)
    (rs : List RadSym) (ss : List OpSym) (hk : ∀ op ∈ ops, Known op) (hss : ∀ s ∈ ss, s.isSpherical = true) :
    ((segsOf ops rs ss).map (Seg.word R S)).prod
      = (rs.map R).prod * (ss.map S).prod * (ops.map (xWord R S)).prod := by
  induction ops generalizing rs ss with
  | nil => simp [segsOf, Seg.word]
  | cons op ops ih =>
    have hk' : ∀ op ∈ ops, Known op := fun o ho => hk o (by simp [ho])
    unfold segsOf
    cases hr : op.radial? with
    | some r =>
      simp only
      rw [ih _ _ hk' hss]
      obtain ⟨rfl, _⟩ := radial?_some hr
      simp only [List.map_append, List.prod_append, List.map_cons, List.map_nil, List.prod_cons,
        List.prod_nil, mul_one, xWord]
      have hcomm : Commute (R r) (ss.map S).prod := by
        refine Commute.list_prod_right _ _ ?_
        intro x hx
        obtain ⟨s, hs, rfl⟩ := List.mem_map.1 hx
        exact hc r s (hss s hs)
      rw [mul_assoc (rs.map R).prod, hcomm.eq]
      simp only [mul_assoc]
    | none =>
      simp only
      by_cases hs : op.isSpherical = true
      · rw [if_pos hs, ih _ _ hk' (by
          intro t ht
          rcases List.mem_append.1 ht with h | h
          · exact hss t h
          · rw [List.mem_singleton] at h; exact h ▸ hs)]
        have hx : xWord R S op = S op := by
          rcases isSpherical_iff.1 hs with ⟨k, rfl⟩ | rfl | rfl <;> rfl
        simp only [List.map_append, List.prod_append, List.map_cons, List.map_nil, List.prod_cons,
          List.prod_nil, mul_one, mul_assoc, hx]
      · have hx : xWord R S op = S op := by
          cases op with
          | rad q =>
            cases q <;> first | (cases hr; done) | exact absurd (hk (.rad .other) (by simp)) (by simp [Known])
          | _ => rfl
        rw [if_neg hs]
        split_ifs with h0
        · rw [List.map_cons, List.map_cons, List.prod_cons, List.prod_cons, ih _ _ hk' (by simp),
            List.map_cons, List.prod_cons, hx]
          simp [Seg.word, mul_assoc]
        · push Not at h0
          rw [h0.1, h0.2, List.map_cons, List.prod_cons, ih _ _ hk' (by simp), List.map_cons,
            List.prod_cons, hx]
          simp [Seg.word]

end Acm
