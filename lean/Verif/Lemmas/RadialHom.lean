import Verif.Lemmas.RadialProd

/-!
# Maps between radial algebras commute with the product code
-/

set_option linter.unusedSectionVars false

namespace Acm

open Acm.Spec

variable {F M N : Type} [Field F] [LinearOrder F]

/-- `f` maps the primitives and the operations of `A` to those of `B`. -/
structure RadHom (A : RadAlg F M) (B : RadAlg F N) (f : M → N) : Prop where
  rep : ∀ m l, B.rep m l = (A.rep m l).map f
  id_pl : ∀ l r, B.id_pl l r = (A.id_pl l r).map f
  id_ml : ∀ l r, B.id_ml l r = (A.id_ml l r).map f
  b2_sqrt : ∀ l, B.b2_sqrt l = (A.b2_sqrt l).map f
  b2_sqrtInv : ∀ l, B.b2_sqrtInv l = (A.b2_sqrtInv l).map f
  mul : ∀ x y, B.mul (f x) (f y) = f (A.mul x y)
  scale : ∀ k x, B.scale k (f x) = f (A.scale k x)
  eye : B.eye = f A.eye

theorem map_error {α β : Type} (f : α → β) (e : PyErr) : Except.map f (.error e : Py α) = .error e := rfl
theorem map_ok {α β : Type} (f : α → β) (x : α) : Except.map f (.ok x : Py α) = .ok (f x) := rfl

variable {A : RadAlg F M} {B : RadAlg F N} {f : M → N}

theorem select_map (h : RadHom A B f) (K : Int) (s : List Int) (i : Nat) (lam : F) :
    bS_DS_select B K s i lam = (bS_DS_select A K s i lam).map fun r => (f r.1, r.2) := by
  unfold bS_DS_select
  cases pyGet s ((i : Int) - 1) with
  | error e => rfl
  | ok split =>
    simp only [py_bind_ok, h.rep, h.b2_sqrt, h.b2_sqrtInv]
    have key : ∀ (p : Py Unit) (x : Py M) (k : Int) (n : Nat),
        (p >>= fun _ => (x.map f) >>= fun y => (pure (B.scale k y, n) : Py (N × Nat)))
        = ((p >>= fun _ => x >>= fun y => (pure (A.scale k y, n) : Py (M × Nat)))).map
            fun r => (f r.1, r.2) := by
      intro p x k n
      cases p with
      | error e => rfl
      | ok _ =>
        cases x with
        | error e => rfl
        | ok x =>
          show Except.ok (B.scale k (f x), n) = _
          rw [h.scale]; rfl
    have key0 : ∀ (p : Py Unit) (x : Py M) (n : Nat),
        (p >>= fun _ => (x.map f) >>= fun y => (pure (y, n) : Py (N × Nat)))
        = ((p >>= fun _ => x >>= fun y => (pure (y, n) : Py (M × Nat)))).map
            fun r => (f r.1, r.2) := by
      intro p x n
      cases p with
      | error e => rfl
      | ok _ => cases x <;> rfl
    have key1 : ∀ (x : Py M) (k : Int) (n : Nat),
        ((x.map f) >>= fun y => (pure (B.scale k y, n) : Py (N × Nat)))
        = ((x >>= fun y => (pure (A.scale k y, n) : Py (M × Nat)))).map
            fun r => (f r.1, r.2) := fun x k n => key (.ok ()) x k n
    have key2 : ∀ (p : Py Unit) (x y : Py M) (k : Int) (n : Nat),
        (p >>= fun _ => (x.map f) >>= fun x => (y.map f) >>= fun y =>
          (pure (B.scale k (B.mul x y), n) : Py (N × Nat)))
        = ((p >>= fun _ => x >>= fun x => y >>= fun y =>
          (pure (A.scale k (A.mul x y), n) : Py (M × Nat)))).map fun r => (f r.1, r.2) := by
      intro p x y k n
      cases p with
      | error e => rfl
      | ok _ =>
        cases x with
        | error e => rfl
        | ok x =>
          cases y with
          | error e => rfl
          | ok y =>
            show Except.ok (B.scale k (B.mul (f x) (f y)), n) = _
            rw [h.mul, h.scale]; rfl
    split_ifs <;> first | exact key _ _ _ _ | exact key0 _ _ _ | exact key1 _ _ _ | exact key2 _ _ _ _ _ | rfl

theorem update_map (h : RadHom A B f) (n : Nat) (lamX : Int) (i : Nat) (x : M) (acc : Option M) :
    bS_DS_update B n lamX i (f x) (acc.map f) = (bS_DS_update A n lamX i x acc).map f := by
  unfold bS_DS_update
  by_cases hc : i = n ∧ lamX ≥ 0
  · rw [if_pos hc, if_pos hc]; rfl
  · rw [if_neg hc, if_neg hc]
    cases acc with
    | none => rfl
    | some y =>
      show Except.ok (B.mul (f x) (f y)) = _
      rw [h.mul]; rfl

theorem loop_map (h : RadHom A B f) (K : Int) (s : List Int) (n : Nat) (lamX : Int) : ∀ (i : Nat) (lam : F)
    (acc : Option M), bS_DS_loop B K s n lamX i lam (acc.map f)
      = (bS_DS_loop A K s n lamX i lam acc).map fun r => (r.1, r.2.map f) := by
  intro i
  induction i using Nat.strong_induction_on with
  | _ i ih =>
    intro lam acc
    cases i with
    | zero => unfold bS_DS_loop; rfl
    | succ i =>
      unfold bS_DS_loop
      rw [select_map h]
      cases hs : bS_DS_select A K s (i + 1) lam with
      | error e => rfl
      | ok r =>
        obtain ⟨x, imm⟩ := r
        simp only [map_ok, py_bind_ok]
        rw [update_map h]
        cases bS_DS_update A n lamX (i + 1) x acc with
        | error e => rfl
        | ok P =>
          simp only [map_ok, py_bind_ok]
          cases pyGet s (i : Int) with
          | error e => rfl
          | ok split =>
            simp only [py_bind_ok]
            by_cases h1 : imm = 1
            · rw [if_pos h1, if_pos h1]
              exact ih i (Nat.lt_succ_self i) _ (some P)
            · rw [if_neg h1, if_neg h1]
              cases i with
              | zero => rfl
              | succ j => exact ih j (by omega) _ (some P)

theorem finish_map (h : RadHom A B f) (n : Nat) (lamX : Int) (lam : F) (acc : Option M) :
    bS_DS_finish B n lamX lam (acc.map f) = (bS_DS_finish A n lamX lam acc).map f := by
  unfold bS_DS_finish
  rw [h.id_pl, h.eye]
  by_cases h1 : lamX > 0
  · rw [if_pos h1, if_pos h1]
    have h0 : ¬ (n = 0 ∧ lamX = 0) := by omega
    simp only [if_neg h0]
    cases pyAssert (is_even lamX) with
    | error e => rfl
    | ok _ =>
      simp only [py_bind_ok]
      cases A.id_pl lam (lamX.fdiv 2) with
      | error e => rfl
      | ok X =>
        simp only [map_ok, py_bind_ok]
        by_cases hn : n > 0
        · rw [if_pos hn, if_pos hn]
          cases acc with
          | none => rfl
          | some y =>
            show Except.ok (B.mul (f X) (f y)) = _
            rw [h.mul]; rfl
        · rw [if_neg hn, if_neg hn]; rfl
  · rw [if_neg h1, if_neg h1]
    by_cases h0 : n = 0 ∧ lamX = 0
    · simp only [if_pos h0]; rfl
    · simp only [if_neg h0]
      cases acc <;> rfl

theorem bS_DS_map (h : RadHom A B f) (K T : Int) (lam : F) (R : Int) :
    RepRadial_bS_DS B K T lam R = (RepRadial_bS_DS A K T lam R).map f := by
  unfold RepRadial_bS_DS
  by_cases h1 : lam ≤ 0 ∨ lam + (R : F) ≤ 0
  · rw [if_pos h1, if_pos h1]; rfl
  rw [if_neg h1, if_neg h1]
  by_cases h2 : K = 0 ∧ T = 0 ∧ is_odd R = true
  · rw [if_pos h2, if_pos h2]
    simp only [h.rep, h.id_pl, h.id_ml, h.b2_sqrt]
    by_cases hR : R < 0
    · rw [if_pos hR, if_pos hR]
      cases A.b2_sqrt (lam + (R : F)) with
      | error e => rfl
      | ok x =>
        cases A.rep .bm_ml (lam + (R : F) + 1) with
        | error e => rfl
        | ok y =>
          simp only [map_ok, py_bind_ok]
          rw [h.mul]
          by_cases hR1 : R < -1
          · rw [if_pos hR1, if_pos hR1]
            cases A.id_ml lam ((-(R + 1)).fdiv 2) with
            | error e => rfl
            | ok z =>
              show Except.ok (B.mul (f _) (f z)) = _
              rw [h.mul]; rfl
          · rw [if_neg hR1, if_neg hR1]; rfl
    · rw [if_neg hR, if_neg hR]
      cases A.b2_sqrt lam with
      | error e => rfl
      | ok x =>
        cases A.rep .bm_pl lam with
        | error e => rfl
        | ok y =>
          simp only [map_ok, py_bind_ok]
          rw [h.mul]
          by_cases hR1 : R > 1
          · rw [if_pos hR1, if_pos hR1]
            cases A.id_pl (lam + 1) ((R - 1).fdiv 2) with
            | error e => rfl
            | ok z =>
              show Except.ok (B.mul (f z) (f _)) = _
              rw [h.mul]; rfl
          · rw [if_neg hR1, if_neg hR1]; rfl
  rw [if_neg h2, if_neg h2]
  cases Lambda_Splits K T R with
  | error e => rfl
  | ok s =>
    simp only [py_bind_ok]
    generalize (if s.length > (|K| + T).toNat then s.headD 0 else 0) = lamX
    generalize (if s.length > (|K| + T).toNat then s.tail else s) = s'
    cases pyAssert (s'.length = (|K| + T).toNat) with
    | error e => rfl
    | ok _ =>
      simp only [py_bind_ok, h.id_ml]
      have tail : ∀ (l : F) (acc : Option M),
          (bS_DS_loop B K s' (|K| + T).toNat lamX (|K| + T).toNat l (acc.map f) >>= fun r =>
            bS_DS_finish B (|K| + T).toNat lamX r.1 r.2)
          = ((bS_DS_loop A K s' (|K| + T).toNat lamX (|K| + T).toNat l acc >>= fun r =>
            bS_DS_finish A (|K| + T).toNat lamX r.1 r.2)).map f := by
        intro l acc
        rw [loop_map h]
        cases bS_DS_loop A K s' (|K| + T).toNat lamX (|K| + T).toNat l acc with
        | error e => rfl
        | ok r => exact finish_map h _ _ _ _
      by_cases hX : lamX < 0
      · rw [if_pos hX, if_pos hX]
        cases pyAssert (is_even lamX) with
        | error e => rfl
        | ok _ =>
          simp only [py_bind_ok]
          cases A.id_ml lam ((-lamX).fdiv 2) with
          | error e => rfl
          | ok X => exact tail _ (some X)
      · rw [if_neg hX, if_neg hX]
        exact tail _ none

theorem representation_map (h : RadHom A B f) (op : KTSOp) (lam : F) (R : Int) :
    op.representation B lam R = (op.representation A lam R).map f := by
  cases op with
  | KT K T => exact bS_DS_map h K T lam R
  | S s =>
    unfold KTSOp.representation
    by_cases hR : R ≠ 0
    · simp only [if_pos hR]; rfl
    · simp only [if_neg hR]
      cases pyGet [RadME.Sm, RadME.S0, RadME.Sp] (s + 1) with
      | error e => rfl
      | ok m => exact h.rep m lam

theorem shfs_map (h : RadHom A B f) (lam : F) : ∀ (ops : List KTSOp) (shfs : List Int),
    RepRadialshfs_loop B lam ops shfs
      = (RepRadialshfs_loop A lam ops shfs).map fun r => (r.1, r.2.map f)
  | [], _ => rfl
  | _ :: _, [] => rfl
  | op :: ops, R :: shfs => by
    simp only [RepRadialshfs_loop]
    rw [shfs_map h lam ops shfs]
    cases RepRadialshfs_loop A lam ops shfs with
    | error e => rfl
    | ok r =>
      simp only [map_ok, py_bind_ok]
      rw [representation_map h]
      cases op.representation A r.1 R with
      | error e => rfl
      | ok x =>
        obtain ⟨l, acc⟩ := r
        cases acc with
        | none => rfl
        | some y =>
          show Except.ok (l + (R : F), some (B.mul (f x) (f y))) = _
          rw [h.mul]; rfl

theorem shfsProd_map (h : RadHom A B f) (ops : List KTSOp) (lam : F) (shfs : List Int) :
    RepRadialshfs_Prod B ops lam shfs = (RepRadialshfs_Prod A ops lam shfs).map f := by
  unfold RepRadialshfs_Prod
  rw [shfs_map h]
  cases RepRadialshfs_loop A lam ops shfs with
  | error e => rfl
  | ok r =>
    obtain ⟨l, acc⟩ := r
    cases acc with
    | none =>
      show Except.ok B.eye = _
      rw [h.eye]; rfl
    | some y => rfl

/-- A map of algebras, with the identity as slice. -/
theorem prod_map {A : Int → Int → RadAlg F M} {B : Int → Int → RadAlg F N} {f : Int → Int → M → N}
    (h : ∀ a b, RadHom (A a b) (B a b) (f a b)) (rbs_op : List RadSym) (lam : F)
    (lambda_var nu_min nu_max nu_lap : Int) :
    RepRadial_Prod B (fun d _ _ => d) rbs_op lam lambda_var nu_min nu_max nu_lap
      = (RepRadial_Prod A (fun d _ _ => d) rbs_op lam lambda_var nu_min nu_max nu_lap).map
          (f (nu_min - min nu_lap nu_min) (nu_max + nu_lap)) := by
  unfold RepRadial_Prod
  by_cases h1 : lam ≤ 0
  · rw [if_pos h1, if_pos h1]; rfl
  rw [if_neg h1, if_neg h1]
  by_cases h2 : lam + (lambda_var : F) ≤ 0
  · rw [if_pos h2, if_pos h2]; rfl
  rw [if_neg h2, if_neg h2]
  cases RepRadial_Prod_plan rbs_op lambda_var with
  | error e => rfl
  | ok r =>
    simp only [py_bind_ok, ite_self]
    rw [shfsProd_map (h _ _)]
    cases RepRadialshfs_Prod (A (nu_min - min nu_lap nu_min) (nu_max + nu_lap)) r.1 lam r.2 <;> rfl

end Acm
