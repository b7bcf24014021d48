import Verif.Lemmas.RadialHom

/-!
# A product of matrices can be formed if the formal product can and all its factors exist
-/

set_option linter.unusedSectionVars false

namespace Acm

open Acm.Spec

variable {F M : Type} [Field F] [LinearOrder F]

variable (A : RadAlg F M)

theorem select_formed {K : Int} {s : List Int} {i : Nat} {lam : F} {r : FormalProd F × Nat}
    (h : bS_DS_select (formal F) K s i lam = .ok r) (hf : ∀ f ∈ r.1.factors, FactorOk A f) :
    ∃ y, bS_DS_select A K s i lam = .ok (y, r.2) := by
  unfold bS_DS_select at h ⊢
  cases hp : pyGet s ((i : Int) - 1) with
  | error e => rw [hp] at h; cases h
  | ok split =>
    rw [hp] at h
    simp only [py_bind_ok] at h ⊢
    have key : ∀ (p : Py Unit) (m : RadME) (k : Int) (n : Nat),
        (p >>= fun _ => (formal F).rep m lam >>= fun y => (pure ((formal F).scale k y, n) : Py (FormalProd F × Nat))) = .ok r →
        ∃ y, (p >>= fun _ => A.rep m lam >>= fun y => (pure (A.scale k y, n) : Py (M × Nat))) = .ok (y, r.2) := by
      intro p m k n h
      cases p with
      | error e => cases h
      | ok _ =>
        injection h with h
        subst h
        obtain ⟨y, hy⟩ := hf (.me m, lam) (by simp [formal])
        exact ⟨_, by rw [py_bind_ok, hy]; rfl⟩
    have key0 : ∀ (p : Py Unit) (m : RadME) (n : Nat),
        (p >>= fun _ => (formal F).rep m lam >>= fun y => (pure (y, n) : Py (FormalProd F × Nat))) = .ok r →
        ∃ y, (p >>= fun _ => A.rep m lam >>= fun y => (pure (y, n) : Py (M × Nat))) = .ok (y, r.2) := by
      intro p m n h
      cases p with
      | error e => cases h
      | ok _ =>
        injection h with h
        subst h
        obtain ⟨y, hy⟩ := hf (.me m, lam) (by simp)
        exact ⟨_, by rw [py_bind_ok, hy]; rfl⟩
    have key1 : ∀ (m : RadME) (k : Int) (n : Nat),
        ((formal F).rep m lam >>= fun y => (pure ((formal F).scale k y, n) : Py (FormalProd F × Nat))) = .ok r →
        ∃ y, (A.rep m lam >>= fun y => (pure (A.scale k y, n) : Py (M × Nat))) = .ok (y, r.2) :=
      fun m k n => key (.ok ()) m k n
    have key2 : ∀ (p : Py Unit) (k : Int) (n : Nat),
        (p >>= fun _ => (formal F).b2_sqrt lam >>= fun y => (pure ((formal F).scale k y, n) : Py (FormalProd F × Nat))) = .ok r →
        ∃ y, (p >>= fun _ => A.b2_sqrt lam >>= fun y => (pure (A.scale k y, n) : Py (M × Nat))) = .ok (y, r.2) := by
      intro p k n h
      cases p with
      | error e => cases h
      | ok _ =>
        injection h with h
        subst h
        obtain ⟨y, hy⟩ := hf (.sqrtB2, lam) (by simp [formal])
        exact ⟨_, by rw [py_bind_ok, hy]; rfl⟩
    have key3 : ∀ (p : Py Unit) (k : Int) (n : Nat),
        (p >>= fun _ => (formal F).b2_sqrtInv lam >>= fun y => (pure ((formal F).scale k y, n) : Py (FormalProd F × Nat))) = .ok r →
        ∃ y, (p >>= fun _ => A.b2_sqrtInv lam >>= fun y => (pure (A.scale k y, n) : Py (M × Nat))) = .ok (y, r.2) := by
      intro p k n h
      cases p with
      | error e => cases h
      | ok _ =>
        injection h with h
        subst h
        obtain ⟨y, hy⟩ := hf (.sqrtInvB2, lam) (by simp [formal])
        exact ⟨_, by rw [py_bind_ok, hy]; rfl⟩
    have key4 : ∀ (p : Py Unit) (m : RadME) (k : Int) (n : Nat),
        (p >>= fun _ => (formal F).b2_sqrtInv lam >>= fun x => (formal F).rep m lam >>= fun y =>
          (pure ((formal F).scale k ((formal F).mul x y), n) : Py (FormalProd F × Nat))) = .ok r →
        ∃ y, (p >>= fun _ => A.b2_sqrtInv lam >>= fun x => A.rep m lam >>= fun y =>
          (pure (A.scale k (A.mul x y), n) : Py (M × Nat))) = .ok (y, r.2) := by
      intro p m k n h
      cases p with
      | error e => cases h
      | ok _ =>
        injection h with h
        subst h
        obtain ⟨x, hx⟩ := hf (.sqrtInvB2, lam) (by simp [formal])
        obtain ⟨y, hy⟩ := hf (.me m, lam) (by simp [formal])
        exact ⟨_, by rw [py_bind_ok, hx, py_bind_ok, hy]; rfl⟩
    split_ifs at h ⊢ <;> first
      | exact key _ _ _ _ h | exact key0 _ _ _ h | exact key1 _ _ _ h | exact key2 _ _ _ h | exact key3 _ _ _ h
      | exact key4 _ _ _ _ h

theorem update_sub {n : Nat} {lamX : Int} {i : Nat} {x : FormalProd F} {acc : Option (FormalProd F)} {P : FormalProd F}
    (h : bS_DS_update (formal F) n lamX i x acc = .ok P) :
    (∀ f ∈ x.factors, f ∈ P.factors) ∧ (¬ (i = n ∧ lamX ≥ 0) → ∀ a, acc = some a → ∀ f ∈ a.factors, f ∈ P.factors) := by
  unfold bS_DS_update at h
  by_cases hc : i = n ∧ lamX ≥ 0
  · rw [if_pos hc] at h
    injection h with h
    subst h
    exact ⟨fun f hf => hf, fun hn => absurd hc hn⟩
  · rw [if_neg hc] at h
    cases acc with
    | none => cases h
    | some y =>
      injection h with h
      subst h
      refine ⟨fun f hf => List.mem_append_left _ hf, fun _ a ha f hf => ?_⟩
      injection ha with ha
      subst ha
      exact List.mem_append_right _ hf

theorem update_formed {n : Nat} {lamX : Int} {i : Nat} {x : FormalProd F} {acc : Option (FormalProd F)}
    {P : FormalProd F} (h : bS_DS_update (formal F) n lamX i x acc = .ok P) (y : M) {acc' : Option M}
    (hacc : acc.isSome = acc'.isSome) : ∃ Q, bS_DS_update A n lamX i y acc' = .ok Q := by
  unfold bS_DS_update at h ⊢
  by_cases hc : i = n ∧ lamX ≥ 0
  · rw [if_pos hc]; exact ⟨_, rfl⟩
  · rw [if_neg hc] at h ⊢
    cases acc with
    | none => cases h
    | some a =>
      cases acc' with
      | none => simp at hacc
      | some a' => exact ⟨_, rfl⟩

theorem loop_sub {K : Int} {s : List Int} {n : Nat} {lamX : Int} : ∀ (i : Nat) (lam : F) (a : FormalProd F)
    (r : F × Option (FormalProd F)), (i < n ∨ i = n ∧ lamX < 0) → bS_DS_loop (formal F) K s n lamX i lam (some a) = .ok r →
    ∃ p, r.2 = some p ∧ ∀ f ∈ a.factors, f ∈ p.factors := by
  intro i
  induction i using Nat.strong_induction_on with
  | _ i ih =>
    intro lam a r hi h
    cases i with
    | zero =>
      unfold bS_DS_loop at h
      injection h with h
      subst h
      exact ⟨a, rfl, fun f hf => hf⟩
    | succ i =>
      unfold bS_DS_loop at h
      obtain ⟨⟨x, imm⟩, -, h⟩ := py_bind_eq_ok h
      obtain ⟨P, hP, h⟩ := py_bind_eq_ok h
      obtain ⟨split, -, h⟩ := py_bind_eq_ok h
      have hs := (update_sub hP).2 (by omega) a rfl
      dsimp only at h
      by_cases h1 : imm = 1
      · rw [if_pos h1] at h
        obtain ⟨p, e, g⟩ := ih i (Nat.lt_succ_self i) _ _ _ (by omega) h
        exact ⟨p, e, fun f hf => g f (hs f hf)⟩
      · rw [if_neg h1] at h
        cases i with
        | zero =>
          injection h with h
          subst h
          exact ⟨P, rfl, hs⟩
        | succ j =>
          obtain ⟨p, e, g⟩ := ih j (by omega) _ _ _ (by omega) h
          exact ⟨p, e, fun f hf => g f (hs f hf)⟩

theorem loop_formed {K : Int} {s : List Int} {n : Nat} {lamX : Int} : ∀ (i : Nat) (lam : F) (acc : Option (FormalProd F))
    (acc' : Option M) (r : F × Option (FormalProd F)), i ≤ n → acc.isSome = acc'.isSome →
    bS_DS_loop (formal F) K s n lamX i lam acc = .ok r → (∀ p, r.2 = some p → ∀ f ∈ p.factors, FactorOk A f) →
    ∃ P, bS_DS_loop A K s n lamX i lam acc' = .ok (r.1, P) ∧ r.2.isSome = P.isSome := by
  intro i
  induction i using Nat.strong_induction_on with
  | _ i ih =>
    intro lam acc acc' r hi hacc h hf
    cases i with
    | zero =>
      unfold bS_DS_loop at h ⊢
      injection h with h
      subst h
      exact ⟨acc', rfl, hacc⟩
    | succ i =>
      unfold bS_DS_loop at h ⊢
      obtain ⟨⟨x, imm⟩, hx, h⟩ := py_bind_eq_ok h
      obtain ⟨P, hP, h⟩ := py_bind_eq_ok h
      obtain ⟨split, hsp, h⟩ := py_bind_eq_ok h
      dsimp only at h hx
      have hs := (update_sub hP).1
      have fin : ∃ p, r.2 = some p ∧ ∀ f ∈ P.factors, f ∈ p.factors := by
        by_cases h1 : imm = 1
        · rw [if_pos h1] at h
          exact loop_sub _ _ _ _ (by omega) h
        · rw [if_neg h1] at h
          cases i with
          | zero =>
            injection h with h
            subst h
            exact ⟨P, rfl, fun f hf => hf⟩
          | succ j => exact loop_sub _ _ _ _ (by omega) h
      obtain ⟨p, e, g⟩ := fin
      obtain ⟨y, hy⟩ := select_formed A hx fun f hm => hf p e f (g f (hs f hm))
      obtain ⟨Q, hQ⟩ := update_formed A hP y hacc
      rw [hy, py_bind_ok]
      dsimp only
      rw [hQ, py_bind_ok, hsp, py_bind_ok]
      by_cases h1 : imm = 1
      · rw [if_pos h1] at h ⊢
        exact ih i (Nat.lt_succ_self i) _ (some P) (some Q) r (by omega) rfl h hf
      · rw [if_neg h1] at h ⊢
        cases i with
        | zero =>
          injection h with h
          subst h
          exact ⟨some Q, rfl, rfl⟩
        | succ j => exact ih j (by omega) _ (some P) (some Q) r (by omega) rfl h hf

theorem finish_sub {n : Nat} {lamX : Int} {lam : F} {acc : Option (FormalProd F)} {p : FormalProd F}
    (h : bS_DS_finish (formal F) n lamX lam acc = .ok p) (hn : n > 0 ∨ lamX < 0) :
    ∀ a, acc = some a → ∀ f ∈ a.factors, f ∈ p.factors := by
  intro a ha f hf
  subst ha
  unfold bS_DS_finish at h
  by_cases h1 : lamX > 0
  · rw [if_pos h1] at h
    simp only [if_neg (show ¬ (n = 0 ∧ lamX = 0) by omega)] at h
    cases hp : pyAssert (is_even lamX) with
    | error e => rw [hp] at h; cases h
    | ok _ =>
      rw [hp] at h
      simp only [py_bind_ok, if_pos (show n > 0 by omega)] at h
      injection h with h
      subst h
      exact List.mem_append_right _ hf
  · rw [if_neg h1] at h
    simp only [if_neg (show ¬ (n = 0 ∧ lamX = 0) by omega)] at h
    injection h with h
    subst h
    exact hf

theorem finish_formed {n : Nat} {lamX : Int} {lam : F} {acc : Option (FormalProd F)} {acc' : Option M} {p : FormalProd F}
    (hacc : acc.isSome = acc'.isSome)
    (h : bS_DS_finish (formal F) n lamX lam acc = .ok p) (hf : ∀ f ∈ p.factors, FactorOk A f) :
    ∃ y, bS_DS_finish A n lamX lam acc' = .ok y := by
  unfold bS_DS_finish at h ⊢
  by_cases h1 : lamX > 0
  · rw [if_pos h1] at h ⊢
    simp only [if_neg (show ¬ (n = 0 ∧ lamX = 0) by omega)] at h ⊢
    cases hp : pyAssert (is_even lamX) with
    | error e => rw [hp] at h; cases h
    | ok _ =>
      rw [hp] at h
      simp only [py_bind_ok] at h ⊢
      by_cases hn : n > 0
      · simp only [if_pos hn] at h ⊢
        cases acc with
        | none => cases h
        | some a =>
          cases acc' with
          | none => simp at hacc
          | some a' =>
            injection h with h
            subst h
            obtain ⟨y, hy⟩ := hf (.idPl (lamX.fdiv 2), lam) (by simp [formal])
            rw [hy, py_bind_ok]
            exact ⟨_, rfl⟩
      · simp only [if_neg hn] at h ⊢
        injection h with h
        subst h
        obtain ⟨y, hy⟩ := hf (.idPl (lamX.fdiv 2), lam) (by simp)
        rw [hy, py_bind_ok]
        exact ⟨_, rfl⟩
  · rw [if_neg h1] at h ⊢
    by_cases h0 : n = 0 ∧ lamX = 0
    · simp only [if_pos h0]; exact ⟨_, rfl⟩
    · simp only [if_neg h0] at h ⊢
      cases acc with
      | none => cases h
      | some a =>
        cases acc' with
        | none => simp at hacc
        | some a' => exact ⟨_, rfl⟩

theorem bS_DS_formed {K T R : Int} {lam : F} {p : FormalProd F} (h : RepRadial_bS_DS (formal F) K T lam R = .ok p)
    (hf : ∀ f ∈ p.factors, FactorOk A f) : ∃ y, RepRadial_bS_DS A K T lam R = .ok y := by
  unfold RepRadial_bS_DS at h ⊢
  by_cases h1 : lam ≤ 0 ∨ lam + (R : F) ≤ 0
  · rw [if_pos h1] at h; cases h
  rw [if_neg h1] at h ⊢
  by_cases h2 : K = 0 ∧ T = 0 ∧ is_odd R = true
  · rw [if_pos h2] at h ⊢
    by_cases hR : R < 0
    · rw [if_pos hR] at h ⊢
      by_cases hR1 : R < -1
      · simp only [if_pos hR1] at h ⊢
        injection h with h
        subst h
        obtain ⟨x, hx⟩ := hf (.sqrtB2, lam + (R : F)) (by simp [formal])
        obtain ⟨y, hy⟩ := hf (.me .bm_ml, lam + (R : F) + 1) (by simp [formal])
        obtain ⟨z, hz⟩ := hf (.idMl ((-(R + 1)).fdiv 2), lam) (by simp [formal])
        rw [hx, py_bind_ok, hy, py_bind_ok, hz]
        exact ⟨_, rfl⟩
      · simp only [if_neg hR1] at h ⊢
        injection h with h
        subst h
        obtain ⟨x, hx⟩ := hf (.sqrtB2, lam + (R : F)) (by simp [formal])
        obtain ⟨y, hy⟩ := hf (.me .bm_ml, lam + (R : F) + 1) (by simp [formal])
        rw [hx, py_bind_ok, hy]
        exact ⟨_, rfl⟩
    · rw [if_neg hR] at h ⊢
      by_cases hR1 : R > 1
      · simp only [if_pos hR1] at h ⊢
        injection h with h
        subst h
        obtain ⟨x, hx⟩ := hf (.sqrtB2, lam) (by simp [formal])
        obtain ⟨y, hy⟩ := hf (.me .bm_pl, lam) (by simp [formal])
        obtain ⟨z, hz⟩ := hf (.idPl ((R - 1).fdiv 2), lam + 1) (by simp [formal])
        rw [hx, py_bind_ok, hy, py_bind_ok, hz]
        exact ⟨_, rfl⟩
      · simp only [if_neg hR1] at h ⊢
        injection h with h
        subst h
        obtain ⟨x, hx⟩ := hf (.sqrtB2, lam) (by simp [formal])
        obtain ⟨y, hy⟩ := hf (.me .bm_pl, lam) (by simp [formal])
        rw [hx, py_bind_ok, hy]
        exact ⟨_, rfl⟩
  rw [if_neg h2] at h ⊢
  cases hs : Lambda_Splits K T R with
  | error e => rw [hs] at h; cases h
  | ok s =>
    rw [hs] at h
    simp only [py_bind_ok] at h ⊢
    generalize (if s.length > (|K| + T).toNat then s.headD 0 else 0) = lamX at h ⊢
    generalize (if s.length > (|K| + T).toNat then s.tail else s) = s' at h ⊢
    generalize (|K| + T).toNat = n at h ⊢
    obtain ⟨u, hu, h⟩ := py_bind_eq_ok h
    rw [hu, py_bind_ok]
    have tail : ∀ (l : F) (acc : Option (FormalProd F)) (acc' : Option M), acc.isSome = acc'.isSome →
        (bS_DS_loop (formal F) K s' n lamX n l acc >>= fun r => bS_DS_finish (formal F) n lamX r.1 r.2) = .ok p →
        ∃ y, (bS_DS_loop A K s' n lamX n l acc' >>= fun r => bS_DS_finish A n lamX r.1 r.2) = .ok y := by
      intro l acc acc' hacc h
      obtain ⟨r, hr, h⟩ := py_bind_eq_ok h
      rcases Nat.eq_zero_or_pos n with hn | hn
      · subst hn
        unfold bS_DS_loop at hr ⊢
        injection hr with hr
        subst hr
        rw [py_pure, py_bind_ok]
        exact finish_formed A hacc h hf
      · obtain ⟨P, hP, e⟩ := loop_formed A n l acc acc' r le_rfl hacc hr fun q hq f hm => hf f (finish_sub h (.inl hn) q hq f hm)
        rw [hP, py_bind_ok]
        exact finish_formed A e h hf
    by_cases hX : lamX < 0
    · rw [if_pos hX] at h ⊢
      cases he : pyAssert (is_even lamX) with
      | error e => rw [he] at h; cases h
      | ok _ =>
        rw [he] at h
        simp only [py_bind_ok] at h ⊢
        rw [show (formal F).id_ml lam ((-lamX).fdiv 2) = .ok ⟨[(.idMl ((-lamX).fdiv 2), lam)], 0⟩ from rfl, py_bind_ok,
          py_pure, py_bind_ok] at h
        have hm : (.idMl ((-lamX).fdiv 2), lam) ∈ p.factors := by
          obtain ⟨r, hr, h⟩ := py_bind_eq_ok h
          obtain ⟨q, e, g⟩ := loop_sub n _ _ r (.inr ⟨rfl, hX⟩) hr
          exact finish_sub h (.inr hX) q e _ (g _ (by simp))
        obtain ⟨y, hy⟩ := hf _ hm
        rw [hy]
        exact tail _ (some _) (some y) rfl h
    · rw [if_neg hX] at h ⊢
      exact tail _ none none rfl h

theorem representation_formed {op : KTSOp} {R : Int} {lam : F} {p : FormalProd F}
    (h : op.representation (formal F) lam R = .ok p) (hf : ∀ f ∈ p.factors, FactorOk A f) :
    ∃ y, op.representation A lam R = .ok y := by
  cases op with
  | KT K T => exact bS_DS_formed A h hf
  | S s =>
    unfold KTSOp.representation at h ⊢
    by_cases hR : R ≠ 0
    · simp only [if_pos hR] at h; cases h
    · simp only [if_neg hR] at h ⊢
      obtain ⟨m, hm, h⟩ := py_bind_eq_ok h
      injection h with h
      subst h
      rw [hm, py_bind_ok]
      exact hf (.me m, lam) (by simp)

theorem shfs_formed (lam : F) : ∀ (ops : List KTSOp) (shfs : List Int) (r : F × Option (FormalProd F)),
    RepRadialshfs_loop (formal F) lam ops shfs = .ok r → (∀ p, r.2 = some p → ∀ f ∈ p.factors, FactorOk A f) →
    ∃ P, RepRadialshfs_loop A lam ops shfs = .ok (r.1, P) ∧ r.2.isSome = P.isSome
  | [], _, r, h, _ => by
    injection h with h
    subst h
    exact ⟨none, rfl, rfl⟩
  | _ :: _, [], r, h, _ => by cases h
  | op :: ops, R :: shfs, r, h, hf => by
    simp only [RepRadialshfs_loop] at h ⊢
    obtain ⟨⟨l, acc⟩, h1, h⟩ := py_bind_eq_ok h
    obtain ⟨p, h2, h⟩ := py_bind_eq_ok h
    injection h with h
    dsimp only at h h2
    have hr : ∃ q, r.2 = some q ∧ (∀ f ∈ p.factors, f ∈ q.factors) ∧ ∀ a, acc = some a → ∀ f ∈ a.factors, f ∈ q.factors := by
      rw [← h]
      cases acc with
      | none => exact ⟨p, rfl, fun f hf => hf, by simp⟩
      | some a =>
        refine ⟨_, rfl, fun f hf => List.mem_append_left _ hf, fun b hb f hf => ?_⟩
        injection hb with hb
        subst hb
        exact List.mem_append_right _ hf
    obtain ⟨q, e, g1, g2⟩ := hr
    obtain ⟨P, h3, h4⟩ := shfs_formed lam ops shfs _ h1 fun a ha f hm => hf q e f (g2 a ha f hm)
    obtain ⟨y, hy⟩ := representation_formed A h2 fun f hm => hf q e f (g1 f hm)
    rw [h3, py_bind_ok]
    dsimp only
    rw [hy, py_bind_ok, ← h]
    refine ⟨_, rfl, ?_⟩
    cases acc <;> cases P <;> simp at h4 ⊢

theorem shfsProd_formed {ops : List KTSOp} {lam : F} {shfs : List Int} {p : FormalProd F}
    (h : RepRadialshfs_Prod (formal F) ops lam shfs = .ok p) (hf : ∀ f ∈ p.factors, FactorOk A f) :
    ∃ y, RepRadialshfs_Prod A ops lam shfs = .ok y := by
  unfold RepRadialshfs_Prod at h ⊢
  obtain ⟨⟨l, P⟩, h1, h⟩ := py_bind_eq_ok h
  obtain ⟨Q, h2, -⟩ := shfs_formed A lam ops shfs _ h1 fun q hq => by
    dsimp only at hq
    subst hq
    injection h with h
    subst h
    exact hf
  rw [h2, py_bind_ok]
  cases Q <;> exact ⟨_, rfl⟩

/-- The factors of a product of matrices exist. -/
theorem denotes_exists {p : FormalProd F} {y : M} (h : Denotes A p y) : ∀ f ∈ p.factors, FactorOk A f := by
  induction h with
  | rep h => intro f hf; rw [List.mem_singleton] at hf; subst hf; exact ⟨_, h⟩
  | id_pl h => intro f hf; rw [List.mem_singleton] at hf; subst hf; exact ⟨_, h⟩
  | id_ml h => intro f hf; rw [List.mem_singleton] at hf; subst hf; exact ⟨_, h⟩
  | b2_sqrt h => intro f hf; rw [List.mem_singleton] at hf; subst hf; exact ⟨_, h⟩
  | b2_sqrtInv h => intro f hf; rw [List.mem_singleton] at hf; subst hf; exact ⟨_, h⟩
  | mul _ _ h1 h2 =>
    intro f hf
    rcases List.mem_append.1 hf with hf | hf
    · exact h1 f hf
    · exact h2 f hf
  | scale _ _ h => exact h
  | eye => intro f hf; cases hf

/-- A product of matrices is formed if and only if the formal product is and its factors exist. -/
theorem prod_formed [IsStrictOrderedRing F] (A : Int → Int → RadAlg F M) (slice : M → Int → Int → M) (w : List RadSym)
    (lam : F) (lv lo hi nl : Int) :
    (∃ y, RepRadial_Prod A slice w lam lv lo hi nl = .ok y) ↔
    ∃ p, RepRadial_Prod (fun _ _ => formal F) (fun x _ _ => x) w lam lv lo hi nl = .ok p ∧
      ∀ f ∈ p.factors, FactorOk (A (lo - min nl lo) (hi + nl)) f := by
  unfold RepRadial_Prod
  by_cases h1 : lam ≤ 0
  · simp [if_pos h1]
  by_cases h2 : lam + (lv : F) ≤ 0
  · simp [h1, if_pos h2]
  simp only [if_neg h1, if_neg h2]
  cases RepRadial_Prod_plan w lv with
  | error e => simp
  | ok r =>
    obtain ⟨ops, shfs⟩ := r
    simp only [py_bind_ok, ite_self]
    constructor
    · rintro ⟨y, h⟩
      obtain ⟨z, e2, h⟩ := py_bind_eq_ok h
      obtain ⟨p, f1, f2⟩ := shfsProd_sim _ ops lam shfs z e2
      exact ⟨p, by rw [f1]; rfl, denotes_exists _ f2⟩
    · rintro ⟨p, h, hf⟩
      obtain ⟨q, e2, h⟩ := py_bind_eq_ok h
      injection h with h
      subst h
      obtain ⟨y, hy⟩ := shfsProd_formed (A (lo - min nl lo) (hi + nl)) e2 hf
      rw [hy, py_bind_ok]
      by_cases hn : nl = 0
      · rw [if_pos hn]; exact ⟨_, rfl⟩
      · rw [if_neg hn]; exact ⟨_, rfl⟩

end Acm
