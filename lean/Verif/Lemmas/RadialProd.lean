import Verif.Lemmas.RadialLambda

/-! The formal run of `RepRadial_Prod`, and its relation to a run with matrices. -/

set_option linter.unusedSectionVars false

namespace Acm
open Spec

section
variable {F : Type} [Field F] [LinearOrder F] [IsStrictOrderedRing F]

theorem bS_DS_err {M : Type} (A : RadAlg F M) (K T R : Int) (lam : F)
    (h : ¬ (0 < lam ∧ 0 < lam + R)) :
    RepRadial_bS_DS A K T lam R = .error .valueError := by
  unfold RepRadial_bS_DS
  rw [if_pos (by rw [not_and_or, not_lt, not_lt] at h; exact h)]
  rfl

theorem representation_formal (op : KTSOp) (hv : op.Valid) (lam : F) (R : Int)
    (p : FormalProd F) (h : op.representation (formal F) lam R = .ok p) :
    Chain p.factors lam (lam + R) ∧
      (∀ (W : Type) [Monoid W] (I : Interp W), wordOf I p.factors = opWord I op) ∧
      p.expo = opExpo op := by
  cases op with
  | KT K T =>
    have hT : 0 ≤ T := hv
    by_cases hpos : 0 < lam ∧ 0 < lam + (R : F)
    · obtain ⟨p', h1, h2, h3, h4, _⟩ := bS_DS_formal K T R lam hT hpos.1 hpos.2
      simp only [KTSOp.representation] at h
      rw [h1] at h
      injection h with h
      subst h
      exact ⟨h2, h3, h4⟩
    · simp only [KTSOp.representation] at h
      rw [bS_DS_err _ _ _ _ _ hpos] at h
      simp at h
  | S s =>
    simp only [KTSOp.representation] at h
    by_cases hR : R ≠ 0
    · rw [if_pos hR] at h; simp at h
    · rw [if_neg hR] at h
      have hR0 : R = 0 := by omega
      subst hR0
      have hv' : s = -1 ∨ s = 0 ∨ s = 1 := hv
      rcases hv' with rfl | rfl | rfl
      all_goals
        injection h with h
        subst h
        refine ⟨by simp [Chain, Prim.shift], ?_, rfl⟩
        intro W _ I
        simp [opWord, Prim.word]

theorem representation_total (op : KTSOp) (hv : op.Valid) (lam : F) (R : Int)
    (h1 : 0 < lam) (h2 : 0 < lam + R) (hS : op.isKT = false → R = 0) :
    ∃ p, op.representation (formal F) lam R = .ok p := by
  cases op with
  | KT K T =>
    obtain ⟨p', h1, _⟩ := bS_DS_formal K T R lam hv h1 h2
    exact ⟨p', h1⟩
  | S s =>
    have hR := hS rfl
    subst hR
    simp only [KTSOp.representation]
    have hv' : s = -1 ∨ s = 0 ∨ s = 1 := hv
    rcases hv' with rfl | rfl | rfl <;> exact ⟨_, rfl⟩

theorem shfs_formal (lam : F) : ∀ (ops : List KTSOp) (shfs : List Int) (lam' : F)
    (P : Option (FormalProd F)), ops.length = shfs.length → (∀ op ∈ ops, op.Valid) →
    RepRadialshfs_loop (formal F) lam ops shfs = .ok (lam', P) →
    lam' = lam + (shfs.sum : F) ∧ Chain (P.getD ⟨[], 0⟩).factors lam lam' ∧
      (∀ (W : Type) [Monoid W] (I : Interp W),
        wordOf I (P.getD ⟨[], 0⟩).factors = (ops.map (opWord I)).prod) ∧
      (P.getD ⟨[], 0⟩).expo = (ops.map opExpo).sum := by
  intro ops
  induction ops with
  | nil =>
    intro shfs lam' P hl _ h
    have : shfs = [] := List.eq_nil_of_length_eq_zero hl.symm
    subst this
    simp only [RepRadialshfs_loop, py_pure] at h
    injection h with h
    injection h with h1 h2
    subst h1 h2
    simp [Chain]
  | cons op ops ih =>
    intro shfs lam' P hl hv h
    match shfs with
    | [] => simp at hl
    | R :: shfs =>
      simp only [RepRadialshfs_loop] at h
      cases hr : RepRadialshfs_loop (formal F) lam ops shfs with
      | error e => rw [hr] at h; simp at h
      | ok r =>
        obtain ⟨lam1, P1⟩ := r
        rw [hr] at h
        simp only [py_bind_ok] at h
        obtain ⟨g1, g2, g3, g4⟩ := ih shfs lam1 P1 (by simpa using hl)
          (fun o ho => hv o (by simp [ho])) hr
        cases hm : op.representation (formal F) lam1 R with
        | error e => rw [hm] at h; simp at h
        | ok p =>
          rw [hm] at h
          simp only [py_bind_ok, py_pure] at h
          obtain ⟨k1, k2, k3⟩ := representation_formal op (hv op (by simp)) lam1 R p hm
          injection h with h
          injection h with h1 h2
          subst h1 h2
          refine ⟨?_, ?_, ?_, ?_⟩
          · rw [g1, List.sum_cons]; push_cast; ring
          · cases P1 with
            | none =>
              simp only [Option.getD_some, Option.getD_none, Chain] at g2 ⊢
              rw [← g2]; exact k1
            | some P' => exact chain_append g2 k1
          · intro W _ I
            have := g3 W I
            cases P1 with
            | none =>
              simp only [Option.getD_some, Option.getD_none, wordOf_nil] at this ⊢
              rw [k2]; simp [← this]
            | some P' =>
              simp only [Option.getD_some] at this ⊢
              show wordOf I (p.factors ++ P'.factors) = _
              rw [wordOf_append, k2, this]; simp
          · cases P1 with
            | none =>
              simp only [Option.getD_some, Option.getD_none] at g4 ⊢
              rw [k3]; simp [← g4]
            | some P' =>
              simp only [Option.getD_some] at g4 ⊢
              show p.expo + P'.expo = _
              rw [k3, g4]; simp

theorem shfs_total (lam : F) : ∀ (ops : List KTSOp) (shfs : List Int),
    (∀ op ∈ ops, op.Valid) → SZero ops shfs → (∀ j, 0 < lam + (sufSum shfs j : F)) →
    ∃ P, RepRadialshfs_loop (formal F) lam ops shfs = .ok (lam + (shfs.sum : F), P) := by
  intro ops
  induction ops with
  | nil =>
    intro shfs _ hz _
    obtain ⟨hz1, _⟩ := hz
    have : shfs = [] := List.eq_nil_of_length_eq_zero (by simpa using hz1)
    subst this
    exact ⟨none, by simp [RepRadialshfs_loop]⟩
  | cons op ops ih =>
    intro shfs hv hz hpos
    obtain ⟨hz1, hz2⟩ := hz
    match shfs, hz1, hz2, hpos with
    | [], hz1, _, _ => simp at hz1
    | R :: shfs, hz1, hz2, hpos =>
      have hz' : SZero ops shfs := by
        refine ⟨by simpa using hz1, ?_⟩
        intro i hi hS
        have := hz2 (i + 1) (by simpa using hi) (by simpa using hS)
        simpa using this
      obtain ⟨P, hP⟩ := ih shfs (fun o ho => hv o (by simp [ho])) hz'
        (fun j => by simpa [sufSum] using hpos (j + 1))
      have p1 := hpos 1
      have p0 := hpos 0
      simp only [sufSum, List.drop_succ_cons, List.drop_zero, List.sum_cons] at p0 p1
      obtain ⟨p, hp⟩ := representation_total op (hv op (by simp)) (lam + (shfs.sum : F)) R p1
        (by push_cast at p0; linarith) (fun h => by simpa using hz2 0 (by simp) (by simpa using h))
      simp only [RepRadialshfs_loop]
      rw [hP]
      simp only [py_bind_ok]
      rw [hp]
      simp only [py_bind_ok, py_pure]
      have e : lam + (shfs.sum : F) + (R : F) = lam + ((R :: shfs).sum : F) := by
        rw [List.sum_cons]; push_cast; ring
      rw [e]
      exact ⟨_, rfl⟩

/-- What is known about the plan of `RepRadial_Prod`. -/
structure PlanOK (rbs_op : List RadSym) (lv : Int) (parsed ops : List KTSOp) (shfs : List Int) :
    Prop where
  len : ops.length = shfs.length
  valid : ∀ op ∈ ops, op.Valid
  word : ∀ (W : Type) [Monoid W] (I : Interp W),
    (ops.map (opWord I)).prod = (rbs_op.map (symWord I)).prod
  expo : (ops.map opExpo).sum = (rbs_op.map symExpo).sum
  sum : shfs.sum = lv
  szero : NoLeak parsed lv → SZero ops shfs
  low : NoLeak parsed lv → (0 ≤ lv ∨ oddCount parsed ≤ |lv|) → ∀ j, min 0 lv ≤ sufSum shfs j

theorem plan_ok (rbs_op : List RadSym) (lv : Int) (h : RadSym.other ∉ rbs_op) :
    ∃ parsed ops shfs, Parse_RadialOp_List rbs_op = .ok parsed ∧
      RepRadial_Prod_plan rbs_op lv = .ok (ops, shfs) ∧ PlanOK rbs_op lv parsed ops shfs := by
  obtain ⟨parsed, h1, h2, h3, h4⟩ := parse_ok rbs_op h
  obtain ⟨l, k1, k2⟩ := lambdaList_ok parsed lv h2
  unfold RepRadial_Prod_plan
  rw [h1]
  simp only [py_bind_ok]
  rw [k1]
  simp only [py_bind_ok]
  rcases k2.shape with ⟨s1, s2⟩ | ⟨x, t, s1, s2, s3⟩
  · rw [if_neg (by omega)]
    exact ⟨_, _, _, rfl, rfl, s1.symm, h2, h3, h4, k2.sum, s2, k2.low⟩
  · have hl : t.length = parsed.length := s2.1
    subst s1
    rw [if_pos (by simp; omega)]
    have hsum := k2.sum
    rw [List.sum_cons] at hsum
    have hvalid : ∀ op, op = KTSOp.KT 0 0 ∨ op ∈ parsed → op.Valid := by
      rintro op (rfl | h)
      · exact le_refl (0 : Int)
      · exact h2 op h
    rcases s3 with ⟨a, b, c⟩ | ⟨a, b, c⟩
    · rw [if_pos (show (x :: t).headD 0 > 0 from a)]
      refine ⟨_, _, _, rfl, rfl, by simp [hl], ?_, ?_, ?_, k2.sum, ?_, k2.low⟩
      · intro op hop; apply hvalid; simpa using hop
      · intro W _ I; simp [opWord, monomial_zero, h3]
      · simp [opExpo, h4]
      · intro _
        refine ⟨by simp [hl], ?_⟩
        intro i hi hS
        cases i with
        | zero => simp [KTSOp.isKT] at hS
        | succ i =>
          simp only [List.length_cons] at hi
          simpa using s2.2 i (by omega) (by simpa using hS)
    · rw [if_neg (show ¬ (x :: t).headD 0 > 0 by simp only [List.headD_cons]; omega)]
      refine ⟨_, parsed ++ [KTSOp.KT 0 0], t ++ [x], rfl, rfl, by simp [hl], ?_, ?_, ?_, ?_, ?_, ?_⟩
      · intro op hop; apply hvalid; simp at hop; tauto
      · intro W _ I; simp [opWord, monomial_zero, h3]
      · simp [opExpo, h4]
      · simp; omega
      · intro _
        refine ⟨by simp [hl], ?_⟩
        intro i hi hS
        simp only [List.length_append, List.length_singleton] at hi
        by_cases hi' : i < parsed.length
        · rw [List.getElem_append_left (by omega)]
          rw [List.getElem_append_left hi'] at hS
          exact s2.2 i hi' hS
        · rw [List.getElem_append_right (by omega)] at hS
          simp [KTSOp.isKT] at hS
      · intro _ _ j
        have := sum_le_sufSum_of_nonpos (t ++ [x]) j (by
          intro y hy
          apply c
          simp at hy ⊢; tauto)
        simp only [List.sum_append, List.sum_singleton] at this
        omega

end

/-! ### A run with matrices evaluates the formal run -/

section
variable {F M : Type} [Field F] [LinearOrder F]

/-- Every result of the run with `A` is the value of the result of the formal run. -/
def Simulates (A : RadAlg F M) (f : Py (FormalProd F)) (m : Py M) : Prop :=
  ∀ y, m = .ok y → ∃ x, f = .ok x ∧ Denotes A x y

theorem py_bind_eq_ok {α β : Type} {x : Py α} {f : α → Py β} {y : β} (h : x >>= f = .ok y) :
    ∃ a, x = .ok a ∧ f a = .ok y := by
  cases x with
  | error e => simp at h
  | ok a => exact ⟨a, rfl, h⟩

theorem select_sim (A : RadAlg F M) (K : Int) (s : List Int) (i : Nat) (lam : F) (y : M) (imm : Nat)
    (h : bS_DS_select A K s i lam = .ok (y, imm)) :
    ∃ x, bS_DS_select (formal F) K s i lam = .ok (x, imm) ∧ Denotes A x y := by
  unfold bS_DS_select at h ⊢
  obtain ⟨sp, h1, h⟩ := py_bind_eq_ok h
  rw [h1]
  simp only [py_bind_ok]
  have leaf : ∀ (c : Bool) (m : RadME) (k : Int) (im : Nat),
      (do pyAssert c
          let Mat ← A.rep m lam
          pure (A.scale k Mat, im) : Py (M × Nat)) = .ok (y, imm) →
      ∃ x, (do pyAssert c
               let Mat ← (formal F).rep m lam
               pure ((formal F).scale k Mat, im) : Py (FormalProd F × Nat)) = .ok (x, imm) ∧
        Denotes A x y := by
    intro c m k im h
    obtain ⟨_, h2, h⟩ := py_bind_eq_ok h
    obtain ⟨Mt, h3, h⟩ := py_bind_eq_ok h
    simp only [py_pure] at h
    injection h with h
    injection h with ha hb
    subst ha hb
    rw [h2]
    exact ⟨_, rfl, .scale k (.rep h3)⟩
  split_ifs at h ⊢
  all_goals first
    | exact leaf _ _ _ _ h
    | skip
  · obtain ⟨_, h2, h⟩ := py_bind_eq_ok h
    obtain ⟨Mt, h3, h⟩ := py_bind_eq_ok h
    simp only [py_pure] at h
    injection h with h
    injection h with ha hb
    subst ha hb
    rw [h2]
    exact ⟨_, rfl, .rep h3⟩
  · obtain ⟨Mt, h3, h⟩ := py_bind_eq_ok h
    simp only [py_pure] at h
    injection h with h
    injection h with ha hb
    subst ha hb
    exact ⟨_, rfl, .scale 2 (.rep h3)⟩
  · obtain ⟨_, h2, h⟩ := py_bind_eq_ok h
    obtain ⟨Mt, h3, h⟩ := py_bind_eq_ok h
    simp only [py_pure] at h
    injection h with h
    injection h with ha hb
    subst ha hb
    rw [h2]
    exact ⟨_, rfl, .scale (-1) (.b2_sqrt h3)⟩
  · obtain ⟨_, h2, h⟩ := py_bind_eq_ok h
    obtain ⟨Mt, h3, h⟩ := py_bind_eq_ok h
    simp only [py_pure] at h
    injection h with h
    injection h with ha hb
    subst ha hb
    rw [h2]
    exact ⟨_, rfl, .scale 1 (.b2_sqrtInv h3)⟩
  · obtain ⟨_, h2, h⟩ := py_bind_eq_ok h
    obtain ⟨Mt, h3, h⟩ := py_bind_eq_ok h
    obtain ⟨Mt2, h4, h⟩ := py_bind_eq_ok h
    simp only [py_pure] at h
    injection h with h
    injection h with ha hb
    subst ha hb
    rw [h2]
    exact ⟨_, rfl, .scale 1 (.mul (.b2_sqrtInv h3) (.rep h4))⟩

/-- Related optional accumulators. -/
def OptDen (A : RadAlg F M) : Option (FormalProd F) → Option M → Prop
  | none, none => True
  | some x, some y => Denotes A x y
  | _, _ => False

theorem update_sim (A : RadAlg F M) (n : Nat) (lamX : Int) (i : Nat) (x : FormalProd F) (y : M)
    (hxy : Denotes A x y) (ax : Option (FormalProd F)) (ay : Option M) (ha : OptDen A ax ay) (z : M)
    (h : bS_DS_update A n lamX i y ay = .ok z) :
    ∃ w, bS_DS_update (formal F) n lamX i x ax = .ok w ∧ Denotes A w z := by
  unfold bS_DS_update at h ⊢
  by_cases hc : i = n ∧ lamX ≥ 0
  · rw [if_pos hc] at h ⊢
    injection h with h
    subst h
    exact ⟨_, rfl, hxy⟩
  · rw [if_neg hc] at h ⊢
    cases ax <;> cases ay
    · simp [readVar] at h
    · exact absurd ha (by simp [OptDen])
    · exact absurd ha (by simp [OptDen])
    · simp only [readVar, py_pure, py_bind_ok] at h
      injection h with h
      subst h
      exact ⟨_, rfl, .mul hxy ha⟩

theorem loop_sim (A : RadAlg F M) (K : Int) (s : List Int) (n : Nat) (lamX : Int) : ∀ (i : Nat)
    (lam : F) (ax : Option (FormalProd F)) (ay : Option M), OptDen A ax ay → ∀ lam' by',
    bS_DS_loop A K s n lamX i lam ay = .ok (lam', by') →
    ∃ bx, bS_DS_loop (formal F) K s n lamX i lam ax = .ok (lam', bx) ∧ OptDen A bx by' := by
  intro i
  induction i using Nat.strong_induction_on with
  | _ i ih =>
    intro lam ax ay ha lam' by' h
    match i, ih, h with
    | 0, _, h =>
      simp only [bS_DS_loop, py_pure] at h
      injection h with h
      injection h with h1 h2
      subst h1 h2
      exact ⟨ax, rfl, ha⟩
    | i + 1, ih, h =>
      rw [bS_DS_loop] at h
      obtain ⟨⟨y, imm⟩, h1, h⟩ := py_bind_eq_ok h
      simp only at h
      obtain ⟨P, h2, h⟩ := py_bind_eq_ok h
      obtain ⟨sp, h3, h⟩ := py_bind_eq_ok h
      obtain ⟨x, g1, hxy⟩ := select_sim A K s (i + 1) lam y imm h1
      obtain ⟨w, g2, hw⟩ := update_sim A n lamX (i + 1) x y hxy ax ay ha P h2
      rw [bS_DS_loop, g1]
      simp only [py_bind_ok]
      rw [g2, h3]
      simp only [py_bind_ok]
      by_cases hi : imm = 1
      · rw [if_pos hi] at h ⊢
        exact ih i (by omega) _ (some w) (some P) hw _ _ h
      · rw [if_neg hi] at h ⊢
        match i, ih, h with
        | 0, _, h =>
          simp only [py_pure] at h
          injection h with h
          injection h with h1 h2
          subst h1 h2
          exact ⟨some w, rfl, hw⟩
        | j + 1, ih, h => exact ih j (by omega) _ (some w) (some P) hw _ _ h

theorem finish_sim (A : RadAlg F M) (n : Nat) (lamX : Int) (lam : F) (bx : Option (FormalProd F))
    (by' : Option M) (hb : OptDen A bx by') (y : M) (h : bS_DS_finish A n lamX lam by' = .ok y) :
    ∃ x, bS_DS_finish (formal F) n lamX lam bx = .ok x ∧ Denotes A x y := by
  have last : ∀ (bx : Option (FormalProd F)) (by' : Option M), OptDen A bx by' →
      readVar (if n = 0 ∧ lamX = 0 then some A.eye else by') = .ok y →
      ∃ x, readVar (if n = 0 ∧ lamX = 0 then some (formal F).eye else bx) = .ok x ∧
        Denotes A x y := by
    intro bx by' hb h
    by_cases hc : n = 0 ∧ lamX = 0
    · simp only [if_pos hc, readVar, py_pure] at h ⊢
      injection h with h
      subst h
      exact ⟨_, rfl, .eye⟩
    · simp only [if_neg hc] at h ⊢
      cases bx <;> cases by'
      · simp [readVar] at h
      · exact absurd hb (by simp [OptDen])
      · exact absurd hb (by simp [OptDen])
      · simp only [readVar, py_pure] at h
        injection h with h
        subst h
        exact ⟨_, rfl, hb⟩
  unfold bS_DS_finish at h ⊢
  by_cases hX : lamX > 0
  · simp only [if_pos hX] at h ⊢
    obtain ⟨_, e1, h⟩ := py_bind_eq_ok h
    obtain ⟨Mt, e2, h⟩ := py_bind_eq_ok h
    rw [e1]
    by_cases hn : n > 0
    · simp only [if_pos hn] at h ⊢
      cases bx <;> cases by'
      · simp [readVar] at h
      · exact absurd hb (by simp [OptDen])
      · exact absurd hb (by simp [OptDen])
      · exact last (some _) (some _) (.mul (.id_pl e2) hb) h
    · simp only [if_neg hn] at h ⊢
      exact last (some ⟨[(.idPl _, lam)], 0⟩) (some Mt) (.id_pl e2) h
  · simp only [if_neg hX] at h ⊢
    exact last bx by' hb h

theorem bS_DS_sim (A : RadAlg F M) (K T : Int) (lam : F) (R : Int) :
    Simulates A (RepRadial_bS_DS (formal F) K T lam R) (RepRadial_bS_DS A K T lam R) := by
  intro y h
  unfold RepRadial_bS_DS at h ⊢
  by_cases h0 : lam ≤ 0 ∨ lam + (R : F) ≤ 0
  · rw [if_pos h0] at h; simp at h
  · rw [if_neg h0] at h ⊢
    by_cases h1 : K = 0 ∧ T = 0 ∧ is_odd R = true
    · rw [if_pos h1] at h ⊢
      by_cases h2 : R < 0
      · rw [if_pos h2] at h ⊢
        obtain ⟨P, e1, h⟩ := py_bind_eq_ok h
        obtain ⟨Mt, e2, h⟩ := py_bind_eq_ok h
        by_cases h3 : R < -1
        · simp only [if_pos h3] at h ⊢
          obtain ⟨Mt2, e3, h⟩ := py_bind_eq_ok h
          injection h with h
          subst h
          exact ⟨_, rfl, .mul (.mul (.b2_sqrt e1) (.rep e2)) (.id_ml e3)⟩
        · simp only [if_neg h3] at h ⊢
          injection h with h
          subst h
          exact ⟨_, rfl, .mul (.b2_sqrt e1) (.rep e2)⟩
      · rw [if_neg h2] at h ⊢
        obtain ⟨P, e1, h⟩ := py_bind_eq_ok h
        obtain ⟨Mt, e2, h⟩ := py_bind_eq_ok h
        by_cases h3 : R > 1
        · simp only [if_pos h3] at h ⊢
          obtain ⟨Mt2, e3, h⟩ := py_bind_eq_ok h
          injection h with h
          subst h
          exact ⟨_, rfl, .mul (.id_pl e3) (.mul (.rep e2) (.b2_sqrt e1))⟩
        · simp only [if_neg h3] at h ⊢
          injection h with h
          subst h
          exact ⟨_, rfl, .mul (.rep e2) (.b2_sqrt e1)⟩
    · rw [if_neg h1] at h ⊢
      obtain ⟨sp, e1, h⟩ := py_bind_eq_ok h
      rw [e1]
      simp only [py_bind_ok]
      simp only at h
      generalize (if sp.length > (|K| + T).toNat then sp.headD 0 else 0) = lamX at h ⊢
      generalize (if sp.length > (|K| + T).toNat then sp.tail else sp) = s at h ⊢
      obtain ⟨_, e2, h⟩ := py_bind_eq_ok h
      rw [e2]
      simp only [py_bind_ok]
      have tail : ∀ (lam1 : F) (ax : Option (FormalProd F)) (ay : Option M), OptDen A ax ay →
          (do
            let __x ← bS_DS_loop A K s (|K| + T).toNat lamX (|K| + T).toNat lam1 ay
            bS_DS_finish A (|K| + T).toNat lamX __x.1 __x.2) = .ok y →
          ∃ x, (do
            let __x ← bS_DS_loop (formal F) K s (|K| + T).toNat lamX (|K| + T).toNat lam1 ax
            bS_DS_finish (formal F) (|K| + T).toNat lamX __x.1 __x.2) = .ok x ∧ Denotes A x y := by
        intro lam1 ax ay ha h
        obtain ⟨⟨lam', by'⟩, g1, h⟩ := py_bind_eq_ok h
        obtain ⟨bx, g2, hb⟩ := loop_sim A K s _ lamX _ lam1 ax ay ha lam' by' g1
        rw [g2]
        exact finish_sim A _ lamX lam' bx by' hb y h
      by_cases hX : lamX < 0
      · simp only [if_pos hX] at h ⊢
        obtain ⟨_, e3, h⟩ := py_bind_eq_ok h
        obtain ⟨Mt, e4, h⟩ := py_bind_eq_ok h
        rw [e3]
        simp only [py_bind_ok]
        exact tail (lam + (lamX : F)) (some ⟨[(.idMl _, lam)], 0⟩) (some Mt) (.id_ml e4) h
      · simp only [if_neg hX] at h ⊢
        exact tail lam none none trivial h

theorem shfs_sim (A : RadAlg F M) (lam : F) : ∀ (ops : List KTSOp) (shfs : List Int) lam' ay,
    RepRadialshfs_loop A lam ops shfs = .ok (lam', ay) →
    ∃ ax, RepRadialshfs_loop (formal F) lam ops shfs = .ok (lam', ax) ∧ OptDen A ax ay := by
  intro ops
  induction ops with
  | nil =>
    intro shfs lam' ay h
    simp only [RepRadialshfs_loop, py_pure] at h ⊢
    injection h with h
    injection h with h1 h2
    subst h1 h2
    exact ⟨none, rfl, trivial⟩
  | cons op ops ih =>
    intro shfs lam' ay h
    match shfs with
    | [] => simp [RepRadialshfs_loop] at h
    | R :: shfs =>
      simp only [RepRadialshfs_loop] at h ⊢
      obtain ⟨⟨lam1, y1⟩, h1, h⟩ := py_bind_eq_ok h
      obtain ⟨Mt, h2, h⟩ := py_bind_eq_ok h
      obtain ⟨x1, g1, hx1⟩ := ih shfs lam1 y1 h1
      have hrep : ∃ x, op.representation (formal F) lam1 R = .ok x ∧ Denotes A x Mt := by
        cases op with
        | KT K T => exact bS_DS_sim A K T lam1 R Mt h2
        | S sv =>
          simp only [KTSOp.representation] at h2 ⊢
          by_cases hR : R ≠ 0
          · rw [if_pos hR] at h2; simp at h2
          · rw [if_neg hR] at h2 ⊢
            obtain ⟨m, e1, e2⟩ := py_bind_eq_ok h2
            rw [e1]
            exact ⟨_, rfl, .rep e2⟩
      obtain ⟨x, g2, hx⟩ := hrep
      rw [g1]
      simp only [py_bind_ok]
      rw [g2]
      simp only [py_pure] at h
      injection h with h
      injection h with ha hb
      subst ha hb
      refine ⟨_, rfl, ?_⟩
      cases x1 <;> cases y1
      · exact hx
      · exact absurd hx1 (by simp [OptDen])
      · exact absurd hx1 (by simp [OptDen])
      · exact .mul hx hx1

theorem shfsProd_sim (A : RadAlg F M) (ops : List KTSOp) (lam : F) (shfs : List Int) :
    Simulates A (RepRadialshfs_Prod (formal F) ops lam shfs)
      (RepRadialshfs_Prod A ops lam shfs) := by
  intro y h
  unfold RepRadialshfs_Prod at h ⊢
  obtain ⟨⟨lam1, y1⟩, h1, h⟩ := py_bind_eq_ok h
  obtain ⟨x1, g1, hx1⟩ := shfs_sim A lam ops shfs lam1 y1 h1
  rw [g1]
  cases x1 <;> cases y1
  · simp only [py_pure] at h
    injection h with h
    subst h
    exact ⟨_, rfl, .eye⟩
  · exact absurd hx1 (by simp [OptDen])
  · exact absurd hx1 (by simp [OptDen])
  · simp only [py_pure] at h
    injection h with h
    subst h
    exact ⟨_, rfl, hx1⟩

end

end Acm
