import Verif.Lemmas.RadialDtype
import Verif.Lemmas.RadialLambda

/-!
# The `dtype` of the matrices of `d/dbeta`, `1/beta` and of products of two of them
-/

namespace Acm

open Acm.Spec

section
variable {F M : Type} [Field F] [LinearOrder F] (A : RadAlg F M)

theorem bsds_none {K T R : Int} {lam : F} {s : List Int} {n : ℕ} (h0 : ¬ (lam ≤ 0 ∨ lam + (R : F) ≤ 0))
    (h1 : ¬ (K = 0 ∧ T = 0 ∧ is_odd R = true)) (h2 : Lambda_Splits K T R = .ok s)
    (hn : (|K| + T).toNat = n) (hs : s.length = n) :
    RepRadial_bS_DS A K T lam R
      = (do let r ← bS_DS_loop A K s n 0 n lam none; bS_DS_finish A n 0 r.1 r.2) := by
  unfold RepRadial_bS_DS
  rw [if_neg h0, if_neg h1, h2, py_bind_ok]
  simp only [hn, hs, gt_iff_lt, lt_irrefl, if_false]
  rfl

theorem bsds_neg {K T R x : Int} {lam : F} {s : List Int} {n : ℕ} (h0 : ¬ (lam ≤ 0 ∨ lam + (R : F) ≤ 0))
    (h1 : ¬ (K = 0 ∧ T = 0 ∧ is_odd R = true)) (h2 : Lambda_Splits K T R = .ok (x :: s))
    (hn : (|K| + T).toNat = n) (hs : s.length = n) (hx : x < 0) (hx2 : is_even x = true) :
    RepRadial_bS_DS A K T lam R
      = (do let Mat ← A.id_ml lam (Int.fdiv (-x) 2)
            let r ← bS_DS_loop A K s n x n (lam + (x : F)) (some Mat)
            bS_DS_finish A n x r.1 r.2) := by
  unfold RepRadial_bS_DS
  rw [if_neg h0, if_neg h1, h2, py_bind_ok]
  simp only [hn, hs, gt_iff_lt, List.length_cons, Nat.lt_succ_self, if_true, List.headD_cons, List.tail_cons, hx,
    hx2]
  simp only [pyAssert, decide_true, if_true, py_pure, py_bind_ok]

theorem bsds_pos {K T R x : Int} {lam : F} {s : List Int} {n : ℕ} (h0 : ¬ (lam ≤ 0 ∨ lam + (R : F) ≤ 0))
    (h1 : ¬ (K = 0 ∧ T = 0 ∧ is_odd R = true)) (h2 : Lambda_Splits K T R = .ok (x :: s))
    (hn : (|K| + T).toNat = n) (hs : s.length = n) (hx : 0 < x) :
    RepRadial_bS_DS A K T lam R
      = (do let r ← bS_DS_loop A K s n x n lam none; bS_DS_finish A n x r.1 r.2) := by
  unfold RepRadial_bS_DS
  rw [if_neg h0, if_neg h1, h2, py_bind_ok]
  simp only [hn, hs, gt_iff_lt, List.length_cons, Nat.lt_succ_self, if_true, List.headD_cons, List.tail_cons,
    not_lt.2 hx.le, if_false]
  rfl

end

theorem addAt_one (a d : Int) : pyAddAt [a] 0 d = .ok [a + d] := rfl

theorem addAt_last (a d : Int) : pyAddAt [a] (-1) d = .ok [a + d] := rfl

theorem place_single {K T R rem a : Int} (hR : 0 < rem → R ≠ 0) (h0 : 0 ≤ rem) :
    lambdaPlace [.KT K T] R rem [a] = .ok [a + rem] := by
  unfold lambdaPlace
  by_cases h : rem > 0
  · rw [if_pos h]
    have := hR h
    by_cases h1 : R > 0
    · rw [if_pos ⟨h1, by simp, rfl⟩, addAt_one]
    · rw [if_neg (fun h => h1 h.1), if_pos ⟨by omega, by simp, rfl⟩, addAt_last]
  · rw [if_neg h, show rem = 0 by omega, add_zero]; rfl

/-- The shifts of a product that is one monomial of one or two factors. -/
theorem lambda_single {K T : Int} (hT : |K| + T = 1 ∨ |K| + T = 2) (R : Int) :
    Lambda_RadialOp_List [.KT K T] R = .ok [R] := by
  have habs : lambdaAbsList [.KT K T] R [|K| + T] [(|K| + T) % 2] = .ok [|R|] := by
    have hR := abs_nonneg R
    have h0 : |R| ≠ 0 → R ≠ 0 := fun h e => h (by rw [e]; rfl)
    unfold lambdaAbsList
    rcases hT with h | h
    · rw [h]
      simp only [List.sum_cons, List.sum_nil, add_zero, show (1 : Int) % 2 = 1 from rfl]
      by_cases h1 : |R| = 0
      · rw [h1]; rfl
      rw [if_neg (by omega), if_neg (by omega)]
      have h2 : oddinOf (|R| - 1) [1] = if |R| % 2 = 0 then 1 else 0 := by
        unfold oddinOf
        by_cases h3 : |R| % 2 = 0
        · rw [if_pos h3, if_pos (by rw [is_odd_iff]; omega)]; rfl
        · rw [if_neg h3, if_neg (by rw [is_odd_iff]; omega)]
      rw [h2]
      by_cases h3 : |R| % 2 = 0
      · rw [if_pos h3, if_pos (by norm_num), show (1 : Int) - 1 = 0 from rfl, addAt_one, py_bind_ok,
          place_single (fun _ => h0 h1) (by omega)]
        congr 2; omega
      · rw [if_neg h3, if_neg (by norm_num), place_single (fun _ => h0 h1) (by omega)]
        congr 2; omega
    · rw [h]
      simp only [List.sum_cons, List.sum_nil, add_zero, show (2 : Int) % 2 = 0 from rfl]
      by_cases h1 : |R| = 0
      · rw [h1]; rfl
      by_cases h2 : |R| = 1
      · rw [h2]; rfl
      rw [if_neg (by omega), if_neg (by omega)]
      have h3 : oddinOf (|R| - 2) [0] = 0 := by
        unfold oddinOf
        split_ifs <;> rfl
      rw [h3, if_neg (by norm_num), place_single (fun _ => h0 h1) (by omega)]
      congr 2; omega
  unfold Lambda_RadialOp_List
  simp only [List.map_cons, List.map_nil, KTSOp.maxVar]
  rw [show [|K| + T].mapM (fun m => irem m 2) = (.ok [(|K| + T) % 2] : Py (List Int)) by
    rcases hT with h | h <;> rw [h] <;> rfl, py_bind_ok, habs, py_bind_ok]
  by_cases h : R ≥ 0
  · rw [if_pos h, abs_of_nonneg h]; rfl
  · rw [if_neg h, List.map_cons, List.map_nil, abs_of_neg (by omega), neg_neg]; rfl

theorem plan_single {w : List RadSym} {K T : Int} (hT : |K| + T = 1 ∨ |K| + T = 2)
    (hw : Parse_RadialOp_List w = .ok [.KT K T]) (R : Int) :
    RepRadial_Prod_plan w R = .ok ([.KT K T], [R]) := by
  unfold RepRadial_Prod_plan
  rw [hw, py_bind_ok, lambda_single hT, py_bind_ok, if_neg (by simp)]
  rfl

/-- A product that is one monomial. -/
theorem prod_single {M : Type} {A : Int → Int → RadAlg ℝ M} {slice : M → Int → Int → M}
    {w : List RadSym} {K T : Int} (hT : |K| + T = 1 ∨ |K| + T = 2)
    (hw : Parse_RadialOp_List w = .ok [.KT K T]) {lam : ℝ} {R lo hi nl : Int} (h1 : 0 < lam) (h2 : 0 < lam + (R : ℝ)) :
    RepRadial_Prod A slice w lam R lo hi nl
      = (do let x ← RepRadial_bS_DS (A (lo - min nl lo) (hi + nl)) K T lam R
            if nl = 0 then pure x else pure (slice x (min nl lo) (1 + hi - lo + min nl lo))) := by
  unfold RepRadial_Prod
  rw [if_neg (by linarith), if_neg (by linarith), plan_single hT hw, py_bind_ok]
  simp only [RepRadialshfs_Prod, RepRadialshfs_loop, py_pure, py_bind_ok, KTSOp.representation]
  cases RepRadial_bS_DS (A (lo - min nl lo) (hi + nl)) K T lam R <;> rfl

theorem symbolic_single {w : List RadSym} {K T : Int} (hT : |K| + T = 1 ∨ |K| + T = 2)
    (hw : Parse_RadialOp_List w = .ok [.KT K T]) {lam : ℝ} {R : Int} {p : FormalProd ℝ} (h1 : 0 < lam)
    (h2 : 0 < lam + (R : ℝ)) (h : RepRadial_bS_DS (formal ℝ) K T lam R = .ok p) :
    Symbolic w lam R ↔ ∃ f ∈ p.factors, Prim.symbolic f.1 = true := by
  unfold Symbolic
  rw [prod_single hT hw h1 h2, h, py_bind_ok, if_pos rfl]
  constructor
  · rintro ⟨q, e, hq⟩
    injection e with e
    subst e
    exact hq
  · exact fun h => ⟨p, rfl, h⟩

/-- One of the factors is a matrix of SymPy numbers. -/
def HasSym {F : Type} (fs : List (Prim × F)) : Prop := ∃ f ∈ fs, Prim.symbolic f.1 = true

theorem hasSym_append {F : Type} {xs ys : List (Prim × F)} : HasSym (xs ++ ys) ↔ HasSym xs ∨ HasSym ys := by
  unfold HasSym
  constructor
  · rintro ⟨f, h, e⟩
    rcases List.mem_append.1 h with h | h
    · exact .inl ⟨f, h, e⟩
    · exact .inr ⟨f, h, e⟩
  · rintro (⟨f, h, e⟩ | ⟨f, h, e⟩)
    · exact ⟨f, List.mem_append.2 (.inl h), e⟩
    · exact ⟨f, List.mem_append.2 (.inr h), e⟩

/-- The `i`-th factor takes `imm` factors at once, and is a matrix of SymPy numbers exactly if `b`. -/
def Sel (K : Int) (s : List Int) (i imm : ℕ) (b : Prop) : Prop :=
  ∀ l : ℝ, ∃ fs e, bS_DS_select (formal ℝ) K s i l = .ok (⟨fs, e⟩, imm) ∧ (HasSym fs ↔ b)

/-- The whole loop makes a matrix of SymPy numbers exactly if `b`. -/
def Loop (K : Int) (s : List Int) (n : ℕ) (b : Prop) : Prop :=
  ∀ (x : Int) (l : ℝ) (P : Option (FormalProd ℝ)), (0 ≤ x ∧ P = none ∨ x < 0 ∧ ∃ p, P = some p ∧ ¬ HasSym p.factors) →
    ∃ l' p, bS_DS_loop (formal ℝ) K s n x n l P = .ok (l', some p) ∧ (HasSym p.factors ↔ b)

theorem update_first {n : ℕ} {x : Int} {m : FormalProd ℝ} {P : Option (FormalProd ℝ)}
    (h : 0 ≤ x ∧ P = none ∨ x < 0 ∧ ∃ p, P = some p ∧ ¬ HasSym p.factors) :
    ∃ q, bS_DS_update (formal ℝ) n x n m P = .ok q ∧ (HasSym q.factors ↔ HasSym m.factors) := by
  unfold bS_DS_update
  rcases h with ⟨hx, rfl⟩ | ⟨hx, p, rfl, hp⟩
  · rw [if_pos ⟨rfl, hx⟩]; exact ⟨m, rfl, Iff.rfl⟩
  · rw [if_neg (fun h => by omega)]
    refine ⟨_, rfl, ?_⟩
    show HasSym (m.factors ++ p.factors) ↔ _
    rw [hasSym_append]
    tauto

theorem loop_one {K a : Int} {b : Prop} (h : Sel K [a] 1 1 b) : Loop K [a] 1 b := by
  intro x l P hP
  obtain ⟨fs, e, h1, h2⟩ := h l
  obtain ⟨q, h3, h4⟩ := update_first (n := 1) (m := ⟨fs, e⟩) hP
  unfold bS_DS_loop
  simp only [zero_add, h1, py_bind_ok, h3]
  exact ⟨_, q, rfl, h4.trans h2⟩

theorem loop_pair {K a c : Int} {b : Prop} (h : Sel K [a, c] 2 2 b) : Loop K [a, c] 2 b := by
  intro x l P hP
  obtain ⟨fs, e, h1, h2⟩ := h l
  obtain ⟨q, h3, h4⟩ := update_first (n := 2) (m := ⟨fs, e⟩) hP
  unfold bS_DS_loop
  simp only [Nat.reduceAdd, h1, py_bind_ok, h3]
  exact ⟨_, q, rfl, h4.trans h2⟩

theorem loop_two {K a c : Int} {b b' : Prop} (h : Sel K [a, c] 2 1 b) (h' : Sel K [a, c] 1 1 b') :
    Loop K [a, c] 2 (b ∨ b') := by
  intro x l P hP
  obtain ⟨fs, e, h1, h2⟩ := h l
  obtain ⟨q, h3, h4⟩ := update_first (n := 2) (m := ⟨fs, e⟩) hP
  obtain ⟨gs, e', h5, h6⟩ := h' (l + (c : ℝ))
  unfold bS_DS_loop
  simp only [Nat.reduceAdd, h1, py_bind_ok, h3]
  show ∃ l' p, bS_DS_loop (formal ℝ) K [a, c] 2 x 1 (l + (c : ℝ)) (some q) = .ok (l', some p) ∧ _
  unfold bS_DS_loop
  simp only [zero_add, h5, py_bind_ok]
  refine ⟨_, ⟨gs ++ q.factors, e' + q.expo⟩, rfl, ?_⟩
  show HasSym (gs ++ q.factors) ↔ _
  rw [hasSym_append, h6, h4]
  show b' ∨ HasSym fs ↔ _
  rw [h2]
  tauto

theorem bsds_sym {K T R : Int} {lam : ℝ} {pre s : List Int} {b : Prop} {n : ℕ} (h1 : 0 < lam) (h2 : 0 < lam + (R : ℝ))
    (hn : (|K| + T).toNat = n) (hn0 : 0 < n) (hs : s.length = n) (hsp : Lambda_Splits K T R = .ok (pre ++ s))
    (hpre : pre = [] ∨ ∃ x, pre = [x] ∧ x ≠ 0 ∧ x % 2 = 0) (hl : Loop K s n b) :
    ∃ p, RepRadial_bS_DS (formal ℝ) K T lam R = .ok p ∧ (HasSym p.factors ↔ b) := by
  have h0 : ¬ (lam ≤ 0 ∨ lam + (R : ℝ) ≤ 0) := by rintro (h | h) <;> linarith
  have h3 : ¬ (K = 0 ∧ T = 0 ∧ is_odd R = true) := by
    rintro ⟨rfl, rfl, -⟩
    simp at hn
    omega
  rcases hpre with rfl | ⟨x, rfl, hx, hx2⟩
  · rw [List.nil_append] at hsp
    rw [bsds_none _ h0 h3 hsp hn hs]
    obtain ⟨l', p, e, hp⟩ := hl 0 lam none (.inl ⟨le_rfl, rfl⟩)
    rw [e, py_bind_ok]
    refine ⟨p, ?_, hp⟩
    unfold bS_DS_finish
    rw [if_neg (lt_irrefl _), py_pure, py_bind_ok]
    show readVar (if n = 0 ∧ (0 : Int) = 0 then _ else _) = _
    rw [if_neg (fun h => by omega)]
    rfl
  · rw [List.singleton_append] at hsp
    rcases lt_or_gt_of_ne hx with hx' | hx'
    · rw [bsds_neg _ h0 h3 hsp hn hs hx' ((is_even_iff _).2 hx2)]
      obtain ⟨l', p, e, hp⟩ := hl x (lam + (x : ℝ)) (some ⟨[(.idMl (Int.fdiv (-x) 2), lam)], 0⟩)
        (.inr ⟨hx', _, rfl, by simp [HasSym, Prim.symbolic]⟩)
      refine ⟨p, ?_, hp⟩
      show (bS_DS_loop (formal ℝ) K s n x n (lam + (x : ℝ)) (some ⟨[(.idMl (Int.fdiv (-x) 2), lam)], 0⟩) >>= _) = _
      rw [e, py_bind_ok]
      unfold bS_DS_finish
      rw [if_neg (by omega), py_pure, py_bind_ok]
      show readVar (if n = 0 ∧ x = 0 then _ else _) = _
      rw [if_neg (fun h => by omega)]
      rfl
    · rw [bsds_pos _ h0 h3 hsp hn hs hx']
      obtain ⟨l', p, e, hp⟩ := hl x lam none (.inl ⟨hx'.le, rfl⟩)
      rw [e, py_bind_ok]
      refine ⟨⟨(.idPl (Int.fdiv x 2), l') :: p.factors, 0 + p.expo⟩, ?_, ?_⟩
      · unfold bS_DS_finish
        obtain ⟨m, rfl⟩ : ∃ m, n = m + 1 := ⟨n - 1, by omega⟩
        rw [if_pos hx', (is_even_iff _).2 hx2]
        have e2 : (formal ℝ).id_pl l' (Int.fdiv x 2) = .ok ⟨[(.idPl (Int.fdiv x 2), l')], 0⟩ := rfl
        simp only [pyAssert_true, py_bind_ok, e2]
        rw [if_pos (Nat.succ_pos m)]
        have e3 : ¬ (m + 1 = 0 ∧ x = 0) := fun h => by omega
        simp only [e3, if_false]
        rfl
      · rw [← hp]
        show HasSym ([_] ++ p.factors) ↔ _
        rw [hasSym_append]
        simp [HasSym, Prim.symbolic]

/-- What `Lambda_Splits` returns for one or two factors. -/
theorem splits_pos {K T R : Int} (hT : 0 ≤ T) (h : |K| + T = 1 ∨ |K| + T = 2) (hR : 0 < R) :
    ∃ pre s, Lambda_Splits K T R = .ok (pre ++ s) ∧ (pre = [] ∨ ∃ x, pre = [x] ∧ x ≠ 0 ∧ x % 2 = 0) ∧
      (|K| + T = 1 ∧ R % 2 = 0 ∧ s = [0] ∨ |K| + T = 1 ∧ R % 2 = 1 ∧ s = [1] ∨
      |K| + T = 2 ∧ R % 2 = 1 ∧ s = [0, 1] ∨ |K| + T = 2 ∧ R % 2 = 0 ∧ s = [1, 1]) := by
  have hR' : |R| = R := abs_of_pos hR
  unfold Lambda_Splits
  rw [require_nonnegint_ok hT, hR']
  simp only [py_bind_ok, py_pure, if_neg (show ¬ R < 0 by omega)]
  by_cases h1 : R - (|K| + T) > 0
  · rw [if_pos h1]
    by_cases h2 : is_even (R - (|K| + T)) = true
    · rw [if_pos h2]
      rw [is_even_iff] at h2
      refine ⟨[R - (|K| + T)], pyRep 1 (|K| + T), rfl, .inr ⟨_, rfl, by omega, h2⟩, ?_⟩
      rcases h with h | h
      · exact .inr (.inl ⟨h, by omega, by rw [h]; rfl⟩)
      · exact .inr (.inr (.inr ⟨h, by omega, by rw [h]; rfl⟩))
    · rw [if_neg h2, if_pos (by omega)]
      rw [is_even_iff] at h2
      refine ⟨[R - (|K| + T) + 1], 0 :: pyRep 1 (|K| + T - 1), rfl, .inr ⟨_, rfl, by omega, by omega⟩, ?_⟩
      rcases h with h | h
      · exact .inl ⟨h, by omega, by rw [h]; rfl⟩
      · exact .inr (.inr (.inl ⟨h, by omega, by rw [h]; rfl⟩))
  · have hT2 : T = 0 ∨ T = 1 ∨ T = 2 := by have := abs_nonneg K; omega
    have h3 : ¬ (K < 0 ∧ R = 0 ∧ is_odd T = true) := fun h => by omega
    have h4 : R = 1 ∨ R = 2 := by omega
    have h5 : (|K| + T = 1 ∧ R = 1) ∨ (|K| + T = 2 ∧ R = 1) ∨ (|K| + T = 2 ∧ R = 2) := by omega
    rw [if_neg h1]
    simp only [h3, if_false]
    refine ⟨[], if R = 1 then (if |K| + T = 1 then [1] else [0, 1]) else [1, 1], ?_, .inl rfl, ?_⟩
    · rcases h5 with ⟨h, rfl⟩ | ⟨h, rfl⟩ | ⟨h, rfl⟩ <;> rcases hT2 with rfl | rfl | rfl <;> rw [h] <;> rfl
    · rcases h5 with ⟨h, rfl⟩ | ⟨h, rfl⟩ | ⟨h, rfl⟩ <;> rw [h] <;> simp

theorem splits_neg {K T R : Int} (hT : 0 ≤ T) (h : |K| + T = 1 ∨ |K| + T = 2) (hR : R < 0) :
    ∃ pre s, Lambda_Splits K T R = .ok (pre ++ s) ∧ (pre = [] ∨ ∃ x, pre = [x] ∧ x ≠ 0 ∧ x % 2 = 0) ∧
      (|K| + T = 1 ∧ R % 2 = 0 ∧ s = [0] ∨ |K| + T = 1 ∧ R % 2 = 1 ∧ s = [-1] ∨
      |K| + T = 2 ∧ R % 2 = 1 ∧ s = [0, -1] ∨ |K| + T = 2 ∧ R % 2 = 0 ∧ s = [-1, -1]) := by
  obtain ⟨pre, s, e, h1, h2⟩ := splits_pos (K := K) hT h (show 0 < -R by omega)
  rw [Lambda_Splits_neg hR, e, py_bind_ok]
  refine ⟨pre.map fun s => -s, s.map fun s => -s, by rw [List.map_append]; rfl, ?_, ?_⟩
  · rcases h1 with rfl | ⟨x, rfl, hx, hx2⟩
    · exact .inl rfl
    · exact .inr ⟨-x, rfl, by omega, by omega⟩
  · rcases h2 with ⟨a, b, rfl⟩ | ⟨a, b, rfl⟩ | ⟨a, b, rfl⟩ | ⟨a, b, rfl⟩
    · exact .inl ⟨a, by omega, rfl⟩
    · exact .inr (.inl ⟨a, by omega, rfl⟩)
    · exact .inr (.inr (.inl ⟨a, by omega, rfl⟩))
    · exact .inr (.inr (.inr ⟨a, by omega, rfl⟩))

theorem sel_mk {K : Int} {s : List Int} {i imm : ℕ} {b : Prop} (fs : ℝ → List (Prim × ℝ)) (e : Int)
    (h : ∀ l, bS_DS_select (formal ℝ) K s i l = .ok (⟨fs l, e⟩, imm)) (hb : ∀ l, HasSym (fs l) ↔ b) :
    Sel K s i imm b := fun l => ⟨fs l, e, h l, hb l⟩

theorem sel_Db_0 : Sel (0) [0] 1 1 False :=
  sel_mk (fun l => [(.sqrtInvB2, l), (.me .bDb, l)]) 1 (fun _ => rfl) fun _ => by simp [HasSym, Prim.symbolic]

theorem sel_Db_p : Sel (0) [1] 1 1 True :=
  sel_mk (fun l => [(.me .Db_pl, l)]) 1 (fun _ => rfl) fun _ => by simp [HasSym, Prim.symbolic]

theorem sel_Db_m : Sel (0) [-1] 1 1 False :=
  sel_mk (fun l => [(.me .Db_ml, l)]) 1 (fun _ => rfl) fun _ => by simp [HasSym, Prim.symbolic]

theorem sel_bm_0 : Sel (-1) [0] 1 1 False :=
  sel_mk (fun l => [(.sqrtInvB2, l)]) 1 (fun _ => rfl) fun _ => by simp [HasSym, Prim.symbolic]

theorem sel_bm_p : Sel (-1) [1] 1 1 True :=
  sel_mk (fun l => [(.me .bm_pl, l)]) 1 (fun _ => rfl) fun _ => by simp [HasSym, Prim.symbolic]

theorem sel_bm_m : Sel (-1) [-1] 1 1 True :=
  sel_mk (fun l => [(.me .bm_ml, l)]) 1 (fun _ => rfl) fun _ => by simp [HasSym, Prim.symbolic]

theorem sel_D2_00 : Sel (0) [0, 0] 2 2 False :=
  sel_mk (fun l => [(.me .D2b, l)]) 2 (fun _ => rfl) fun _ => by simp [HasSym, Prim.symbolic]

theorem sel_D2_p2 : Sel (0) [0, 1] 2 1 True :=
  sel_mk (fun l => [(.me .Db_pl, l)]) 1 (fun _ => rfl) fun _ => by simp [HasSym, Prim.symbolic]

theorem sel_D2_p1 : Sel (0) [0, 1] 1 1 False :=
  sel_mk (fun l => [(.sqrtInvB2, l), (.me .bDb, l)]) 1 (fun _ => rfl) fun _ => by simp [HasSym, Prim.symbolic]

theorem sel_D2_m2 : Sel (0) [0, -1] 2 1 False :=
  sel_mk (fun l => [(.me .Db_ml, l)]) 1 (fun _ => rfl) fun _ => by simp [HasSym, Prim.symbolic]

theorem sel_D2_m1 : Sel (0) [0, -1] 1 1 False :=
  sel_mk (fun l => [(.sqrtInvB2, l), (.me .bDb, l)]) 1 (fun _ => rfl) fun _ => by simp [HasSym, Prim.symbolic]

theorem sel_D2_pp2 : Sel (0) [1, 1] 2 1 True :=
  sel_mk (fun l => [(.me .Db_pl, l)]) 1 (fun _ => rfl) fun _ => by simp [HasSym, Prim.symbolic]

theorem sel_D2_pp1 : Sel (0) [1, 1] 1 1 True :=
  sel_mk (fun l => [(.me .Db_pl, l)]) 1 (fun _ => rfl) fun _ => by simp [HasSym, Prim.symbolic]

theorem sel_D2_mm2 : Sel (0) [-1, -1] 2 1 False :=
  sel_mk (fun l => [(.me .Db_ml, l)]) 1 (fun _ => rfl) fun _ => by simp [HasSym, Prim.symbolic]

theorem sel_D2_mm1 : Sel (0) [-1, -1] 1 1 False :=
  sel_mk (fun l => [(.me .Db_ml, l)]) 1 (fun _ => rfl) fun _ => by simp [HasSym, Prim.symbolic]

theorem sel_b2_00 : Sel (-2) [0, 0] 2 2 False :=
  sel_mk (fun l => [(.me .bm2, l)]) 2 (fun _ => rfl) fun _ => by simp [HasSym, Prim.symbolic]

theorem sel_b2_p2 : Sel (-2) [0, 1] 2 1 True :=
  sel_mk (fun l => [(.me .bm_pl, l)]) 1 (fun _ => rfl) fun _ => by simp [HasSym, Prim.symbolic]

theorem sel_b2_p1 : Sel (-2) [0, 1] 1 1 False :=
  sel_mk (fun l => [(.sqrtInvB2, l)]) 1 (fun _ => rfl) fun _ => by simp [HasSym, Prim.symbolic]

theorem sel_b2_m2 : Sel (-2) [0, -1] 2 1 True :=
  sel_mk (fun l => [(.me .bm_ml, l)]) 1 (fun _ => rfl) fun _ => by simp [HasSym, Prim.symbolic]

theorem sel_b2_m1 : Sel (-2) [0, -1] 1 1 False :=
  sel_mk (fun l => [(.sqrtInvB2, l)]) 1 (fun _ => rfl) fun _ => by simp [HasSym, Prim.symbolic]

theorem sel_b2_pp2 : Sel (-2) [1, 1] 2 1 True :=
  sel_mk (fun l => [(.me .bm_pl, l)]) 1 (fun _ => rfl) fun _ => by simp [HasSym, Prim.symbolic]

theorem sel_b2_pp1 : Sel (-2) [1, 1] 1 1 True :=
  sel_mk (fun l => [(.me .bm_pl, l)]) 1 (fun _ => rfl) fun _ => by simp [HasSym, Prim.symbolic]

theorem sel_b2_mm2 : Sel (-2) [-1, -1] 2 1 True :=
  sel_mk (fun l => [(.me .bm_ml, l)]) 1 (fun _ => rfl) fun _ => by simp [HasSym, Prim.symbolic]

theorem sel_b2_mm1 : Sel (-2) [-1, -1] 1 1 True :=
  sel_mk (fun l => [(.me .bm_ml, l)]) 1 (fun _ => rfl) fun _ => by simp [HasSym, Prim.symbolic]

theorem sel_bD_02 : Sel (-1) [1, -1] 2 1 False :=
  sel_mk (fun l => [(.me .Db_ml, l)]) 1 (fun _ => rfl) fun _ => by simp [HasSym, Prim.symbolic]

theorem sel_bD_01 : Sel (-1) [1, -1] 1 1 True :=
  sel_mk (fun l => [(.me .bm_pl, l)]) 1 (fun _ => rfl) fun _ => by simp [HasSym, Prim.symbolic]

theorem sel_bD_p2 : Sel (-1) [0, 1] 2 1 True :=
  sel_mk (fun l => [(.me .Db_pl, l)]) 1 (fun _ => rfl) fun _ => by simp [HasSym, Prim.symbolic]

theorem sel_bD_p1 : Sel (-1) [0, 1] 1 1 False :=
  sel_mk (fun l => [(.sqrtInvB2, l)]) 1 (fun _ => rfl) fun _ => by simp [HasSym, Prim.symbolic]

theorem sel_bD_m2 : Sel (-1) [0, -1] 2 1 False :=
  sel_mk (fun l => [(.me .Db_ml, l)]) 1 (fun _ => rfl) fun _ => by simp [HasSym, Prim.symbolic]

theorem sel_bD_m1 : Sel (-1) [0, -1] 1 1 False :=
  sel_mk (fun l => [(.sqrtInvB2, l)]) 1 (fun _ => rfl) fun _ => by simp [HasSym, Prim.symbolic]

theorem sel_bD_pp2 : Sel (-1) [1, 1] 2 1 True :=
  sel_mk (fun l => [(.me .Db_pl, l)]) 1 (fun _ => rfl) fun _ => by simp [HasSym, Prim.symbolic]

theorem sel_bD_pp1 : Sel (-1) [1, 1] 1 1 True :=
  sel_mk (fun l => [(.me .bm_pl, l)]) 1 (fun _ => rfl) fun _ => by simp [HasSym, Prim.symbolic]

theorem sel_bD_mm2 : Sel (-1) [-1, -1] 2 1 False :=
  sel_mk (fun l => [(.me .Db_ml, l)]) 1 (fun _ => rfl) fun _ => by simp [HasSym, Prim.symbolic]

theorem sel_bD_mm1 : Sel (-1) [-1, -1] 1 1 True :=
  sel_mk (fun l => [(.me .bm_ml, l)]) 1 (fun _ => rfl) fun _ => by simp [HasSym, Prim.symbolic]

/-- One factor. -/
theorem sym_one {w : List RadSym} {K T : Int} {b0 bp bm : Prop} (hT : 0 ≤ T) (hKT : |K| + T = 1)
    (hw : Parse_RadialOp_List w = .ok [.KT K T]) (hs0 : Lambda_Splits K T 0 = .ok [0])
    (s0 : Sel K [0] 1 1 b0) (sp : Sel K [1] 1 1 bp)
    (sm : Sel K [-1] 1 1 bm) {lam : ℝ} {R : Int} (h1 : 0 < lam) (h2 : 0 < lam + (R : ℝ)) :
    Symbolic w lam R ↔ R % 2 = 0 ∧ b0 ∨ R % 2 = 1 ∧ 0 < R ∧ bp ∨ R % 2 = 1 ∧ R < 0 ∧ bm := by
  have hn : (|K| + T).toNat = 1 := by omega
  have key : ∃ p, RepRadial_bS_DS (formal ℝ) K T lam R = .ok p ∧
      (HasSym p.factors ↔ R % 2 = 0 ∧ b0 ∨ R % 2 = 1 ∧ 0 < R ∧ bp ∨ R % 2 = 1 ∧ R < 0 ∧ bm) := by
    rcases lt_trichotomy R 0 with hR | rfl | hR
    · obtain ⟨pre, s, e, hp, hs⟩ := splits_neg (K := K) hT (.inl hKT) hR
      rcases hs with ⟨-, h, rfl⟩ | ⟨-, h, rfl⟩ | ⟨h, -, -⟩ | ⟨h, -, -⟩
      · obtain ⟨p, e, hp⟩ := bsds_sym h1 h2 hn one_pos rfl e hp (loop_one s0)
        refine ⟨p, e, hp.trans ⟨fun hb => .inl ⟨h, hb⟩, ?_⟩⟩
        rintro (h' | h' | h')
        · exact h'.2
        · omega
        · omega
      · obtain ⟨p, e, hp⟩ := bsds_sym h1 h2 hn one_pos rfl e hp (loop_one sm)
        refine ⟨p, e, hp.trans ⟨fun hb => .inr (.inr ⟨h, hR, hb⟩), ?_⟩⟩
        rintro (h' | h' | h')
        · omega
        · omega
        · exact h'.2.2
      · omega
      · omega
    · obtain ⟨p, e, hp⟩ := bsds_sym (pre := []) h1 h2 hn one_pos rfl hs0 (.inl rfl) (loop_one s0)
      refine ⟨p, e, hp.trans ⟨fun hb => .inl ⟨rfl, hb⟩, ?_⟩⟩
      rintro (h' | h' | h')
      · exact h'.2
      · omega
      · omega
    · obtain ⟨pre, s, e, hp, hs⟩ := splits_pos (K := K) hT (.inl hKT) hR
      rcases hs with ⟨-, h, rfl⟩ | ⟨-, h, rfl⟩ | ⟨h, -, -⟩ | ⟨h, -, -⟩
      · obtain ⟨p, e, hp⟩ := bsds_sym h1 h2 hn one_pos rfl e hp (loop_one s0)
        refine ⟨p, e, hp.trans ⟨fun hb => .inl ⟨h, hb⟩, ?_⟩⟩
        rintro (h' | h' | h')
        · exact h'.2
        · omega
        · omega
      · obtain ⟨p, e, hp⟩ := bsds_sym h1 h2 hn one_pos rfl e hp (loop_one sp)
        refine ⟨p, e, hp.trans ⟨fun hb => .inr (.inl ⟨h, hR, hb⟩), ?_⟩⟩
        rintro (h' | h' | h')
        · omega
        · exact h'.2.2
        · omega
      · omega
      · omega
  obtain ⟨p, e, hp⟩ := key
  rw [symbolic_single (.inl hKT) hw h1 h2 e]
  exact hp

/-- Two factors. -/
theorem sym_two {w : List RadSym} {K T : Int} {s0 : List Int} {b0 bp bm cp cm : Prop} (hT : 0 ≤ T) (hKT : |K| + T = 2)
    (hw : Parse_RadialOp_List w = .ok [.KT K T]) (hs0 : Lambda_Splits K T 0 = .ok s0) (hl : s0.length = 2)
    (h0 : Loop K s0 2 b0) (hp : Loop K [0, 1] 2 bp) (hm : Loop K [0, -1] 2 bm) (gp : Loop K [1, 1] 2 cp)
    (gm : Loop K [-1, -1] 2 cm) {lam : ℝ} {R : Int} (h1 : 0 < lam) (h2 : 0 < lam + (R : ℝ)) :
    Symbolic w lam R ↔ R = 0 ∧ b0 ∨ R % 2 = 1 ∧ 0 < R ∧ bp ∨ R % 2 = 1 ∧ R < 0 ∧ bm ∨
      R % 2 = 0 ∧ 0 < R ∧ cp ∨ R % 2 = 0 ∧ R < 0 ∧ cm := by
  have hn : (|K| + T).toNat = 2 := by omega
  have key : ∃ p, RepRadial_bS_DS (formal ℝ) K T lam R = .ok p ∧
      (HasSym p.factors ↔ R = 0 ∧ b0 ∨ R % 2 = 1 ∧ 0 < R ∧ bp ∨ R % 2 = 1 ∧ R < 0 ∧ bm ∨
      R % 2 = 0 ∧ 0 < R ∧ cp ∨ R % 2 = 0 ∧ R < 0 ∧ cm) := by
    rcases lt_trichotomy R 0 with hR | rfl | hR
    · obtain ⟨pre, s, e, hp, hs⟩ := splits_neg (K := K) hT (.inr hKT) hR
      rcases hs with ⟨h, -, -⟩ | ⟨h, -, -⟩ | ⟨-, h, rfl⟩ | ⟨-, h, rfl⟩
      · omega
      · omega
      · obtain ⟨p, e, hp⟩ := bsds_sym h1 h2 hn two_pos rfl e hp hm
        refine ⟨p, e, hp.trans ⟨fun hb => .inr (.inr (.inl ⟨h, hR, hb⟩)), ?_⟩⟩
        rintro (h' | h' | h' | h' | h') <;> first | exact h'.2.2 | omega
      · obtain ⟨p, e, hp⟩ := bsds_sym h1 h2 hn two_pos rfl e hp gm
        refine ⟨p, e, hp.trans ⟨fun hb => .inr (.inr (.inr (.inr ⟨h, hR, hb⟩))), ?_⟩⟩
        rintro (h' | h' | h' | h' | h') <;> first | exact h'.2.2 | omega
    · obtain ⟨p, e, hp⟩ := bsds_sym (pre := []) h1 h2 hn two_pos hl hs0 (.inl rfl) h0
      refine ⟨p, e, hp.trans ⟨fun hb => .inl ⟨rfl, hb⟩, ?_⟩⟩
      rintro (h' | h' | h' | h' | h') <;> first | exact h'.2 | omega
    · obtain ⟨pre, s, e, hp', hs⟩ := splits_pos (K := K) hT (.inr hKT) hR
      rcases hs with ⟨h, -, -⟩ | ⟨h, -, -⟩ | ⟨-, h, rfl⟩ | ⟨-, h, rfl⟩
      · omega
      · omega
      · obtain ⟨p, e, hp⟩ := bsds_sym h1 h2 hn two_pos rfl e hp' hp
        refine ⟨p, e, hp.trans ⟨fun hb => .inr (.inl ⟨h, hR, hb⟩), ?_⟩⟩
        rintro (h' | h' | h' | h' | h') <;> first | exact h'.2.2 | omega
      · obtain ⟨p, e, hp⟩ := bsds_sym h1 h2 hn two_pos rfl e hp' gp
        refine ⟨p, e, hp.trans ⟨fun hb => .inr (.inr (.inr (.inl ⟨h, hR, hb⟩))), ?_⟩⟩
        rintro (h' | h' | h' | h' | h') <;> first | exact h'.2.2 | omega
  obtain ⟨p, e, hp⟩ := key
  rw [symbolic_single (.inr hKT) hw h1 h2 e]
  exact hp

section
variable {lam : ℝ} {R : Int} (h1 : 0 < lam) (h2 : 0 < lam + (R : ℝ))
include h1 h2

/-- `d/dbeta` is represented by SymPy numbers if `lambda` increases by an odd number. -/
theorem symbolic_Db : Symbolic [.Db] lam R ↔ R % 2 = 1 ∧ 0 < R := by
  rw [sym_one (K := 0) (T := 1) (by norm_num) (by norm_num) (by decide +kernel) (by decide +kernel)
    sel_Db_0 sel_Db_p sel_Db_m h1 h2]
  tauto

/-- `1/beta` is represented by SymPy numbers if `lambda` changes by an odd number. -/
theorem symbolic_bm : Symbolic [.bm] lam R ↔ R % 2 = 1 := by
  rw [sym_one (K := -1) (T := 0) (by norm_num) (by norm_num) (by decide +kernel) (by decide +kernel)
    sel_bm_0 sel_bm_p sel_bm_m h1 h2]
  simp only [and_false, false_or, and_true]
  omega

/-- `d^2/dbeta^2` is represented by SymPy numbers if `lambda` increases. -/
theorem symbolic_D2b : Symbolic [.D2b] lam R ↔ 0 < R := by
  rw [sym_two (K := 0) (T := 2) (by norm_num) (by norm_num) (by decide +kernel) (s0 := [0, 0]) (by decide +kernel) rfl
    (loop_pair sel_D2_00) (loop_two sel_D2_p2 sel_D2_p1) (loop_two sel_D2_m2 sel_D2_m1)
    (loop_two sel_D2_pp2 sel_D2_pp1) (loop_two sel_D2_mm2 sel_D2_mm1) h1 h2]
  simp only [or_false, or_self, and_false, false_or, and_true]
  omega

/-- `1/beta^2` is represented by SymPy numbers if `lambda` changes. -/
theorem symbolic_bm2 : Symbolic [.bm2] lam R ↔ R ≠ 0 := by
  rw [sym_two (K := -2) (T := 0) (by norm_num) (by norm_num) (by decide +kernel) (s0 := [0, 0]) (by decide +kernel) rfl
    (loop_pair sel_b2_00) (loop_two sel_b2_p2 sel_b2_p1) (loop_two sel_b2_m2 sel_b2_m1)
    (loop_two sel_b2_pp2 sel_b2_pp1) (loop_two sel_b2_mm2 sel_b2_mm1) h1 h2]
  simp only [or_false, or_self, and_false, false_or, and_true]
  omega

/-- `1/beta^2 (beta d/dbeta)` is represented by SymPy numbers unless `lambda` decreases by an odd number. -/
theorem symbolic_bm2bDb : Symbolic [.bm2, .bDb] lam R ↔ R % 2 = 0 ∨ 0 < R := by
  rw [sym_two (K := -1) (T := 1) (by norm_num) (by norm_num) (by decide +kernel) (s0 := [1, -1]) (by decide +kernel) rfl
    (loop_two sel_bD_02 sel_bD_01) (loop_two sel_bD_p2 sel_bD_p1) (loop_two sel_bD_m2 sel_bD_m1)
    (loop_two sel_bD_pp2 sel_bD_pp1) (loop_two sel_bD_mm2 sel_bD_mm1) h1 h2]
  simp only [or_false, or_self, and_false, false_or, and_true, or_true]
  omega

end

end Acm
