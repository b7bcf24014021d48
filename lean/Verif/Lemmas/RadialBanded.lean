import Verif.Lemmas.RadialWindow

/-! The run of `RepRadial_Prod` on products of `S-`, `S0`, `S+`, `beta^2` and `beta d/dbeta`
without lambda shift. -/

set_option linter.unusedSectionVars false

namespace Acm
open Spec

section
variable {F M : Type} [Field F] [LinearOrder F] [IsStrictOrderedRing F]

/-- The elementary factors of an unshifted even monomial. -/
def ktFactors (lam : F) (K T : Int) : List (Prim × F) :=
  List.replicate (K / 2).toNat (.me .b2, lam) ++ if T = 1 then [(.me .bDb, lam)] else []

/-- An even monomial `beta^2k` or `beta^(2k+1) d/dbeta`. -/
def EvenKT (K T : Int) : Prop := 0 ≤ K ∧ ((T = 0 ∧ K % 2 = 0) ∨ (T = 1 ∧ K % 2 = 1))

theorem pyGet_zeros (n i : Nat) (z : Int) (hz : z = i) (h : i < n) :
    pyGet (List.replicate n (0 : Int)) z = .ok 0 := by
  rw [pyGet_int _ z i hz (by simpa using h)]
  simp

theorem select_b2 (A : RadAlg F M) {K : Int} {n i : Nat} {lam : F} {y : M} (h1 : 2 ≤ i) (h2 : i ≤ n)
    (h3 : (i : Int) ≤ K) (hy : A.rep .b2 lam = .ok y) :
    bS_DS_select A K (List.replicate n 0) i lam = .ok (A.scale (-2) y, 2) := by
  unfold bS_DS_select
  rw [pyGet_zeros n (i - 1) _ (by omega) (by omega), pyGet_zeros n (i - 2) _ (by omega) (by omega)]
  simp only [py_bind_ok]
  rw [if_neg (by omega), if_neg (by omega), if_pos ⟨by omega, trivial⟩, if_pos h3,
    pyAssert_ok (by simp; omega), hy]
  rfl

theorem select_bDb (A : RadAlg F M) {K : Int} {n i : Nat} {lam : F} {y : M} (h1 : 2 ≤ i) (h2 : i ≤ n)
    (h3 : (i : Int) = K + 1) (hy : A.rep .bDb lam = .ok y) :
    bS_DS_select A K (List.replicate n 0) i lam = .ok (y, 2) := by
  unfold bS_DS_select
  rw [pyGet_zeros n (i - 1) _ (by omega) (by omega), pyGet_zeros n (i - 2) _ (by omega) (by omega)]
  simp only [py_bind_ok]
  rw [if_neg (by omega), if_neg (by omega), if_pos ⟨by omega, trivial⟩, if_neg (by omega),
    if_neg (by omega), if_pos h3, pyAssert_ok (by simp; omega), hy]
  rfl

theorem loop_even (A : RadAlg F M) {K : Int} {n : Nat} {lam : F} {y : M}
    (hy : A.rep .b2 lam = .ok y) : ∀ (k : Nat), (2 * k : Int) ≤ K → 2 * k < n →
    ∀ (P : M) (q : FormalProd F), Denotes A q P →
    ∃ P', bS_DS_loop A K (List.replicate n 0) n 0 (2 * k) lam (some P) = .ok (lam, some P') ∧
      Denotes A ⟨List.replicate k (.me .b2, lam) ++ q.factors, q.expo - 2 * k⟩ P' := by
  intro k
  induction k with
  | zero =>
    intro _ _ P q hq
    refine ⟨P, by simp [bS_DS_loop], ?_⟩
    simpa using hq
  | succ k ih =>
    intro h1 h2 P q hq
    rw [show 2 * (k + 1) = (2 * k + 1) + 1 by ring]
    simp only [bS_DS_loop]
    rw [select_b2 A (by omega) (by omega) (by push_cast; omega) hy]
    simp only [py_bind_ok, bS_DS_update]
    rw [if_neg (by omega)]
    simp only [readVar, py_pure, py_bind_ok]
    rw [pyGet_zeros n (2 * k + 1) _ (by omega) (by omega)]
    simp only [py_bind_ok]
    rw [if_neg (by omega)]
    have hd := Denotes.mul (Denotes.scale (-2) (Denotes.rep hy)) hq
    obtain ⟨P', e1, e2⟩ := ih (by omega) (by omega) _ _ hd
    refine ⟨P', ?_, ?_⟩
    · simpa using e1
    · have : List.replicate (k + 1) ((Prim.me RadME.b2, lam)) ++ q.factors
          = List.replicate k (Prim.me RadME.b2, lam) ++ ([(Prim.me RadME.b2, lam)] ++ q.factors) := by
        rw [List.replicate_succ']; simp
      rw [this]
      have e : q.expo - 2 * ((k + 1 : ℕ) : Int) = (0 + -2 + q.expo) - 2 * k := by push_cast; ring
      rw [e]
      exact e2

theorem splits_even {K T : Int} (h : EvenKT K T) :
    Lambda_Splits K T 0 = .ok (List.replicate (K + T).toNat 0) := by
  obtain ⟨hK, hT⟩ := h
  have hT0 : 0 ≤ T := by omega
  have habs : |K| = K := abs_of_nonneg hK
  unfold Lambda_Splits
  rw [require_nonnegint_ok hT0]
  simp only [py_bind_ok, habs, abs_zero]
  rw [if_neg (by omega), iquo_ok (by omega) (by omega), iquo_ok hT0 (by omega)]
  simp only [py_bind_ok]
  rw [if_neg (by omega)]
  simp only [py_pure, py_bind_ok]
  rw [if_neg (by omega)]
  have hZ : min (-(0 - (K + T)) / 2) (T / 2) = 0 := by omega
  rw [hZ]
  simp [pyRep]

theorem bS_DS_even (A : RadAlg F M) {K T : Int} (h : EvenKT K T) (hne : 0 < K + T) {lam : F}
    (hlam : 0 < lam) {y w : M} (hy : A.rep .b2 lam = .ok y) (hw : A.rep .bDb lam = .ok w) :
    ∃ z, RepRadial_bS_DS A K T lam 0 = .ok z ∧ Denotes A ⟨ktFactors lam K T, T - K⟩ z := by
  have hs := splits_even h
  obtain ⟨hK, hT⟩ := h
  have habs : |K| = K := abs_of_nonneg hK
  unfold RepRadial_bS_DS
  rw [if_neg (by push_cast; simp [not_le, hlam]), if_neg (by rintro ⟨a, b, _⟩; omega), hs]
  simp only [py_bind_ok, habs, List.length_replicate, lt_self_iff_false, if_false, gt_iff_lt]
  rw [pyAssert_ok (by simp)]
  simp only [py_bind_ok, py_pure]
  obtain ⟨n, hn⟩ : ∃ k : Nat, (K + T).toNat = 2 * k + 2 :=
    ⟨((K + T) / 2).toNat - 1, by omega⟩
  rw [hn]
  have fin : ∀ z, bS_DS_finish A (2 * n + 2) 0 lam (some z) = .ok z := by
    intro z
    simp [bS_DS_finish, readVar]
  rcases hT with ⟨rfl, hK2⟩ | ⟨rfl, hK2⟩
  · obtain ⟨P', e1, e2⟩ := loop_even A (K := K) (n := 2 * n + 2) hy n (by omega) (by omega) _ _
      (Denotes.scale (-2) (Denotes.rep hy))
    refine ⟨P', ?_, ?_⟩
    · rw [show (2 * n + 2) = (2 * n + 1) + 1 by ring] at e1 ⊢
      simp only [bS_DS_loop]
      rw [select_b2 A (by omega) (by omega) (by push_cast; omega) hy]
      simp only [py_bind_ok, bS_DS_update]
      rw [if_pos (by simp)]
      simp only [py_pure, py_bind_ok]
      rw [pyGet_zeros _ (2 * n + 1) _ (by omega) (by omega)]
      simp only [py_bind_ok]
      rw [if_neg (by omega)]
      simp only [Int.cast_zero, add_zero]
      rw [e1]
      exact fin P'
    · have : ktFactors lam K 0 = List.replicate n (Prim.me RadME.b2, lam)
          ++ [(Prim.me RadME.b2, lam)] := by
        unfold ktFactors
        rw [show (K / 2).toNat = n + 1 by omega, List.replicate_succ']
        simp
      rw [this]
      have e : (0 : Int) - K = (0 + -2) - 2 * (n : Int) := by omega
      rw [e]
      exact e2
  · obtain ⟨P', e1, e2⟩ := loop_even A (K := K) (n := 2 * n + 2) hy n (by omega) (by omega) _ _
      (Denotes.rep hw)
    refine ⟨P', ?_, ?_⟩
    · rw [show (2 * n + 2) = (2 * n + 1) + 1 by ring] at e1 ⊢
      simp only [bS_DS_loop]
      rw [select_bDb A (by omega) (by omega) (by push_cast; omega) hw]
      simp only [py_bind_ok, bS_DS_update]
      rw [if_pos (by simp)]
      simp only [py_pure, py_bind_ok]
      rw [pyGet_zeros _ (2 * n + 1) _ (by omega) (by omega)]
      simp only [py_bind_ok]
      rw [if_neg (by omega)]
      simp only [Int.cast_zero, add_zero]
      rw [e1]
      exact fin P'
    · have : ktFactors lam K 1 = List.replicate n (Prim.me RadME.b2, lam)
          ++ [(Prim.me RadME.bDb, lam)] := by
        unfold ktFactors
        rw [show (K / 2).toNat = n by omega]
        simp
      rw [this]
      have e : (1 : Int) - K = 0 - 2 * (n : Int) := by omega
      rw [e]
      exact e2

/-! ## Parsing -/

/-- Operators that need no shift. -/
def EvenOp : KTSOp → Prop
  | .KT K T => EvenKT K T ∧ 0 < K + T
  | .S s => s = -1 ∨ s = 0 ∨ s = 1

/-- The elementary factors of a parsed operator. -/
def opFactors (lam : F) : KTSOp → List (Prim × F)
  | .KT K T => ktFactors lam K T
  | .S s => [(.me (if s = -1 then .Sm else if s = 0 then .S0 else .Sp), lam)]

/-- The elementary factors of the listed symbols. -/
def symFactors (lam : F) (ops : List RadSym) : List (Prim × F) :=
  ops.filterMap fun s => (bandedME s).map fun m => (.me m, lam)

theorem ktFactors_zero (lam : F) : ktFactors lam 0 0 = [] := by simp [ktFactors]

theorem flush_even (lam : F) (s : ParseState) (h : EvenKT s.K s.T) (hl : ∀ op ∈ s.POp_List, EvenOp op) :
    ∃ s', parseFlush s = .ok s' ∧ s'.K = 0 ∧ s'.T = 0 ∧ (∀ op ∈ s'.POp_List, EvenOp op) ∧
      s'.POp_List.flatMap (opFactors lam) = ktFactors lam s.K s.T ++ s.POp_List.flatMap (opFactors lam) := by
  unfold parseFlush
  obtain ⟨hK, hT⟩ := h
  by_cases hc : s.K ≠ 0 ∨ s.T > 0
  · rw [if_pos hc]
    unfold mkKTOp
    rw [require_nonnegint_ok (by omega)]
    refine ⟨_, rfl, rfl, rfl, ?_, ?_⟩
    · intro op hop
      simp only [List.mem_cons] at hop
      rcases hop with rfl | hop
      · exact ⟨⟨hK, hT⟩, by omega⟩
      · exact hl op hop
    · simp [opFactors]
  · rw [if_neg hc]
    refine ⟨s, rfl, by omega, by omega, hl, ?_⟩
    rw [show s.K = 0 by omega, show s.T = 0 by omega, ktFactors_zero, List.nil_append]

theorem step_even (lam : F) (s : ParseState) (op : RadSym) (m : RadME) (hm : bandedME op = some m)
    (h : EvenKT s.K s.T) (hl : ∀ op ∈ s.POp_List, EvenOp op) :
    ∃ s', parseStep s op = .ok s' ∧ EvenKT s'.K s'.T ∧ (∀ op ∈ s'.POp_List, EvenOp op) ∧
      ktFactors lam s'.K s'.T ++ s'.POp_List.flatMap (opFactors lam)
        = (.me m, lam) :: (ktFactors lam s.K s.T ++ s.POp_List.flatMap (opFactors lam)) := by
  obtain ⟨s1, f1, f2, f3, f4, f5⟩ := flush_even lam s h hl
  have S_case : ∀ (sv : Int) (mm : RadME), (sv = -1 ∨ sv = 0 ∨ sv = 1) →
      opFactors lam (.S sv) = [(.me mm, lam)] →
      ∃ s', (do let s ← parseFlush s
                pure { s with POp_List := KTSOp.S sv :: s.POp_List } : Py ParseState) = .ok s' ∧
        EvenKT s'.K s'.T ∧ (∀ op ∈ s'.POp_List, EvenOp op) ∧
        ktFactors lam s'.K s'.T ++ s'.POp_List.flatMap (opFactors lam)
          = (.me mm, lam) :: (ktFactors lam s.K s.T ++ s.POp_List.flatMap (opFactors lam)) := by
    intro sv mm hsv hf
    rw [f1]
    refine ⟨_, rfl, ?_, ?_, ?_⟩
    · simp only [f2, f3]; exact ⟨le_rfl, Or.inl ⟨rfl, rfl⟩⟩
    · intro op hop
      simp only [List.mem_cons] at hop
      rcases hop with rfl | hop
      · exact hsv
      · exact f4 op hop
    · simp only [f2, f3, ktFactors_zero, List.nil_append, List.flatMap_cons, hf, f5]
      rfl
  obtain ⟨hK, hT⟩ := h
  cases op <;> simp only [bandedME, Option.some.injEq, reduceCtorEq] at hm
  case Sm => subst hm; exact S_case (-1) _ (by omega) rfl
  case S0 => subst hm; exact S_case 0 _ (by omega) rfl
  case Sp => subst hm; exact S_case 1 _ (by omega) rfl
  case b2 =>
    subst hm
    refine ⟨_, rfl, ⟨?_, ?_⟩, hl, ?_⟩
    · show 0 ≤ s.K + 2; omega
    · show (s.T = 0 ∧ (s.K + 2) % 2 = 0) ∨ (s.T = 1 ∧ (s.K + 2) % 2 = 1); omega
    · show ktFactors lam (s.K + 2) s.T ++ _ = _
      unfold ktFactors
      rw [show ((s.K + 2) / 2).toNat = (s.K / 2).toNat + 1 by omega, List.replicate_succ]
      simp
  case bDb =>
    subst hm
    simp only [parseStep]
    by_cases hk : s.K ≠ 0
    · rw [if_pos hk]
      unfold mkKTOp
      rw [require_nonnegint_ok (by omega)]
      refine ⟨_, rfl, ⟨by simp, Or.inr ⟨by simp, by simp⟩⟩, ?_, ?_⟩
      · intro op hop
        simp only [List.mem_cons] at hop
        rcases hop with rfl | hop
        · exact ⟨⟨hK, hT⟩, by omega⟩
        · exact hl op hop
      · simp [ktFactors, opFactors]
    · rw [if_neg hk]
      have hK0 : s.K = 0 := by omega
      have hT0 : s.T = 0 := by omega
      refine ⟨_, rfl, ⟨by simp, Or.inr ⟨by simp [hT0], by simp⟩⟩, hl, ?_⟩
      simp [ktFactors, hK0, hT0]

theorem fold_even (lam : F) (ops : List RadSym) (h : ∀ s ∈ ops, (bandedME s).isSome) :
    ∃ s', ops.reverse.foldlM parseStep ⟨[], 0, 0⟩ = .ok s' ∧ EvenKT s'.K s'.T ∧
      (∀ op ∈ s'.POp_List, EvenOp op) ∧
      ktFactors lam s'.K s'.T ++ s'.POp_List.flatMap (opFactors lam) = symFactors lam ops := by
  induction ops with
  | nil =>
    refine ⟨_, rfl, ⟨le_rfl, Or.inl ⟨rfl, rfl⟩⟩, by simp, ?_⟩
    simp [ktFactors, symFactors]
  | cons op ops ih =>
    obtain ⟨s1, a, b, c, d⟩ := ih fun s hs => h s (by simp [hs])
    rw [List.reverse_cons, List.foldlM_append, a]
    simp only [py_bind_ok, List.foldlM_cons, List.foldlM_nil]
    obtain ⟨m, hm⟩ := Option.isSome_iff_exists.1 (h op (by simp))
    obtain ⟨s2, e1, e2, e3, e4⟩ := step_even lam s1 op m hm b c
    rw [e1]
    refine ⟨s2, by simp, e2, e3, ?_⟩
    rw [e4, d]
    simp [symFactors, hm]

theorem parse_even (lam : F) (ops : List RadSym) (h : ∀ s ∈ ops, (bandedME s).isSome) :
    ∃ l, Parse_RadialOp_List ops = .ok l ∧ (∀ op ∈ l, EvenOp op) ∧
      l.flatMap (opFactors lam) = symFactors lam ops := by
  obtain ⟨s, a, b, c, d⟩ := fold_even lam ops h
  unfold Parse_RadialOp_List
  rw [a]
  simp only [py_bind_ok]
  obtain ⟨hK, hT⟩ := b
  by_cases hc : s.K ≠ 0 ∨ s.T > 0
  · rw [if_pos hc]
    unfold mkKTOp
    rw [require_nonnegint_ok (by omega)]
    refine ⟨_, rfl, ?_, ?_⟩
    · intro op hop
      simp only [List.mem_cons] at hop
      rcases hop with rfl | hop
      · exact ⟨⟨hK, hT⟩, by omega⟩
      · exact c op hop
    · rw [← d]; simp [opFactors]
  · rw [if_neg hc]
    refine ⟨_, rfl, c, ?_⟩
    rw [← d, show s.K = 0 by omega, show s.T = 0 by omega, ktFactors_zero, List.nil_append]

theorem maxVar_even {op : KTSOp} (h : EvenOp op) : 0 ≤ op.maxVar ∧ op.maxVar % 2 = 0 := by
  cases op with
  | KT K T =>
    obtain ⟨⟨hK, hT⟩, _⟩ := h
    simp only [KTSOp.maxVar, abs_of_nonneg hK]
    omega
  | S s => simp [KTSOp.maxVar]

theorem lambda_even (ops : List KTSOp) (h : ∀ op ∈ ops, EvenOp op) :
    Lambda_RadialOp_List ops 0 = .ok (List.replicate ops.length 0) := by
  unfold Lambda_RadialOp_List
  have hn : ∀ x ∈ ops.map KTSOp.maxVar, 0 ≤ x ∧ x % 2 = 0 := by
    intro x hx
    obtain ⟨op, ho, rfl⟩ := List.mem_map.1 hx
    exact maxVar_even (h op ho)
  simp only []
  rw [mapM_irem _ fun x hx => (hn x hx).1]
  simp only [py_bind_ok]
  have hz : (ops.map KTSOp.maxVar).map (fun m => m % 2) = List.replicate ops.length 0 := by
    rw [List.eq_replicate_iff]
    refine ⟨by simp, ?_⟩
    intro x hx
    obtain ⟨m, hm, rfl⟩ := List.mem_map.1 hx
    exact (hn m hm).2
  rw [hz]
  have key : lambdaAbsList ops 0 (ops.map KTSOp.maxVar) (List.replicate ops.length 0)
      = .ok (List.replicate ops.length 0) := by
    unfold lambdaAbsList
    have hodd : oddinOf (|0| - (ops.map KTSOp.maxVar).sum) (List.replicate ops.length 0) = 0 := by
      unfold oddinOf
      rw [if_neg]
      rw [is_odd_iff, abs_zero]
      have := sum_mod_two (ops.map KTSOp.maxVar)
      rw [hz] at this
      simp at this
      omega
    rw [abs_zero] at hodd
    simp only [abs_zero, hodd, List.sum_replicate, smul_zero, lt_self_iff_false, if_false, sub_zero]
    by_cases hc : 0 < (ops.map KTSOp.maxVar).sum
    · rw [if_pos hc]
      cases ops with
      | nil => simp at hc
      | cons op ops =>
        have hsnd : ((ops.map KTSOp.maxVar).zip (List.replicate ops.length (0 : Int))).map Prod.snd
            = List.replicate ops.length 0 := List.map_snd_zip (by simp)
        simp [lambdaFill, List.replicate_succ, hsnd]
    · rw [if_neg hc]
      have : ∀ x ∈ ops.map KTSOp.maxVar, x = 0 := by
        intro x hx
        have h1 := List.single_le_sum (fun y hy => (hn y hy).1) x hx
        have h2 := (hn x hx).1
        omega
      have e : ops.map KTSOp.maxVar = List.replicate ops.length 0 := by
        rw [List.eq_replicate_iff]; exact ⟨by simp, this⟩
      unfold lambdaPlace
      rw [e]
      simp
  rw [key]
  simp

theorem shfs_even (A : RadAlg F M) {lam : F} (hlam : 0 < lam)
    (hrep : ∀ m ∈ [RadME.Sm, .S0, .Sp, .b2, .bDb], ∃ y, A.rep m lam = .ok y) :
    ∀ (ops : List KTSOp), (∀ op ∈ ops, EvenOp op) →
    ∃ P, RepRadialshfs_loop A lam ops (List.replicate ops.length 0) = .ok (lam, P) ∧
      ((ops = [] ∧ P = none) ∨ ∃ z, P = some z ∧
        Denotes A ⟨ops.flatMap (opFactors lam), (ops.map opExpo).sum⟩ z) := by
  intro ops
  induction ops with
  | nil => intro _; exact ⟨none, by simp [RepRadialshfs_loop], Or.inl ⟨rfl, rfl⟩⟩
  | cons op ops ih =>
    intro h
    obtain ⟨P, e1, e2⟩ := ih fun o ho => h o (by simp [ho])
    have hop : ∃ z, op.representation A lam 0 = .ok z ∧ Denotes A ⟨opFactors lam op, opExpo op⟩ z := by
      have ho := h op (by simp)
      cases op with
      | KT K T =>
        obtain ⟨y, hy⟩ := hrep .b2 (by simp)
        obtain ⟨w, hw⟩ := hrep .bDb (by simp)
        exact bS_DS_even A ho.1 ho.2 hlam hy hw
      | S s =>
        have ho' : s = -1 ∨ s = 0 ∨ s = 1 := ho
        obtain ⟨y1, h1⟩ := hrep .Sm (by simp)
        obtain ⟨y2, h2⟩ := hrep .S0 (by simp)
        obtain ⟨y3, h3⟩ := hrep .Sp (by simp)
        rcases ho' with rfl | rfl | rfl
        · exact ⟨y1, h1, Denotes.rep h1⟩
        · exact ⟨y2, h2, Denotes.rep h2⟩
        · exact ⟨y3, h3, Denotes.rep h3⟩
    obtain ⟨z, g1, g2⟩ := hop
    simp only [List.length_cons, List.replicate_succ, RepRadialshfs_loop]
    rw [e1]
    simp only [py_bind_ok]
    rw [g1]
    simp only [py_bind_ok, py_pure, Int.cast_zero, add_zero]
    refine ⟨_, rfl, Or.inr ?_⟩
    rcases e2 with ⟨rfl, rfl⟩ | ⟨z', rfl, e3⟩
    · refine ⟨z, rfl, ?_⟩
      simpa using g2
    · refine ⟨_, rfl, ?_⟩
      have := Denotes.mul g2 e3
      simpa using this

/-- The whole run. -/
theorem prod_even (A : RadAlg F M) {lam : F} (hlam : 0 < lam)
    (hrep : ∀ m ∈ [RadME.Sm, .S0, .Sp, .b2, .bDb], ∃ y, A.rep m lam = .ok y)
    (rbs : List RadSym) (h : ∀ s ∈ rbs, (bandedME s).isSome) :
    ∃ ops z, RepRadial_Prod_plan rbs 0 = .ok (ops, List.replicate ops.length 0) ∧
      RepRadialshfs_Prod A ops lam (List.replicate ops.length 0) = .ok z ∧
      Denotes A ⟨symFactors lam rbs, (rbs.map symExpo).sum⟩ z := by
  obtain ⟨ops, a, b, c⟩ := parse_even lam rbs h
  have ho : RadSym.other ∉ rbs := by
    intro ho
    have := h _ ho
    simp [bandedME] at this
  obtain ⟨l, p1, p2, p3, p4⟩ := parse_ok rbs ho
  rw [a] at p1
  injection p1 with p1
  subst p1
  obtain ⟨P, e1, e2⟩ := shfs_even A hlam hrep ops b
  refine ⟨ops, ?_⟩
  unfold RepRadial_Prod_plan RepRadialshfs_Prod
  rw [a]
  simp only [py_bind_ok]
  rw [lambda_even ops b]
  simp only [py_bind_ok, List.length_replicate, gt_iff_lt, lt_self_iff_false, if_false, py_pure]
  rw [e1]
  simp only [py_bind_ok]
  rcases e2 with ⟨rfl, rfl⟩ | ⟨z', rfl, e3⟩
  · refine ⟨_, trivial, rfl, ?_⟩
    simp only [List.flatMap_nil] at c
    rw [← c, ← p4]
    exact Denotes.eye
  · refine ⟨_, trivial, rfl, ?_⟩
    rw [← c, ← p4]
    exact e3

end

end Acm
