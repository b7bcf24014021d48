import Verif.Lemmas.RadialParse

/-! Lemmas about `Lambda_RadialOp_List`. -/

namespace Acm
open Spec

theorem sum_set (xs : List Int) (i : Nat) (h : i < xs.length) (y : Int) :
    (xs.set i y).sum = xs.sum + (y - xs[i]) := by
  induction xs generalizing i with
  | nil => simp at h
  | cons x xs ih =>
    cases i with
    | zero => simp; omega
    | succ i =>
      simp only [List.length_cons] at h
      simp only [List.set_cons_succ, List.sum_cons, List.getElem_cons_succ]
      rw [ih i (by omega)]; omega

theorem pyAddAt_ok (xs : List Int) (z : Int) (i : Nat) (hz : z = i) (h : i < xs.length) (d : Int) :
    pyAddAt xs z d = .ok (xs.set i (xs[i] + d)) := by
  unfold pyAddAt
  rw [pyGet_int xs z i hz h]
  simp only [py_bind_ok]
  rw [pySet_nat xs z i hz h]

theorem pyAddAt_last (xs : List Int) (h : xs ≠ []) (d : Int) :
    pyAddAt xs (-1) d = .ok (xs.set (xs.length - 1) (xs[xs.length - 1]'(by
      have := List.length_pos_of_ne_nil h; omega) + d)) := by
  have hl := List.length_pos_of_ne_nil h
  unfold pyAddAt pyGet pySet
  have e : (-1 + (xs.length : Int)).toNat = xs.length - 1 := by omega
  have e2 : 0 ≤ -1 + (xs.length : Int) := by omega
  have e3 : 0 ≤ -1 + (xs.length : Int) ∧ -1 + (xs.length : Int) < xs.length := by omega
  have e4 : xs[xs.length - 1]? = some (xs[xs.length - 1]'(by omega)) := by
    rw [List.getElem?_eq_getElem]
  simp only [show (-1 : Int) < 0 by omega, if_true, e, e2, e3, e4]
  rfl

theorem indexOfOne_some {xs : List Int} {j : Nat} (h : indexOfOne xs = some j) :
    ∃ hj : j < xs.length, xs[j] = 1 ∧ ∀ i (hi : i < xs.length), i < j → xs[i] ≠ 1 := by
  induction xs generalizing j with
  | nil => simp [indexOfOne] at h
  | cons x xs ih =>
    simp only [indexOfOne] at h
    by_cases hx : x = 1
    · rw [if_pos hx] at h
      injection h with h
      subst h
      exact ⟨by simp, by simpa using hx, by omega⟩
    · rw [if_neg hx] at h
      cases hj : indexOfOne xs with
      | none => rw [hj] at h; simp at h
      | some k =>
        rw [hj] at h
        simp at h
        subst h
        obtain ⟨h1, h2, h3⟩ := ih hj
        refine ⟨by simpa using h1, by simpa using h2, ?_⟩
        intro i hi hlt
        cases i with
        | zero => simpa using hx
        | succ i =>
          simp only [List.length_cons] at hi
          simpa using h3 i (by omega) (by omega)

theorem indexOfOne_none {xs : List Int} (h : indexOfOne xs = none) : ∀ x ∈ xs, x ≠ 1 := by
  induction xs with
  | nil => simp
  | cons x xs ih =>
    simp only [indexOfOne] at h
    by_cases hx : x = 1
    · rw [if_pos hx] at h; simp at h
    · rw [if_neg hx] at h
      intro y hy
      simp only [List.mem_cons] at hy
      rcases hy with rfl | hy
      · exact hx
      · exact ih (by simpa using h) y hy

/-- The list `y` has a zero wherever `x` has one, and the same length. -/
def ZeroWhere (x y : List Int) : Prop :=
  ∃ h : y.length = x.length, ∀ i (hi : i < x.length), x[i] = 0 → y[i] = 0

theorem zeroWhere_refl (x : List Int) : ZeroWhere x x := ⟨rfl, fun _ _ h => h⟩

theorem zeroWhere_trans {x y z : List Int} (h1 : ZeroWhere x y) (h2 : ZeroWhere y z) :
    ZeroWhere x z := by
  obtain ⟨a, b⟩ := h1
  obtain ⟨c, d⟩ := h2
  exact ⟨by omega, fun i hi h => d i (by omega) (b i hi h)⟩

theorem zeroWhere_cons {x y : Int} {xs ys : List Int} (h : x = 0 → y = 0) (h2 : ZeroWhere xs ys) :
    ZeroWhere (x :: xs) (y :: ys) := by
  obtain ⟨a, b⟩ := h2
  refine ⟨by simp [a], ?_⟩
  intro i hi
  cases i with
  | zero => simpa using h
  | succ i =>
    simp only [List.length_cons] at hi
    simpa using b i (by omega)

theorem zeroWhere_set {x y : List Int} (h : ZeroWhere x y) (j : Nat) (hj : j < x.length)
    (hx : x[j] ≠ 0) (v : Int) : ZeroWhere x (y.set j v) := by
  obtain ⟨a, b⟩ := h
  refine ⟨by simp [a], ?_⟩
  intro i hi h0
  by_cases hij : j = i
  · subst hij; exact absurd h0 hx
  · rw [List.getElem_set_ne hij]; exact b i hi h0

/-- A non-positive part followed by a non-negative part. -/
def NegPos (l : List Int) : Prop := ∃ p q, l = p ++ q ∧ (∀ x ∈ p, x ≤ 0) ∧ ∀ x ∈ q, 0 ≤ x

theorem NegPos.suf {l : List Int} (h : NegPos l) (hs : 0 ≤ l.sum) (j : Nat) : 0 ≤ sufSum l j := by
  obtain ⟨p, q, rfl, hp, hq⟩ := h
  by_cases hj : p.length ≤ j
  · unfold sufSum
    rw [List.drop_append, List.drop_eq_nil_of_le hj, List.nil_append]
    exact list_sum_nonneg _ fun x hx => hq x (List.mem_of_mem_drop hx)
  · have h1 : (p ++ q).sum = ((p ++ q).take j).sum + sufSum (p ++ q) j := by
      unfold sufSum
      rw [← List.sum_append, List.take_append_drop]
    have h2 : ((p ++ q).take j).sum ≤ 0 := by
      apply list_sum_nonpos
      intro x hx
      rw [List.take_append_of_le_length (by omega)] at hx
      exact hp x (List.mem_of_mem_take hx)
    omega

theorem flip_spec (rem : Int) : ∀ (xs : List Int) (oc : Int),
    (∀ x ∈ xs, x = 0 ∨ x = 1) → oc - 2 * xs.sum ≤ rem →
    ZeroWhere xs (lambdaFlip rem xs oc) ∧
    NegPos (lambdaFlip rem xs oc) ∧
    (lambdaFlip rem xs oc).sum = xs.sum - oc +
      (if oc ≤ rem then oc else if (oc - rem) % 2 = 0 then rem else rem - 1) ∧
    (rem < oc → ∀ j, indexOfOne xs = some j →
      (lambdaFlip rem xs oc)[j]? = some (-1)) := by
  intro xs
  induction xs with
  | nil =>
    intro oc _ hoc
    simp only [List.sum_nil] at hoc
    refine ⟨zeroWhere_refl _, ⟨[], [], rfl, by simp, by simp⟩, ?_, ?_⟩
    · rw [if_pos (by omega)]; simp [lambdaFlip]
    · intro _ j hj; simp [indexOfOne] at hj
  | cons x xs ih =>
    intro oc hxs hoc
    have hx := hxs x (by simp)
    have hxs' : ∀ y ∈ xs, y = 0 ∨ y = 1 := fun y hy => hxs y (by simp [hy])
    simp only [List.sum_cons] at hoc
    simp only [lambdaFlip]
    by_cases h1 : rem ≥ oc
    · rw [if_pos h1]
      refine ⟨zeroWhere_refl _, ⟨[], x :: xs, rfl, by simp, ?_⟩, ?_, by omega⟩
      · intro y hy; rcases hxs y hy with h | h <;> omega
      · rw [if_pos (by omega)]; omega
    · rw [if_neg h1]
      by_cases h2 : x = 1
      · rw [if_pos h2]
        subst h2
        obtain ⟨a, ⟨p, q, b1, b2, b3⟩, c, d⟩ := ih (oc - 2) hxs' (by omega)
        refine ⟨zeroWhere_cons (by omega) a, ⟨-1 :: p, q, by rw [b1]; rfl, ?_, b3⟩, ?_, ?_⟩
        · intro y hy
          simp only [List.mem_cons] at hy
          rcases hy with rfl | hy
          · omega
          · exact b2 y hy
        · simp only [List.sum_cons]
          rw [c]
          by_cases h3 : oc - 2 ≤ rem
          · rw [if_pos h3]
            split_ifs <;> omega
          · rw [if_neg h3]
            split_ifs <;> omega
        · intro _ j hj
          simp [indexOfOne] at hj
          subst hj
          rfl
      · rw [if_neg h2]
        have hx0 : x = 0 := by omega
        subst hx0
        obtain ⟨a, ⟨p, q, b1, b2, b3⟩, c, d⟩ := ih oc hxs' (by omega)
        refine ⟨zeroWhere_cons (by omega) a, ⟨0 :: p, q, by rw [b1]; rfl, ?_, b3⟩, ?_, ?_⟩
        · intro y hy
          simp only [List.mem_cons] at hy
          rcases hy with rfl | hy
          · omega
          · exact b2 y hy
        · simp only [List.sum_cons]
          rw [c, if_neg (by omega)]
          omega
        · intro hr j hj
          simp only [indexOfOne, if_neg h2] at hj
          cases hk : indexOfOne xs with
          | none => rw [hk] at hj; simp at hj
          | some k =>
            rw [hk] at hj
            simp at hj
            subst hj
            simpa using d hr k hk

/-- `(max_var, odd_var)` pairs as they occur. -/
def GoodPair (p : Int × Int) : Prop := 0 ≤ p.1 ∧ p.2 = p.1 % 2

theorem fill_spec : ∀ (todo : List (Int × Int)) (i0 rem last : Int), (∀ p ∈ todo, GoodPair p) →
    ∃ l rem' last', lambdaFill todo i0 rem last = .ok (l, rem', last') ∧
      ZeroWhere (todo.map Prod.fst) l ∧ (∀ x ∈ l, 0 ≤ x) ∧
      (∀ i (h : i < todo.length) (h' : i < l.length), todo[i].2 ≤ l[i]) ∧
      l.sum = (todo.map Prod.snd).sum + (rem - rem') ∧
      (rem ≤ 0 → rem' = rem) ∧
      (0 ≤ rem → rem ≤ (todo.map Prod.fst).sum - (todo.map Prod.snd).sum →
        rem' = if rem % 2 = 0 then 0 else -1) ∧
      (todo ≠ [] → i0 ≤ last' ∧ last' < i0 + todo.length) ∧ (todo = [] → last' = last) := by
  intro todo
  induction todo with
  | nil =>
    intro i0 rem last _
    refine ⟨[], rem, last, rfl, zeroWhere_refl _, by simp, by simp, by simp, fun _ => rfl, ?_,
      by simp, fun _ => rfl⟩
    intro h1 h2
    simp at h2
    have : rem = 0 := by omega
    simp [this]
  | cons p todo ih =>
    intro i0 rem last hp
    obtain ⟨m, o⟩ := p
    have hmo : 0 ≤ m ∧ o = m % 2 := hp (m, o) (by simp)
    have htodo : ∀ p ∈ todo, GoodPair p := fun p h => hp p (by simp [h])
    simp only [lambdaFill]
    by_cases h1 : rem ≤ 0
    · rw [if_pos h1]
      refine ⟨_, _, _, rfl, ?_, ?_, ?_, ?_, fun _ => rfl, ?_, ?_, by simp⟩
      · refine zeroWhere_cons (by omega) ⟨by simp, ?_⟩
        intro i hi h0
        simp only [List.length_map] at hi
        have := htodo todo[i] (List.getElem_mem hi)
        simp only [List.getElem_map] at h0 ⊢
        rw [this.2, h0]; rfl
      · intro x hx
        simp only [List.mem_cons, List.mem_map] at hx
        rcases hx with rfl | ⟨p, hp', rfl⟩
        · omega
        · have := htodo p hp'; have h2 := this.2; omega
      · intro i h h'
        cases i with
        | zero => simp
        | succ i => simp
      · simp
      · intro h2 h3
        have : rem = 0 := by omega
        simp [this]
      · intro _; simp
    · rw [if_neg h1, iquo_ok (by omega) (by omega)]
      simp only [py_bind_ok]
      set var := 2 * (min (rem + 1) (m - o) / 2) with hvar
      obtain ⟨l, rem', last', e1, e2, e3, e3', e4, e5, e6, e7, e8⟩ :=
        ih (i0 + 1) (rem - var) i0 htodo
      rw [e1]
      refine ⟨_, _, _, rfl, zeroWhere_cons (by omega) e2, ?_, ?_, ?_, by omega, ?_, ?_, by simp⟩
      · intro x hx
        simp only [List.mem_cons] at hx
        rcases hx with rfl | hx
        · omega
        · exact e3 x hx
      · intro i h h'
        cases i with
        | zero => simp; omega
        | succ i =>
          simp only [List.length_cons] at h h'
          simpa using e3' i (by omega) (by omega)
      · simp only [List.sum_cons, List.map_cons]; omega
      · intro _ h3
        simp only [List.sum_cons, List.map_cons] at h3
        by_cases h4 : rem - var ≤ 0
        · rw [e5 h4]; split_ifs <;> omega
        · rw [e6 (by omega) (by omega)]
          split_ifs <;> omega
      · intro _
        by_cases ht : todo = []
        · rw [e8 ht]; simp
        · have := e7 ht
          simp only [List.length_cons]; omega

theorem mapM_irem (xs : List Int) (h : ∀ x ∈ xs, 0 ≤ x) :
    xs.mapM (fun m => irem m 2) = (.ok (xs.map fun m => m % 2) : Py (List Int)) := by
  induction xs with
  | nil => rfl
  | cons x xs ih =>
    rw [List.mapM_cons, irem_ok (h x (by simp)) (by omega), ih fun y hy => h y (by simp [hy])]
    rfl

/-- Number of lambda steps that a product can absorb, and of its odd monomials. -/
def maxCount (ops : List KTSOp) : Int := (ops.map KTSOp.maxVar).sum
def oddCount (ops : List KTSOp) : Int := (ops.map fun op => op.maxVar % 2).sum

/-- The condition under which line 2007 (which indexes with a leaked loop variable) is not
executed. -/
def NoLeak (ops : List KTSOp) (lv : Int) : Prop :=
  (∃ op ∈ ops, op.maxVar % 2 = 1) ∨ (lv - maxCount ops) % 2 = 0 ∨ maxCount ops ≤ |lv|

/-- Every S operator has shift 0. -/
def SZero (ops : List KTSOp) (l : List Int) : Prop :=
  ∃ h : l.length = ops.length, ∀ i (hi : i < ops.length), ops[i].isKT = false → l[i] = 0

structure ShiftsOK (ops : List KTSOp) (lv : Int) (l : List Int) : Prop where
  sum : l.sum = lv
  shape : (l.length = ops.length ∧ (NoLeak ops lv → SZero ops l)) ∨
    (∃ x t, l = x :: t ∧ SZero ops t ∧
      ((0 < x ∧ 0 < lv ∧ ∀ y ∈ l, 0 ≤ y) ∨ (x < 0 ∧ lv < 0 ∧ ∀ y ∈ l, y ≤ 0)))
  low : NoLeak ops lv → (0 ≤ lv ∨ oddCount ops ≤ |lv|) → ∀ j, min 0 lv ≤ sufSum l j

theorem maxVar_nonneg {op : KTSOp} (h : op.Valid) : 0 ≤ op.maxVar := by
  cases op with
  | KT K T =>
    have := abs_natAbs K
    have h' : 0 ≤ T := h
    simp only [KTSOp.maxVar]; omega
  | S s => simp [KTSOp.maxVar]

theorem sZero_of_zeroWhere {ops : List KTSOp} {l : List Int}
    (h : ZeroWhere (ops.map KTSOp.maxVar) l) : SZero ops l := by
  obtain ⟨h1, h2⟩ := h
  refine ⟨by simpa using h1, ?_⟩
  intro i hi hS
  apply h2 i (by simpa using hi)
  simp only [List.getElem_map]
  cases hop : ops[i] with
  | KT K T => rw [hop] at hS; simp [KTSOp.isKT] at hS
  | S s => rfl

theorem sum_neg_map (l : List Int) : (l.map fun x => -x).sum = -l.sum := by
  induction l with
  | nil => rfl
  | cons a t ih => simp only [List.map_cons, List.sum_cons, ih]; omega

theorem sufSum_neg_map (l : List Int) (j : Nat) :
    sufSum (l.map fun x => -x) j = -sufSum l j := by
  unfold sufSum
  rw [← List.map_drop, sum_neg_map]

theorem sZero_neg {ops : List KTSOp} {l : List Int} (h : SZero ops l) :
    SZero ops (l.map fun x => -x) := by
  obtain ⟨h1, h2⟩ := h
  refine ⟨by simpa using h1, ?_⟩
  intro i hi hS
  simp only [List.getElem_map]
  rw [h2 i hi hS]; rfl

/-- What is known of the list before the sign is applied. -/
structure AbsOK (ops : List KTSOp) (lv : Int) (L : List Int) : Prop where
  sum : L.sum = |lv|
  shape : (L.length = ops.length ∧ (NoLeak ops lv → SZero ops L)) ∨
      (∃ x t, L = x :: t ∧ SZero ops t ∧ 0 < x ∧ lv ≠ 0 ∧ ∀ y ∈ L, 0 ≤ y)
  np : NoLeak ops lv → NegPos L
  pos : NoLeak ops lv → oddCount ops ≤ |lv| → ∀ y ∈ L, 0 ≤ y

/-- The last step of `Lambda_RadialOp_List`: the sign. -/
theorem shifts_finish (ops : List KTSOp) (lv : Int) (L : List Int) (hL : AbsOK ops lv L) :
    ∃ l, (if lv ≥ 0 then .ok L else .ok (L.map fun x => -x) : Py (List Int)) = .ok l ∧
      ShiftsOK ops lv l := by
  obtain ⟨hsum, hshape, hnp, hpos⟩ := hL
  by_cases h : lv ≥ 0
  · rw [if_pos h]
    have habs : |lv| = lv := abs_of_nonneg h
    refine ⟨_, rfl, by omega, ?_, ?_⟩
    · rcases hshape with h1 | ⟨x, t, h1, h2, h3, h4, h5⟩
      · exact Or.inl h1
      · right; exact ⟨x, t, h1, h2, Or.inl ⟨h3, by omega, h5⟩⟩
    · intro h1 _ j
      have := (hnp h1).suf (by omega) j
      omega
  · rw [if_neg h]
    have habs : |lv| = -lv := abs_of_neg (by omega)
    refine ⟨_, rfl, by rw [sum_neg_map]; omega, ?_, ?_⟩
    · rcases hshape with ⟨h1, h2⟩ | ⟨x, t, h1, h2, h3, h4, h5⟩
      · exact Or.inl ⟨by simpa using h1, fun h => sZero_neg (h2 h)⟩
      · right
        refine ⟨-x, t.map fun x => -x, by rw [h1]; rfl, sZero_neg h2,
          Or.inr ⟨by omega, by omega, ?_⟩⟩
        intro y hy
        simp only [List.mem_map] at hy
        obtain ⟨z, hz, rfl⟩ := hy
        have := h5 z hz; omega
    · intro h1 h2 j
      rw [sufSum_neg_map]
      have := sufSum_le_sum L j (hpos h1 (by omega))
      omega

theorem mem_oddVars {ops : List KTSOp} {x : Int}
    (h : x ∈ (ops.map KTSOp.maxVar).map fun m => m % 2) : x = 0 ∨ x = 1 := by
  simp only [List.map_map, List.mem_map, Function.comp_apply] at h
  obtain ⟨op, _, rfl⟩ := h
  omega

theorem sum_mod_two (l : List Int) : (l.map fun m => m % 2).sum % 2 = l.sum % 2 := by
  induction l with
  | nil => rfl
  | cons a t ih => simp only [List.map_cons, List.sum_cons]; omega

theorem negPos_of_nonneg {L : List Int} (h : ∀ y ∈ L, 0 ≤ y) : NegPos L := ⟨[], L, rfl, by simp, h⟩

theorem zeroWhere_mod (ms : List Int) : ZeroWhere ms (ms.map fun m => m % 2) := by
  refine ⟨by simp, ?_⟩
  intro i hi h
  simp [h]

theorem sZero_set {ops : List KTSOp} {M : List Int} (h : SZero ops M) (i : Nat)
    (hi : i < ops.length) (hk : ops[i].isKT = true) (v : Int) : SZero ops (M.set i v) := by
  obtain ⟨h1, h2⟩ := h
  refine ⟨by simpa using h1, ?_⟩
  intro k hk' hS
  by_cases hik : i = k
  · subst hik; rw [hk] at hS; simp at hS
  · rw [List.getElem_set_ne hik]; exact h2 k hk' hS

theorem place_ok (ops : List KTSOp) (lv rem : Int) (M : List Int) (hM : SZero ops M)
    (hM0 : ∀ y ∈ M, 0 ≤ y) (hrem : 0 ≤ rem) (hlv : 0 < rem → lv ≠ 0) (hsum : M.sum + rem = |lv|) :
    ∃ L, lambdaPlace ops lv rem M = .ok L ∧ AbsOK ops lv L := by
  have hlen : M.length = ops.length := hM.1
  unfold lambdaPlace
  have build : ∀ L : List Int, L.sum = |lv| → SZero ops L → (∀ y ∈ L, 0 ≤ y) → AbsOK ops lv L :=
    fun L h1 h2 h3 => ⟨h1, Or.inl ⟨h2.1, fun _ => h2⟩, fun _ => negPos_of_nonneg h3, fun _ _ => h3⟩
  by_cases h0 : rem > 0
  · rw [if_pos h0]
    by_cases h1 : lv > 0 ∧ ops.length > 0 ∧ (ops.head?.map KTSOp.isKT) = some true
    · rw [if_pos h1]
      have hn : 0 < M.length := by omega
      rw [pyAddAt_ok M 0 0 (by simp) hn]
      refine ⟨_, rfl, build _ ?_ ?_ ?_⟩
      · rw [sum_set _ _ hn]; omega
      · refine sZero_set hM 0 h1.2.1 ?_ _
        have := h1.2.2
        rw [List.head?_eq_getElem?, List.getElem?_eq_getElem h1.2.1] at this
        simpa using this
      · intro y hy
        rcases List.mem_or_eq_of_mem_set hy with hy | rfl
        · exact hM0 y hy
        · have := hM0 _ (List.getElem_mem hn); omega
    · rw [if_neg h1]
      by_cases h2 : lv < 0 ∧ 0 < ops.length ∧ (ops.getLast?.map KTSOp.isKT) = some true
      · rw [if_pos h2]
        have hn : M ≠ [] := by intro h; rw [h] at hlen; simp at hlen; omega
        have hn' : M.length - 1 < M.length := by have := List.length_pos_of_ne_nil hn; omega
        rw [pyAddAt_last _ hn]
        refine ⟨_, rfl, build _ ?_ ?_ ?_⟩
        · rw [sum_set _ _ hn']; omega
        · refine sZero_set hM _ (by omega) ?_ _
          have := h2.2.2
          rw [List.getLast?_eq_getElem?, List.getElem?_eq_getElem (by omega)] at this
          simp only [hlen]
          simpa using this
        · intro y hy
          rcases List.mem_or_eq_of_mem_set hy with hy | rfl
          · exact hM0 y hy
          · have := hM0 _ (List.getElem_mem hn'); omega
      · rw [if_neg h2]
        have hpos : ∀ y ∈ rem :: M, 0 ≤ y := by
          intro y hy
          simp only [List.mem_cons] at hy
          rcases hy with rfl | hy
          · omega
          · exact hM0 y hy
        refine ⟨_, rfl, by rw [List.sum_cons]; omega, Or.inr ⟨rem, M, rfl, hM, h0, hlv h0, hpos⟩,
          fun _ => negPos_of_nonneg hpos, fun _ _ => hpos⟩
  · rw [if_neg h0]
    exact ⟨_, rfl, build _ (by omega) hM hM0⟩

theorem absList_ok (ops : List KTSOp) (lv : Int) (hv : ∀ op ∈ ops, op.Valid) :
    ∃ L, lambdaAbsList ops lv (ops.map KTSOp.maxVar)
        ((ops.map KTSOp.maxVar).map fun m => m % 2) = .ok L ∧ AbsOK ops lv L := by
  have hmv : ∀ m ∈ ops.map KTSOp.maxVar, 0 ≤ m := by
    intro m hm
    simp only [List.mem_map] at hm
    obtain ⟨op, h1, rfl⟩ := hm
    exact maxVar_nonneg (hv op h1)
  have habs := abs_natAbs lv
  unfold lambdaAbsList
  have hlen : (ops.map KTSOp.maxVar).length = ops.length := by simp
  have hmcE : maxCount ops = (ops.map KTSOp.maxVar).sum := rfl
  have hocE : oddCount ops = ((ops.map KTSOp.maxVar).map fun m => m % 2).sum := by
    simp [oddCount, Function.comp_def]
  have hexE : (∃ op ∈ ops, op.maxVar % 2 = 1) ↔
      1 ∈ ((ops.map KTSOp.maxVar).map fun m => m % 2) := by simp
  have hSZ : ∀ {l}, ZeroWhere (ops.map KTSOp.maxVar) l → SZero ops l := sZero_of_zeroWhere
  have h01 : ∀ x ∈ (ops.map KTSOp.maxVar).map fun m => m % 2, x = 0 ∨ x = 1 :=
    fun x hx => mem_oddVars hx
  have hNL : NoLeak ops lv ↔ (1 ∈ ((ops.map KTSOp.maxVar).map fun m => m % 2)) ∨
      (lv - (ops.map KTSOp.maxVar).sum) % 2 = 0 ∨ (ops.map KTSOp.maxVar).sum ≤ |lv| := by
    unfold NoLeak; rw [hexE, hmcE]
  clear hexE
  generalize ops.map KTSOp.maxVar = ms at *
  have hpar : (ms.map fun m => m % 2).sum % 2 = ms.sum % 2 := sum_mod_two ms
  have hzw : ZeroWhere ms (ms.map fun m => m % 2) := zeroWhere_mod ms
  have hmod : ∀ j (hj : j < ms.length) (hj' : j < (ms.map fun m => m % 2).length),
      (ms.map fun m => m % 2)[j] = ms[j] % 2 := by
    intro j hj hj'; simp
  have holen : (ms.map fun m => m % 2).length = ops.length := by simp [hlen]
  generalize ms.map (fun m => m % 2) = os at *
  have hos0 : 0 ≤ os.sum := list_sum_nonneg _ fun x hx => by rcases h01 x hx with h | h <;> omega
  have hgp : ∀ p ∈ ms.zip os, GoodPair p := by
    intro p hp
    rw [List.mem_iff_getElem] at hp
    obtain ⟨i, hi, rfl⟩ := hp
    simp only [List.length_zip] at hi
    simp only [List.getElem_zip]
    exact ⟨hmv _ (List.getElem_mem _), hmod i (by omega) (by omega)⟩
  by_cases hodd : (|lv| - ms.sum) % 2 = 1 ∧ ∃ j, indexOfOne os = some j
  · -- case `oddin > 0`
    obtain ⟨hodd1, j, hj⟩ := hodd
    obtain ⟨hjl, hj1, hjmin⟩ := indexOfOne_some hj
    have hjm : j < ms.length := by omega
    have hmj : ms[j] % 2 = 1 := by rw [← hmod j hjm hjl]; exact hj1
    have hmj0 : ms[j] ≠ 0 := by omega
    have hin : oddinOf (|lv| - ms.sum) os = 1 + j := by
      unfold oddinOf
      rw [if_pos ((is_odd_iff _).2 hodd1), hj]
    have hgt : (1 + (j : Int) > 0) := by omega
    simp only [hin, hgt, if_true]
    by_cases h1 : |lv| < os.sum
    · rw [if_pos h1]
      obtain ⟨f1, ⟨p, q, f2, f2', f2''⟩, f3, f4⟩ := flip_spec |lv| os os.sum h01 (by omega)
      have f5 := f4 h1 j hj
      have hjf : j < (lambdaFlip |lv| os os.sum).length := by rw [f1.1]; omega
      have f6 : (lambdaFlip |lv| os os.sum)[j] = -1 := by
        rw [List.getElem?_eq_getElem hjf] at f5
        injection f5
      rw [pySet_nat _ _ j (by omega) hjf]
      refine ⟨_, rfl, ?_, (Or.inl ⟨?_, fun _ => ?_⟩), ?_, ?_⟩
      · rw [sum_set _ _ hjf, f6, f3, if_neg (by omega), if_neg (by omega)]; omega
      · rw [List.length_set, f1.1]; omega
      · exact hSZ (zeroWhere_set (zeroWhere_trans hzw f1) j hjm hmj0 _)
      · intro _
        have hjp : j < p.length := by
          by_contra hc
          have : (lambdaFlip |lv| os os.sum)[j] ∈ q := by
            simp only [f2]
            rw [List.getElem_append_right (by omega)]
            exact List.getElem_mem _
          have := f2'' _ this
          omega
        refine ⟨p.set j 0, q, ?_, ?_, f2''⟩
        · rw [f2, List.set_append_left _ _ hjp]
        · intro x hx
          rcases List.mem_or_eq_of_mem_set hx with hx | rfl
          · exact f2' x hx
          · omega
      · intro _ h; omega
    · rw [if_neg h1]
      by_cases h2 : |lv| < ms.sum
      · rw [if_pos h2]
        obtain ⟨l, rem', last', e1, e2, e3, e3', e4, e5, e6, e7, e8⟩ :=
          fill_spec (ms.zip os) 0 (|lv| - os.sum) 0 hgp
        rw [List.map_fst_zip (by omega)] at e2 e6
        rw [List.map_snd_zip (by omega)] at e4 e6
        rw [e1]
        simp only [py_bind_ok]
        have hrem' := e6 (by omega) (by omega)
        rw [if_neg (by omega)] at hrem'
        rw [if_pos (by omega)]
        have hll : l.length = ms.length := e2.1
        have hjl' : j < l.length := by omega
        have hge : 1 ≤ l[j] := by
          have := e3' j (by simp; omega) hjl'
          simp only [List.getElem_zip] at this
          omega
        rw [pyAddAt_ok _ _ j (by omega) hjl']
        have hall : ∀ y ∈ l.set j (l[j] + -1), 0 ≤ y := by
          intro y hy
          rcases List.mem_or_eq_of_mem_set hy with hy | rfl
          · exact e3 y hy
          · omega
        refine ⟨_, rfl, ?_, (Or.inl ⟨?_, fun _ => ?_⟩),
          (fun _ => negPos_of_nonneg hall), (fun _ _ => hall)⟩
        · rw [sum_set _ _ hjl', e4]; omega
        · rw [List.length_set]; omega
        · exact hSZ (zeroWhere_set e2 j hjm hmj0 _)
      · rw [if_neg h2, pyAddAt_ok _ _ j (by omega) hjm]
        simp only [py_bind_ok]
        refine place_ok ops lv _ _ ?_ ?_ (by omega) ?_ ?_
        · exact hSZ (zeroWhere_set (zeroWhere_refl ms) j hjm hmj0 _)
        · intro y hy
          rcases List.mem_or_eq_of_mem_set hy with hy | rfl
          · exact hmv y hy
          · have := hmv _ (List.getElem_mem hjm); omega
        · intro _ h0
          -- a zero shift does not exceed a product with an odd monomial
          have : ms[j] ≤ ms.sum := by
            have h := sum_set ms j hjm 0
            have := list_sum_nonneg (ms.set j 0) (by
              intro y hy
              rcases List.mem_or_eq_of_mem_set hy with hy | rfl
              · exact hmv y hy
              · omega)
            omega
          have := hmv _ (List.getElem_mem hjm)
          omega
        · rw [sum_set _ _ hjm]; omega
  · -- case `oddin = 0`
    have hin : oddinOf (|lv| - ms.sum) os = 0 := by
      unfold oddinOf
      by_cases h : is_odd (|lv| - ms.sum) = true
      · rw [if_pos h]
        rw [is_odd_iff] at h
        cases hj : indexOfOne os with
        | none => rfl
        | some j => exact absurd ⟨h, j, hj⟩ hodd
      · rw [if_neg h]
    simp only [hin, gt_iff_lt, lt_irrefl, if_false]
    have hno : (|lv| - ms.sum) % 2 = 1 → os.sum = 0 ∧ 1 ∉ os := by
      intro h
      have hn1 : ∀ x ∈ os, x ≠ 1 := by
        cases hj : indexOfOne os with
        | none => exact indexOfOne_none hj
        | some j => exact absurd ⟨h, j, hj⟩ hodd
      refine ⟨?_, fun h => hn1 1 h rfl⟩
      have : os.sum ≤ 0 := list_sum_nonpos _ fun x hx => by
        have := h01 x hx; have := hn1 x hx; omega
      omega
    by_cases h1 : |lv| < os.sum
    · rw [if_pos h1]
      obtain ⟨f1, f2, f3, f4⟩ := flip_spec |lv| os os.sum h01 (by omega)
      refine ⟨_, rfl, ?_, (Or.inl ⟨?_, fun _ => ?_⟩), fun _ => f2, ?_⟩
      · rw [f3, if_neg (by omega)]
        by_cases h : (|lv| - ms.sum) % 2 = 1
        · have := hno h; omega
        · rw [if_pos (by omega)]; omega
      · rw [f1.1]; omega
      · exact hSZ (zeroWhere_trans hzw f1)
      · intro _ h; omega
    · rw [if_neg h1]
      by_cases h2 : |lv| < ms.sum
      · rw [if_pos h2]
        obtain ⟨l, rem', last', e1, e2, e3, e3', e4, e5, e6, e7, e8⟩ :=
          fill_spec (ms.zip os) 0 (|lv| - os.sum) 0 hgp
        rw [List.map_fst_zip (by omega)] at e2 e6
        rw [List.map_snd_zip (by omega)] at e4 e6
        rw [e1]
        simp only [py_bind_ok]
        have hrem' := e6 (by omega) (by omega)
        have hll : l.length = ms.length := e2.1
        by_cases h : (|lv| - ms.sum) % 2 = 1
        · -- the leak
          have hno' := hno h
          rw [if_neg (by omega)] at hrem'
          rw [if_pos (by omega)]
          have hleak : ¬ NoLeak ops lv := by
            rw [hNL]
            rintro (h' | h' | h')
            · exact hno'.2 h'
            · omega
            · omega
          have hne : ms.zip os ≠ [] := by
            intro h0
            have hz : (ms.zip os).length = 0 := by rw [h0]; rfl
            rw [List.length_zip] at hz
            have : ms = [] := List.eq_nil_of_length_eq_zero (by omega)
            rw [this] at h2; simp at h2; omega
          have hlast := e7 hne
          rw [List.length_zip] at hlast
          have hlt : last'.toNat < l.length := by omega
          rw [pyAddAt_ok _ _ last'.toNat (by omega) hlt]
          refine ⟨_, rfl, ?_, Or.inl ⟨?_, fun h => absurd h hleak⟩, fun h => absurd h hleak,
            fun h => absurd h hleak⟩
          · rw [sum_set _ _ hlt, e4]; omega
          · rw [List.length_set]; omega
        · rw [if_pos (by omega)] at hrem'
          rw [if_neg (by omega)]
          refine ⟨_, rfl, by omega, Or.inl ⟨by omega, fun _ => hSZ e2⟩,
            fun _ => negPos_of_nonneg e3, fun _ _ => e3⟩
      · rw [if_neg h2]
        refine place_ok ops lv _ _ (hSZ (zeroWhere_refl ms)) hmv (by omega) ?_ (by omega)
        intro h0 hl0
        have := list_sum_nonneg ms hmv
        omega

theorem lambdaList_ok (ops : List KTSOp) (lv : Int) (hv : ∀ op ∈ ops, op.Valid) :
    ∃ l, Lambda_RadialOp_List ops lv = .ok l ∧ ShiftsOK ops lv l := by
  have hmv : ∀ m ∈ ops.map KTSOp.maxVar, 0 ≤ m := by
    intro m hm
    simp only [List.mem_map] at hm
    obtain ⟨op, h1, rfl⟩ := hm
    exact maxVar_nonneg (hv op h1)
  obtain ⟨L, h1, h2⟩ := absList_ok ops lv hv
  simp only [Lambda_RadialOp_List]
  rw [mapM_irem _ hmv]
  simp only [py_bind_ok]
  rw [h1]
  exact shifts_finish ops lv L h2

end Acm
