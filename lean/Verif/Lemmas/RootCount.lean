import Verif.Lemmas.RadialRoots

/-! The number of monomials of a product whose degree and share of the change of lambda differ in
parity. -/

namespace Acm
open Spec

/-- The number of positions where the two lists differ in parity. -/
def mism : List Int → List Int → Int
  | m :: ms, x :: l => (m + x) % 2 + mism ms l
  | _, _ => 0

theorem mism_nonneg : ∀ ms l, 0 ≤ mism ms l
  | [], _ => le_rfl
  | _ :: _, [] => le_rfl
  | m :: ms, x :: l => by
    have := mism_nonneg ms l
    simp only [mism]; omega

theorem mism_mod : ∀ ms l : List Int, ms.length = l.length → mism ms l % 2 = (ms.sum + l.sum) % 2
  | [], [], _ => rfl
  | [], _ :: _, h => by simp at h
  | _ :: _, [], h => by simp at h
  | m :: ms, x :: l, h => by
    have := mism_mod ms l (by simpa using h)
    simp only [mism, List.sum_cons]; omega

theorem mism_self : ∀ ms, mism ms ms = 0
  | [] => rfl
  | m :: ms => by
    have := mism_self ms
    simp only [mism]; omega

theorem mism_odd : ∀ ms : List Int, mism ms (ms.map fun m => m % 2) = 0
  | [] => rfl
  | m :: ms => by
    have := mism_odd ms
    simp only [mism, List.map_cons]; omega

theorem mism_neg : ∀ ms l : List Int, mism ms (l.map fun x => -x) = mism ms l
  | [], _ => rfl
  | _ :: _, [] => rfl
  | m :: ms, x :: l => by
    have := mism_neg ms l
    simp only [mism, List.map_cons]; omega

theorem mism_set : ∀ (ms l : List Int) (j : Nat) (x d : Int), l[j]? = some x →
    mism ms (l.set j (x + d)) ≤ mism ms l + d % 2
  | [], _, _, _, _, _ => by simp only [mism]; omega
  | _ :: _, [], _, _, _, h => by simp at h
  | m :: ms, y :: l, 0, x, d, h => by
    simp only [List.getElem?_cons_zero, Option.some.injEq] at h
    subst h
    simp only [mism, List.set_cons_zero]; omega
  | m :: ms, y :: l, j + 1, x, d, h => by
    have := mism_set ms l j x d (by simpa using h)
    simp only [mism, List.set_cons_succ]; omega

theorem mism_flip (rem : Int) : ∀ (ms xs : List Int) (oc : Int),
    mism ms (lambdaFlip rem xs oc) = mism ms xs
  | [], _, _ => rfl
  | _ :: _, [], _ => rfl
  | m :: ms, x :: xs, oc => by
    simp only [lambdaFlip]
    split_ifs with h1 h2
    · rfl
    · have := mism_flip rem ms xs (oc - 2)
      simp only [mism]; omega
    · have := mism_flip rem ms xs oc
      simp only [mism]; omega

theorem length_flip (rem : Int) : ∀ (xs : List Int) (oc : Int),
    (lambdaFlip rem xs oc).length = xs.length
  | [], _ => rfl
  | x :: xs, oc => by
    simp only [lambdaFlip]
    split_ifs with h1 h2
    · rfl
    · simp [length_flip rem xs]
    · simp [length_flip rem xs]

theorem mism_fill : ∀ (ms : List Int) (i0 rem last : Int) (r : List Int × Int × Int),
    lambdaFill (ms.zip (ms.map fun m => m % 2)) i0 rem last = .ok r →
    mism ms r.1 = 0 ∧ r.1.length = ms.length
  | [], i0, rem, last, r, h => by
    injection h with h
    subst h
    exact ⟨rfl, rfl⟩
  | m :: ms, i0, rem, last, r, h => by
    simp only [List.map_cons, List.zip_cons_cons, lambdaFill] at h
    split_ifs at h with h1
    · injection h with h
      subst h
      refine ⟨?_, by simp⟩
      have := mism_odd ms
      rw [List.map_snd_zip (by simp)]
      simp only [mism]; omega
    · obtain ⟨q, _, h⟩ := py_bind_eq_ok h
      obtain ⟨r', h2, h⟩ := py_bind_eq_ok h
      injection h with h
      subst h
      have := mism_fill ms _ _ _ r' h2
      refine ⟨?_, by simp [this.2]⟩
      simp only [mism]; omega

theorem pySet_inv {l l' : List Int} {i v : Int} (h : pySet l i v = .ok l') :
    ∃ j : Nat, ∃ x, l[j]? = some x ∧ l' = l.set j v := by
  unfold pySet at h
  simp only at h
  split_ifs at h with h1 h2 h3
  all_goals
    injection h with h
    exact ⟨_, _, List.getElem?_eq_getElem (by omega), h.symm⟩

theorem pyAddAt_inv {l l' : List Int} {i d : Int} (h : pyAddAt l i d = .ok l') :
    ∃ j : Nat, ∃ x, l[j]? = some x ∧ l' = l.set j (x + d) := by
  unfold pyAddAt pyGet pySet at h
  obtain ⟨x, h1, h⟩ := py_bind_eq_ok h
  simp only at h h1
  generalize (if i < 0 then i + (l.length : Int) else i) = j at h h1
  split_ifs at h with h3
  split_ifs at h1 with h2
  · split at h1
    · rename_i e
      injection h1 with h1
      injection h with h
      subst h1
      exact ⟨_, _, e, h.symm⟩
    · cases h1

theorem mism_pySet {ms l l' : List Int} {i v : Int} (h : pySet l i v = .ok l') :
    mism ms l' ≤ mism ms l + 1 ∧ l'.length = l.length := by
  obtain ⟨j, x, h1, rfl⟩ := pySet_inv h
  have := mism_set ms l j x (v - x) h1
  rw [show x + (v - x) = v by omega] at this
  refine ⟨by omega, by simp⟩

theorem mism_pyAddAt {ms l l' : List Int} {i d : Int} (h : pyAddAt l i d = .ok l') :
    mism ms l' ≤ mism ms l + d % 2 ∧ l'.length = l.length := by
  obtain ⟨j, x, h1, rfl⟩ := pyAddAt_inv h
  exact ⟨mism_set ms l j x d h1, by simp⟩

/-- At most one share does not fit in parity, a share for a factor of its own included. -/
def ShfFits (ms L : List Int) : Prop :=
  (L.length = ms.length ∧ mism ms L ≤ 1) ∨
    (∃ x t, L = x :: t ∧ t.length = ms.length ∧ mism (0 :: ms) L ≤ 1)

theorem fits_place {ops : List KTSOp} {lv rem : Int} {ms M L : List Int} (hl : M.length = ms.length)
    (hm : mism ms M + rem % 2 ≤ 1) (h : lambdaPlace ops lv rem M = .ok L) : ShfFits ms L := by
  unfold lambdaPlace at h
  split_ifs at h with h1 h2 h3
  · have := mism_pyAddAt (ms := ms) h
    exact Or.inl ⟨by omega, by omega⟩
  · have := mism_pyAddAt (ms := ms) h
    exact Or.inl ⟨by omega, by omega⟩
  · injection h with h
    subst h
    refine Or.inr ⟨_, _, rfl, hl, ?_⟩
    simp only [mism]; omega
  · injection h with h
    subst h
    exact Or.inl ⟨hl, by omega⟩

theorem fits_abs {ops : List KTSOp} {lv : Int} {ms L : List Int}
    (h : lambdaAbsList ops lv ms (ms.map fun m => m % 2) = .ok L) : ShfFits ms L := by
  unfold lambdaAbsList at h
  simp only at h
  have h0 := mism_self ms
  have h1 := mism_odd ms
  split_ifs at h with c1 c2 c3 c4 c4
  · have := mism_pySet (ms := ms) h
    rw [mism_flip, h1, length_flip, List.length_map] at this
    exact Or.inl ⟨by omega, by omega⟩
  · injection h with h
    subst h
    exact Or.inl ⟨by rw [length_flip, List.length_map], by rw [mism_flip]; omega⟩
  · obtain ⟨r, e1, h⟩ := py_bind_eq_ok h
    have e2 := mism_fill _ _ _ _ _ e1
    split_ifs at h
    · have := mism_pyAddAt (ms := ms) h
      exact Or.inl ⟨by omega, by omega⟩
    · injection h with h
      subst h
      exact Or.inl ⟨by omega, by omega⟩
  · obtain ⟨r, e1, h⟩ := py_bind_eq_ok h
    have e2 := mism_fill _ _ _ _ _ e1
    split_ifs at h
    · have := mism_pyAddAt (ms := ms) h
      exact Or.inl ⟨by omega, by omega⟩
    · injection h with h
      subst h
      exact Or.inl ⟨by omega, by omega⟩
  · obtain ⟨M, e1, h⟩ := py_bind_eq_ok h
    have := mism_pyAddAt (ms := ms) e1
    have hodd : (|lv| - ms.sum) % 2 = 1 := by
      unfold oddinOf at c4
      split_ifs at c4 with c5
      · exact (is_odd_iff _).1 c5
      · omega
    exact fits_place (by omega) (by omega) h
  · exact fits_place rfl (by omega) h

theorem fits_neg {ms L : List Int} (h : ShfFits ms L) : ShfFits ms (L.map fun x => -x) := by
  rcases h with ⟨h1, h2⟩ | ⟨x, t, rfl, h2, h3⟩
  · exact Or.inl ⟨by simpa using h1, by rwa [mism_neg]⟩
  · exact Or.inr ⟨-x, t.map fun x => -x, rfl, by simpa using h2, by rwa [mism_neg]⟩

theorem fits_list {ops : List KTSOp} {lv : Int} {L : List Int} (hv : ∀ op ∈ ops, op.Valid)
    (h : Lambda_RadialOp_List ops lv = .ok L) : ShfFits (ops.map KTSOp.maxVar) L := by
  simp only [Lambda_RadialOp_List] at h
  rw [mapM_irem _ fun m hm => by
    simp only [List.mem_map] at hm
    obtain ⟨op, h1, rfl⟩ := hm
    exact maxVar_nonneg (hv op h1)] at h
  simp only [py_bind_ok] at h
  obtain ⟨M, h1, h⟩ := py_bind_eq_ok h
  have := fits_abs h1
  split_ifs at h
  · injection h with h
    subst h
    exact this
  · injection h with h
    subst h
    exact fits_neg this

theorem mism_append : ∀ (ms l : List Int) (m x : Int), ms.length = l.length →
    mism (ms ++ [m]) (l ++ [x]) = mism ms l + (m + x) % 2
  | [], [], m, x, _ => by simp [mism]
  | [], _ :: _, _, _, h => by simp at h
  | _ :: _, [], _, _, h => by simp at h
  | a :: ms, b :: l, m, x, h => by
    have := mism_append ms l m x (by simpa using h)
    simp only [List.cons_append, mism]; omega

theorem mism_plan {rbs_op : List RadSym} {lv : Int} {ops : List KTSOp} {shfs : List Int}
    (ho : RadSym.other ∉ rbs_op) (h : RepRadial_Prod_plan rbs_op lv = .ok (ops, shfs)) :
    mism (ops.map KTSOp.maxVar) shfs ≤ 1 := by
  obtain ⟨parsed, h1, h2, _, _⟩ := parse_ok rbs_op ho
  unfold RepRadial_Prod_plan at h
  rw [h1] at h
  simp only [py_bind_ok] at h
  obtain ⟨L, h3, h⟩ := py_bind_eq_ok h
  rcases fits_list h2 h3 with ⟨k1, k2⟩ | ⟨x, t, rfl, k1, k2⟩
  · rw [List.length_map] at k1
    rw [if_neg (by omega)] at h
    injection h with h
    injection h with h h'
    subst h h'
    exact k2
  · have k3 := k1
    rw [List.length_map] at k1
    rw [if_pos (by simp; omega)] at h
    split_ifs at h
    · injection h with h
      injection h with h h'
      subst h h'
      simpa [KTSOp.maxVar] using k2
    · injection h with h
      injection h with h h'
      subst h h'
      rw [List.map_append, List.map_singleton, List.tail_cons, List.headD_cons, mism_append _ _ _ _ k3.symm]
      simp only [mism, KTSOp.maxVar, abs_zero] at k2 ⊢
      omega

section
variable {F : Type} [Field F] [LinearOrder F]

theorem representation_roots {op : KTSOp} (hv : op.Valid) {lam : F} {R : Int} {p : FormalProd F}
    (h : op.representation (formal F) lam R = .ok p) : (roots p : Int) = (op.maxVar + R) % 2 := by
  cases op with
  | KT K T =>
    have := bS_DS_roots (show 0 ≤ T from hv) (show RepRadial_bS_DS (formal F) K T lam R = .ok p from h)
    have hK := abs_natAbs K
    rw [this]
    simp only [KTSOp.maxVar]
    omega
  | S s =>
    simp only [KTSOp.representation] at h
    by_cases hR : R ≠ 0
    · rw [if_pos hR] at h; cases h
    · rw [if_neg hR] at h
      have hR0 : R = 0 := by omega
      subst hR0
      obtain ⟨m, e1, h⟩ := py_bind_eq_ok h
      injection h with h
      subst h
      simp [roots, Prim.isRoot, KTSOp.maxVar]

theorem shfs_roots (lam : F) : ∀ (ops : List KTSOp) (shfs : List Int) (lam' : F)
    (P : Option (FormalProd F)), (∀ op ∈ ops, op.Valid) → ops.length = shfs.length →
    RepRadialshfs_loop (formal F) lam ops shfs = .ok (lam', P) →
    (rootsO P : Int) = mism (ops.map KTSOp.maxVar) shfs
  | [], _, _, _, _, _, h => by
    injection h with h
    injection h with _ h
    subst h
    rfl
  | _ :: _, [], _, _, _, hl, _ => by simp at hl
  | op :: ops, R :: shfs, lam', P, hv, hl, h => by
    simp only [RepRadialshfs_loop] at h
    obtain ⟨⟨lam1, P1⟩, h1, h⟩ := py_bind_eq_ok h
    obtain ⟨p, h2, h⟩ := py_bind_eq_ok h
    injection h with h
    injection h with _ h
    subst h
    have ih := shfs_roots lam ops shfs lam1 P1 (fun o ho => hv o (by simp [ho])) (by simpa using hl) h1
    have hp := representation_roots (hv op (by simp)) h2
    simp only [List.map_cons, mism]
    rw [← ih, ← hp]
    cases P1 with
    | none => simp [rootsO]
    | some a =>
      simp only [rootsO]
      rw [roots_mul]
      push_cast
      rfl

end

theorem sum_expo_mod {ops : List KTSOp} : ((ops.map KTSOp.maxVar).sum) % 2 = (ops.map opExpo).sum % 2 := by
  induction ops with
  | nil => rfl
  | cons op ops ih =>
    simp only [List.map_cons, List.sum_cons]
    cases op with
    | KT K T =>
      have := abs_natAbs K
      simp only [KTSOp.maxVar, opExpo]
      omega
    | S s =>
      simp only [KTSOp.maxVar, opExpo]
      omega

theorem sum_symExpo_mod (rbs_op : List RadSym) :
    (rbs_op.map symExpo).sum % 2 = ((rbs_op.countP RadSym.isOdd : Nat) : Int) % 2 := by
  induction rbs_op with
  | nil => rfl
  | cons s t ih =>
    simp only [List.map_cons, List.sum_cons, List.countP_cons]
    cases s <;> simp only [symExpo, RadSym.isOdd, if_true] <;> first | omega | (simp; omega)

end Acm
