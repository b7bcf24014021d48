import Verif.Spec.Memo
import Verif.Lemmas.Py

/-!
# The radial procedures with memo tables agree with those without

`Sim own s p v Q`: started in the state `s`, the procedure `p` with tables ends as the procedure `v` without does; the
tables stay good; the arrays that were stored keep their entries; and `Q` relates the results.
-/

namespace Acm.Memo

open Acm.Spec

variable {la : LinAlg}

/-- Every array in a table has the entries that the procedure without tables gives, and none of them is in `own`. -/
structure Good (la : LinAlg) (own : Set ℕ) (s : HState) : Prop where
  bound : ∀ b ∈ own, b < s.mem.length
  tab : ∀ k r, s.tab k = some r → r.base < s.mem.length ∧ r.base ∉ own ∧ unmemoised la k = .ok (s.read r)

/-- `s'` has the arrays of `s`, and perhaps more; those in `W` may have been changed. -/
def Ext (W : Set ℕ) (s s' : HState) : Prop :=
  s.mem.length ≤ s'.mem.length ∧ ∀ b < s.mem.length, b ∉ W → s'.mem[b]? = s.mem[b]?

theorem Ext.refl (W : Set ℕ) (s : HState) : Ext W s s := ⟨le_refl _, fun _ _ _ => rfl⟩

theorem Ext.trans {W : Set ℕ} {s t u : HState} (h1 : Ext W s t) (h2 : Ext W t u) : Ext W s u :=
  ⟨h1.1.trans h2.1, fun b hb hw => (h2.2 b (hb.trans_le h1.1) hw).trans (h1.2 b hb hw)⟩

theorem Ext.mono {W W' : Set ℕ} {s t : HState} (h : Ext W s t) (hw : W ⊆ W') : Ext W' s t :=
  ⟨h.1, fun b hb hb' => h.2 b hb fun h' => hb' (hw h')⟩

theorem Ext.read {W : Set ℕ} {s t : HState} (h : Ext W s t) {r : ARef} (hr : r.base < s.mem.length)
    (hw : r.base ∉ W) : t.read r = s.read r := by
  have e := h.2 r.base hr hw
  unfold HState.read
  simp only [List.getD_eq_getElem?_getD, e]

/-- The reference is to a stored array with the entries `A` that no caller owns. -/
def Holds (own : Set ℕ) (s : HState) (r : ARef) (A : Arr) : Prop :=
  r.base < s.mem.length ∧ r.base ∉ own ∧ s.read r = A

theorem Holds.ext {own W : Set ℕ} {s t : HState} {r : ARef} {A : Arr} (h : Holds own s r A) (e : Ext W s t)
    (hw : W ⊆ own) : Holds own t r A :=
  ⟨h.1.trans_le e.1, h.2.1, (e.read h.1 fun h' => h.2.1 (hw h')).trans h.2.2⟩

/-- The two procedures end alike, and keep the tables good. -/
def Sim {α β : Type} (la : LinAlg) (own W : Set ℕ) (s : HState) (p : HM α) (v : Py β) (Q : HState → α → β → Prop) :
    Prop :=
  (∃ a b s', p s = (.ok a, s') ∧ v = .ok b ∧ Good la own s' ∧ Ext W s s' ∧ Q s' a b) ∨
    (∃ e s', p s = (.error e, s') ∧ v = .error e ∧ Good la own s' ∧ Ext W s s')

section
variable {own W : Set ℕ} {s : HState} {α β γ δ : Type}

theorem sim_pure {a : α} {b : β} {Q : HState → α → β → Prop} (g : Good la own s) (h : Q s a b) :
    Sim la own W s (pure a) (pure b) Q :=
  .inl ⟨a, b, s, rfl, rfl, g, Ext.refl W s, h⟩

theorem sim_lift (g : Good la own s) (v : Py α) : Sim la own W s (StPy.lift v) v fun _ a b => a = b := by
  cases v with
  | ok a => exact .inl ⟨a, a, s, rfl, rfl, g, Ext.refl W s, rfl⟩
  | error e => exact .inr ⟨e, s, rfl, rfl, g, Ext.refl W s⟩

theorem sim_throw {Q : HState → α → β → Prop} (g : Good la own s) (e : PyErr) :
    Sim la own W s (StPy.lift (throw e)) (throw e : Py β) Q :=
  .inr ⟨e, s, rfl, rfl, g, Ext.refl W s⟩

theorem sim_bind {p : HM α} {v : Py β} {f : α → HM γ} {h : β → Py δ} {Q : HState → α → β → Prop}
    {Q' : HState → γ → δ → Prop} (h1 : Sim la own W s p v Q)
    (h2 : ∀ s' a b, Good la own s' → Ext W s s' → Q s' a b → Sim la own W s' (f a) (h b) Q') :
    Sim la own W s (p >>= f) (v >>= h) Q' := by
  rcases h1 with ⟨a, b, s', hp, rfl, g, e, q⟩ | ⟨x, s', hp, rfl, g, e⟩
  · rcases h2 s' a b g e q with ⟨c, d, t, hf, hh, g', e', q'⟩ | ⟨x, t, hf, hh, g', e'⟩
    · exact .inl ⟨c, d, t, by rw [st_bind_ok hp, hf], hh, g', e.trans e', q'⟩
    · exact .inr ⟨x, t, by rw [st_bind_ok hp, hf], hh, g', e.trans e'⟩
  · exact .inr ⟨x, s', by rw [st_bind_error hp], rfl, g, e⟩

/-- A step that the procedure without tables does not have. -/
theorem sim_left {p : HM α} {f : α → HM γ} {v : Py δ} {Q : HState → α → Unit → Prop}
    {Q' : HState → γ → δ → Prop} (h1 : Sim la own W s p (pure ()) Q)
    (h2 : ∀ s' a, Good la own s' → Ext W s s' → Q s' a () → Sim la own W s' (f a) v Q') :
    Sim la own W s (p >>= f) v Q' := by
  have := sim_bind (h := fun _ : Unit => v) h1 fun s' a _ g e q => h2 s' a g e q
  exact this

theorem sim_assert {Q' : HState → γ → δ → Prop} {f : Unit → HM γ} {h : Unit → Py δ} (c : Prop) [Decidable c]
    (g : Good la own s) (h2 : Sim la own W s (f ()) (h ()) Q') :
    Sim la own W s (StPy.lift (pyAssert c) >>= f) (pyAssert c >>= h) Q' := by
  by_cases hc : c
  · have : pyAssert c = .ok () := by simp [pyAssert, hc]
    rw [this]
    exact h2
  · have : pyAssert c = .error .assertionError := by simp [pyAssert, hc]
    rw [this]
    exact .inr ⟨_, s, rfl, rfl, g, Ext.refl W s⟩

theorem hm_assoc (p : HM α) (f : α → HM β) (h : β → HM γ) : (p >>= f) >>= h = p >>= fun a => f a >>= h := by
  funext t
  simp only [st_bind]
  rcases p t with ⟨a | a, t'⟩ <;> rfl

theorem ext_alloc (W : Set ℕ) (s : HState) (A : Arr) (t : Key → Option ARef) : Ext W s ⟨s.mem ++ [A], t⟩ :=
  ⟨by simp, fun b hb _ => by simp [List.getElem?_append_left hb]⟩

theorem good_alloc (g : Good la own s) (A : Arr) : Good la own ⟨s.mem ++ [A], s.tab⟩ where
  bound b hb := by
    have := g.bound b hb
    simp only [List.length_append]; omega
  tab k r hk := by
    obtain ⟨h1, h2, h3⟩ := g.tab k r hk
    refine ⟨by simp only [List.length_append]; omega, h2, ?_⟩
    rw [h3, (ext_alloc ∅ s A s.tab).read h1 (Set.notMem_empty _)]

theorem read_alloc (s : HState) (A : Arr) (t : Key → Option ARef) :
    HState.read ⟨s.mem ++ [A], t⟩ ⟨s.mem.length, []⟩ = A := by
  simp [HState.read]

theorem holds_alloc (g : Good la own s) (A : Arr) :
    Holds own ⟨s.mem ++ [A], s.tab⟩ ⟨s.mem.length, []⟩ A :=
  ⟨by simp, fun h => lt_irrefl _ (g.bound _ h), read_alloc s A s.tab⟩

theorem sim_alloc (g : Good la own s) (A : Arr) : Sim la own W s (alloc A) (pure A) (Holds own) :=
  .inl ⟨_, A, _, rfl, rfl, good_alloc g A, ext_alloc W s A s.tab, holds_alloc g A⟩

theorem sim_matmul (g : Good la own s) {r r' : ARef} {A B : Arr} (h : Holds own s r A) (h' : Holds own s r' B) :
    Sim la own W s (matmul r r') (pure (A.mul B)) (Holds own) := by
  have e : matmul r r' s = alloc (A.mul B) s := by
    show alloc ((s.read r).mul (s.read r')) s = _
    rw [h.2.2, h'.2.2]
  rcases sim_alloc (W := W) g (A.mul B) with ⟨a, b, s', h1, h2⟩ | ⟨a, s', h1, h2⟩
  · exact .inl ⟨a, b, s', e.trans h1, h2⟩
  · exact .inr ⟨a, s', e.trans h1, h2⟩

theorem sim_times (g : Good la own s) {r : ARef} {A : Arr} (h : Holds own s r A) (x : ℝ) :
    Sim la own W s (times r x) (pure (A.smul x)) (Holds own) := by
  have e : times r x s = alloc (A.smul x) s := by
    show alloc ((s.read r).smul x) s = _
    rw [h.2.2]
  rcases sim_alloc (W := W) g (A.smul x) with ⟨a, b, s', h1, h2⟩ | ⟨a, s', h1, h2⟩
  · exact .inl ⟨a, b, s', e.trans h1, h2⟩
  · exact .inr ⟨a, s', e.trans h1, h2⟩

/-- A product that is changed in place right after it is made. -/
theorem sim_matmul_change (g : Good la own s) {r r' : ARef} {A B : Arr} (h : Holds own s r A) (h' : Holds own s r' B)
    (f : Arr → Arr) : Sim la own W s (do let M ← matmul r r'; change M f; pure (M, 1))
      (pure (f (A.mul B), 1)) fun s a b => Holds own s a.1 b.1 ∧ a.2 = b.2 := by
  have e : (do let M ← matmul r r'; change M f; pure (M, 1) : HM (ARef × ℕ)) s =
      (.ok (⟨s.mem.length, []⟩, 1), ⟨s.mem ++ [f (A.mul B)], s.tab⟩) := by
    show (Except.ok _, HState.mk ((s.mem ++ [(s.read r).mul (s.read r')]).set s.mem.length
      (f (HState.read ⟨s.mem ++ [(s.read r).mul (s.read r')], s.tab⟩ ⟨s.mem.length, []⟩))) s.tab) = _
    rw [read_alloc, h.2.2, h'.2.2]
    simp
  exact .inl ⟨_, _, _, e, rfl, good_alloc g _, ext_alloc W s _ s.tab, holds_alloc g _, rfl⟩

open Classical in
theorem sim_memo (g : Good la own s) (k : Key) {body : HM ARef}
    (h : Sim la own W s body (unmemoised la k) (Holds own)) :
    Sim la own W s (memo k body) (unmemoised la k) (Holds own) := by
  unfold memo
  cases hk : s.tab k with
  | some r =>
    obtain ⟨h1, h2, h3⟩ := g.tab k r hk
    exact .inl ⟨r, _, s, by simp only [hk], h3, g, Ext.refl W s, h1, h2, rfl⟩
  | none =>
    rcases h with ⟨a, b, s', hp, hv, g', e, q⟩ | ⟨x, s', hp, hv, g', e⟩
    · refine .inl ⟨a, b, ⟨s'.mem, fun k' => if k' = k then some a else s'.tab k'⟩, by simp only [hk, hp], hv,
        ⟨g'.bound, fun k' r hk' => ?_⟩, e, q⟩
      by_cases hkk : k' = k
      · simp only [hkk, if_true, Option.some.injEq] at hk'
        subst hk' hkk
        exact ⟨q.1, q.2.1, by rw [hv]; exact congrArg Except.ok q.2.2.symm⟩
      · simp only [hkk, if_false] at hk'
        exact g'.tab k' r hk'
    · exact .inr ⟨x, s', by simp only [hk, hp], hv, g', e⟩

theorem sim_new (g : Good la own s) (v : Py Arr) :
    Sim la own W s (do let M ← StPy.lift v; alloc M) v (Holds own) := by
  have h := sim_bind (h := fun b => pure b) (W := W) (sim_lift g v) (f := alloc) (Q' := Holds own)
    fun s' a b g' _ (q : a = b) => by subst q; exact sim_alloc g' a
  rwa [show (v >>= fun b => pure b) = v from by cases v <;> rfl] at h

end

section
variable {own W : Set ℕ} {s : HState}

theorem sim_RepRadial (g : Good la own s) (ME : RadME) (lam : ℝ) (lo hi : Int) :
    Sim la own W s (RepRadial ME lam lo hi) (Acm.RepRadial ME.fn lam lo hi) (Holds own) :=
  sim_memo g (.rep ME lam lo hi) (sim_new g _)

theorem sim_id_pl (g : Good la own s) (lam : ℝ) (lo hi r : Int) :
    Sim la own W s (id_pl lam lo hi r) (RepRadial_param ME_Radial_id_pl lam lo hi r.toNat) (Holds own) :=
  sim_memo g (.idPl lam lo hi r) (sim_new g _)

theorem sim_id_ml (g : Good la own s) (lam : ℝ) (lo hi r : Int) :
    Sim la own W s (id_ml lam lo hi r) (RepRadial_param ME_Radial_id_ml lam lo hi r.toNat) (Holds own) :=
  sim_memo g (.idMl lam lo hi r) (sim_new g _)

theorem sim_sqrt (g : Good la own s) (lam : ℝ) (lo hi : Int) :
    Sim la own W s (RepRadial_b2_sqrt la lam lo hi) (Acm.RepRadial_b2_sqrt la lam lo hi) (Holds own) :=
  sim_memo g (.b2_sqrt lam lo hi) (sim_new g _)

theorem sim_sqrtInv (g : Good la own s) (lam : ℝ) (lo hi : Int) :
    Sim la own W s (RepRadial_b2_sqrtInv la lam lo hi) (Acm.RepRadial_b2_sqrtInv la lam lo hi) (Holds own) := by
  refine sim_memo g (.b2_sqrtInv lam lo hi) ?_
  refine sim_bind (sim_RepRadial g .b2 lam lo hi) fun s' a b g' _ q => ?_
  have e : ∀ f : Arr → HM ARef, (get a >>= f) s' = f b s' := fun f => by
    show f (s'.read a) s' = _
    rw [q.2.2]
  have h := sim_new (W := W) g' (Matrix_sqrtInv la b)
  unfold Sim at h ⊢
  rw [e]
  exact h

/-- A remembered matrix times a number. -/
theorem sim_scaled {p : HM ARef} {v : Py Arr} (h : Sim la own W s p v (Holds own)) (x : ℝ) (n : ℕ) :
    Sim la own W s (do let M ← p; let M ← times M x; pure (M, n)) (do let M ← v; pure (Arr.smul x M, n))
      fun s a b => Holds own s a.1 b.1 ∧ a.2 = b.2 :=
  sim_bind h fun _ _ b g' _ q => sim_bind (v := pure (Arr.smul x b)) (h := fun M => pure (M, n)) (sim_times g' q x)
    fun _ _ _ g2 _ q2 => sim_pure g2 ⟨q2, rfl⟩

end

section
variable {own W : Set ℕ} {s : HState} (hW : W ⊆ own) (anorm : ℝ) (lo hi : Int)
include hW

theorem sim_select (g : Good la own s) (K : Int) (splits : List Int) (i : ℕ) (lam : ℝ) :
    Sim la own W s (bS_DS_select la anorm lo hi K splits i lam)
      (Acm.bS_DS_select (radMat la anorm lo hi) K splits i lam) fun s a b => Holds own s a.1 b.1 ∧ a.2 = b.2 := by
  unfold bS_DS_select Acm.bS_DS_select
  refine sim_bind (sim_lift g _) fun s split _ g _ q => ?_
  obtain rfl := q
  have hr := fun ME x n => sim_scaled (W := W) (sim_RepRadial g ME lam lo hi) x n
  split_ifs
  · exact sim_assert _ g (hr _ _ _)
  · exact sim_assert _ g (hr _ _ _)
  · exact sim_assert _ g (hr _ _ _)
  · exact sim_assert _ g (hr _ _ _)
  · exact sim_assert _ g (hr _ _ _)
  · exact sim_assert _ g (hr _ _ _)
  · exact sim_assert _ g (hr _ _ _)
  · exact sim_assert _ g (hr _ _ _)
  · exact sim_assert _ g (sim_bind (sim_RepRadial g _ lam lo hi) fun _ _ _ g' _ q => sim_pure g' ⟨q, rfl⟩)
  · exact sim_throw g _
  · exact hr _ _ _
  · exact sim_assert _ g (sim_scaled (sim_sqrt g lam lo hi) _ _)
  · exact sim_assert _ g (sim_scaled (sim_sqrtInv g lam lo hi) _ _)
  · refine sim_assert _ g (sim_bind (sim_sqrtInv g lam lo hi) fun s1 a1 b1 g1 _ q1 => ?_)
    refine sim_bind (sim_RepRadial g1 _ lam lo hi) fun s2 a2 b2 g2 e2 q2 => ?_
    exact sim_matmul_change g2 (q1.ext e2 hW) q2 (Arr.smul (anorm ^ (1 : Int)))

/-- Both variables unassigned, or both assigned and equal. -/
def HoldsOpt (own : Set ℕ) (s : HState) : Option ARef → Option Arr → Prop
  | none, none => True
  | some r, some A => Holds own s r A
  | _, _ => False

omit hW in
theorem HoldsOpt.ext {t : HState} {r : Option ARef} {A : Option Arr} (h : HoldsOpt own s r A) (e : Ext W s t)
    (hw : W ⊆ own) : HoldsOpt own t r A := by
  cases r <;> cases A <;> first | trivial | exact h.elim | exact Holds.ext h e hw

omit hW in
theorem sim_readVar (g : Good la own s) {r : Option ARef} {A : Option Arr} (h : HoldsOpt own s r A) :
    Sim la own W s (StPy.lift (readVar r)) (readVar A) (Holds own) := by
  cases r <;> cases A
  · exact sim_throw g _
  · exact h.elim
  · exact h.elim
  · exact .inl ⟨_, _, s, rfl, rfl, g, Ext.refl W s, h⟩

theorem sim_update (g : Good la own s) (n : ℕ) (lamX : Int) (i : ℕ) {r : ARef} {A : Arr} {r' : Option ARef}
    {B : Option Arr} (h : Holds own s r A) (h' : HoldsOpt own s r' B) :
    Sim la own W s (bS_DS_update n lamX i r r') (Acm.bS_DS_update (radMat la anorm lo hi) n lamX i A B)
      (Holds own) := by
  unfold bS_DS_update Acm.bS_DS_update
  split_ifs
  · exact sim_pure g h
  · exact sim_bind (sim_readVar g h') fun _ _ _ g1 e1 q1 => sim_matmul g1 (h.ext e1 hW) q1

theorem sim_loop (K : Int) (splits : List Int) (n : ℕ) (lamX : Int) : ∀ (i : ℕ) {s : HState} (_ : Good la own s)
    (lam : ℝ) {r : Option ARef} {A : Option Arr} (_ : HoldsOpt own s r A),
    Sim la own W s (bS_DS_loop la anorm lo hi K splits n lamX i lam r)
      (Acm.bS_DS_loop (radMat la anorm lo hi) K splits n lamX i lam A)
      fun s a b => a.1 = b.1 ∧ HoldsOpt own s a.2 b.2 := by
  intro i
  induction i using Nat.strong_induction_on with
  | _ i ih =>
    intro s g lam r A h
    match i with
    | 0 => exact sim_pure g ⟨rfl, h⟩
    | i + 1 =>
      rw [bS_DS_loop.eq_def, Acm.bS_DS_loop.eq_def]
      refine sim_bind (sim_select hW anorm lo hi g K splits (i + 1) lam) fun s1 a1 b1 g1 e1 q1 => ?_
      obtain ⟨a1, m⟩ := a1
      obtain ⟨b1, m'⟩ := b1
      obtain ⟨q1, rfl⟩ := q1
      refine sim_bind (sim_update hW anorm lo hi g1 n lamX (i + 1) q1 (h.ext e1 hW)) fun s2 a2 b2 g2 e2 q2 => ?_
      refine sim_bind (sim_lift g2 _) fun s3 a3 b3 g3 e3 q3 => ?_
      obtain rfl := q3
      dsimp only
      have q2' : HoldsOpt own s3 (some a2) (some b2) := q2.ext e3 hW
      split_ifs
      · exact ih i (by omega) g3 _ q2'
      · cases i with
        | zero => exact sim_pure g3 ⟨rfl, q2'⟩
        | succ j => exact ih j (by omega) g3 _ q2'

theorem sim_finish (g : Good la own s) (n : ℕ) (lamX : Int) (lam : ℝ) {r : Option ARef} {A : Option Arr}
    (h : HoldsOpt own s r A) : Sim la own W s (bS_DS_finish lo hi n lamX lam r)
      (Acm.bS_DS_finish (radMat la anorm lo hi) n lamX lam A) (Holds own) := by
  unfold bS_DS_finish Acm.bS_DS_finish
  have hj : ∀ {s' : HState} {a : Option ARef} {b : Option Arr}, Good la own s' → HoldsOpt own s' a b →
      Sim la own W s' (if n = 0 ∧ lamX = 0 then alloc (Arr.eye (hi - lo + 1).toNat) else StPy.lift (readVar a))
        (readVar (if n = 0 ∧ lamX = 0 then some (Arr.eye (hi - lo + 1).toNat) else b)) (Holds own) := by
    intro s' a b g' q
    split_ifs
    · exact sim_alloc g' _
    · exact sim_readVar g' q
  by_cases h1 : lamX > 0
  · simp only [h1, if_true]
    refine sim_assert _ g (sim_bind (sim_id_pl g lam lo hi _) fun s1 a1 b1 g1 e1 q1 => ?_)
    by_cases h2 : n > 0
    · simp only [h2, if_true]
      refine sim_bind (sim_readVar g1 (h.ext e1 hW)) fun s2 a2 b2 g2 e2 q2 => ?_
      refine sim_bind (v := pure (b1.mul b2)) (h := fun B => readVar
        (if n = 0 ∧ lamX = 0 then some (Arr.eye (hi - lo + 1).toNat) else some B)) (sim_matmul g2 (q1.ext e2 hW) q2)
        fun s3 a3 b3 g3 _ q3 => ?_
      exact hj (a := some a3) (b := some b3) g3 q3
    · simp only [h2, if_false]
      exact hj (a := some a1) (b := some b1) g1 q1
  · simp only [h1, if_false]
    exact hj g h

theorem sim_bS_DS (g : Good la own s) (K T : Int) (lam : ℝ) (R : Int) :
    Sim la own W s (RepRadial_bS_DS la anorm lo hi K T lam R)
      (Acm.RepRadial_bS_DS (radMat la anorm lo hi) K T lam R) (Holds own) := by
  refine sim_memo g (.bS_DS K T anorm lam R lo hi) ?_
  show Sim la own W s (bS_DS_body la anorm lo hi K T lam R) (Acm.RepRadial_bS_DS (radMat la anorm lo hi) K T lam R) _
  unfold bS_DS_body Acm.RepRadial_bS_DS
  by_cases h1 : lam ≤ 0 ∨ lam + (R : ℝ) ≤ 0
  · simp only [h1, if_true]
    exact sim_throw g _
  simp only [h1, if_false]
  by_cases h2 : K = 0 ∧ T = 0 ∧ is_odd R
  · simp only [h2, if_true, and_self]
    unfold bS_DS_odd
    split_ifs
    · refine sim_bind (sim_sqrt g _ lo hi) fun s1 a1 b1 g1 e1 q1 => ?_
      refine sim_bind (sim_RepRadial g1 _ _ lo hi) fun s2 a2 b2 g2 e2 q2 => ?_
      refine sim_left (Q := fun s a _ => Holds own s a (b1.mul b2)) ?_ fun s3 a3 g3 e3 q3 => ?_
      · rcases sim_matmul (W := W) g2 (q1.ext e2 hW) q2 with ⟨a, b, s', h1, h2, h3⟩ | ⟨a, s', h1, h2, h3⟩
        · cases h2
          exact .inl ⟨a, (), s', h1, rfl, h3⟩
        · cases h2
      · exact sim_bind (sim_id_ml g3 _ lo hi _) fun s4 a4 b4 g4 e4 q4 => sim_matmul g4 (q3.ext e4 hW) q4
    · refine sim_bind (sim_sqrt g _ lo hi) fun s1 a1 b1 g1 e1 q1 => ?_
      refine sim_bind (sim_RepRadial g1 _ _ lo hi) fun s2 a2 b2 g2 e2 q2 => ?_
      exact sim_matmul g2 (q1.ext e2 hW) q2
    · refine sim_bind (sim_sqrt g _ lo hi) fun s1 a1 b1 g1 e1 q1 => ?_
      refine sim_bind (sim_RepRadial g1 _ _ lo hi) fun s2 a2 b2 g2 e2 q2 => ?_
      refine sim_left (Q := fun s a _ => Holds own s a (b2.mul b1)) ?_ fun s3 a3 g3 e3 q3 => ?_
      · rcases sim_matmul (W := W) g2 q2 (q1.ext e2 hW) with ⟨a, b, s', h1, h2, h3⟩ | ⟨a, s', h1, h2, h3⟩
        · cases h2
          exact .inl ⟨a, (), s', h1, rfl, h3⟩
        · cases h2
      · exact sim_bind (sim_id_pl g3 _ lo hi _) fun s4 a4 b4 g4 e4 q4 => sim_matmul g4 q4 (q3.ext e4 hW)
    · refine sim_bind (sim_sqrt g _ lo hi) fun s1 a1 b1 g1 e1 q1 => ?_
      refine sim_bind (sim_RepRadial g1 _ _ lo hi) fun s2 a2 b2 g2 e2 q2 => ?_
      exact sim_matmul g2 q2 (q1.ext e2 hW)
  · simp only [h2, if_false]
    refine sim_bind (sim_lift g _) fun s1 a1 b1 g1 e1 q1 => ?_
    obtain rfl := q1
    refine sim_assert _ g1 ?_
    generalize (if a1.length > (|K| + T).toNat then a1.headD 0 else 0) = lamX
    generalize (if a1.length > (|K| + T).toNat then a1.tail else a1) = splits
    have hj : ∀ {s2 : HState} {r : Option ARef} {A : Option Arr} (l : ℝ), Good la own s2 → HoldsOpt own s2 r A →
        Sim la own W s2 (bS_DS_loop la anorm lo hi K splits (|K| + T).toNat lamX (|K| + T).toNat l r >>= fun x =>
          bS_DS_finish lo hi (|K| + T).toNat lamX x.1 x.2)
          (Acm.bS_DS_loop (radMat la anorm lo hi) K splits (|K| + T).toNat lamX (|K| + T).toNat l A >>= fun x =>
            Acm.bS_DS_finish (radMat la anorm lo hi) (|K| + T).toNat lamX x.1 x.2) (Holds own) := by
      intro s2 r A l g2 q2
      refine sim_bind (sim_loop hW anorm lo hi K _ _ _ _ g2 _ q2) fun s3 a3 b3 g3 e3 q3 => ?_
      rw [q3.1]
      exact sim_finish hW anorm lo hi g3 _ _ _ q3.2
    unfold bS_DS_start
    by_cases h3 : lamX < 0
    · simp only [h3, if_true]
      rw [hm_assoc]
      refine sim_assert _ g1 ?_
      rw [hm_assoc]
      exact sim_bind (sim_id_ml g1 _ lo hi _) fun s2 a2 b2 g2 e2 q2 => hj _ g2 (r := some a2) (A := some b2) q2
    · simp only [h3, if_false]
      exact hj lam g1 (r := none) (A := none) trivial

theorem sim_representation (g : Good la own s) (op : KTSOp) (lam : ℝ) (R : Int) :
    Sim la own W s (representation la anorm lo hi op lam R)
      (op.representation (radMat la anorm lo hi) lam R) (Holds own) := by
  cases op with
  | KT K T => exact sim_bS_DS hW anorm lo hi g K T lam R
  | S k =>
    unfold representation KTSOp.representation
    dsimp only
    split_ifs
    · exact sim_throw g _
    · refine sim_bind (sim_lift g _) fun s1 a1 b1 g1 e1 q1 => ?_
      obtain rfl := q1
      exact sim_RepRadial g1 _ lam lo hi

theorem sim_shfs_loop (lam : ℝ) : ∀ (ops : List KTSOp) (shifts : List Int) {s : HState} (_ : Good la own s),
    Sim la own W s (shfs_loop la anorm lo hi lam ops shifts)
      (RepRadialshfs_loop (radMat la anorm lo hi) lam ops shifts) fun s a b => a.1 = b.1 ∧ HoldsOpt own s a.2 b.2
  | [], _, _, g => sim_pure g ⟨rfl, trivial⟩
  | _ :: _, [], _, g => sim_throw g _
  | op :: ops, R :: shifts, s, g => by
    unfold shfs_loop RepRadialshfs_loop
    refine sim_bind (sim_shfs_loop lam ops shifts g) fun s1 a1 b1 g1 e1 q1 => ?_
    obtain ⟨l, a1⟩ := a1
    obtain ⟨l', b1⟩ := b1
    obtain ⟨rfl, q1⟩ : l = l' ∧ HoldsOpt own s1 a1 b1 := q1
    refine sim_bind (sim_representation hW anorm lo hi g1 op l R) fun s2 a2 b2 g2 e2 q2 => ?_
    have q1' := q1.ext e2 hW
    cases a1 with
    | none => cases b1 with
      | none => exact sim_pure g2 ⟨rfl, q2⟩
      | some => exact q1.elim
    | some r => cases b1 with
      | none => exact q1.elim
      | some A =>
        exact sim_bind (v := pure (b2.mul A)) (h := fun x => pure (l + (R : ℝ), some x)) (sim_matmul g2 q2 q1')
          fun _ _ _ g3 _ q3 => sim_pure g3 ⟨rfl, q3⟩

theorem sim_shfs_Prod (g : Good la own s) (ops : List KTSOp) (lam : ℝ) (shifts : List Int) :
    Sim la own W s (RepRadialshfs_Prod la anorm lo hi ops lam shifts)
      (Acm.RepRadialshfs_Prod (radMat la anorm lo hi) ops lam shifts) (Holds own) := by
  refine sim_memo g (.shfs ops anorm lam shifts lo hi) ?_
  refine sim_bind (sim_shfs_loop hW anorm lo hi lam ops shifts g) fun s1 a1 b1 g1 e1 q1 => ?_
  obtain ⟨l, a1⟩ := a1
  obtain ⟨l', b1⟩ := b1
  cases a1 with
  | none => cases b1 with
    | none => exact sim_alloc g1 _
    | some => exact q1.2.elim
  | some r => cases b1 with
    | none => exact q1.2.elim
    | some A => exact sim_pure g1 q1.2

omit hW in
theorem holds_view {r : ARef} {A : Arr} (h : Holds own s r A) (a b : Int) :
    Holds own s (r.view a b) (A.slice a b a b) := by
  refine ⟨h.1, h.2.1, ?_⟩
  rw [← h.2.2]
  simp [HState.read, ARef.view]

theorem sim_Prod_common (g : Good la own s) (op : List RadSym) (lam : ℝ) (var lap : Int) :
    Sim la own W s (Prod_common la op anorm lam var lo hi lap) (RepRadialProd la anorm op lam var lo hi lap)
      (Holds own) := by
  unfold Prod_common RepRadialProd Acm.RepRadial_Prod
  split_ifs
  · exact sim_throw g _
  · exact sim_throw g _
  all_goals
    refine sim_bind (sim_lift g _) fun s1 a1 b1 g1 e1 q1 => ?_
    obtain rfl := q1
    refine sim_bind (sim_shfs_Prod hW anorm _ _ g1 _ lam _) fun s2 a2 b2 g2 e2 q2 => ?_
  · exact sim_pure g2 q2
  · exact sim_pure g2 (holds_view q2 _ _)

theorem sim_Prod_rem (g : Good la own s) (op : List RadSym) (lam : ℝ) (var lap : Int) :
    Sim la own W s (RepRadial_Prod_rem la op anorm lam var lo hi lap) (RepRadialProd la anorm op lam var lo hi lap)
      (Holds own) :=
  sim_memo g (.prod op anorm lam var lo hi lap) (sim_Prod_common hW anorm lo hi g op lam var lap)

omit hW in
theorem good_clear (g : Good la own s) (which : Key → Bool) : Good la own (clear which s).2 where
  bound := g.bound
  tab k r hk := by
    by_cases h : which k
    · simp [clear, h] at hk
    · refine g.tab k r ?_
      simpa [clear, h] using hk

omit hW in
theorem sim_clear {p : HM ARef} {v : Py Arr} (h : Sim la own W s p v (Holds own)) (which : Key → Bool) :
    Sim la own W s (do let r ← p; clear which; pure r) v (Holds own) := by
  rcases h with ⟨a, b, s', hp, hv, g, e, q⟩ | ⟨x, s', hp, hv, g, e⟩
  · refine .inl ⟨a, b, (clear which s').2, ?_, hv, good_clear g which, e, q⟩
    rw [st_bind_ok hp]; rfl
  · exact .inr ⟨x, s', by rw [st_bind_error hp], hv, g, e⟩

theorem sim_Prod (g : Good la own s) (op : List RadSym) (lam : ℝ) (var lap : Int) :
    Sim la own W s (RepRadial_Prod la op anorm lam var lo hi lap) (RepRadialProd la anorm op lam var lo hi lap)
      (Holds own) :=
  sim_clear (sim_Prod_common hW anorm lo hi g op lam var lap) _

end

section
variable {own : Set ℕ} {s : HState} (anorm : ℝ) (lo hi : Int)

/-- The sum: `M` is changed, and nothing else. -/
theorem sim_LC_loop (lam : ℝ) (var lap : Int) (d : Dtype) {M : ARef} (hM : M.base ∈ own) (hw : M.win = []) :
    ∀ (ops : List (ℝ × List RadSym)) {s : HState} (_ : Good la own s),
    Sim la own {M.base} s (LC_loop la anorm lam var lo hi lap d M ops)
      (RepRadial_LC_loop la anorm lam var lo hi lap d ops (s.read M)) fun s _ b => s.read M = b
  | [], s, g => sim_pure g rfl
  | (c, op) :: ops, s, g => by
    have hW : ({M.base} : Set ℕ) ⊆ own := Set.singleton_subset_iff.2 hM
    unfold LC_loop RepRadial_LC_loop
    -- the matrix `M` is not changed by the call
    have h0 : Sim la own ∅ s (RepRadial_Prod_rem la op anorm lam var lo hi lap)
      (RepRadialProd la anorm op lam var lo hi lap) (Holds own) :=
      sim_Prod_rem (Set.empty_subset _) anorm lo hi g op lam var lap
    rcases h0 with ⟨P, A, s1, hp, hv, g1, e1, q1⟩ | ⟨x, s1, hp, hv, g1, e1⟩
    swap
    · refine .inr ⟨x, s1, by rw [st_bind_error hp], by rw [hv]; rfl, g1, e1.mono (Set.empty_subset _)⟩
    have r1 : s1.read M = s.read M := e1.read (g.bound _ hM) (Set.notMem_empty _)
    have h2 : Sim la own ∅ s1 (times P c) (pure (A.smul c)) (Holds own) := sim_times g1 q1 c
    rcases h2 with ⟨X, B, s2, hx, hv2, g2, e2, q2⟩ | ⟨x, s2, hx, hv2, g2, e2⟩
    swap
    · cases hv2
    cases hv2
    have r2 : s2.read M = s.read M := (e2.read (g1.bound _ hM) (Set.notMem_empty _)).trans r1
    have e12 : Ext {M.base} s s2 := (e1.trans e2).mono (Set.empty_subset _)
    rw [hv]
    unfold Sim
    rw [st_bind_ok hp, st_bind_ok hx]
    cases hd : RepRadialProd_dtype op lam var lo hi lap with
    | error x => exact .inr ⟨x, s2, rfl, rfl, g2, e12⟩
    | ok dP =>
      cases hc : iaddCheck d dP with
      | error x =>
        refine .inr ⟨x, s2, ?_, ?_, g2, e12⟩
        · simp only [st_lift_ok, st_lift_error, hc]
        · simp only [py_bind_ok, py_bind_error, hc]
      | ok u =>
        have e3 : Ext {M.base} s2 (change M (fun M => M.add (A.smul c)) s2).2 :=
          ⟨by simp [change], fun b hb hne => by
            have : M.base ≠ b := fun h => hne h.symm
            simp [change, List.getElem?_set_ne this]⟩
        have g3 : Good la own (change M (fun M => M.add (A.smul c)) s2).2 := by
          refine ⟨fun b hb => by simpa [change] using g2.bound b hb, fun k r hk => ?_⟩
          obtain ⟨t1, t2, t3⟩ := g2.tab k r hk
          refine ⟨by simpa [change] using t1, t2, ?_⟩
          rw [t3, e3.read t1 fun h => t2 (h ▸ hM)]
        have r3 : (change M (fun M => M.add (A.smul c)) s2).2.read M = (s.read M).add (A.smul c) := by
          rw [← r2]
          have hlt := g2.bound _ hM
          simp only [change, HState.read, hw, List.foldl_nil, List.getD_eq_getElem?_getD]
          rw [List.getElem?_set_self hlt]
          rfl
        have ih := sim_LC_loop lam var lap d hM hw ops g3
        rw [r3] at ih
        have el : (StPy.lift (iaddCheck d dP) >>= fun _ => get X >>= fun X =>
            change M (fun M => M.add X) >>= fun _ => LC_loop la anorm lam var lo hi lap d M ops) s2 =
            LC_loop la anorm lam var lo hi lap d M ops (change M (fun M => M.add (A.smul c)) s2).2 := by
          rw [hc, st_lift_ok]
          show LC_loop la anorm lam var lo hi lap d M ops (change M (fun M => M.add (s2.read X)) s2).2 = _
          rw [q2.2.2]
        rw [st_lift_ok]
        simp only [py_bind_ok, hc] at el ⊢
        rw [el]
        rcases ih with ⟨a, b, s', h1, h2, g', e', q'⟩ | ⟨x, s', h1, h2, g', e'⟩
        · exact .inl ⟨a, b, s', h1, h2, g', (e12.trans e3).trans e', q'⟩
        · exact .inr ⟨x, s', h1, h2, g', (e12.trans e3).trans e'⟩

/-- `RepRadial_LC_common`: the result is in no table. -/
theorem LC_common_ends (g : Good la own s) (ops : List (ℝ × List RadSym)) (lam : ℝ) (var lap : Int) :
    (∃ M A s', LC_common la ops anorm lam var lo hi lap s = (.ok M, s') ∧
      Acm.RepRadial_LC la ops anorm lam var lo hi lap = .ok A ∧ Good la (insert M.base own) s' ∧ Ext ∅ s s' ∧
      M.base < s'.mem.length ∧ M.base ∉ own ∧ s.mem.length ≤ M.base ∧ M.win = [] ∧ s'.read M = A) ∨
    (∃ e s', LC_common la ops anorm lam var lo hi lap s = (.error e, s') ∧
      Acm.RepRadial_LC la ops anorm lam var lo hi lap = .error e ∧ Good la own s' ∧ Ext ∅ s s') := by
  have hnew : ∀ {s : HState} (_ : Good la own s) (A : Arr),
      Good la (insert s.mem.length own) ⟨s.mem ++ [A], s.tab⟩ := by
    intro s g A
    have g' := good_alloc g A
    refine ⟨fun b hb => ?_, fun k r hk => ?_⟩
    · rcases hb with rfl | hb
      · simp
      · exact g'.bound b hb
    · obtain ⟨t1, t2, t3⟩ := g'.tab k r hk
      refine ⟨t1, ?_, t3⟩
      rintro (h | h)
      · exact absurd (g.tab k r hk).1 (by omega)
      · exact t2 h
  match ops with
  | [] =>
    exact .inl ⟨_, _, _, rfl, rfl, hnew g _, ext_alloc ∅ s _ s.tab, by simp, fun h => lt_irrefl _ (g.bound _ h),
      le_refl _, rfl, read_alloc s _ s.tab⟩
  | (c, op) :: ops =>
    simp only [LC_common, Acm.RepRadial_LC]
    have h0 : Sim la own ∅ s (RepRadial_Prod_rem la op anorm lam var lo hi lap)
      (RepRadialProd la anorm op lam var lo hi lap) (Holds own) :=
      sim_Prod_rem (Set.empty_subset _) anorm lo hi g op lam var lap
    rcases h0 with ⟨P, A, s1, hp, hv, g1, e1, q1⟩ | ⟨x, s1, hp, hv, g1, e1⟩
    swap
    · refine .inr ⟨x, s1, by rw [st_bind_error hp], by rw [hv]; rfl, g1, e1⟩
    have hx : times P c s1 = (.ok ⟨s1.mem.length, []⟩, ⟨s1.mem ++ [A.smul c], s1.tab⟩) := by
      show alloc ((s1.read P).smul c) s1 = _
      rw [q1.2.2]; rfl
    have g2 := hnew g1 (A.smul c)
    have e2 : Ext ∅ s ⟨s1.mem ++ [A.smul c], s1.tab⟩ := e1.trans (ext_alloc ∅ s1 _ s1.tab)
    rw [st_bind_ok hp, st_bind_ok hx, hv]
    cases hd : RepRadialProd_dtype op lam var lo hi lap with
    | error x => exact .inr ⟨x, _, rfl, rfl, good_alloc g1 _, e2⟩
    | ok d =>
      have hl := sim_LC_loop anorm lo hi lam var lap d (M := ⟨s1.mem.length, []⟩) (Set.mem_insert _ _) rfl ops g2
      rw [read_alloc] at hl
      have h3 : ∀ s3, Ext {s1.mem.length} ⟨s1.mem ++ [A.smul c], s1.tab⟩ s3 → Ext ∅ s s3 := by
        intro s3 h
        refine ⟨e2.1.trans h.1, fun b hb _ => ?_⟩
        have hb1 : b < s1.mem.length := hb.trans_le e1.1
        rw [h.2 b (hb.trans_le e2.1) (by simp only [Set.mem_singleton_iff]; omega), e2.2 b hb (Set.notMem_empty _)]
      rw [st_lift_ok]
      rcases hl with ⟨a, b, s3, h1, h2, g3, e3, q3⟩ | ⟨x, s3, h1, h2, g3, e3⟩
      · refine .inl ⟨⟨s1.mem.length, []⟩, b, s3, by rw [st_bind_ok h1]; rfl, h2, g3, h3 s3 e3, ?_, ?_, e1.1, rfl,
          q3⟩
        · refine lt_of_lt_of_le ?_ e3.1
          simp
        · exact fun h => absurd (g1.bound _ h) (lt_irrefl _)
      · refine .inr ⟨x, s3, by rw [st_bind_error h1], h2, ⟨fun b hb => g3.bound b (Set.mem_insert_of_mem _ hb),
          fun k r hk => ?_⟩, h3 s3 e3⟩
        obtain ⟨t1, t2, t3⟩ := g3.tab k r hk
        exact ⟨t1, fun h => t2 (Set.mem_insert_of_mem _ h), t3⟩

theorem sim_LC_common (g : Good la own s) (ops : List (ℝ × List RadSym)) (lam : ℝ) (var lap : Int) :
    Sim la own ∅ s (LC_common la ops anorm lam var lo hi lap) (Acm.RepRadial_LC la ops anorm lam var lo hi lap)
      (Holds own) := by
  rcases LC_common_ends anorm lo hi g ops lam var lap with
    ⟨M, A, s', h1, h2, g', e, hlt, hno, -, hw, hr⟩ | ⟨x, s', h1, h2, g', e⟩
  · refine .inl ⟨M, A, s', h1, h2, ⟨fun b hb => g'.bound b (Set.mem_insert_of_mem _ hb), fun k r hk => ?_⟩, e, hlt, hno,
      hr⟩
    obtain ⟨t1, t2, t3⟩ := g'.tab k r hk
    exact ⟨t1, fun h => t2 (Set.mem_insert_of_mem _ h), t3⟩
  · exact .inr ⟨x, s', h1, h2, g', e⟩

/-- Every call of a memoised procedure. -/
theorem sim_call (g : Good la own s) (k : Key) :
    Sim la own ∅ s (k.call la) (unmemoised la k) (Holds own) := by
  have hW : (∅ : Set ℕ) ⊆ own := Set.empty_subset _
  cases k with
  | rep ME lam lo hi => exact sim_RepRadial g ME lam lo hi
  | idPl lam lo hi r => exact sim_id_pl g lam lo hi r
  | idMl lam lo hi r => exact sim_id_ml g lam lo hi r
  | b2_sqrt lam lo hi => exact sim_sqrt g lam lo hi
  | b2_sqrtInv lam lo hi => exact sim_sqrtInv g lam lo hi
  | bS_DS K T anorm lam R lo hi => exact sim_bS_DS hW anorm lo hi g K T lam R
  | shfs ops anorm lam shifts lo hi => exact sim_shfs_Prod hW anorm lo hi g ops lam shifts
  | prod op anorm lam var lo hi lap => exact sim_Prod_rem hW anorm lo hi g op lam var lap
  | lc ops anorm lam var lo hi lap =>
    exact sim_memo g (.lc ops anorm lam var lo hi lap) (sim_LC_common anorm lo hi g ops lam var lap)

/-- What a call gives, and what it keeps. -/
theorem Sim.result {p : HM ARef} {v : Py Arr} (h : Sim la own ∅ s p v (Holds own)) :
    memoResult p s = v ∧ Good la own (p s).2 ∧ Ext ∅ s (p s).2 := by
  rcases h with ⟨a, b, s', hp, hv, g, e, q⟩ | ⟨x, s', hp, hv, g, e⟩
  · refine ⟨?_, by rw [hp]; exact g, by rw [hp]; exact e⟩
    rw [memoResult, hp, hv]
    exact congrArg Except.ok q.2.2
  · refine ⟨?_, by rw [hp]; exact g, by rw [hp]; exact e⟩
    rw [memoResult, hp, hv]

end

section
variable {α β : Type}

/-- The procedure forgets nothing. -/
def Grows (p : HM α) : Prop := ∀ s k r, s.tab k = some r → (p s).2.tab k = some r

theorem grows_pure (a : α) : Grows (pure a) := fun _ _ _ h => h
theorem grows_lift (v : Py α) : Grows (StPy.lift v) := fun _ _ _ h => h
theorem grows_alloc (A : Arr) : Grows (alloc A) := fun _ _ _ h => h
theorem grows_get (r : ARef) : Grows (get r) := fun _ _ _ h => h
theorem grows_change (r : ARef) (f : Arr → Arr) : Grows (change r f) := fun _ _ _ h => h

theorem grows_bind {p : HM α} {f : α → HM β} (h1 : Grows p) (h2 : ∀ a, Grows (f a)) : Grows (p >>= f) := by
  intro s k r h
  rw [st_bind]
  have := h1 s k r h
  rcases hp : p s with ⟨x | x, t⟩
  · rw [hp] at this; exact this
  · rw [hp] at this; exact h2 x t k r this

theorem grows_ite {c : Prop} [Decidable c] {p q : HM α} (h1 : Grows p) (h2 : Grows q) : Grows (if c then p else q) := by
  split_ifs <;> assumption

theorem grows_memo (k : Key) {body : HM ARef} (h : Grows body) : Grows (memo k body) := by
  intro s k' r hk
  unfold memo
  cases hs : s.tab k with
  | some r' => exact hk
  | none =>
    have := h s k' r hk
    rcases hb : body s with ⟨x | x, t⟩
    · rw [hb] at this; exact this
    · rw [hb] at this
      have hne : k' ≠ k := by
        rintro rfl
        rw [hs] at hk
        cases hk
      simpa [hne] using this

theorem grows_matmul (A B : ARef) : Grows (matmul A B) :=
  grows_bind (grows_get _) fun _ => grows_bind (grows_get _) fun _ => grows_alloc _

theorem grows_times (A : ARef) (x : ℝ) : Grows (times A x) := grows_bind (grows_get _) fun _ => grows_alloc _

theorem grows_new (k : Key) (v : Py Arr) : Grows (memo k (do let M ← StPy.lift v; alloc M)) :=
  grows_memo k (grows_bind (grows_lift _) fun _ => grows_alloc _)

theorem grows_rep (ME : RadME) (lam : ℝ) (lo hi : Int) : Grows (RepRadial ME lam lo hi) := grows_new _ _
theorem grows_id_pl (lam : ℝ) (lo hi r : Int) : Grows (id_pl lam lo hi r) := grows_new _ _
theorem grows_id_ml (lam : ℝ) (lo hi r : Int) : Grows (id_ml lam lo hi r) := grows_new _ _
theorem grows_sqrt (lam : ℝ) (lo hi : Int) : Grows (RepRadial_b2_sqrt la lam lo hi) := grows_new _ _

theorem grows_sqrtInv (lam : ℝ) (lo hi : Int) : Grows (RepRadial_b2_sqrtInv la lam lo hi) :=
  grows_memo _ (grows_bind (grows_rep _ _ _ _) fun _ => grows_bind (grows_get _) fun _ =>
    grows_bind (grows_lift _) fun _ => grows_alloc _)

macro "grows" : tactic => `(tactic| repeat' first
  | exact grows_pure _ | exact grows_lift _ | exact grows_alloc _ | exact grows_get _ | exact grows_change _ _
  | exact grows_matmul _ _ | exact grows_times _ _ | exact grows_rep _ _ _ _ | exact grows_id_pl _ _ _ _
  | exact grows_id_ml _ _ _ _ | exact grows_sqrt _ _ _ | exact grows_sqrtInv _ _ _ | assumption
  | refine grows_ite ?_ ?_ | refine grows_bind ?_ fun _ => ?_)

theorem grows_select (anorm : ℝ) (lo hi K : Int) (l : List Int) (i : ℕ) (lam : ℝ) :
    Grows (bS_DS_select la anorm lo hi K l i lam) := by
  unfold bS_DS_select
  grows

theorem grows_update (n : ℕ) (lamX : Int) (i : ℕ) (r : ARef) (P : Option ARef) : Grows (bS_DS_update n lamX i r P) := by
  unfold bS_DS_update
  grows

theorem grows_loop (anorm : ℝ) (lo hi K : Int) (l : List Int) (n : ℕ) (lamX : Int) : ∀ (i : ℕ) (lam : ℝ)
    (P : Option ARef), Grows (bS_DS_loop la anorm lo hi K l n lamX i lam P) := by
  intro i
  induction i using Nat.strong_induction_on with
  | _ i ih =>
    intro lam P
    match i with
    | 0 => exact grows_pure _
    | i + 1 =>
      rw [bS_DS_loop.eq_def]
      refine grows_bind (grows_select anorm lo hi K l (i + 1) lam) fun a => grows_bind (grows_update _ _ _ _ _) fun P =>
        grows_bind (grows_lift _) fun d => grows_ite (ih i (by omega) _ _) ?_
      cases i with
      | zero => exact grows_pure _
      | succ j => exact ih j (by omega) _ _

theorem grows_finish (lo hi : Int) (n : ℕ) (lamX : Int) (lam : ℝ) (P : Option ARef) :
    Grows (bS_DS_finish lo hi n lamX lam P) := by
  unfold bS_DS_finish
  dsimp only
  grows

theorem grows_odd (lo hi : Int) (lam : ℝ) (R : Int) : Grows (bS_DS_odd la lo hi lam R) := by
  unfold bS_DS_odd
  grows

theorem grows_start (lo hi lamX : Int) (lam : ℝ) : Grows (bS_DS_start lo hi lamX lam) := by
  unfold bS_DS_start
  grows

theorem grows_bS_DS (anorm : ℝ) (lo hi K T : Int) (lam : ℝ) (R : Int) :
    Grows (RepRadial_bS_DS la anorm lo hi K T lam R) := by
  refine grows_memo _ ?_
  unfold bS_DS_body
  refine grows_ite (grows_lift _) (grows_ite (grows_odd lo hi lam R) (grows_bind (grows_lift _) fun _ =>
    grows_bind (grows_lift _) fun _ => grows_bind (grows_start lo hi _ lam) fun _ =>
    grows_bind (grows_loop anorm lo hi K _ _ _ _ _ _) fun _ => grows_finish lo hi _ _ _ _))

theorem grows_representation (anorm : ℝ) (lo hi : Int) (op : KTSOp) (lam : ℝ) (R : Int) :
    Grows (representation la anorm lo hi op lam R) := by
  cases op with
  | KT K T => exact grows_bS_DS anorm lo hi K T lam R
  | S k => exact grows_ite (grows_lift _) (grows_bind (grows_lift _) fun _ => grows_rep _ _ _ _)

theorem grows_shfs_loop (anorm : ℝ) (lo hi : Int) (lam : ℝ) : ∀ (ops : List KTSOp) (shifts : List Int),
    Grows (shfs_loop la anorm lo hi lam ops shifts)
  | [], _ => grows_pure _
  | _ :: _, [] => grows_lift _
  | op :: ops, R :: shifts => by
    unfold shfs_loop
    refine grows_bind (grows_shfs_loop anorm lo hi lam ops shifts) fun a =>
      grows_bind (grows_representation anorm lo hi op a.1 R) fun M => ?_
    rcases a with ⟨l, _ | P⟩
    · exact grows_pure _
    · exact grows_bind (grows_matmul _ _) fun _ => grows_pure _

theorem grows_shfs_Prod (anorm : ℝ) (lo hi : Int) (ops : List KTSOp) (lam : ℝ) (shifts : List Int) :
    Grows (RepRadialshfs_Prod la anorm lo hi ops lam shifts) := by
  refine grows_memo _ (grows_bind (grows_shfs_loop anorm lo hi lam ops shifts) fun a => ?_)
  rcases a with ⟨l, _ | P⟩
  · exact grows_alloc _
  · exact grows_pure _

theorem grows_Prod_common (op : List RadSym) (anorm lam : ℝ) (var lo hi lap : Int) :
    Grows (Prod_common la op anorm lam var lo hi lap) :=
  grows_ite (grows_lift _) (grows_ite (grows_lift _) (grows_bind (grows_lift _) fun _ =>
    grows_bind (grows_shfs_Prod _ _ _ _ _ _) fun _ => grows_ite (grows_pure _) (grows_pure _)))

theorem grows_Prod_rem (op : List RadSym) (anorm lam : ℝ) (var lo hi lap : Int) :
    Grows (RepRadial_Prod_rem la op anorm lam var lo hi lap) :=
  grows_memo _ (grows_Prod_common op anorm lam var lo hi lap)

theorem grows_LC_loop (anorm lam : ℝ) (var lo hi lap : Int) (d : Dtype) (M : ARef) :
    ∀ ops, Grows (LC_loop la anorm lam var lo hi lap d M ops)
  | [] => grows_pure _
  | (_, op) :: ops => grows_bind (grows_Prod_rem op anorm lam var lo hi lap) fun _ => grows_bind (grows_times _ _) fun _ =>
      grows_bind (grows_lift _) fun _ => grows_bind (grows_lift _) fun _ => grows_bind (grows_get _) fun _ =>
      grows_bind (grows_change _ _) fun _ => grows_LC_loop anorm lam var lo hi lap d M ops

theorem grows_LC_common (ops : List (ℝ × List RadSym)) (anorm lam : ℝ) (var lo hi lap : Int) :
    Grows (LC_common la ops anorm lam var lo hi lap) := by
  match ops with
  | [] => exact grows_alloc _
  | (c, op) :: ops =>
    exact grows_bind (grows_Prod_rem op anorm lam var lo hi lap) fun _ => grows_bind (grows_times _ _) fun _ =>
      grows_bind (grows_lift _) fun _ => grows_bind (grows_LC_loop anorm lam var lo hi lap _ _ ops) fun _ => grows_pure _

theorem grows_call (k : Key) : Grows (k.call la) := by
  cases k with
  | rep => exact grows_rep _ _ _ _
  | idPl => exact grows_id_pl _ _ _ _
  | idMl => exact grows_id_ml _ _ _ _
  | b2_sqrt => exact grows_sqrt _ _ _
  | b2_sqrtInv => exact grows_sqrtInv _ _ _
  | bS_DS => exact grows_bS_DS _ _ _ _ _ _ _
  | shfs => exact grows_shfs_Prod _ _ _ _ _ _
  | prod => exact grows_Prod_rem _ _ _ _ _ _ _
  | lc => exact grows_memo _ (grows_LC_common _ _ _ _ _ _ _)

/-- A call for which the table has an array. -/
theorem call_hit (k : Key) {s : HState} {r : ARef} (h : s.tab k = some r) : k.call la s = (.ok r, s) := by
  have key : ∀ body : HM ARef, memo k body s = (.ok r, s) := fun body => by simp only [memo, h]
  cases k <;> exact key _

/-- What a call returned is in the table. -/
theorem call_tab (k : Key) {s s' : HState} {r : ARef} (h : k.call la s = (.ok r, s')) : s'.tab k = some r := by
  have key : ∀ body : HM ARef, memo k body s = (.ok r, s') → s'.tab k = some r := by
    intro body h
    unfold memo at h
    cases hk : s.tab k with
    | some r' =>
      rw [hk] at h
      cases h
      exact hk
    | none =>
      rw [hk] at h
      rcases hb : body s with ⟨x | x, t⟩
      · rw [hb] at h
        cases h
      · rw [hb] at h
        cases h
        simp
  cases k <;> exact key _ h

end

end Acm.Memo
