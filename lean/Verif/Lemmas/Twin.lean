import Verif.Props.Scale

/-!
# Two runs from states with the same settings
-/

namespace Acm

open Acm.Spec

/-- Two runs from related states return the same, or raise the same exception, and end in related states. -/
def Twin (R : FState → FState → Prop) {α : Type} (m : FM α) : Prop :=
  ∀ s t, R s t → (m s).1 = (m t).1 ∧ R (m s).2 (m t).2

/-- Relations between states with the same settings that allow printing the same. -/
structure TwinFrame (R : FState → FState → Prop) : Prop where
  glb : ∀ s t, R s t → s.glb = t.glb
  print : ∀ s t l, R s t → R (s.add [l]) (t.add [l])

section
variable {R : FState → FState → Prop} (F : TwinFrame R) {α β : Type}
include F

omit F in
theorem twin_pure (x : α) : Twin R (pure x : FM α) := fun _ _ h => ⟨rfl, h⟩

omit F in
theorem twin_lift (x : Py α) : Twin R (StPy.lift x : FM α) := fun _ _ h => ⟨rfl, h⟩

theorem twin_glb : Twin R FM.glb := fun s t h => ⟨congrArg Except.ok (F.glb s t h), h⟩

theorem twin_print (l : Shown) : Twin R (FM.print l) := fun s t h => ⟨rfl, F.print s t l h⟩

omit F in
theorem twin_bind {m : FM α} {f : α → FM β} (h1 : Twin R m) (h2 : ∀ a, Twin R (f a)) : Twin R (m >>= f) := by
  intro s t h
  obtain ⟨e, h'⟩ := h1 s t h
  rcases hm : m s with ⟨x, s'⟩
  rcases hn : m t with ⟨y, t'⟩
  rw [hm, hn] at e h'
  replace e : x = y := e
  subst e
  cases x with
  | error e => rw [st_bind_error hm, st_bind_error hn]; exact ⟨rfl, h'⟩
  | ok a => rw [st_bind_ok hm, st_bind_ok hn]; exact h2 a s' t' h'

omit F in
theorem twin_ite {c : Prop} [Decidable c] {m n : FM α} (h1 : Twin R m) (h2 : Twin R n) :
    Twin R (if c then m else n) := by split_ifs <;> assumption

theorem twin_eigsLoop (low sft : ℝ) (a b c : Int) : ∀ r, Twin R (showEigsLoop low sft a b c r)
  | [] => twin_pure _
  | (_, _) :: r => twin_ite (twin_bind (twin_print F _) fun _ => twin_eigsLoop low sft a b c r)
      (twin_eigsLoop low sft a b c r)

theorem twin_Show_Eigs (vals : List (List ℝ)) (Ls : List Int) (t : Int) (l m : Option Int) :
    Twin R (Show_Eigs vals Ls t l m) := by
  unfold Show_Eigs
  refine twin_bind (twin_lift _) fun _ => twin_ite (twin_pure _)
    (twin_bind (twin_lift _) fun _ => twin_ite ?_ (twin_pure _))
  unfold showEigsBody
  exact twin_bind (twin_glb F) fun g => twin_ite
    (twin_bind (twin_lift _) fun _ => twin_bind (twin_print F _) fun _ =>
      twin_bind (twin_eigsLoop F _ _ _ _ _ _) fun _ => twin_pure _)
    (twin_bind (twin_print F _) fun _ => twin_bind (twin_eigsLoop F _ _ _ _ _ _) fun _ => twin_pure _)

theorem twin_melValue (f : MelFun) (sc : ℝ) (T : Arr) (a b c d : Int) : Twin R (melValue f sc T a b c d) :=
  twin_bind (twin_glb F) fun _ => twin_bind (twin_lift _) fun _ => twin_bind (twin_lift _) fun _ =>
    twin_pure _

theorem twin_rowValues (f : MelFun) (sc : ℝ) (T : Arr) (a b c : Int) : ∀ ns, Twin R (rowValues f sc T a b c ns)
  | [] => twin_pure _
  | _ :: ns => twin_bind (twin_melValue F _ _ _ _ _ _ _) fun _ =>
      twin_bind (twin_rowValues f sc T a b c ns) fun _ => twin_pure _

theorem twin_Row (A : LBlockArray) (a b c d : Int) (f : MelFun) (sc : ℝ) :
    Twin R (Show_Mels_Row A a b c d f sc) :=
  twin_ite (twin_pure _) (twin_bind (twin_lift _) fun _ => twin_ite (twin_pure _)
    (twin_bind (twin_rowValues F _ _ _ _ _ _ _) fun _ => twin_bind (twin_print F _) fun _ => twin_pure _))

theorem twin_RowsLoop (A : LBlockArray) (a b c : Int) (f : MelFun) (sc : ℝ) :
    ∀ ns, Twin R (showRowsLoop A a b c f sc ns)
  | [] => twin_pure _
  | _ :: ns => twin_bind (twin_Row F _ _ _ _ _ _ _) fun _ => twin_ite (twin_pure _)
      (twin_RowsLoop A a b c f sc ns)

theorem twin_RowsL1 (A : LBlockArray) (a b : Int) (f : MelFun) (sc : ℝ) : ∀ ns, Twin R (showRowsL1 A a b f sc ns)
  | [] => twin_pure _
  | _ :: ns => twin_bind (twin_RowsLoop F _ _ _ _ _ _ _) fun _ => twin_RowsL1 A a b f sc ns

theorem twin_Rows (A : LBlockArray) (a b : Int) (f : MelFun) (sc : ℝ) : Twin R (Show_Mels_Rows A a b f sc) :=
  twin_bind (twin_glb F) fun _ => twin_RowsL1 F _ _ _ _ _ _

theorem twin_AllRows (A : LBlockArray) (a : Int) (f : MelFun) (sc : ℝ) : ∀ ns, Twin R (showAllRows A a f sc ns)
  | [] => twin_pure _
  | _ :: ns => twin_bind (twin_Rows F _ _ _ _ _) fun _ => twin_AllRows A a f sc ns

theorem twin_One (A : LBlockArray) (a b c d : Int) (f : MelFun) (sc : ℝ) : Twin R (showOne A a b c d f sc) :=
  twin_ite (twin_bind (twin_lift _) fun _ => twin_ite
    (twin_bind (twin_melValue F _ _ _ _ _ _ _) fun _ => twin_print F _) (twin_pure _)) (twin_pure _)

theorem twin_Series (A : LBlockArray) (a b c : Int) (f : MelFun) (sc : ℝ) :
    ∀ k L1 L2, Twin R (showSeries A a b c f sc k L1 L2)
  | 0, _, _ => twin_pure _
  | k + 1, _, _ => twin_bind (twin_One F _ _ _ _ _ _ _) fun _ => twin_Series A a b c f sc k _ _

theorem twin_Designator (A : LBlockArray) (t : Int) (f : MelFun) (sc : ℝ) :
    ∀ ent, Twin R (showDesignator A t f sc ent)
  | [] => twin_AllRows F _ _ _ _ _
  | [_] => twin_ite (twin_pure _) (twin_Rows F _ _ _ _ _)
  | [_, _] => twin_ite (twin_pure _) (twin_RowsLoop F _ _ _ _ _ _ _)
  | [_, _, _] => twin_ite (twin_pure _) (twin_bind (twin_Row F _ _ _ _ _ _ _) fun _ => twin_pure _)
  | [_, _, _, _] => twin_ite (twin_pure _) (twin_One F _ _ _ _ _ _ _)
  | [_, _, _, _, _] => twin_ite (twin_pure _) (twin_ite (twin_pure _)
      (twin_bind (twin_lift _) fun _ => twin_Series F _ _ _ _ _ _ _ _ _))
  | _ :: _ :: _ :: _ :: _ :: _ :: _ => twin_print F _

theorem twin_Designators (A : LBlockArray) (t : Int) (f : MelFun) (sc : ℝ) :
    ∀ l, Twin R (showDesignators A t f sc l)
  | [] => twin_pure _
  | _ :: l => twin_bind (twin_Designator F _ _ _ _ _) fun _ => twin_Designators A t f sc l

theorem twin_Show_Mels (A : LBlockArray) (l : List (List Int)) (t : Int) (f : MelFun) (sc : ℝ) :
    Twin R (Show_Mels A l t f sc) :=
  twin_ite (twin_pure _) (twin_ite (twin_lift _)
    (twin_bind (twin_print F _) fun _ => twin_Designators F _ _ _ _ _))

theorem twin_RatsAmps (A : LBlockArray) : Twin R (showRatsAmps A) :=
  twin_bind (twin_glb F) fun _ => twin_bind (twin_Show_Mels F _ _ _ _ _) fun _ =>
    twin_bind (twin_glb F) fun _ => twin_Show_Mels F _ _ _ _ _

end

section
variable {R : FState → FState → Prop} {env : XEnv} (X : ∀ ts a, Twin R (FM.liftX (RepXspace env ts a)))
include X

theorem twin_digTame (ham : OperatorSum) (a : XArgs) : ∀ Ls, Twin R (digTame env ham a Ls)
  | [] => twin_pure _
  | _ :: Ls => twin_bind (twin_lift _) fun _ => twin_ite
      (twin_bind (X _ _) fun _ => twin_bind (twin_lift _) fun _ =>
        twin_bind (twin_digTame ham a Ls) fun _ => twin_pure _)
      (twin_digTame ham a Ls)

theorem twin_Dig (ham : OperatorSum) (a : XArgs) : Twin R (DigXspace env ham a) :=
  twin_bind (twin_lift _) fun _ => twin_ite (twin_digTame X _ _ _)
    (twin_bind (X _ _) fun _ => twin_lift _)

end

section
variable {R : FState → FState → Prop} {env : FEnv} (X : ∀ ts a, Twin R (FM.liftX (RepXspace env.x ts a)))
include X

theorem twin_Amp (op : OperatorSum) (bs : List Arr) (a : XArgs) (Ls : List Int) :
    Twin R (AmpXspeig env op bs a Ls) := by
  unfold AmpXspeig
  exact twin_bind (twin_lift _) fun _ => twin_bind (twin_lift _) fun _ => twin_bind (twin_lift _) fun _ =>
    twin_bind (twin_lift _) fun _ => twin_bind (X _ _) fun _ => twin_lift _

variable (F : TwinFrame R)
  (S : ∀ f : Glb → Glb, (∀ g, (f g).lam_fun = g.lam_fun) → Twin R (FM.setGlb f))
include F S

open Classical in
omit X in
theorem twin_fitEig (r : List LEig) : Twin R (fitEig r) := by
  unfold fitEig
  exact twin_bind (twin_glb F) fun _ => twin_bind (twin_lift _) fun _ => twin_bind (twin_lift _) fun _ =>
    twin_bind (twin_lift _) fun _ => twin_bind (S _ fun _ => rfl) fun _ => twin_ite (twin_lift _) (twin_pure _)

open Classical in
omit X in
theorem twin_fitRat (t : LBlockArray) (Ls : List Int) : Twin R (fitRat t Ls) := by
  unfold fitRat
  exact twin_bind (twin_glb F) fun _ => twin_ite (twin_lift _) (twin_ite (twin_lift _)
    (twin_bind (twin_lift _) fun _ => twin_bind (twin_lift _) fun _ => twin_bind (twin_lift _) fun _ =>
      twin_bind (S _ fun _ => rfl) fun _ => twin_ite (twin_lift _)
        (twin_bind (twin_lift _) fun _ => S _ fun _ => rfl)))

theorem twin_scaleRest (a : XArgs) (r : List LEig) (fit_rat : Int) : Twin R (scaleRest env fit_rat a r) := by
  unfold scaleRest scaleTrans
  refine twin_bind (twin_glb F) fun _ => twin_ite (twin_bind ?_ fun _ => twin_pure _) (twin_pure _)
  refine twin_bind (twin_glb F) fun _ => twin_bind (twin_Amp X _ _ _ _) fun _ => twin_ite ?_ ?_
  · exact twin_bind (twin_fitRat F S _ _) fun _ => twin_bind (twin_RatsAmps F _) fun _ => twin_pure _
  · exact twin_bind (twin_RatsAmps F _) fun _ => twin_pure _

omit X in
theorem twin_scaleEig (r : List LEig) (fit_eig : Int) : Twin R (scaleEig fit_eig r) := by
  unfold scaleEig
  refine twin_bind (twin_glb F) fun _ => twin_ite (twin_ite ?_ ?_) (twin_pure _)
  · exact twin_bind (twin_fitEig F S r) fun _ => twin_bind (twin_Show_Eigs F _ _ _ _ _) fun _ => twin_pure _
  · exact twin_bind (twin_Show_Eigs F _ _ _ _ _) fun _ => twin_pure _

theorem twin_ScaleOrAdapt (fe fr : Int) (ham : OperatorSum) (a : XArgs) :
    Twin R (ACM_ScaleOrAdapt env fe fr ham a) := by
  unfold ACM_ScaleOrAdapt
  exact twin_bind (twin_lift _) fun _ => twin_bind (twin_lift _) fun _ => twin_bind (twin_lift _) fun _ =>
    twin_bind (twin_glb F) fun _ => twin_bind (twin_lift _) fun _ => twin_bind (twin_Dig X _ _) fun r =>
      twin_bind (twin_scaleEig F S r fe) fun _ => twin_scaleRest X F S a r fr

end

/-- The same settings and current memo tables; `o` and `o'` had been printed, and since then the same. -/
def Alike (env : XEnv) (o o' : List Shown) (s t : FState) : Prop :=
  MemoOk env s.xs ∧ MemoOk env t.xs ∧ s.glb = t.glb ∧ ∃ ls, s.out = o ++ ls ∧ t.out = o' ++ ls

theorem alike_frame (env : XEnv) (o o' : List Shown) : TwinFrame (Alike env o o') where
  glb _ _ h := h.2.2.1
  print s t l h := by
    obtain ⟨h1, h2, h3, ls, h4, h5⟩ := h
    refine ⟨h1, h2, h3, ls ++ [l], ?_, ?_⟩
    · show s.out ++ [l] = _; rw [h4, List.append_assoc]
    · show t.out ++ [l] = _; rw [h5, List.append_assoc]

theorem memoOk_afterX {env : XEnv} {s : FState} (hs : MemoOk env s.xs) (ts : OperatorSum) (a : XArgs) :
    MemoOk env (s.afterX (RepXspace env ts a s.xs).2).xs := by
  obtain ⟨_, h2, h3⟩ := tracks_rep env a ts s.xs hs
  have : (s.afterX (RepXspace env ts a s.xs).2).xs = (RepXspace env ts a s.xs).2 := by
    have h4 : (RepXspace env ts a s.xs).2.lam_fun = s.glb.lam_fun := h3
    generalize (RepXspace env ts a s.xs).2 = y at h4
    unfold FState.afterX FState.xs Glb.resetLap
    cases y
    simp_all
  rw [this]
  exact h2

theorem alike_rep (env : XEnv) (o o' : List Shown) (ts : OperatorSum) (a : XArgs) :
    Twin (Alike env o o') (FM.liftX (RepXspace env ts a)) := by
  intro s t h
  obtain ⟨h1, h2, h3, h4⟩ := h
  refine ⟨?_, memoOk_afterX h1 ts a, memoOk_afterX h2 ts a, ?_, h4⟩
  · show (RepXspace env ts a s.xs).1 = (RepXspace env ts a t.xs).1
    rw [(tracks_rep env a ts s.xs h1).1, (tracks_rep env a ts t.xs h2).1]
    show (a.check >>= fun _ => allMat env a ts s.glb.lam_fun) = _
    rw [h3]
    rfl
  · show s.glb.resetLap = t.glb.resetLap
    rw [h3]

theorem memoOk_set {env : XEnv} {s : FState} (hs : MemoOk env s.xs) {g : Glb} (h : g.lam_fun = s.glb.lam_fun) (o : List Shown) :
    MemoOk env (FState.xs ⟨g, s.piMemo, s.pipiMemo, s.piqpiMemo, o⟩) := by
  have : FState.xs ⟨g, s.piMemo, s.pipiMemo, s.piqpiMemo, o⟩ = s.xs := by
    unfold FState.xs
    rw [h]
  rw [this]
  exact hs

theorem alike_set (env : XEnv) (o o' : List Shown) (f : Glb → Glb) (h : ∀ g, (f g).lam_fun = g.lam_fun) :
    Twin (Alike env o o') (FM.setGlb f) := by
  intro s t k
  obtain ⟨h1, h2, h3, h4⟩ := k
  exact ⟨rfl, memoOk_set h1 (h _) _, memoOk_set h2 (h _) _, congrArg f h3, h4⟩

/-- `ACM_ScaleOrAdapt` is determined by the settings. -/
theorem alike_ScaleOrAdapt (env : FEnv) (o o' : List Shown) (fe fr : Int) (ham : OperatorSum) (a : XArgs) :
    Twin (Alike env.x o o') (ACM_ScaleOrAdapt env fe fr ham a) :=
  twin_ScaleOrAdapt (alike_rep env.x o o') (alike_frame env.x o o') (alike_set env.x o o') fe fr ham a

end Acm
