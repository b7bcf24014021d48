import Verif.Props.Display

/-!
# What the functions of full_space.py leave alone
-/

namespace Acm

open Acm.Spec

/-- The computation relates the states before and after it, whether it raises or not. -/
def Keeps (R : FState → FState → Prop) {α : Type} (m : FM α) : Prop := ∀ s, R s (m s).2

/-- A relation between states that allows printing. -/
structure Frame (R : FState → FState → Prop) : Prop where
  refl : ∀ s, R s s
  trans : ∀ s s' s'', R s s' → R s' s'' → R s s''
  print : ∀ s l, R s (s.add [l])

section
variable {R : FState → FState → Prop} (F : Frame R) {α β : Type}
include F

theorem keeps_pure (x : α) : Keeps R (pure x : FM α) := fun s => F.refl s

theorem keeps_lift (x : Py α) : Keeps R (StPy.lift x : FM α) := fun s => F.refl s

theorem keeps_glb : Keeps R FM.glb := fun s => F.refl s

theorem keeps_print (l : Shown) : Keeps R (FM.print l) := fun s => F.print s l

theorem keeps_bind {m : FM α} {f : α → FM β} (h1 : Keeps R m) (h2 : ∀ a, Keeps R (f a)) : Keeps R (m >>= f) := by
  intro s
  rw [st_bind]
  have := h1 s
  rcases hm : m s with ⟨e | a, s'⟩
  · rw [hm] at this; exact this
  · rw [hm] at this; exact F.trans _ _ _ this (h2 a s')

omit F in
theorem keeps_ite {c : Prop} [Decidable c] {m n : FM α} (h1 : Keeps R m) (h2 : Keeps R n) :
    Keeps R (if c then m else n) := by split_ifs <;> assumption

theorem keeps_eigsLoop (low sft : ℝ) (a b c : Int) : ∀ r, Keeps R (showEigsLoop low sft a b c r)
  | [] => keeps_pure F _
  | (_, _) :: r => keeps_ite (keeps_bind F (keeps_print F _) fun _ => keeps_eigsLoop low sft a b c r)
      (keeps_eigsLoop low sft a b c r)

theorem keeps_Show_Eigs (vals : List (List ℝ)) (Ls : List Int) (t : Int) (l m : Option Int) :
    Keeps R (Show_Eigs vals Ls t l m) := by
  unfold Show_Eigs
  refine keeps_bind F (keeps_lift F _) fun _ => keeps_ite (keeps_pure F _)
    (keeps_bind F (keeps_lift F _) fun _ => keeps_ite ?_ (keeps_pure F _))
  unfold showEigsBody
  exact keeps_bind F (keeps_glb F) fun g => keeps_ite
    (keeps_bind F (keeps_lift F _) fun _ => keeps_bind F (keeps_print F _) fun _ =>
      keeps_bind F (keeps_eigsLoop F _ _ _ _ _ _) fun _ => keeps_pure F _)
    (keeps_bind F (keeps_print F _) fun _ => keeps_bind F (keeps_eigsLoop F _ _ _ _ _ _) fun _ => keeps_pure F _)

theorem keeps_melValue (f : MelFun) (sc : ℝ) (T : Arr) (a b c d : Int) : Keeps R (melValue f sc T a b c d) :=
  keeps_bind F (keeps_glb F) fun _ => keeps_bind F (keeps_lift F _) fun _ => keeps_bind F (keeps_lift F _) fun _ =>
    keeps_pure F _

theorem keeps_rowValues (f : MelFun) (sc : ℝ) (T : Arr) (a b c : Int) : ∀ ns, Keeps R (rowValues f sc T a b c ns)
  | [] => keeps_pure F _
  | _ :: ns => keeps_bind F (keeps_melValue F _ _ _ _ _ _ _) fun _ =>
      keeps_bind F (keeps_rowValues f sc T a b c ns) fun _ => keeps_pure F _

theorem keeps_Row (A : LBlockArray) (a b c d : Int) (f : MelFun) (sc : ℝ) :
    Keeps R (Show_Mels_Row A a b c d f sc) :=
  keeps_ite (keeps_pure F _) (keeps_bind F (keeps_lift F _) fun _ => keeps_ite (keeps_pure F _)
    (keeps_bind F (keeps_rowValues F _ _ _ _ _ _ _) fun _ => keeps_bind F (keeps_print F _) fun _ => keeps_pure F _))

theorem keeps_RowsLoop (A : LBlockArray) (a b c : Int) (f : MelFun) (sc : ℝ) :
    ∀ ns, Keeps R (showRowsLoop A a b c f sc ns)
  | [] => keeps_pure F _
  | _ :: ns => keeps_bind F (keeps_Row F _ _ _ _ _ _ _) fun _ => keeps_ite (keeps_pure F _)
      (keeps_RowsLoop A a b c f sc ns)

theorem keeps_RowsL1 (A : LBlockArray) (a b : Int) (f : MelFun) (sc : ℝ) : ∀ ns, Keeps R (showRowsL1 A a b f sc ns)
  | [] => keeps_pure F _
  | _ :: ns => keeps_bind F (keeps_RowsLoop F _ _ _ _ _ _ _) fun _ => keeps_RowsL1 A a b f sc ns

theorem keeps_Rows (A : LBlockArray) (a b : Int) (f : MelFun) (sc : ℝ) : Keeps R (Show_Mels_Rows A a b f sc) :=
  keeps_bind F (keeps_glb F) fun _ => keeps_RowsL1 F _ _ _ _ _ _

theorem keeps_AllRows (A : LBlockArray) (a : Int) (f : MelFun) (sc : ℝ) : ∀ ns, Keeps R (showAllRows A a f sc ns)
  | [] => keeps_pure F _
  | _ :: ns => keeps_bind F (keeps_Rows F _ _ _ _ _) fun _ => keeps_AllRows A a f sc ns

theorem keeps_One (A : LBlockArray) (a b c d : Int) (f : MelFun) (sc : ℝ) : Keeps R (showOne A a b c d f sc) :=
  keeps_ite (keeps_bind F (keeps_lift F _) fun _ => keeps_ite
    (keeps_bind F (keeps_melValue F _ _ _ _ _ _ _) fun _ => keeps_print F _) (keeps_pure F _)) (keeps_pure F _)

theorem keeps_Series (A : LBlockArray) (a b c : Int) (f : MelFun) (sc : ℝ) :
    ∀ k L1 L2, Keeps R (showSeries A a b c f sc k L1 L2)
  | 0, _, _ => keeps_pure F _
  | k + 1, _, _ => keeps_bind F (keeps_One F _ _ _ _ _ _ _) fun _ => keeps_Series A a b c f sc k _ _

theorem keeps_Designator (A : LBlockArray) (t : Int) (f : MelFun) (sc : ℝ) :
    ∀ ent, Keeps R (showDesignator A t f sc ent)
  | [] => keeps_AllRows F _ _ _ _ _
  | [_] => keeps_ite (keeps_pure F _) (keeps_Rows F _ _ _ _ _)
  | [_, _] => keeps_ite (keeps_pure F _) (keeps_RowsLoop F _ _ _ _ _ _ _)
  | [_, _, _] => keeps_ite (keeps_pure F _) (keeps_bind F (keeps_Row F _ _ _ _ _ _ _) fun _ => keeps_pure F _)
  | [_, _, _, _] => keeps_ite (keeps_pure F _) (keeps_One F _ _ _ _ _ _ _)
  | [_, _, _, _, _] => keeps_ite (keeps_pure F _) (keeps_ite (keeps_pure F _)
      (keeps_bind F (keeps_lift F _) fun _ => keeps_Series F _ _ _ _ _ _ _ _ _))
  | _ :: _ :: _ :: _ :: _ :: _ :: _ => keeps_print F _

theorem keeps_Designators (A : LBlockArray) (t : Int) (f : MelFun) (sc : ℝ) :
    ∀ l, Keeps R (showDesignators A t f sc l)
  | [] => keeps_pure F _
  | _ :: l => keeps_bind F (keeps_Designator F _ _ _ _ _) fun _ => keeps_Designators A t f sc l

theorem keeps_Show_Mels (A : LBlockArray) (l : List (List Int)) (t : Int) (f : MelFun) (sc : ℝ) :
    Keeps R (Show_Mels A l t f sc) :=
  keeps_ite (keeps_pure F _) (keeps_ite (keeps_lift F _)
    (keeps_bind F (keeps_print F _) fun _ => keeps_Designators F _ _ _ _ _))

theorem keeps_RatsAmps (A : LBlockArray) : Keeps R (showRatsAmps A) :=
  keeps_bind F (keeps_glb F) fun _ => keeps_bind F (keeps_Show_Mels F _ _ _ _ _) fun _ =>
    keeps_bind F (keeps_glb F) fun _ => keeps_Show_Mels F _ _ _ _ _

variable (lap : ∀ s x, R s (FState.afterX s x))
include lap

omit F in
theorem keeps_liftX (m : StPy XState α) : Keeps R (FM.liftX m) := fun s => lap s _

theorem keeps_digTame (env : XEnv) (ham : OperatorSum) (a : XArgs) : ∀ Ls, Keeps R (digTame env ham a Ls)
  | [] => keeps_pure F _
  | _ :: Ls => keeps_bind F (keeps_lift F _) fun _ => keeps_ite
      (keeps_bind F (keeps_liftX lap _) fun _ => keeps_bind F (keeps_lift F _) fun _ =>
        keeps_bind F (keeps_digTame env ham a Ls) fun _ => keeps_pure F _)
      (keeps_digTame env ham a Ls)

theorem keeps_Dig (env : XEnv) (ham : OperatorSum) (a : XArgs) : Keeps R (DigXspace env ham a) :=
  keeps_bind F (keeps_lift F _) fun _ => keeps_ite (keeps_digTame F lap _ _ _ _)
    (keeps_bind F (keeps_liftX lap _) fun _ => keeps_lift F _)

theorem keeps_Amp (env : FEnv) (op : OperatorSum) (bs : List Arr) (a : XArgs) (Ls : List Int) :
    Keeps R (AmpXspeig env op bs a Ls) :=
  keeps_bind F (keeps_lift F _) fun _ => keeps_bind F (keeps_lift F _) fun _ => keeps_bind F (keeps_lift F _) fun _ =>
    keeps_bind F (keeps_lift F _) fun _ => keeps_bind F (keeps_liftX lap _) fun _ => keeps_lift F _

theorem keeps_scaleRest0 (env : FEnv) (a : XArgs) (r : List LEig) (fit_rat : Int)
    (hfit : fit_rat > 0 → ∀ t Ls, Keeps R (fitRat t Ls)) : Keeps R (scaleRest env fit_rat a r) := by
  refine keeps_bind F (keeps_glb F) fun _ => keeps_ite (keeps_bind F ?_ fun _ => keeps_pure F _) (keeps_pure F _)
  refine keeps_bind F (keeps_glb F) fun _ => keeps_bind F (keeps_Amp F lap _ _ _ _ _) fun _ => ?_
  split_ifs with hf
  · exact keeps_bind F (hfit hf _ _) fun _ => keeps_bind F (keeps_RatsAmps F _) fun _ => keeps_pure F _
  · exact keeps_bind F (keeps_RatsAmps F _) fun _ => keeps_pure F _

omit lap in
theorem keeps_scaleEig (r : List LEig) (fit_eig : Int) (hfit : fit_eig > 0 → Keeps R (fitEig r)) :
    Keeps R (scaleEig fit_eig r) := by
  refine keeps_bind F (keeps_glb F) fun _ => keeps_ite ?_ (keeps_pure F _)
  split_ifs with hf
  · exact keeps_bind F (hfit hf) fun _ => keeps_bind F (keeps_Show_Eigs F _ _ _ _ _) fun _ => keeps_pure F _
  · exact keeps_bind F (keeps_Show_Eigs F _ _ _ _ _) fun _ => keeps_pure F _

theorem keeps_ScaleOrAdapt (env : FEnv) (fe fr : Int) (ham : OperatorSum) (a : XArgs)
    (h1 : fe > 0 → ∀ r, Keeps R (fitEig r)) (h2 : fr > 0 → ∀ t Ls, Keeps R (fitRat t Ls)) :
    Keeps R (ACM_ScaleOrAdapt env fe fr ham a) :=
  keeps_bind F (keeps_lift F _) fun _ => keeps_bind F (keeps_lift F _) fun _ => keeps_bind F (keeps_lift F _) fun _ =>
    keeps_bind F (keeps_glb F) fun _ => keeps_bind F (keeps_lift F _) fun _ => keeps_bind F (keeps_Dig F lap _ _ _) fun r =>
      keeps_bind F (keeps_scaleEig F r fe fun h => h1 h r) fun _ => keeps_scaleRest0 F lap env a r fr h2

end

section
variable {R : FState → FState → Prop} (F : Frame R)
include F

open Classical in
theorem keeps_fitEig (hset : ∀ s x, R s ⟨{ s.glb with eig_sft := x }, s.piMemo, s.pipiMemo, s.piqpiMemo, s.out⟩)
    (r : List LEig) : Keeps R (fitEig r) := by
  unfold fitEig
  exact keeps_bind F (keeps_glb F) fun _ => keeps_bind F (keeps_lift F _) fun _ => keeps_bind F (keeps_lift F _) fun _ =>
    keeps_bind F (keeps_lift F _) fun _ => keeps_bind F (fun s => hset s _) fun _ =>
      keeps_ite (keeps_lift F _) (keeps_pure F _)

open Classical in
theorem keeps_fitRat (hset : ∀ s x, R s ⟨{ s.glb with rat_sft := x }, s.piMemo, s.pipiMemo, s.piqpiMemo, s.out⟩)
    (hset' : ∀ s x, R s ⟨{ s.glb with amp_sft := x }, s.piMemo, s.pipiMemo, s.piqpiMemo, s.out⟩)
    (t : LBlockArray) (Ls : List Int) : Keeps R (fitRat t Ls) := by
  unfold fitRat
  refine keeps_bind F (keeps_glb F) fun _ => keeps_ite (keeps_lift F _) (keeps_ite (keeps_lift F _)
    (keeps_bind F (keeps_lift F _) fun _ => keeps_bind F (keeps_lift F _) fun _ => keeps_bind F (keeps_lift F _) fun _ =>
      keeps_bind F (fun s => hset s _) fun _ => keeps_ite (keeps_lift F _)
        (keeps_bind F (keeps_lift F _) fun _ => (fun s => hset' s _))))

end

/-- Relations that only look at the settings. -/
theorem frame_glb {P : Glb → Glb → Prop} (h1 : ∀ g, P g g) (h2 : ∀ g g' g'', P g g' → P g' g'' → P g g'') :
    Frame fun s s' => P s.glb s'.glb :=
  ⟨fun _ => h1 _, fun _ _ _ => h2 _ _ _, fun _ _ => h1 _⟩

/-- What has been printed stays. -/
theorem frame_out : Frame fun s s' => s.out <+: s'.out :=
  ⟨fun _ => List.prefix_rfl, fun _ _ _ => List.IsPrefix.trans, fun _ _ => List.prefix_append _ _⟩

end Acm
