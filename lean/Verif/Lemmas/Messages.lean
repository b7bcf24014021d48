import Verif.Spec.Messages
import Verif.Lemmas.Text
import Verif.Lemmas.Lines
import Verif.Lemmas.Globals

/-! Lemmas about the messages of the setting procedures. -/

namespace Acm

open Acm.Spec

/-! ### whether `format` raises does not depend on the values -/

/-- Arguments of the same type. -/
inductive SameKind : FArg → FArg → Prop
  | int (m n : Int) : SameKind (.int m) (.int n)
  | flt (x y : ℝ) : SameKind (.flt x) (.flt y)
  | str (s t : List Char) : SameKind (.str s) (.str t)

theorem formatArg_kind (f : FSpec) {a b : FArg} (h : SameKind a b) :
    (formatArg f a).map (fun _ => ()) = (formatArg f b).map fun _ => () := by
  cases h with
  | int m n => unfold formatArg; dsimp only; split <;> [rfl; (split <;> rfl)]
  | flt x y => unfold formatArg; dsimp only; split <;> rfl
  | str s t => unfold formatArg; dsimp only; split <;> rfl

theorem fmtField_kind {as bs : List FArg} (h : List.Forall₂ SameKind as bs) (f : List Char) (st : FNum) :
    (fmtField as f st).map Prod.snd = (fmtField bs f st).map Prod.snd := by
  unfold fmtField
  dsimp only
  generalize fieldIndex _ st = x
  generalize List.dropWhile (fun x => decide (x ≠ '!')) _ = cv
  cases x with
  | error e => rfl
  | ok r =>
    simp only [py_bind_ok]
    have hk : (as[r.1]? = none ∧ bs[r.1]? = none) ∨ ∃ a b, as[r.1]? = some a ∧ bs[r.1]? = some b ∧ SameKind a b := by
      by_cases hl : r.1 < as.length
      · have hl' : r.1 < bs.length := h.length_eq ▸ hl
        exact .inr ⟨_, _, List.getElem?_eq_getElem hl, List.getElem?_eq_getElem hl', List.Forall₂.get h hl hl'⟩
      · have hl' : ¬ r.1 < bs.length := h.length_eq ▸ hl
        exact .inl ⟨List.getElem?_eq_none (by omega), List.getElem?_eq_none (by omega)⟩
    rcases hk with ⟨e1, e2⟩ | ⟨a, b, e1, e2, hk⟩
    · rw [e1, e2]
    · rw [e1, e2]
      dsimp only
      have fin : ∀ {a b : FArg}, SameKind a b → ((do
          let spec ← parseSpec ((f.dropWhile (· ≠ ':')).drop 1)
          let s ← formatArg spec a
          pure (s, r.2) : Py (List Char × FNum)).map Prod.snd) = ((do
          let spec ← parseSpec ((f.dropWhile (· ≠ ':')).drop 1)
          let s ← formatArg spec b
          pure (s, r.2) : Py (List Char × FNum)).map Prod.snd) := by
        intro a b hk
        cases parseSpec ((f.dropWhile (· ≠ ':')).drop 1) with
        | error e => rfl
        | ok spec =>
          simp only [py_bind_ok]
          have := formatArg_kind spec hk
          cases h1 : formatArg spec a <;> cases h2 : formatArg spec b <;> rw [h1, h2] at this
          · cases this; rfl
          · cases this
          · cases this
          · rfl
      by_cases hc : cv = []
      · simp only [hc, if_true, py_pure, py_bind_ok]; exact fin hk
      · simp only [hc, if_false]
        by_cases hd : cv = ['!', 's']
        · simp only [hd, if_true]
          cases hk with
          | int m n => exact fin (.str _ _)
          | flt x y => rfl
          | str s t => exact fin (.str _ _)
        · simp only [hd, if_false]

theorem map_cons_unit {x y : Py (List Char)} (c : List Char) (h : x.map (fun _ => ()) = y.map fun _ => ()) :
    ((do let r ← x; pure (c ++ r) : Py (List Char)).map fun _ => ()) = (do let r ← y; pure (c ++ r) : Py (List Char)).map fun _ => () := by
  cases x <;> cases y <;> first | (cases h; rfl) | cases h

theorem fmtGo_kind {as bs : List FArg} (h : List.Forall₂ SameKind as bs) : ∀ (t : List Char) (sc : FScan) (st : FNum),
    (fmtGo as t sc st).map (fun _ => ()) = (fmtGo bs t sc st).map fun _ => () := by
  have fld : ∀ (f t : List Char) (st : FNum), (∀ sc st, (fmtGo as t sc st).map (fun _ => ()) = (fmtGo bs t sc st).map fun _ => ()) →
      ((do let s ← fmtField as f st; let r ← fmtGo as t .lit s.2; pure (s.1 ++ r) : Py (List Char)).map fun _ => ()) =
      ((do let s ← fmtField bs f st; let r ← fmtGo bs t .lit s.2; pure (s.1 ++ r) : Py (List Char)).map fun _ => ()) := by
    intro f t st ih
    have hf := fmtField_kind h f st
    cases h1 : fmtField as f st with
    | error e =>
      cases h2 : fmtField bs f st with
      | error e' => rw [h1, h2] at hf; cases hf; rfl
      | ok r => rw [h1, h2] at hf; cases hf
    | ok r =>
      cases h2 : fmtField bs f st with
      | error e' => rw [h1, h2] at hf; cases hf
      | ok r' =>
        rw [h1, h2] at hf
        have e : r.2 = r'.2 := Except.ok.inj hf
        simp only [py_bind_ok, e]
        have := ih .lit r'.2
        cases g1 : fmtGo as t .lit r'.2 <;> cases g2 : fmtGo bs t .lit r'.2 <;> rw [g1, g2] at this
        · cases this; rfl
        · cases this
        · cases this
        · rfl
  intro t
  induction t with
  | nil => intro sc st; cases sc <;> rfl
  | cons c t ih =>
    intro sc st
    cases sc with
    | lit =>
      simp only [fmtGo]
      split
      · exact ih _ _
      · split
        · exact ih _ _
        · exact map_cons_unit [c] (ih _ _)
    | opened =>
      simp only [fmtGo]
      split
      · exact map_cons_unit ['{'] (ih _ _)
      · split
        · exact fld _ _ _ ih
        · exact ih _ _
    | closed =>
      simp only [fmtGo]
      split
      · exact map_cons_unit ['}'] (ih _ _)
      · rfl
    | field f =>
      simp only [fmtGo]
      split
      · rfl
      · split
        · exact fld _ _ _ ih
        · exact ih _ _

theorem ratFitText_kind {g g' : Glb} (h1 : g.tran_format = g'.tran_format) (h2 : g.rat_format = g'.rat_format) :
    (ratFitText g).map (fun _ => ()) = (ratFitText g').map fun _ => () := by
  unfold ratFitText
  rw [h1, h2]
  cases pyFormat g'.tran_format.toList [.str numFormat, .str numFormat, .str numFormat, .str numFormat] with
  | error e => rfl
  | ok t =>
    simp only [py_bind_ok]
    cases pyFormat g'.rat_format.toList [.str t, .str "{:f}".toList] with
    | error e => rfl
    | ok f =>
      exact fmtGo_kind (.cons (.int _ _) (.cons (.int _ _) (.cons (.int _ _) (.cons (.int _ _) (.cons (.flt _ _) .nil))))) f .lit .start

/-! ### the settings are those of the model without messages -/

namespace Msg

/-- Whether the message of `ACM_set_rat_fit` raises. -/
noncomputable def fmtOf (f : String) : Py Unit := (ratFitText { Glb.init with rat_format := f }).map fun _ => ()

/-- `p` does to the settings what `x` does. -/
def Sim (x : GM Unit) (p : GP Unit) : Prop := ∀ s : GOut, s.glb.tran_format = Glb.init.tran_format →
  ((p s).1, (p s).2.glb) = x s.glb ∧ (x s.glb).2.tran_format = Glb.init.tran_format

/-- `p` changes no setting and does not raise. -/
def Quiet (p : GP Unit) : Prop := ∀ s : GOut, s.glb.tran_format = Glb.init.tran_format → (p s).1 = .ok () ∧ (p s).2.glb = s.glb

theorem Sim.bind {x y : GM Unit} {p q : GP Unit} (h : Sim x p) (h' : Sim y q) : Sim (x >>= fun _ => y) (p >>= fun _ => q) := by
  intro s hs
  obtain ⟨e, k⟩ := h s hs
  rw [st_bind, st_bind]
  rcases hp : p s with ⟨r, s'⟩
  rw [hp] at e
  rw [← e] at k ⊢
  cases r with
  | ok a => exact h' s' k
  | error e => exact ⟨rfl, k⟩

theorem Sim.quiet {x : GM Unit} {p q : GP Unit} (h : Sim x p) (h' : Quiet q) : Sim x (p >>= fun _ => q) := by
  intro s hs
  obtain ⟨e, k⟩ := h s hs
  rw [st_bind]
  rcases hp : p s with ⟨r, s'⟩
  rw [hp] at e
  refine ⟨?_, k⟩
  rw [← e] at k ⊢
  cases r with
  | ok a => obtain ⟨a1, a2⟩ := h' s' k; exact Prod.ext a1 a2
  | error e => rfl

theorem Quiet.sim {x : GM Unit} {p q : GP Unit} (h : Quiet p) (h' : Sim x q) : Sim x (p >>= fun _ => q) := by
  intro s hs
  obtain ⟨a1, a2⟩ := h s hs
  rw [st_bind]
  rcases hp : p s with ⟨r, s'⟩
  rw [hp] at a1 a2
  dsimp only at a1 a2
  subst a1
  have := h' s' (a2 ▸ hs)
  rw [a2] at this
  exact this

theorem Quiet.bind {p q : GP Unit} (h : Quiet p) (h' : Quiet q) : Quiet (p >>= fun _ => q) := by
  intro s hs
  obtain ⟨a1, a2⟩ := h s hs
  rw [st_bind]
  rcases hp : p s with ⟨r, s'⟩
  rw [hp] at a1 a2
  dsimp only at a1 a2
  subst a1
  obtain ⟨b1, b2⟩ := h' s' (a2 ▸ hs)
  exact ⟨b1, b2.trans a2⟩

theorem quiet_pure : Quiet (pure ()) := fun _ _ => ⟨rfl, rfl⟩

theorem quiet_write (t : List Char) : Quiet (write t) := fun _ _ => ⟨rfl, rfl⟩

theorem quiet_print (t : List Char) : Quiet (print t) := fun _ _ => ⟨rfl, rfl⟩

theorem quiet_glb {f : Glb → GP Unit} (h : ∀ g, g.tran_format = Glb.init.tran_format → Quiet (f g)) : Quiet (glb >>= f) :=
  fun s hs => h s.glb hs s hs

theorem quiet_lift {α : Type} {x : Py α} {a : α} (hx : x = .ok a) {f : α → GP Unit} (h : Quiet (f a)) : Quiet (StPy.lift x >>= f) := by
  subst hx; exact h

theorem Quiet.say {p : GP Unit} (h : Quiet p) (k : Int) : Quiet (say k p) := by
  unfold Msg.say; split
  · exact h
  · exact quiet_pure

theorem void_state {α : Type} (m : GM α) (g : Glb) : (m.void g).2 = (m g).2 := by
  unfold GM.void
  rw [st_bind]
  rcases m g with ⟨r, g'⟩
  cases r <;> rfl

/-- A procedure that sets and then prints. -/
theorem sim_run {α : Type} {m : GM α} (h : Preserves (fun g => g.tran_format = Glb.init.tran_format) m.void) {q : GP Unit} (hq : Quiet q) :
    Sim m.void (Msg.run m >>= fun _ => q) := by
  intro s hs
  have hk := h s.glb hs
  refine ⟨?_, hk⟩
  rw [void_state] at hk
  unfold GM.void
  rw [st_bind, st_bind]
  unfold Msg.run
  rcases hm : m s.glb with ⟨r, g⟩
  rw [hm] at hk
  cases r with
  | ok a => obtain ⟨a1, a2⟩ := hq ⟨g, s.out⟩ hk; exact Prod.ext a1 a2
  | error e => rfl

theorem void_bind {α β : Type} (m : GM α) (f : GM β) : (m.void >>= fun _ => f) = m >>= fun _ => f := by
  funext g
  rw [st_bind, st_bind]
  unfold GM.void
  rw [st_bind]
  rcases m g with ⟨r, g'⟩
  cases r <;> rfl

/-! ### what is printed -/

/-- `p` prints nothing. -/
def NoOut {α : Type} (p : GP α) : Prop := ∀ s, (p s).2.out = s.out

/-- `p` only adds to what has been printed. -/
def Grows {α : Type} (p : GP α) : Prop := ∀ s, s.out.length ≤ (p s).2.out.length

/-- `p` prints something if it returns. -/
def Prints {α : Type} (p : GP α) : Prop := ∀ s, (∃ a, (p s).1 = .ok a) → s.out.length < (p s).2.out.length

theorem NoOut.bind {α β : Type} {p : GP α} {f : α → GP β} (h : NoOut p) (h' : ∀ a, NoOut (f a)) : NoOut (p >>= f) := by
  intro s
  have := h s
  rw [st_bind]
  rcases hp : p s with ⟨e | a, s'⟩ <;> rw [hp] at this
  · exact this
  · exact (h' a s').trans this

theorem Grows.bind {α β : Type} {p : GP α} {f : α → GP β} (h : Grows p) (h' : ∀ a, Grows (f a)) : Grows (p >>= f) := by
  intro s
  have := h s
  rw [st_bind]
  rcases hp : p s with ⟨e | a, s'⟩ <;> rw [hp] at this
  · exact this
  · exact le_trans this (h' a s')

theorem Prints.bind {α β : Type} {p : GP α} {f : α → GP β} (h : Prints p) (h' : ∀ a, Grows (f a)) : Prints (p >>= f) := by
  intro s hs
  have := h s
  rw [st_bind] at hs ⊢
  rcases hp : p s with ⟨e | a, s'⟩
  · rw [hp] at hs; obtain ⟨b, hb⟩ := hs; cases hb
  · rw [hp] at this; exact (this ⟨a, rfl⟩).trans_le (h' a s')

theorem Grows.prints {α β : Type} {p : GP α} {f : α → GP β} (h : Grows p) (h' : ∀ a, Prints (f a)) : Prints (p >>= f) := by
  intro s hs
  have := h s
  rw [st_bind] at hs ⊢
  rcases hp : p s with ⟨e | a, s'⟩
  · rw [hp] at hs; obtain ⟨b, hb⟩ := hs; cases hb
  · rw [hp] at this hs; exact this.trans_lt (h' a s' hs)

theorem noOut_pure {α : Type} (a : α) : NoOut (pure a) := fun _ => rfl
theorem noOut_run {α : Type} (m : GM α) : NoOut (run m) := fun _ => rfl
theorem noOut_glb : NoOut glb := fun _ => rfl
theorem noOut_lift {α : Type} (x : Py α) : NoOut (StPy.lift x) := fun _ => rfl

theorem NoOut.grows {α : Type} {p : GP α} (h : NoOut p) : Grows p := fun s => (congrArg List.length (h s)).ge

theorem grows_write (t : List Char) : Grows (write t) := fun s => by
  show s.out.length ≤ (s.out ++ t).length
  rw [List.length_append]; omega

theorem prints_print (t : List Char) : Prints (print t) := fun s _ => by
  show s.out.length < (s.out ++ (t ++ ['\n'])).length
  rw [List.length_append, List.length_append, List.length_singleton]; omega

theorem grows_print (t : List Char) : Grows (print t) := grows_write _

theorem say_noOut {k : Int} (hk : k ≤ 0) (p : GP Unit) : NoOut (say k p) := by
  unfold say; rw [if_neg (by omega)]; exact noOut_pure ()

theorem Prints.say {k : Int} (hk : 0 < k) {p : GP Unit} (h : Prints p) : Prints (say k p) := by
  unfold Msg.say; rw [if_pos hk]; exact h

theorem Grows.say (k : Int) {p : GP Unit} (h : Grows p) : Grows (say k p) := by
  unfold Msg.say; split
  · exact h
  · exact (noOut_pure ()).grows

/-- A procedure that sets and then prints `text`. -/
theorem says_run {α : Type} {m : GM α} {k : Int} (hk : 0 < k) {q : GP Unit} {s t : GOut} {text : Glb → List Char}
    (hq : ∀ o, q ⟨t.glb, o⟩ = (.ok (), ⟨t.glb, o ++ text t.glb⟩)) {msg : List Char} (hg : (q ⟨(m s.glb).2, s.out⟩).2.glb = (m s.glb).2)
    (h : (run m >>= fun _ => say k q) s = (.ok (), t)) (e : t.out = s.out ++ msg) :
    (∃ v, m s.glb = (.ok v, t.glb)) ∧ msg = text t.glb := by
  obtain ⟨v, s', h1, h2⟩ : ∃ v s', run m s = (.ok v, s') ∧ say k q s' = (.ok (), t) := by
    rw [st_bind] at h
    rcases hr : run m s with ⟨e | v, s'⟩
    · rw [hr] at h; cases h
    · rw [hr] at h; exact ⟨v, s', rfl, h⟩
  unfold say at h2
  rw [if_pos hk] at h2
  unfold run at h1
  obtain ⟨h1a, h1b⟩ := Prod.ext_iff.1 h1
  dsimp only at h1a h1b
  subst h1b
  have e3 : t.glb = (m s.glb).2 := by rw [← hg, h2]
  refine ⟨⟨v, Prod.ext h1a e3.symm⟩, ?_⟩
  rw [← e3, hq] at h2
  have e4 : s.out ++ text t.glb = t.out := congrArg GOut.out (Prod.ext_iff.1 h2).2
  exact (List.append_cancel_left (e4.trans e)).symm

end Msg

end Acm
