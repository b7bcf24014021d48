import Verif.Props.Redisplay
import Verif.Props.Settings
import Verif.Spec.Examples

/-!
# Lemmas on the examples
-/

namespace Acm

open Acm.Spec Acm.Props

/-! ### operators without momenta do not use the memo tables -/

/-- The symbols whose matrices are memoised. -/
def OpSym.isMomentum : OpSym → Bool
  | .Pi => true
  | .PiPi2 => true
  | .PiPi4 => true
  | .PiqPi => true
  | _ => false

/-- No momenta occur. -/
def Calm (ts : OperatorSum) : Prop := ∀ t ∈ ts, ∀ x ∈ t.2, x.isMomentum = false

/-- `m` returns what `f` gives for the current setting, and does not change the setting. -/
def Heeds {α : Type} (m : StPy XState α) (f : LambdaFunction → Py α) : Prop :=
  ∀ s, (m s).1 = f s.lam_fun ∧ (m s).2.lam_fun = s.lam_fun

theorem heeds_lift {α : Type} (x : Py α) : Heeds (StPy.lift x) fun _ => x := fun _ => ⟨rfl, rfl⟩

theorem heeds_pure {α : Type} (x : α) : Heeds (pure x) fun _ => .ok x := fun _ => ⟨rfl, rfl⟩

theorem Heeds.bind {α β : Type} {m : StPy XState α} {f : LambdaFunction → Py α}
    {k : α → StPy XState β} {g : α → LambdaFunction → Py β} (hm : Heeds m f)
    (hk : ∀ x, Heeds (k x) (g x)) : Heeds (m >>= k) fun lam => f lam >>= fun x => g x lam := by
  intro s
  obtain ⟨h1, h3⟩ := hm s
  rw [st_bind]
  rcases hms : m s with ⟨e | x, s'⟩
  · rw [hms] at h1 h3
    simp only at h1 h3
    simp only [← h1]
    exact ⟨rfl, h3⟩
  · rw [hms] at h1 h3
    simp only at h1 h3
    obtain ⟨k1, k3⟩ := hk x s'
    simp only [← h1]
    exact ⟨by rw [k1, h3]; rfl, k3.trans h3⟩

theorem segs_calm : ∀ (ops : List OpSym) (rs : List RadSym) (ss : List OpSym), (∀ x ∈ ops, x.isMomentum = false) →
    ∀ g ∈ segsOf ops rs ss, ∀ op, g = .whole op → op.isMomentum = false
  | [], rs, ss, _, g, hg, op, h => by
    simp only [segsOf, List.mem_singleton] at hg
    rw [hg] at h
    cases h
  | x :: ops, rs, ss, hx, g, hg, op, h => by
    have ih := fun rs ss => segs_calm ops rs ss fun y hy => hx y (List.mem_cons_of_mem _ hy)
    unfold segsOf at hg
    cases hr : x.radial? with
    | some r => rw [hr] at hg; exact ih _ _ g hg op h
    | none =>
      rw [hr] at hg
      simp only at hg
      split_ifs at hg
      · exact ih _ _ g hg op h
      · rcases List.mem_cons.1 hg with e | hg
        · rw [e] at h; cases h
        rcases List.mem_cons.1 hg with e | hg
        · rw [e] at h; cases h; exact hx _ List.mem_cons_self
        · exact ih _ _ g hg op h
      · rcases List.mem_cons.1 hg with e | hg
        · rw [e] at h; cases h; exact hx _ List.mem_cons_self
        · exact ih _ _ g hg op h

theorem heeds_seg (env : XEnv) (a : XArgs) (g : Seg) (h : ∀ op, g = .whole op → op.isMomentum = false) :
    Heeds (g.eval (xMat env a)) fun lam => segMat env a lam g := by
  cases g with
  | twin rs ss => exact fun _ => ⟨rfl, rfl⟩
  | whole op =>
    have := h op rfl
    cases op with
    | Pi => cases this
    | PiPi2 => cases this
    | PiPi4 => cases this
    | PiqPi => cases this
    | _ => exact heeds_lift _

theorem heeds_segs (env : XEnv) (a : XArgs) : ∀ (gs : List Seg) (_ : ∀ g ∈ gs, ∀ op, g = .whole op → op.isMomentum = false) (x : Arr),
    Heeds (evalSegs (xMat env a) x gs) fun lam => segsMat env a lam x gs
  | [], _, x => heeds_pure x
  | g :: gs, h, x => (heeds_seg env a g (h g List.mem_cons_self)).bind fun y =>
      heeds_segs env a gs (fun g hg => h g (List.mem_cons_of_mem _ hg)) (x.mul y)

theorem heeds_prod (env : XEnv) (ops : List OpSym) (a : XArgs) (h : ∀ x ∈ ops, x.isMomentum = false) :
    Heeds (RepXspace_Prod env ops a) (prodMat env a ops) := by
  unfold RepXspace_Prod prodMat
  refine (heeds_lift a.check).bind fun _ => ?_
  have : xProd (xMat env a) ops = evalAll (xMat env a) (segsOf ops [] []) := by
    funext s; exact xProd_eq _ _ _
  rw [this]
  have hg := segs_calm ops [] [] h
  generalize segsOf ops [] [] = gs at hg
  cases gs with
  | nil => exact heeds_lift _
  | cons g gs =>
    exact (heeds_seg env a g (hg g List.mem_cons_self)).bind fun x =>
      heeds_segs env a gs (fun g h' => hg g (List.mem_cons_of_mem _ h')) x

theorem heeds_term (env : XEnv) (t : Coeff × OperatorProduct) (xs : List XspaceLabel) (a : XArgs) (h : ∀ x ∈ t.2, x.isMomentum = false) :
    Heeds (RepXspace_Term env t xs a) fun lam => termMat env xs a lam t := by
  unfold RepXspace_Term
  refine (heeds_prod env t.2 a h).bind fun M => ?_
  unfold scaleTerm
  split_ifs
  · exact heeds_pure _
  · exact heeds_pure _

theorem heeds_sum (env : XEnv) (xs : List XspaceLabel) (a : XArgs) : ∀ (ts : OperatorSum) (_ : Calm ts) (M : Arr),
    Heeds (xSum env xs a ts M) fun lam => sumMat env xs a lam ts M
  | [], _, M => heeds_pure M
  | t :: ts, h, _ => (heeds_term env t xs a (h t List.mem_cons_self)).bind fun _ =>
      heeds_sum env xs a ts (fun t ht => h t (List.mem_cons_of_mem _ ht)) _

theorem heeds_rep (env : XEnv) (a : XArgs) (ts : OperatorSum) (h : Calm ts) :
    Heeds (RepXspace env ts a) fun lam => a.check >>= fun _ => allMat env a ts lam := by
  have hall : Heeds (xSumAll env ts a) (allMat env a ts) := by
    cases ts with
    | nil => exact heeds_lift _
    | cons t ts =>
      exact (heeds_lift _).bind fun xs => (heeds_term env t xs a (h t List.mem_cons_self)).bind fun M =>
        heeds_sum env xs a ts (fun t ht => h t (List.mem_cons_of_mem _ ht)) M
  have hc : Heeds clearMemo fun _ => .ok () := fun _ => ⟨rfl, rfl⟩
  unfold RepXspace
  have k := (heeds_lift a.check).bind fun _ => hall.bind fun M => hc.bind fun _ => heeds_pure M
  intro s
  have := k s
  refine ⟨this.1.trans ?_, this.2⟩
  cases a.check with
  | error e => rfl
  | ok u =>
    simp only [py_bind_ok]
    cases allMat env a ts s.lam_fun <;> rfl

/-! ### two runs with the same settings, whatever is in the memo tables -/

/-- The same settings, with a transition operator without momenta; `o` and `o'` had been printed, and since then the same. -/
def CalmLoose (o o' : List Shown) (s t : FState) : Prop := Loose o o' s t ∧ Calm s.glb.rat_TRop

theorem calm_frame (o o' : List Shown) : TwinFrame (CalmLoose o o') where
  glb _ _ h := h.1.1
  print s t l h := ⟨(loose_frame o o').print s t l h.1, h.2⟩

theorem calm_rep (env : XEnv) (o o' : List Shown) (ts : OperatorSum) (h : Calm ts) (a : XArgs) :
    Twin (CalmLoose o o') (FM.liftX (RepXspace env ts a)) := by
  intro s t k
  obtain ⟨⟨h1, h2⟩, h3⟩ := k
  refine ⟨?_, ⟨?_, h2⟩, h3⟩
  · show (RepXspace env ts a s.xs).1 = (RepXspace env ts a t.xs).1
    rw [(heeds_rep env a ts h s.xs).1, (heeds_rep env a ts h t.xs).1]
    show (a.check >>= fun _ => allMat env a ts s.glb.lam_fun) = _
    rw [h1]
    rfl
  · show s.glb.resetLap = t.glb.resetLap
    rw [h1]

theorem calm_set (o o' : List Shown) (f : Glb → Glb) (h : ∀ g, (f g).rat_TRop = g.rat_TRop) :
    Twin (CalmLoose o o') (FM.setGlb f) := by
  intro s t k
  obtain ⟨⟨h1, h2⟩, h3⟩ := k
  refine ⟨rfl, ⟨congrArg f h1, h2⟩, ?_⟩
  show Calm (f s.glb).rat_TRop
  rw [h]
  exact h3

section
variable (o o' : List Shown)

theorem calm_digTame (env : XEnv) (ham : OperatorSum) (hc : Calm ham) (a : XArgs) :
    ∀ Ls, Twin (CalmLoose o o') (digTame env ham a Ls)
  | [] => twin_pure _
  | _ :: Ls => twin_bind (twin_lift _) fun _ => twin_ite
      (twin_bind (calm_rep env o o' ham hc _) fun _ => twin_bind (twin_lift _) fun _ =>
        twin_bind (calm_digTame env ham hc a Ls) fun _ => twin_pure _)
      (calm_digTame env ham hc a Ls)

theorem calm_Dig (env : XEnv) (ham : OperatorSum) (hc : Calm ham) (a : XArgs) : Twin (CalmLoose o o') (DigXspace env ham a) :=
  twin_bind (twin_lift _) fun _ => twin_ite (calm_digTame o o' env ham hc a _)
    (twin_bind (calm_rep env o o' ham hc _) fun _ => twin_lift _)

theorem calm_Amp (env : FEnv) (op : OperatorSum) (hc : Calm op) (bs : List Arr) (a : XArgs) (Ls : List Int) :
    Twin (CalmLoose o o') (AmpXspeig env op bs a Ls) := by
  unfold AmpXspeig
  exact twin_bind (twin_lift _) fun _ => twin_bind (twin_lift _) fun _ => twin_bind (twin_lift _) fun _ =>
    twin_bind (twin_lift _) fun _ => twin_bind (calm_rep env.x o o' op hc _) fun _ => twin_lift _

open Classical in
theorem calm_fitEig (r : List LEig) : Twin (CalmLoose o o') (fitEig r) := by
  unfold fitEig
  exact twin_bind (twin_glb (calm_frame o o')) fun _ => twin_bind (twin_lift _) fun _ => twin_bind (twin_lift _) fun _ =>
    twin_bind (twin_lift _) fun _ => twin_bind (calm_set o o' _ fun _ => rfl) fun _ => twin_ite (twin_lift _) (twin_pure _)

open Classical in
theorem calm_fitRat (t : LBlockArray) (Ls : List Int) : Twin (CalmLoose o o') (fitRat t Ls) := by
  unfold fitRat
  exact twin_bind (twin_glb (calm_frame o o')) fun _ => twin_ite (twin_lift _) (twin_ite (twin_lift _)
    (twin_bind (twin_lift _) fun _ => twin_bind (twin_lift _) fun _ => twin_bind (twin_lift _) fun _ =>
      twin_bind (calm_set o o' _ fun _ => rfl) fun _ => twin_ite (twin_lift _)
        (twin_bind (twin_lift _) fun _ => calm_set o o' _ fun _ => rfl)))

theorem calm_glb_bind {β : Type} {f : Glb → FM β} (h : ∀ g, Calm g.rat_TRop → Twin (CalmLoose o o') (f g)) :
    Twin (CalmLoose o o') (FM.glb >>= f) := by
  intro s t k
  rw [st_bind_ok (x := FM.glb) (s := s) (s' := s) rfl, st_bind_ok (x := FM.glb) (s := t) (s' := t) rfl, ← k.1.1]
  exact h s.glb k.2 s t k

theorem calm_scaleRest (env : FEnv) (a : XArgs) (r : List LEig) (fr : Int) : Twin (CalmLoose o o') (scaleRest env fr a r) := by
  unfold scaleRest scaleTrans
  have F := calm_frame o o'
  refine twin_bind (twin_glb F) fun _ => twin_ite (twin_bind ?_ fun _ => twin_pure _) (twin_pure _)
  refine calm_glb_bind o o' fun g hg => twin_bind (calm_Amp o o' env _ hg _ _ _) fun _ => twin_ite ?_ ?_
  · exact twin_bind (calm_fitRat o o' _ _) fun _ => twin_bind (twin_RatsAmps F _) fun _ => twin_pure _
  · exact twin_bind (twin_RatsAmps F _) fun _ => twin_pure _

theorem calm_scaleEig (r : List LEig) (fe : Int) : Twin (CalmLoose o o') (scaleEig fe r) := by
  unfold scaleEig
  have F := calm_frame o o'
  refine twin_bind (twin_glb F) fun _ => twin_ite (twin_ite ?_ ?_) (twin_pure _)
  · exact twin_bind (calm_fitEig o o' r) fun _ => twin_bind (twin_Show_Eigs F _ _ _ _ _) fun _ => twin_pure _
  · exact twin_bind (twin_Show_Eigs F _ _ _ _ _) fun _ => twin_pure _

/-- For operators without momenta, `ACM_ScaleOrAdapt` is determined by the settings, whatever the memo tables contain. -/
theorem calm_ScaleOrAdapt (env : FEnv) (fe fr : Int) (ham : OperatorSum) (hc : Calm ham) (a : XArgs) :
    Twin (CalmLoose o o') (ACM_ScaleOrAdapt env fe fr ham a) := by
  unfold ACM_ScaleOrAdapt
  exact twin_bind (twin_lift _) fun _ => twin_bind (twin_lift _) fun _ => twin_bind (twin_lift _) fun _ =>
    twin_bind (twin_glb (calm_frame o o')) fun _ => twin_bind (twin_lift _) fun _ => twin_bind (calm_Dig o o' env.x ham hc a) fun r =>
      twin_bind (calm_scaleEig o o' r fe) fun _ => calm_scaleRest o o' env a r fr

theorem calm_Mels_opt (A : Option LBlockArray) (l : List (List Int)) (t : Int) (f : MelFun) (sc : ℝ) :
    Twin (CalmLoose o o') (Show_Mels_opt A l t f sc) := by
  cases A with
  | none => exact twin_ite (twin_pure _) (twin_lift _)
  | some A => exact twin_Show_Mels (calm_frame o o') A l t f sc

theorem calm_Rats (imp : Glb) (A : Option LBlockArray) (l : Option (List (List Int))) (t : Option Int) :
    Twin (CalmLoose o o') (Show_Rats_call imp A l t) :=
  twin_bind (twin_glb (calm_frame o o')) fun _ => calm_Mels_opt o o' _ _ _ _ _

theorem calm_Amps (imp : Glb) (A : Option LBlockArray) (l : Option (List (List Int))) (t : Option Int) :
    Twin (CalmLoose o o') (Show_Amps_call imp A l t) :=
  twin_bind (twin_glb (calm_frame o o')) fun _ => calm_Mels_opt o o' _ _ _ _ _

theorem calm_Eigs (imp : Glb) (vals : List (List ℝ)) (Ls : List Int) (t l m : Option Int) :
    Twin (CalmLoose o o') (Show_Eigs_call imp vals Ls t l m) := twin_Show_Eigs (calm_frame o o') _ _ _ _ _

/-- Reading settings. -/
theorem calm_read {α : Type} (m : GM α) (h : ∀ g, (m g).2 = g) : Twin (CalmLoose o o') (FM.liftG m) := by
  intro s t k
  obtain ⟨⟨h1, h2⟩, h3⟩ := k
  refine ⟨?_, ⟨?_, h2⟩, ?_⟩
  · show (m s.glb).1 = (m t.glb).1
    rw [h1]
  · show (m s.glb).2 = (m t.glb).2
    rw [h1]
  · show Calm (m s.glb).2.rat_TRop
    rw [h]
    exact h3

/-- Changing settings. -/
theorem loose_liftG {α : Type} (m : GM α) : Twin (Loose o o') (FM.liftG m) := by
  intro s t k
  obtain ⟨h1, h2⟩ := k
  refine ⟨?_, ?_, h2⟩
  · show (m s.glb).1 = (m t.glb).1
    rw [h1]
  · show (m s.glb).2 = (m t.glb).2
    rw [h1]

end

/-! ### the Hamiltonians -/

theorem calm_addTerm {op : OperatorSum} (h : Calm op) (c c2 : Coeff) {p : OperatorProduct} (hp : ∀ x ∈ p, x.isMomentum = false) :
    Calm (addTerm op c c2 p) := by
  unfold addTerm
  split_ifs
  · intro t ht
    rcases List.mem_append.1 ht with ht | ht
    · exact h t ht
    · rw [List.mem_singleton.1 ht]; exact hp
  · exact h

theorem calm_addZero {op : OperatorSum} (h : Calm op) (c2 : Coeff) (p : OperatorProduct) : Calm (addTerm op 0 c2 p) := by
  unfold addTerm
  rw [if_neg (not_not.2 rfl)]
  exact h

/-- `ACM_Hamiltonian` without the last argument. -/
theorem calm_ham (c11 c20 c21 c22 c23 c30 c31 c32 c33 c40 : Coeff) :
    Calm (ACM_Hamiltonian c11 c20 c21 c22 c23 c30 c31 c32 c33 c40) := by
  unfold ACM_Hamiltonian
  refine calm_addZero ?_ _ _
  iterate 12 refine calm_addTerm ?_ _ _ (by decide)
  intro t ht
  split_ifs at ht
  · cases ht
  · simp only [List.mem_cons, List.not_mem_nil, or_false] at ht
    rcases ht with rfl | rfl <;> simp [OpSym.isMomentum]

theorem calm_make (B c1 c2 chi kappa : Coeff) : Calm (make_RWC_ham B c1 c2 chi kappa) := calm_ham _ _ _ _ _ _ _ _ _ _

theorem calm_quad : Calm quad_op := by
  intro t ht
  rw [List.mem_singleton.1 ht]
  decide

/-! ### the settings -/

theorem callAll_nil (fmt : String → Py Unit) (g : Glb) : callAll fmt [] g = (.ok (), g) := rfl

theorem callAll_cons {fmt : String → Py Unit} {c : GCall} {cs : List GCall} {g g' : Glb} (h : c.exec fmt g = (.ok (), g')) :
    callAll fmt (c :: cs) g = callAll fmt cs g' := by
  show (c.exec fmt >>= fun _ => callAll fmt cs) g = _
  rw [st_bind_ok h]

/-- The state with other settings. -/
def FState.at (s : FState) (g : Glb) : FState := ⟨g, s.piMemo, s.pipiMemo, s.piqpiMemo, s.out⟩

theorem liftG_ok {α : Type} {m : GM α} {s : FState} {g : Glb} {x : Py α} (h : m s.glb = (x, g)) : FM.liftG m s = (x, s.at g) := by
  unfold FM.liftG
  rw [h]
  rfl

/-- Preparing an example succeeds, with the given settings. -/
def Prep (fmt : String → Py Unit) (e : Example) (G : Glb → Glb) : Prop := ∀ s, e.prepare fmt s = (.ok (), s.at (G s.glb))

/-- Starting an example succeeds, with the given settings. -/
def Starts (fmt : String → Py Unit) (e : Example) (G : Glb → Glb) : Prop := ∀ s, startOf fmt e s = (.ok (), s.at (G s.glb))

section
variable {fmt : String → Py Unit} {set unset : List GCall} {exec : FEnv → FM Printed} {p : Example} {G G' G'' : Glb → Glb}

theorem starts_root (h : ∀ g, callAll fmt set g = (.ok (), G g)) : Starts fmt (.root set unset exec) G :=
  fun s => liftG_ok (h s.glb)

theorem starts_next (hp : Prep fmt p G) (h : ∀ g, callAll fmt set (G g) = (.ok (), G' g)) : Starts fmt (.next p set unset exec) G' := by
  intro s
  show (p.prepare fmt >>= fun _ => FM.liftG (callAll fmt set) : FM Unit) s = _
  rw [st_bind_ok (hp s)]
  exact liftG_ok (h s.glb)

theorem prep_of_root (hs : Starts fmt (.root set unset exec) G) (h : ∀ g, callAll fmt unset (G g) = (.ok (), G' g)) :
    Prep fmt (.root set unset exec) G' := by
  intro s
  show (FM.liftG (callAll fmt set) >>= fun _ => FM.liftG (callAll fmt unset) : FM Unit) s = _
  rw [st_bind_ok (x := FM.liftG (callAll fmt set)) (hs s)]
  exact liftG_ok (h s.glb)

theorem prep_of_next (hs : Starts fmt (.next p set unset exec) G) (h : ∀ g, callAll fmt unset (G g) = (.ok (), G' g)) :
    Prep fmt (.next p set unset exec) G' := by
  intro s
  have hs' : (p.prepare fmt >>= fun _ => FM.liftG (callAll fmt set) : FM Unit) s = _ := hs s
  obtain ⟨_, u, k1, k2⟩ := st_bind_eq_ok hs'
  show (p.prepare fmt >>= fun _ => FM.liftG (callAll fmt set) >>= fun _ => FM.liftG (callAll fmt unset) : FM Unit) s = _
  rw [st_bind_ok k1, st_bind_ok k2]
  exact liftG_ok (h s.glb)

/-- No settings for the example itself. -/
theorem starts_same (hp : Prep fmt p G) : Starts fmt (.next p [] unset exec) G := starts_next hp fun _ => rfl

theorem prep_same (hs : Starts fmt (.next p set [] exec) G) : Prep fmt (.next p set [] exec) G := prep_of_next hs fun _ => rfl

end

/-- Running an example is: start, calculate, end. -/
theorem run_eq (fmt : String → Py Unit) (env : FEnv) (e : Example) (s : FState) : e.run fmt env s = (do
    startOf fmt e
    let x ← execOf e env
    endOf fmt e
    pure x : FM Printed) s := by
  cases e with
  | root set unset exec => rfl
  | next p set unset exec =>
    show (p.prepare fmt >>= fun _ => FM.liftG (callAll fmt set) >>= fun _ => exec env >>= fun x =>
      FM.liftG (callAll fmt unset) >>= fun _ => pure x : FM Printed) s = ((p.prepare fmt >>= fun _ => FM.liftG (callAll fmt set)) >>=
      fun _ => exec env >>= fun x => FM.liftG (callAll fmt unset) >>= fun _ => pure x : FM Printed) s
    rcases h1 : p.prepare fmt s with ⟨e | x, s1⟩
    · rw [st_bind_error h1, st_bind_error (st_bind_error h1)]
    · rw [st_bind_ok h1]
      rcases h2 : FM.liftG (callAll fmt set) s1 with ⟨e | y, s2⟩
      · rw [st_bind_error h2, st_bind_error (e := e) (s' := s2)]
        rw [st_bind_ok h1, h2]
      · rw [st_bind_ok h2, st_bind_ok (a := y) (s' := s2)]
        rw [st_bind_ok h1, h2]

/-! ### the settings of the examples -/

section
variable {fmt : String → Py Unit}

theorem void_ok {α : Type} {m : GM α} {g g' : Glb} {x : α} (h : m g = (.ok x, g')) : GM.void m g = (.ok (), g') := by
  unfold GM.void
  rw [st_bind_ok h]
  rfl

theorem exec_ratFit (hf : fmt def_rat_format = .ok ()) {g : Glb} (hg : g.rat_format = def_rat_format) {x : ℝ} {a b c d : Int}
    (h1 : 0 ≤ a) (h2 : 0 ≤ b) (h3 : 1 ≤ c) (h4 : 1 ≤ d) :
    (GCall.ratFit (some x) (some a) (some b) (some c) (some d) 1).exec fmt g =
      (.ok (), { g with rat_fit := x, rat_L1 := a, rat_L2 := b, rat_1dx := c, rat_2dx := d }) := by
  refine void_ok (x := (x, a, b, c, d)) ?_
  unfold ACM_set_rat_fit
  simp only [Option.getD_some]
  rw [require_nonnegint_ok h1, st_lift_ok, require_nonnegint_ok h2, st_lift_ok, require_posint_ok h3, st_lift_ok,
    require_posint_ok h4, st_lift_ok, gm_modify_bind, gm_get_bind]
  have : (if (1 : Int) > 0 then fmt g.rat_format else pure () : Py Unit) = .ok () := by rw [hg, hf]; rfl
  rw [this, st_lift_ok]
  rfl

theorem exec_scales {g : Glb} (hg : g.amp_sft_fun = pySqrt) {x y : ℝ} (hx : x ≠ 0) (hy : 0 < y) :
    (GCall.scales (some x) (some y) 1).exec fmt g =
      (.ok (), { g with eig_sft := x, rat_sft := y, amp_sft := Real.sqrt y }) := by
  show ACM_set_scales (some x) (some y) 1 g = _
  rw [ACM_set_scales_eq]
  simp only [Option.getD_some, hg, pySqrt_ok hy.le]
  have : Real.sqrt y ≠ 0 := (Real.sqrt_pos.2 hy).ne'
  simp [scalesShown, hx, hy.ne', this]

theorem exec_defaults (hf : fmt def_rat_format = .ok ()) (g : Glb) : (GCall.defaults 0).exec fmt g =
    (.ok (), { Glb.init with tran_format := g.tran_format, tran_fill := g.tran_fill, nu_lap := g.nu_lap }) :=
  defaults_eq fmt hf 0 g

/-- The settings of `Example_1_2`. -/
noncomputable def G12 (k : Glb) : Glb :=
  { Glb.init with tran_format := k.tran_format, tran_fill := k.tran_fill, nu_lap := k.nu_lap, rel_wid := 8, low_pre := 5, eig_num := 6 }

theorem starts_1_2 (hf : fmt def_rat_format = .ok ()) : Starts fmt Example_1_2 G12 := by
  refine starts_root fun g => ?_
  rw [callAll_cons (exec_defaults hf g)]
  rw [callAll_cons (g' := { G12 g with eig_num := 4 }) rfl]
  rw [callAll_cons (g' := { G12 g with eig_num := 4 }) rfl]
  rw [callAll_cons (g' := G12 g) rfl]
  rw [callAll_cons (g' := G12 g) rfl]
  rw [callAll_cons (exec_ratFit hf rfl (by decide) (by decide) (by decide) (by decide))]
  rfl

/-- The settings of `Example_2_3_a`. -/
noncomputable def G23a (k : Glb) : Glb := { G12 k with
    rat_lst := [[2, 0, 1, 1], [4, 2, 1, 1], [6, 4, 1, 1], [8, 6, 1, 1]]
    amp_lst := [[2, 2, 1, 1]] }

/-- The settings of `Example_2_3_b`. -/
noncomputable def G23b (k : Glb) : Glb := { G12 k with
    rat_lst := [[2, 0, 1, 1], [4, 2, 1, 1], [6, 4, 1, 1], [8, 6, 1, 1], [2, 2, 1, 1], [4, 4, 1, 1], [6, 6, 1, 1],
      [8, 8, 1, 1]]
    amp_lst := [[2, 2, 1, 1], [2, 2, 2, 2]] }

/-- The settings of `Example_2_3_c`. -/
noncomputable def G23c (k : Glb) : Glb := { G12 k with
    rat_lst := [[2, 0, 1, 1, 2], [3, 2, 1, 2, 1]]
    amp_lst := [[6, 6, 1, 1, -1]] }

/-- The settings of `Example_2_4_a`. -/
noncomputable def G24a (k : Glb) : Glb := { G12 k with
    eig_sft := 0.018
    rat_sft := 0.0015
    amp_sft := Real.sqrt 0.0015
    rat_lst := [[2, 0, 1, 1, 2], [3, 2, 1, 2, 2], [4, 3, 2, 1, 2]]
    amp_lst := [[2, 2, 1, 1], [2, 2, 2, 2]] }

/-- The settings of `Example_2_4_c`. -/
noncomputable def G24c (k : Glb) : Glb := { G24a k with
    eig_fit := 100
    eig_L := 0
    eig_idx := 2
    rat_fit := 100
    rat_L1 := 2
    rat_L2 := 2
    rat_1dx := 2
    rat_2dx := 1 }

/-- The settings of `Example_2_4_d`. -/
noncomputable def G24d (k : Glb) : Glb := { G24a k with
    rat_lst := [[2, 0, 1, 1, 2], [3, 2, 1, 2, 2], [4, 3, 2, 1, 2], [4, 2, 2, 2, 2], [2, 2, 2, 1, 2], [2, 0, 3, 2],
      [4, 2, 4, 3], [6, 4, 4, 4], [5, 4, 2, 3], [6, 5, 3, 2], [2, 0, 2, 1], [0, 2, 2, 2], [0, 2, 2, 1],
      [4, 2, 3, 2], [2, 0, 4, 3], [4, 2, 5, 4], [0, 2, 3, 1], [2, 0, 4, 1], [4, 4, 5, 1]] }

/-- The settings of `Example_2_5_a`. -/
noncomputable def G25a (k : Glb) : Glb := { G24d k with
    rat_lst := [[2, 0], [2, 2]]
    amp_lst := [] }

/-- The settings of `Example_2_5_b`. -/
noncomputable def G25b (k : Glb) : Glb := { G25a k with
    rat_lst := [[2], [2, 0, 1]] }

/-- The settings of `Example_2_5_c`. -/
noncomputable def G25c (k : Glb) : Glb := { G25b k with
    eig_num := 3
    rat_num := 6
    amp_num := 6 }

/-- The settings of `Example_3_2_a`. -/
noncomputable def G32a (k : Glb) : Glb := { G12 k with
    eig_num := 4 }

/-- The settings of `Example_3_3_a`. -/
noncomputable def G33a (k : Glb) : Glb := { G32a k with
    rat_lst := [[2, 0, 1, 1, 2]]
    amp_lst := [[2, 2, 1, 1]] }

/-- The settings of `Example_4_2_a`. -/
noncomputable def G42a (k : Glb) : Glb := { G12 k with
    eig_num := 4
    rat_num := 3
    amp_num := 3
    rat_lst := [[2, 2, 2, 1], [4, 4, 2, 1], [4, 4, 3, 2], [4, 4, 4, 3], [6, 6, 2, 1], [6, 6, 3, 2], [6, 6, 4, 3]]
    amp_lst := [[2, 2, 1, 1]] }

/-- The settings of `Example_4_5_b`. -/
noncomputable def G45b (k : Glb) : Glb := { G42a k with
    lam_fun := lambda_sho_fun }

/-- The settings of `Example_4_5_c`. -/
noncomputable def G45c (k : Glb) : Glb := { G45b k with
    rat_lst := [[2, 0, 1, 1, 2], [2, 2, 2, 1], [4, 4, 2, 1], [4, 4, 3, 2], [4, 4, 4, 3], [6, 6, 2, 1], [6, 6, 3, 2],
      [6, 6, 4, 3]] }

theorem starts_2_2_a (hf : fmt def_rat_format = .ok ()) : Starts fmt Example_2_2_a G12 :=
  starts_same (prep_of_root (starts_1_2 hf) fun _ => rfl)

theorem starts_2_2_b (hf : fmt def_rat_format = .ok ()) : Starts fmt Example_2_2_b G12 :=
  starts_same (prep_same (starts_2_2_a hf))

theorem starts_2_2_c (hf : fmt def_rat_format = .ok ()) : Starts fmt Example_2_2_c G12 :=
  starts_same (prep_same (starts_2_2_b hf))

theorem starts_2_2_d (hf : fmt def_rat_format = .ok ()) : Starts fmt Example_2_2_d G12 :=
  starts_same (prep_same (starts_2_2_c hf))

theorem starts_2_3_a (hf : fmt def_rat_format = .ok ()) : Starts fmt Example_2_3_a G23a :=
  starts_next (prep_same (starts_2_2_d hf)) fun _ => rfl

theorem starts_2_3_b (hf : fmt def_rat_format = .ok ()) : Starts fmt Example_2_3_b G23b :=
  starts_next (prep_same (starts_2_3_a hf)) fun _ => rfl

theorem starts_2_3_c (hf : fmt def_rat_format = .ok ()) : Starts fmt Example_2_3_c G23c :=
  starts_next (prep_same (starts_2_3_b hf)) fun _ => rfl

theorem starts_2_4_a (hf : fmt def_rat_format = .ok ()) : Starts fmt Example_2_4_a G24a :=
  starts_next (prep_same (starts_2_3_c hf)) fun g => by
    rw [callAll_cons (exec_scales rfl (by norm_num) (by norm_num))]
    rfl

theorem starts_2_4_b (hf : fmt def_rat_format = .ok ()) : Starts fmt Example_2_4_b G24a :=
  starts_same (prep_same (starts_2_4_a hf))

theorem starts_2_4_c (hf : fmt def_rat_format = .ok ()) : Starts fmt Example_2_4_c G24c :=
  starts_next (prep_same (starts_2_4_b hf)) fun g => by
    rw [callAll_cons (g' := { G24a g with eig_fit := 100, eig_L := 0, eig_idx := 2 }) rfl,
      callAll_cons (exec_ratFit hf rfl (by decide) (by decide) (by decide) (by decide))]
    rfl

theorem starts_2_4_d (hf : fmt def_rat_format = .ok ()) : Starts fmt Example_2_4_d G24d :=
  starts_next (prep_same (starts_2_4_c hf)) fun g => by
    rw [callAll_cons (g' := { G24c g with eig_fit := 6, eig_L := 2, eig_idx := 1 }) rfl,
      callAll_cons (exec_ratFit hf rfl (by decide) (by decide) (by decide) (by decide)),
      callAll_cons (g' := { G24a g with
        rat_lst := [[2, 0, 1, 1, 2], [3, 2, 1, 2, 2], [4, 3, 2, 1, 2], [4, 2, 2, 2, 2], [2, 2, 2, 1, 2]] }) rfl,
      callAll_cons (g' := { G24a g with
        rat_lst := [[2, 0, 1, 1, 2], [3, 2, 1, 2, 2], [4, 3, 2, 1, 2], [4, 2, 2, 2, 2], [2, 2, 2, 1, 2],
          [2, 0, 3, 2], [4, 2, 4, 3], [6, 4, 4, 4], [5, 4, 2, 3], [6, 5, 3, 2]] }) rfl,
      callAll_cons (g' := { G24a g with
        rat_lst := [[2, 0, 1, 1, 2], [3, 2, 1, 2, 2], [4, 3, 2, 1, 2], [4, 2, 2, 2, 2], [2, 2, 2, 1, 2],
          [2, 0, 3, 2], [4, 2, 4, 3], [6, 4, 4, 4], [5, 4, 2, 3], [6, 5, 3, 2],
          [2, 0, 2, 1], [0, 2, 2, 2], [0, 2, 2, 1], [4, 2, 3, 2]] }) rfl,
      callAll_cons (g' := G24d g) rfl]
    rfl

theorem starts_2_5_a (hf : fmt def_rat_format = .ok ()) : Starts fmt Example_2_5_a G25a :=
  starts_next (prep_same (starts_2_4_d hf)) fun _ => rfl

theorem starts_2_5_b (hf : fmt def_rat_format = .ok ()) : Starts fmt Example_2_5_b G25b :=
  starts_next (prep_same (starts_2_5_a hf)) fun _ => rfl

theorem starts_2_5_c (hf : fmt def_rat_format = .ok ()) : Starts fmt Example_2_5_c G25c :=
  starts_next (prep_same (starts_2_5_b hf)) fun _ => rfl

theorem starts_3_2_a (hf : fmt def_rat_format = .ok ()) : Starts fmt Example_3_2_a G32a :=
  starts_next (prep_of_root (starts_1_2 hf) fun _ => rfl) fun _ => rfl

theorem starts_3_2_b (hf : fmt def_rat_format = .ok ()) : Starts fmt Example_3_2_b G32a :=
  starts_same (prep_same (starts_3_2_a hf))

theorem starts_3_2_c (hf : fmt def_rat_format = .ok ()) : Starts fmt Example_3_2_c G32a :=
  starts_same (prep_same (starts_3_2_b hf))

theorem starts_3_3_a (hf : fmt def_rat_format = .ok ()) : Starts fmt Example_3_3_a G33a :=
  starts_next (prep_same (starts_3_2_c hf)) fun _ => rfl

theorem starts_3_4_a (hf : fmt def_rat_format = .ok ()) : Starts fmt Example_3_4_a G33a :=
  starts_same (prep_same (starts_3_3_a hf))

theorem starts_3_4_b (hf : fmt def_rat_format = .ok ()) : Starts fmt Example_3_4_b G33a :=
  starts_same (prep_same (starts_3_4_a hf))

theorem starts_3_4_c (hf : fmt def_rat_format = .ok ()) : Starts fmt Example_3_4_c G33a :=
  starts_same (prep_same (starts_3_4_b hf))

theorem starts_3_4_d (hf : fmt def_rat_format = .ok ()) : Starts fmt Example_3_4_d G33a :=
  starts_same (prep_same (starts_3_4_c hf))

theorem starts_4_1_a (hf : fmt def_rat_format = .ok ()) : Starts fmt Example_4_1_a G12 :=
  starts_same (prep_of_root (starts_1_2 hf) fun _ => rfl)

theorem starts_4_2_a (hf : fmt def_rat_format = .ok ()) : Starts fmt Example_4_2_a G42a :=
  starts_next (prep_same (starts_4_1_a hf)) fun _ => rfl

theorem starts_4_3_a (hf : fmt def_rat_format = .ok ()) : Starts fmt Example_4_3_a G42a :=
  starts_same (prep_same (starts_4_2_a hf))

theorem starts_4_3_b (hf : fmt def_rat_format = .ok ()) : Starts fmt Example_4_3_b G42a :=
  starts_same (prep_same (starts_4_3_a hf))

theorem starts_4_3_c (hf : fmt def_rat_format = .ok ()) : Starts fmt Example_4_3_c G42a :=
  starts_same (prep_same (starts_4_3_b hf))

theorem starts_4_3_d (hf : fmt def_rat_format = .ok ()) : Starts fmt Example_4_3_d G42a :=
  starts_same (prep_same (starts_4_3_c hf))

theorem starts_4_3_e (hf : fmt def_rat_format = .ok ()) : Starts fmt Example_4_3_e G42a :=
  starts_same (prep_same (starts_4_3_d hf))

theorem starts_4_3_f (hf : fmt def_rat_format = .ok ()) : Starts fmt Example_4_3_f G42a :=
  starts_same (prep_same (starts_4_3_e hf))

theorem starts_4_4_a (alam : ℝ × ℝ) (hf : fmt def_rat_format = .ok ()) : Starts fmt (Example_4_4_a alam) G42a :=
  starts_same (prep_same (starts_4_3_f hf))

theorem starts_4_4_b (alam : ℝ × ℝ) (hf : fmt def_rat_format = .ok ()) : Starts fmt (Example_4_4_b alam) G42a :=
  starts_same (prep_same (starts_4_4_a alam hf))

theorem starts_4_4_c (alam : ℝ × ℝ) (hf : fmt def_rat_format = .ok ()) : Starts fmt (Example_4_4_c alam) G42a :=
  starts_same (prep_same (starts_4_4_b alam hf))

theorem starts_4_4_d (alam : ℝ × ℝ) (hf : fmt def_rat_format = .ok ()) : Starts fmt (Example_4_4_d alam) G42a :=
  starts_same (prep_same (starts_4_4_c alam hf))

theorem starts_4_4_e (alam : ℝ × ℝ) (hf : fmt def_rat_format = .ok ()) : Starts fmt (Example_4_4_e alam) G42a :=
  starts_same (prep_same (starts_4_4_d alam hf))

theorem starts_4_4_f (alam : ℝ × ℝ) (hf : fmt def_rat_format = .ok ()) : Starts fmt (Example_4_4_f alam) G42a :=
  starts_same (prep_same (starts_4_4_e alam hf))

theorem starts_4_5_a (alam : ℝ × ℝ) (hf : fmt def_rat_format = .ok ()) : Starts fmt (Example_4_5_a alam) G42a :=
  starts_same (prep_same (starts_4_4_f alam hf))

theorem starts_4_5_b (alam : ℝ × ℝ) (hf : fmt def_rat_format = .ok ()) : Starts fmt (Example_4_5_b alam) G45b :=
  starts_next (prep_same (starts_4_5_a alam hf)) fun _ => rfl

theorem starts_4_5_c (alam : ℝ × ℝ) (hf : fmt def_rat_format = .ok ()) : Starts fmt (Example_4_5_c alam) G45c :=
  starts_next (prep_same (starts_4_5_b alam hf)) fun _ => rfl

theorem starts_4_5_d_050508 (alam : ℝ × ℝ) (hf : fmt def_rat_format = .ok ()) : Starts fmt (Example_4_5_d_050508 alam) G45c :=
  starts_same (prep_same (starts_4_5_c alam hf))

theorem starts_4_5_d (alam : ℝ × ℝ) (hf : fmt def_rat_format = .ok ()) : Starts fmt (Example_4_5_d alam) G45c :=
  starts_same (prep_same (starts_4_5_c alam hf))

end

end Acm
