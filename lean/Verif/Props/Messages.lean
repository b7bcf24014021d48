import Verif.Lemmas.Messages
import Verif.Props.Globals
import Verif.Props.Text

/-! Property C123: the messages of the setting procedures. -/

namespace Acm.Props

open Acm Acm.Spec Acm.Msg

theorem keeps_tran (c : GCall) : Preserves (fun g : Glb => g.tran_format = Glb.init.tran_format) (c.exec fmtOf) := by
  refine exec_keeps' (P := fun g : Glb => g.tran_format = Glb.init.tran_format) fmtOf ?_ (fun _ _ _ h => h) (fun _ _ h => h)
    (fun _ _ h => h) c
  constructor <;> intros <;> assumption

theorem preview_eq {g : Glb} (h : g.tran_format = Glb.init.tran_format) (f : List Char) (s : GOut) :
    preview g f s = (.ok (), ⟨s.glb, s.out ++ ("Each will be output using the format:\n  ".toList ++ f ++ " L_i(j_i) -> L_f(j_f) *\n".toList)⟩) := by
  have e : g.tran_format.toList = "{}({}) -> {}({})".toList := by rw [h]; rfl
  unfold preview
  rw [e, tran_segs]
  refine Prod.ext rfl (congrArg (GOut.mk s.glb) ?_)
  simp [arrowLine]

theorem quiet_preview {g : Glb} (h : g.tran_format = Glb.init.tran_format) (f : List Char) : Quiet (preview g f) := by
  intro s _
  rw [preview_eq h]
  exact ⟨rfl, rfl⟩

theorem scales_eq (e r : Option ℝ) (k : Int) (g : Glb) : Acm.ACM_set_scales e r k g =
    match g.amp_sft_fun (r.getD g.rat_sft) with
    | .ok a => (Acm.ACM_show_scales k).void { g with eig_sft := e.getD g.eig_sft, rat_sft := r.getD g.rat_sft, amp_sft := a }
    | .error err => (.error err, { g with eig_sft := e.getD g.eig_sft, rat_sft := r.getD g.rat_sft }) := by
  have key : ∀ (g : Glb), (do
      let g ← GM.get
      let a ← StPy.lift (g.amp_sft_fun g.rat_sft)
      GM.modify fun g => { g with amp_sft := a }
      let _ ← Acm.ACM_show_scales k
      pure () : GM Unit) g = match g.amp_sft_fun g.rat_sft with
        | .ok a => (Acm.ACM_show_scales k).void { g with amp_sft := a }
        | .error err => (.error err, g) := by
    intro g
    rw [gm_get_bind, st_bind]
    unfold StPy.lift
    cases g.amp_sft_fun g.rat_sft <;> rfl
  cases e <;> cases r <;> exact key _

/-- The three lines of `ACM_show_scales`. -/
noncomputable def scaleLines (n : Names) (g : Glb) : GP Unit := do
  let a ← StPy.lift (pyRecip g.eig_sft)
  print ("Relative eigenenergies to be multiplied by ".toList ++ n.flt a ++ ";".toList)
  let b ← StPy.lift (pyRecip g.rat_sft)
  print ("\"".toList ++ g.rat_desg.toList ++ "\" to be multiplied by ".toList ++ n.flt b ++ ";".toList)
  let c ← StPy.lift (pyRecip g.amp_sft)
  print ("\"".toList ++ g.amp_desg.toList ++ "\" to be multiplied by ".toList ++ n.flt c ++ ".".toList)

theorem show_scales_void (n : Names) (k : Int) (s : GOut) : ∃ t, (Msg.ACM_show_scales n k >>= fun _ => (pure () : GP Unit)) s =
    (((Acm.ACM_show_scales k).void s.glb).1, ⟨s.glb, s.out ++ t⟩) ∧ ((Acm.ACM_show_scales k).void s.glb).2 = s.glb := by
  by_cases hk : k > 0
  · have e1 : (Msg.ACM_show_scales n k >>= fun _ => (pure () : GP Unit)) s = scaleLines n s.glb s := by
      have : (Msg.ACM_show_scales n k >>= fun _ => (pure () : GP Unit)) s = (scaleLines n s.glb >>= fun _ => (pure () : GP Unit)) s := by
        have h' : Msg.ACM_show_scales n k s = (scaleLines n s.glb >>= fun _ => pure (s.glb.eig_sft, s.glb.rat_sft, s.glb.amp_sft)) s := by
          unfold Msg.ACM_show_scales Msg.say
          simp only [hk, if_true]
          rfl
        rw [st_bind, h', st_bind, st_bind]
        rcases scaleLines n s.glb s with ⟨r, s'⟩
        cases r <;> rfl
      rw [this, st_bind]
      rcases scaleLines n s.glb s with ⟨r, s'⟩
      cases r <;> rfl
    have e2 : (Acm.ACM_show_scales k).void s.glb = (((do
        let _ ← pyRecip s.glb.eig_sft
        let _ ← pyRecip s.glb.rat_sft
        let _ ← pyRecip s.glb.amp_sft
        pure ()) : Py Unit), s.glb) := by
      unfold GM.void Acm.ACM_show_scales
      rw [st_bind, gm_get_bind]
      simp only [hk, if_true]
      cases pyRecip s.glb.eig_sft <;> cases pyRecip s.glb.rat_sft <;> cases pyRecip s.glb.amp_sft <;> rfl
    rw [e1, e2]
    unfold scaleLines
    cases pyRecip s.glb.eig_sft with
    | error e => exact ⟨[], by rw [List.append_nil]; rfl, rfl⟩
    | ok a =>
      cases pyRecip s.glb.rat_sft with
      | error e => exact ⟨_, rfl, rfl⟩
      | ok b =>
        cases pyRecip s.glb.amp_sft with
        | error e => exact ⟨_, congrArg (fun o => ((Except.error e : Py Unit), GOut.mk s.glb o)) (List.append_assoc _ _ _), rfl⟩
        | ok c => exact ⟨_, congrArg (fun o => ((Except.ok () : Py Unit), GOut.mk s.glb o))
            ((List.append_assoc _ _ _).trans (List.append_assoc _ _ _)), rfl⟩
  · unfold Msg.ACM_show_scales Acm.ACM_show_scales Msg.say GM.void
    simp only [hk, if_false]
    exact ⟨[], by rw [List.append_nil]; rfl, rfl⟩

theorem sim_scales (n : Names) (e r : Option ℝ) (k : Int) : Sim (Acm.ACM_set_scales e r k) (Msg.ACM_set_scales n e r k) := by
  intro s hs
  refine ⟨?_, keeps_tran (.scales e r k) s.glb hs⟩
  unfold Msg.ACM_set_scales
  rw [st_bind]
  unfold Msg.run
  rw [scales_eq, scales_eq]
  cases s.glb.amp_sft_fun (r.getD s.glb.rat_sft) with
  | error e => rfl
  | ok a =>
    obtain ⟨t, h1, h2⟩ := show_scales_void n k ⟨{ s.glb with eig_sft := e.getD s.glb.eig_sft, rat_sft := r.getD s.glb.rat_sft, amp_sft := a }, s.out⟩
    refine (congrArg (fun p : Py Unit × GOut => (p.1, p.2.glb)) h1).trans ?_
    exact Prod.ext rfl h2.symm

theorem quiet_show_lst (lst : List (List Int)) (d : List Char) (k : Int) : Quiet (Msg.ACM_show_lst lst d k) := by
  refine quiet_glb fun g hg => Quiet.say ?_ k
  split
  · refine Quiet.bind (quiet_print _) ?_
    clear * - hg
    induction lst with
    | nil => exact quiet_pure
    | cons ent rest ih =>
      refine quiet_lift (C120_lst g hg ent) ?_
      cases show_lst_line ent with
      | none => exact ih
      | some t => exact Quiet.bind (quiet_print _) ih
  · exact quiet_print _

theorem sim_ratFit (f : Option ℝ) (a b c d : Option Int) (k : Int) :
    Sim (Acm.ACM_set_rat_fit fmtOf f a b c d k).void (Msg.ACM_set_rat_fit f a b c d k) := by
  intro s hs
  refine ⟨?_, keeps_tran (.ratFit f a b c d k) s.glb hs⟩
  unfold Msg.ACM_set_rat_fit Msg.run Acm.ACM_set_rat_fit GM.void
  cases h1 : require_nonnegint (a.getD 2) with
  | error e => rfl
  | ok _ =>
  cases h2 : require_nonnegint (b.getD 0) with
  | error e => rfl
  | ok _ =>
  cases h3 : require_posint (c.getD 1) with
  | error e => rfl
  | ok _ =>
  cases h4 : require_posint (d.getD 1) with
  | error e => rfl
  | ok _ =>
    by_cases hk : k > 0
    · simp only [hk, if_true, Msg.say]
      set g' : Glb := { s.glb with rat_fit := f.getD 100, rat_L1 := a.getD 2, rat_L2 := b.getD 0, rat_1dx := c.getD 1, rat_2dx := d.getD 1 }
      have hf : fmtOf g'.rat_format = (ratFitText g').map fun _ => () := ratFitText_kind (by exact hs.symm) rfl
      have key : ∀ (x : Py (List Char)) (y : Py Unit), y = x.map (fun _ => ()) →
          ((((StPy.lift x >>= fun t => print ("In ACM_Adapt, the scaling factor for \"".toList ++ g'.rat_desg.toList ++
            "\" is chosen such that\n".toList ++ t)) : GP Unit) ⟨g', s.out⟩).1,
          (((StPy.lift x >>= fun t => print ("In ACM_Adapt, the scaling factor for \"".toList ++ g'.rat_desg.toList ++
            "\" is chosen such that\n".toList ++ t)) : GP Unit) ⟨g', s.out⟩).2.glb) =
          ((StPy.lift y >>= fun _ => pure ()) : GM Unit) g' := by
        rintro (e | t) y rfl <;> rfl
      have e2 : ∀ y : Py Unit, ((StPy.lift y >>= fun _ => pure ()) : GM Unit) g' =
          (((StPy.lift y >>= fun _ => pure (g'.rat_fit, g'.rat_L1, g'.rat_L2, g'.rat_1dx, g'.rat_2dx)) >>= fun _ => pure ()) : GM Unit) g' := by
        rintro (e | t) <;> rfl
      exact (key _ _ hf).trans (e2 _)
    · simp only [hk, if_false, Msg.say]
      rfl

theorem sim_basis (n : Names) (c : Int) (x : ℝ) (k : Int) : Sim (Acm.ACM_set_basis_type c x k).void (Msg.ACM_set_basis_type n c x k) := by
  intro s hs
  refine ⟨?_, keeps_tran (.basisType c x k) s.glb hs⟩
  unfold Msg.ACM_set_basis_type Acm.ACM_set_basis_type GM.void Msg.say
  cases require_nonnegint c with
  | error e => rfl
  | ok _ =>
    by_cases h0 : c = 0
    · subst h0; by_cases hk : k > 0 <;> simp only [hk, if_true, if_false] <;> rfl
    by_cases h1 : c = 1
    · subst h1
      by_cases hk : k > 0 <;> simp only [hk, show ¬ ((1 : Int) = 0) by decide, if_true, if_false] <;> rfl
    by_cases h2 : c = 2
    · subst h2
      by_cases hk : k > 0 <;> simp only [hk, show ¬ ((2 : Int) = 0) by decide, show ¬ ((2 : Int) = 1) by decide, if_true, if_false] <;> rfl
    by_cases h3 : c = 3
    · subst h3
      by_cases hk : k > 0 <;> simp only [hk, show ¬ ((3 : Int) = 0) by decide, show ¬ ((3 : Int) = 1) by decide,
        show ¬ ((3 : Int) = 2) by decide, if_true, if_false] <;> rfl
    · simp only [h0, h1, h2, h3, if_false]; rfl

theorem flt_eq (x : ℝ) : pyFormatFlt "f".toList x = .ok (itemText 0 6 x) := by
  refine congrArg Except.ok (show fltText ⟨false, false, 0, none, some 'f'⟩ x = _ from ?_)
  unfold fltText numText itemText
  by_cases h : x < 0 <;> simp [h]

theorem sim_bind {α : Type} {m : GM α} {y : GM Unit} {p q : GP Unit} (h : Sim m.void p) (h' : Sim y q) :
    Sim (m >>= fun _ => y) (p >>= fun _ => q) := void_bind m y ▸ h.bind h'

theorem sim_sft (n : Names) (hn : ∀ f, ∃ t, n.sft f = .ok t) (f : Option (ℝ → Py ℝ)) (k : Int) :
    Sim (Acm.ACM_set_sft_fun f k).void (Msg.ACM_set_sft_fun n f k) := by
  refine sim_run (keeps_tran (.sftFun f k)) (Quiet.say (quiet_glb fun g _ => ?_) k)
  obtain ⟨t, ht⟩ := hn g.amp_sft_fun
  exact quiet_lift ht (quiet_print _)

theorem sim_output (a b c : Option Int) (k : Int) : Sim (Acm.ACM_set_output a b c k).void (Msg.ACM_set_output a b c k) :=
  sim_run (keeps_tran (.output a b c k)) (Quiet.say (quiet_glb fun _ _ => (quiet_print _).bind ((quiet_print _).bind (quiet_print _))) k)

theorem sim_listln (a b : Option Int) (k : Int) : Sim (Acm.ACM_set_listln a b k).void (Msg.ACM_set_listln a b k) :=
  sim_run (keeps_tran (.listln a b k)) (Quiet.say (quiet_glb fun _ _ => (quiet_print _).bind (quiet_print _)) k)

theorem sim_datum (d : Int) (k : Int) : Sim (Acm.ACM_set_datum d k).void (Msg.ACM_set_datum d k) := by
  refine sim_run (keeps_tran (.datum d k)) (Quiet.say (quiet_glb fun _ _ => ?_) k)
  split <;> exact quiet_print _

theorem sim_eigFit (f : Option ℝ) (l i : Option Int) (k : Int) : Sim (Acm.ACM_set_eig_fit f l i k).void (Msg.ACM_set_eig_fit f l i k) := by
  refine sim_run (keeps_tran (.eigFit f l i k)) (Quiet.say (quiet_glb fun g _ => ?_) k)
  rw [flt_eq]
  exact quiet_print _

theorem sim_run' {x : GM Unit} (h : Preserves (fun g => g.tran_format = Glb.init.tran_format) x) : Sim x (run x) := fun s hs => ⟨rfl, h s.glb hs⟩

theorem sim_setRat (l : List (List Int)) : Sim (Acm.ACM_set_rat_lst l).void (Msg.ACM_set_rat_lst l) :=
  (quiet_write _).sim (sim_run' (keeps_tran (.setRatLst l)))

theorem sim_setAmp (l : List (List Int)) : Sim (Acm.ACM_set_amp_lst l).void (Msg.ACM_set_amp_lst l) :=
  (quiet_write _).sim (sim_run' (keeps_tran (.setAmpLst l)))

theorem sim_transition (n : Names) (o : Option OperatorSum) (k : Int) : Sim (Acm.ACM_set_transition o k).void (Msg.ACM_set_transition n o k) := by
  refine sim_run (keeps_tran (.transition o k)) (Quiet.say (quiet_glb fun _ _ => (quiet_write _).bind ((quiet_print _).bind ?_)) k)
  split <;> exact quiet_print _

theorem sim_ratForm (n : Names) (f : Option MelFun) (a b : Option String) (k : Int) :
    Sim (Acm.ACM_set_rat_form f a b k).void (Msg.ACM_set_rat_form n f a b k) :=
  sim_run (keeps_tran (.ratForm f a b k)) (Quiet.say (quiet_glb fun _ h => (quiet_print _).bind (quiet_preview h _)) k)

theorem sim_ampForm (n : Names) (f : Option MelFun) (a b : Option String) (k : Int) :
    Sim (Acm.ACM_set_amp_form f a b k).void (Msg.ACM_set_amp_form n f a b k) :=
  sim_run (keeps_tran (.ampForm f a b k)) (Quiet.say (quiet_glb fun _ h => (quiet_print _).bind ((quiet_print _).bind (quiet_preview h _))) k)

theorem sim_lambda (n : Names) (f : LambdaFunction) (k : Int) : Sim (Acm.ACM_set_lambda_fun f k).void (Msg.ACM_set_lambda_fun n f k) :=
  sim_run (keeps_tran (.lambdaFun f k)) (Quiet.say (quiet_glb fun _ _ => quiet_print _) k)

theorem sim_exec (n : Names) (hn : ∀ f, ∃ t, n.sft f = .ok t) : ∀ c : GCall, Sim (c.exec fmtOf) (exec n c)
  | .scales e r k => sim_scales n e r k
  | .sftFun f k => sim_sft n hn f k
  | .output a b c k => sim_output a b c k
  | .listln a b k => sim_listln a b k
  | .datum d k => sim_datum d k
  | .eigFit f l i k => sim_eigFit f l i k
  | .ratFit f a b c d k => sim_ratFit f a b c d k
  | .setRatLst l => sim_setRat l
  | .addRatLst l => (quiet_write _).sim (sim_run' (keeps_tran (.addRatLst l)))
  | .setAmpLst l => sim_setAmp l
  | .addAmpLst l => (quiet_write _).sim (sim_run' (keeps_tran (.addAmpLst l)))
  | .transition o k => sim_transition n o k
  | .ratForm f a b k => sim_ratForm n f a b k
  | .ampForm f a b k => sim_ampForm n f a b k
  | .lambdaFun f k => sim_lambda n f k
  | .basisType c x k => sim_basis n c x k
  | .defaults k =>
    sim_bind (sim_output _ _ _ k) <| sim_bind (sim_listln _ _ k) <| sim_bind (sim_datum _ k) <| sim_bind (sim_basis n _ _ k) <|
    sim_bind (sim_transition n _ k) <| sim_bind (sim_ratForm n _ _ _ k) <| sim_bind (sim_ampForm n _ _ _ k) <|
    sim_bind (sim_sft n hn _ k) <| sim_bind (sim_eigFit _ _ _ k) <| sim_bind (sim_ratFit _ _ _ _ _ k) <|
    sim_bind (sim_setRat _) <| sim_bind (sim_setAmp _) <|
    (quiet_glb fun _ _ => quiet_show_lst _ _ k).sim <| (quiet_glb fun _ _ => quiet_show_lst _ _ k).sim <|
    (sim_scales n _ _ k).quiet ((quiet_print []).say k)

/-! ### C123 -/

/-- C123.  The program with its messages sets what the program without them sets, and raises where that raises, after any history of
calls: the claims about the settings hold for it. -/
theorem C123_settings (n : Names) (hn : ∀ f, ∃ t, n.sft f = .ok t) : ∃ fmt : String → Py Unit, ∀ (o : List Char) (cs : List GCall),
    (execAll n cs ⟨Glb.init, o⟩).glb = runGCalls fmt cs Glb.init ∧
    ∀ c : GCall, (exec n c (execAll n cs ⟨Glb.init, o⟩)).1 = (c.exec fmt (runGCalls fmt cs Glb.init)).1 := by
  refine ⟨fmtOf, fun o cs => ?_⟩
  have key : ∀ (cs : List GCall) (s : GOut), s.glb.tran_format = Glb.init.tran_format →
      (execAll n cs s).glb = runGCalls fmtOf cs s.glb ∧ (runGCalls fmtOf cs s.glb).tran_format = Glb.init.tran_format := by
    intro cs
    induction cs with
    | nil => exact fun s hs => ⟨rfl, hs⟩
    | cons c cs ih =>
      intro s hs
      obtain ⟨h1, h2⟩ := sim_exec n hn c s hs
      have e : (exec n c s).2.glb = (c.exec fmtOf s.glb).2 := congrArg Prod.snd h1
      have := ih (exec n c s).2 (e ▸ h2)
      rw [e] at this
      exact this
  obtain ⟨h1, h2⟩ := key cs ⟨Glb.init, o⟩ rfl
  refine ⟨h1, fun c => ?_⟩
  have := congrArg Prod.fst (sim_exec n hn c _ (h1 ▸ h2)).1
  rw [h1] at this
  exact this

theorem noOut_scales {k : Int} (hk : k ≤ 0) (n : Names) (e r : Option ℝ) : NoOut (Msg.ACM_set_scales n e r k) :=
  (noOut_run _).bind fun _ => NoOut.bind (noOut_glb.bind fun _ => (say_noOut hk _).bind fun _ => noOut_pure _) fun _ => noOut_pure _

theorem noOut_lists (w : List Char) {l : List (List Int)} (h : ∀ e ∈ l, IsDesignator e) (m : GM Unit) :
    NoOut (write (badLines w l) >>= fun _ => run m) := by
  have : badLines w l = [] := by
    unfold badLines
    rw [List.filter_eq_nil_iff.2 fun e he => by simpa [IsDesignator] using h e he]
    rfl
  rw [this]
  exact NoOut.bind (fun s => List.append_nil _) fun _ => noOut_run _

theorem noOut_basis {k : Int} (hk : k ≤ 0) (n : Names) (c : Int) (x : ℝ) : NoOut (Msg.ACM_set_basis_type n c x k) := by
  refine (noOut_lift _).bind fun _ => ?_
  have hl : ∀ f, NoOut (Msg.ACM_set_lambda_fun n f 0) := fun f => (noOut_run _).bind fun _ => say_noOut le_rfl _
  split
  · exact (say_noOut hk _).bind fun _ => hl _
  split
  · exact (say_noOut hk _).bind fun _ => hl _
  split
  · exact (say_noOut hk _).bind fun _ => hl _
  split
  · exact (say_noOut hk _).bind fun _ => hl _
  · exact noOut_lift _

theorem silent_noOut (n : Names) {c : GCall} (h : Silent c) : NoOut (exec n c) := by
  have two : ∀ {α : Type} (m : GM α) (k : Int) (q : GP Unit), k ≤ 0 → NoOut (run m >>= fun _ => say k q) :=
    fun m k q hk => (noOut_run m).bind fun _ => say_noOut hk _
  have lst : ∀ (k : Int), k ≤ 0 → NoOut (Msg.ACM_show_rat_lst k) ∧ NoOut (Msg.ACM_show_amp_lst k) := fun k hk =>
    ⟨noOut_glb.bind fun _ => noOut_glb.bind fun _ => say_noOut hk _, noOut_glb.bind fun _ => noOut_glb.bind fun _ => say_noOut hk _⟩
  cases c with
  | scales e r k => exact noOut_scales h n e r
  | setRatLst l => exact noOut_lists _ h _
  | addRatLst l => exact noOut_lists _ h _
  | setAmpLst l => exact noOut_lists _ h _
  | addAmpLst l => exact noOut_lists _ h _
  | basisType c x k => exact noOut_basis h n c x
  | defaults k =>
    exact (two _ k _ h).bind fun _ => (two _ k _ h).bind fun _ => (two _ k _ h).bind fun _ => (noOut_basis h n _ _).bind fun _ =>
      (two _ k _ h).bind fun _ => (two _ k _ h).bind fun _ => (two _ k _ h).bind fun _ => (two _ k _ h).bind fun _ =>
      (two _ k _ h).bind fun _ => (two _ k _ h).bind fun _ => (noOut_lists _ (by simp) _).bind fun _ => (noOut_lists _ (by simp) _).bind fun _ =>
      (lst k h).1.bind fun _ => (lst k h).2.bind fun _ => (noOut_scales h n _ _).bind fun _ => say_noOut h _
  | _ => exact two _ _ _ h

theorem prints_scales {k : Int} (hk : 0 < k) (n : Names) (e r : Option ℝ) : Prints (Msg.ACM_set_scales n e r k) := by
  refine (noOut_run _).grows.prints fun _ => Prints.bind (noOut_glb.grows.prints fun g => ?_) fun _ => (noOut_pure _).grows
  refine Prints.bind (Prints.say hk ?_) fun _ => (noOut_pure _).grows
  exact (noOut_lift _).grows.prints fun _ => (prints_print _).bind fun _ => (noOut_lift _).grows.bind fun _ => (grows_print _).bind fun _ =>
    (noOut_lift _).grows.bind fun _ => grows_print _

theorem grows_scales (k : Int) (n : Names) (e r : Option ℝ) : Grows (Msg.ACM_set_scales n e r k) := by
  refine (noOut_run _).grows.bind fun _ => Grows.bind (noOut_glb.grows.bind fun g => ?_) fun _ => (noOut_pure _).grows
  refine Grows.bind (Grows.say k ?_) fun _ => (noOut_pure _).grows
  exact (noOut_lift _).grows.bind fun _ => (grows_print _).bind fun _ => (noOut_lift _).grows.bind fun _ => (grows_print _).bind fun _ =>
    (noOut_lift _).grows.bind fun _ => grows_print _

theorem prints_lists (w : List Char) {l : List (List Int)} (h : ¬ ∀ e ∈ l, IsDesignator e) (m : GM Unit) :
    Prints (write (badLines w l) >>= fun _ => run m) := by
  refine Prints.bind (fun s _ => ?_) fun _ => (noOut_run _).grows
  show s.out.length < (s.out ++ badLines w l).length
  push Not at h
  obtain ⟨e, he, h⟩ := h
  have hb : badLines w l ≠ [] := by
    unfold badLines
    intro h0
    have := List.flatMap_eq_nil_iff.1 h0 e (List.mem_filter.2 ⟨he, by simpa [IsDesignator] using h⟩)
    simp at this
  have := List.length_pos_iff.2 hb
  rw [List.length_append]
  omega

theorem prints_basis {k : Int} (hk : 0 < k) (n : Names) (c : Int) (x : ℝ) : Prints (Msg.ACM_set_basis_type n c x k) := by
  refine (noOut_lift _).grows.prints fun _ => ?_
  have hl : ∀ f, Grows (Msg.ACM_set_lambda_fun n f 0) := fun f => ((noOut_run _).bind fun _ => say_noOut le_rfl _).grows
  split
  · exact (Prints.say hk (prints_print _)).bind fun _ => hl _
  split
  · exact (Prints.say hk (prints_print _)).bind fun _ => hl _
  split
  · exact (Prints.say hk (prints_print _)).bind fun _ => hl _
  split
  · exact (Prints.say hk (prints_print _)).bind fun _ => hl _
  · rintro s ⟨a, ha⟩
    cases ha

theorem prints_preview (g : Glb) (f : List Char) : Prints (preview g f) :=
  (noOut_lift _).grows.prints fun _ => (grows_write _).prints fun _ => prints_print _

theorem grows_lists (w : List Char) (l : List (List Int)) (m : GM Unit) : Grows (write (badLines w l) >>= fun _ => run m) :=
  (grows_write _).bind fun _ => (noOut_run _).grows

theorem grows_showLines (g : Glb) : ∀ l : List (List Int), Grows (showLines g l)
  | [] => (noOut_pure ()).grows
  | ent :: rest => by
    unfold showLines
    refine (noOut_lift _).grows.bind fun t => ?_
    cases t with
    | none => exact grows_showLines g rest
    | some t => exact (grows_print _).bind fun _ => grows_showLines g rest

theorem grows_show_lst (l : List (List Int)) (d : List Char) (k : Int) : Grows (Msg.ACM_show_lst l d k) := by
  refine noOut_glb.grows.bind fun g => Grows.say k ?_
  split
  · exact (grows_print _).bind fun _ => grows_showLines g l
  · exact grows_print _

theorem prints_loud (n : Names) {c : GCall} (h : ¬ Silent c) : Prints (exec n c) := by
  have two : ∀ {α : Type} (m : GM α) (k : Int) (q : GP Unit), ¬ k ≤ 0 → Prints q → Prints (run m >>= fun _ => say k q) :=
    fun m k q hk hq => (noOut_run m).grows.prints fun _ => hq.say (by omega)
  have glb' : ∀ {q : Glb → GP Unit}, (∀ g, Prints (q g)) → Prints (glb >>= q) := fun hq => noOut_glb.grows.prints hq
  have gr : ∀ {α : Type} (m : GM α) (k : Int) (q : GP Unit), Grows q → Grows (run m >>= fun _ => say k q) :=
    fun m k q hq => (noOut_run m).grows.bind fun _ => hq.say k
  have gp : ∀ {g : Glb} {f : List Char}, Grows (preview g f) := fun {g f} =>
    (noOut_lift _).grows.bind fun _ => (grows_write _).bind fun _ => grows_print _
  cases c with
  | scales e r k => exact prints_scales (not_le.1 h) n e r
  | setRatLst l => exact prints_lists _ h _
  | addRatLst l => exact prints_lists _ h _
  | setAmpLst l => exact prints_lists _ h _
  | addAmpLst l => exact prints_lists _ h _
  | basisType c x k => exact prints_basis (not_le.1 h) n c x
  | sftFun f k => exact two _ k _ h (glb' fun g => (noOut_lift _).grows.prints fun _ => prints_print _)
  | output a b c k => exact two _ k _ h (glb' fun g => (prints_print _).bind fun _ => (grows_print _).bind fun _ => grows_print _)
  | listln a b k => exact two _ k _ h (glb' fun g => (prints_print _).bind fun _ => grows_print _)
  | datum d k =>
    refine two _ k _ h (glb' fun g => ?_)
    split <;> exact prints_print _
  | eigFit f l i k => exact two _ k _ h (glb' fun g => (noOut_lift _).grows.prints fun _ => prints_print _)
  | ratFit f a b c d k => exact two _ k _ h (glb' fun g => (noOut_lift _).grows.prints fun _ => prints_print _)
  | transition o k =>
    refine two _ k _ h (glb' fun g => (grows_write _).prints fun _ => (prints_print _).bind fun _ => ?_)
    split <;> exact grows_print _
  | ratForm f a b k => exact two _ k _ h (glb' fun g => (prints_print _).bind fun _ => gp)
  | ampForm f a b k => exact two _ k _ h (glb' fun g => (prints_print _).bind fun _ => (grows_print _).bind fun _ => gp)
  | lambdaFun f k => exact two _ k _ h (glb' fun g => prints_print _)
  | defaults k =>
    have b : Grows (Msg.ACM_set_basis_type n 2 0 k) := by
      refine (noOut_lift _).grows.bind fun _ => ?_
      have hl : ∀ f, Grows (Msg.ACM_set_lambda_fun n f 0) := fun f => ((noOut_run _).bind fun _ => say_noOut le_rfl _).grows
      rw [if_neg (by decide), if_neg (by decide), if_pos rfl]
      exact ((grows_print _).say k).bind fun _ => hl _
    refine (two _ k _ h (glb' fun g => (prints_print _).bind fun _ => (grows_print _).bind fun _ => grows_print _)).bind fun _ => ?_
    refine (gr _ k _ (noOut_glb.grows.bind fun g => (grows_print _).bind fun _ => grows_print _)).bind fun _ => ?_
    refine (gr _ k _ (noOut_glb.grows.bind fun g => by split <;> exact grows_print _)).bind fun _ => b.bind fun _ => ?_
    refine (gr _ k _ (noOut_glb.grows.bind fun g => (grows_write _).bind fun _ => (grows_print _).bind fun _ => by
      split <;> exact grows_print _)).bind fun _ => ?_
    refine (gr _ k _ (noOut_glb.grows.bind fun g => (grows_print _).bind fun _ => gp)).bind fun _ => ?_
    refine (gr _ k _ (noOut_glb.grows.bind fun g => (grows_print _).bind fun _ => (grows_print _).bind fun _ => gp)).bind fun _ => ?_
    refine (gr _ k _ (noOut_glb.grows.bind fun g => (noOut_lift _).grows.bind fun _ => grows_print _)).bind fun _ => ?_
    refine (gr _ k _ (noOut_glb.grows.bind fun g => (noOut_lift _).grows.bind fun _ => grows_print _)).bind fun _ => ?_
    refine (gr _ k _ (noOut_glb.grows.bind fun g => (noOut_lift _).grows.bind fun _ => grows_print _)).bind fun _ => ?_
    exact (grows_lists _ _ _).bind fun _ => (grows_lists _ _ _).bind fun _ => (noOut_glb.grows.bind fun _ => grows_show_lst _ _ k).bind fun _ =>
      (noOut_glb.grows.bind fun _ => grows_show_lst _ _ k).bind fun _ => (grows_scales k n _ _).bind fun _ => (grows_print _).say k

example : ∃ n : Names, ∀ f, ∃ t, n.sft f = .ok t := ⟨⟨fun _ => [], fun _ => [], fun _ => [], fun _ => [], fun _ => .ok "sqrt".toList⟩, fun _ => ⟨_, rfl⟩⟩

/-- C123.  A call with `show <= 0`, or one that gives a list of valid designators, prints nothing, also if it raises; every other call that
returns prints something.  (For any state and any texts.) -/
theorem C123_silent (n : Names) (c : GCall) (s : GOut) : (Silent c → (exec n c s).2.out = s.out) ∧
    (¬ Silent c → (exec n c s).1 = .ok () → s.out.length < (exec n c s).2.out.length) :=
  ⟨fun h => silent_noOut n h s, fun h e => prints_loud n h s ⟨(), e⟩⟩

example : Silent (.output (some 3) none (some (-1)) 0) ∧ ¬ Silent (.addRatLst [[2, 0], [1, 2, 3, 4, 5, 6]]) := by
  constructor
  · exact le_rfl
  · intro h
    exact absurd (h [1, 2, 3, 4, 5, 6] (by simp)) (by decide)

/-! ### reading the settings from the messages -/

theorem dec_split {a b : Int} {c : Char} {x y : List Char} (hc : c ≠ '-' ∧ c.isDigit = false) (h : dec a ++ c :: x = dec b ++ c :: y) :
    a = b ∧ x = y := by
  obtain ⟨h1, h2⟩ := split_at (p := fun d => d == '-' || d.isDigit) (a := dec a) (b := dec b)
    (fun d hd => by rcases dec_chars a d hd with h | h <;> simp [h]) (fun d hd => by rcases dec_chars b d hd with h | h <;> simp [h])
    (by simp [hc.1, hc.2]) h
  exact ⟨dec_inj h1, h2⟩

theorem rounded_close {t : List Char} {p : ℕ} {x y : ℝ} (h : Rounded t p x) (h' : Rounded t p y) : |x - y| ≤ 1 / 10 ^ p := by
  obtain ⟨q, hq, a, -⟩ := h
  obtain ⟨r, hr, b, -⟩ := h'
  cases decText_unique hq hr
  have e : (1 : ℝ) / 10 ^ p = 1 / 2 / 10 ^ p + 1 / 2 / 10 ^ p := by ring
  rw [e]
  have := abs_le.1 a
  have := abs_le.1 b
  exact abs_le.2 ⟨by linarith, by linarith⟩

theorem output_text {n : Names} {a b c : Option Int} {k : Int} (hk : 0 < k) {s t : GOut} {m : List Char}
    (h : Says n (.output a b c k) s m t) : m = dec t.glb.rel_pre ++ ' ' :: ("decimal places for each displayed value,\n".toList ++
      (dec t.glb.rel_wid ++ ' ' :: ("total digits for each displayed value,\nexcept ".toList ++ (dec t.glb.low_pre ++
        ' ' :: "decimal places for lowest (absolute) eigenvalue.\n".toList)))) :=
  (says_run (text := fun g => dec g.rel_pre ++ ' ' :: ("decimal places for each displayed value,\n".toList ++
      (dec g.rel_wid ++ ' ' :: ("total digits for each displayed value,\nexcept ".toList ++ (dec g.low_pre ++
        ' ' :: "decimal places for lowest (absolute) eigenvalue.\n".toList))))) hk (fun o => by
    refine Prod.ext rfl (congrArg (GOut.mk t.glb) ?_)
    simp [pyStr_eq_dec]) rfl h.1 h.2).2

/-- C123.  The message of `ACM_set_output` tells the three settings. -/
theorem C123_output (n : Names) (a b c a' b' c' : Option Int) (k k' : Int) (hk : 0 < k) (hk' : 0 < k') (s s' t t' : GOut) (m : List Char)
    (h : Says n (.output a b c k) s m t) (h' : Says n (.output a' b' c' k') s' m t') :
    t.glb.rel_pre = t'.glb.rel_pre ∧ t.glb.rel_wid = t'.glb.rel_wid ∧ t.glb.low_pre = t'.glb.low_pre := by
  have e := (output_text hk h).symm.trans (output_text hk' h')
  obtain ⟨e1, e⟩ := dec_split (by decide) e
  obtain ⟨e2, e⟩ := dec_split (by decide) (List.append_cancel_left e)
  exact ⟨e1, e2, (dec_split (by decide) (List.append_cancel_left e)).1⟩

set_option maxRecDepth 4096 in
example (n : Names) : Says n (.output (some 3) none (some 5) 1) ⟨Glb.init, []⟩
    "3 decimal places for each displayed value,\n7 total digits for each displayed value,\nexcept 5 decimal places for lowest (absolute) eigenvalue.\n".toList
    (exec n (.output (some 3) none (some 5) 1) ⟨Glb.init, []⟩).2 := by
  exact ⟨rfl, rfl⟩

theorem listln_text {n : Names} {a b : Option Int} {k : Int} (hk : 0 < k) {s t : GOut} {m : List Char}
    (h : Says n (.listln a b k) s m t) : m = "Display lowest ".toList ++ (dec t.glb.eig_num ++ ' ' :: ("eigenvalue(s) at each L.\nDisplay lowest ".toList ++
      (dec t.glb.rat_num ++ ' ' :: "rate/amplitude(s) in each list.\n".toList))) :=
  (says_run (text := fun g => "Display lowest ".toList ++ (dec g.eig_num ++ ' ' :: ("eigenvalue(s) at each L.\nDisplay lowest ".toList ++
      (dec g.rat_num ++ ' ' :: "rate/amplitude(s) in each list.\n".toList)))) hk (fun o => by
    refine Prod.ext rfl (congrArg (GOut.mk t.glb) ?_)
    simp [pyStr_eq_dec]) rfl h.1 h.2).2

/-- C123.  The message of `ACM_set_listln` tells the lengths of the lists. -/
theorem C123_listln (n : Names) (a b a' b' : Option Int) (k k' : Int) (hk : 0 < k) (hk' : 0 < k') (s s' t t' : GOut) (m : List Char)
    (h : Says n (.listln a b k) s m t) (h' : Says n (.listln a' b' k') s' m t') :
    t.glb.eig_num = t'.glb.eig_num ∧ t.glb.rat_num = t'.glb.rat_num := by
  have e := (listln_text hk h).symm.trans (listln_text hk' h')
  obtain ⟨e1, e⟩ := dec_split (by decide) (List.append_cancel_left e)
  exact ⟨e1, (dec_split (by decide) (List.append_cancel_left e)).1⟩

example (n : Names) : Says n (.listln (some 12) none 1) ⟨Glb.init, []⟩
    "Display lowest 12 eigenvalue(s) at each L.\nDisplay lowest 4 rate/amplitude(s) in each list.\n".toList
    (exec n (.listln (some 12) none 1) ⟨Glb.init, []⟩).2 := by
  exact ⟨rfl, rfl⟩

theorem datum_text {n : Names} {d : Int} {k : Int} (hk : 0 < k) {s t : GOut} {m : List Char} (h : Says n (.datum d k) s m t) :
    m = if t.glb.eig_rel then "Eigenvalues displayed relative to minimal value.\n".toList else "Absolute eigenvalues displayed.\n".toList :=
  (says_run (text := fun g => if g.eig_rel then "Eigenvalues displayed relative to minimal value.\n".toList else
      "Absolute eigenvalues displayed.\n".toList) hk (fun o => by
    show (if t.glb.eig_rel = true then print _ else print _) _ = _
    split <;> rfl) (by
    show ((if _ = true then print _ else print _) _).2.glb = _
    split <;> rfl) h.1 h.2).2

/-- C123.  The message of `ACM_set_datum` tells whether eigenvalues are displayed relative to the lowest. -/
theorem C123_datum (n : Names) (d d' : Int) (k k' : Int) (hk : 0 < k) (hk' : 0 < k') (s s' t t' : GOut) (m : List Char)
    (h : Says n (.datum d k) s m t) (h' : Says n (.datum d' k') s' m t') : t.glb.eig_rel = t'.glb.eig_rel := by
  have e := (datum_text hk h).symm.trans (datum_text hk' h')
  cases h1 : t.glb.eig_rel <;> cases h2 : t'.glb.eig_rel <;> rw [h1, h2] at e
  · exact absurd e (by decide)
  · exact absurd e (by decide)

example (n : Names) : Says n (.datum 0 1) ⟨Glb.init, []⟩ "Absolute eigenvalues displayed.\n".toList (exec n (.datum 0 1) ⟨Glb.init, []⟩).2 := ⟨rfl, rfl⟩

theorem eigFit_text {n : Names} {f : Option ℝ} {l i : Option Int} {k : Int} (hk : 0 < k) {s t : GOut} {m : List Char}
    (h : Says n (.eigFit f l i k) s m t) : m =
      "In ACM_Adapt, the scaling factor for relative eigenvalues is chosen such that\nthat for the ".toList ++ (dec t.glb.eig_L ++
      '(' :: (dec t.glb.eig_idx ++ ')' :: (" state is ".toList ++ (itemText 0 6 t.glb.eig_fit ++ ['\n'])))) := by
  have hq : ∀ (g : Glb) (o : List Char), (do
      let g ← glb
      let t ← StPy.lift (pyFormatFlt "f".toList g.eig_fit)
      print ("In ACM_Adapt, the scaling factor for relative eigenvalues is chosen such that\nthat for the ".toList ++
        pyStr g.eig_L ++ "(".toList ++ pyStr g.eig_idx ++ ") state is ".toList ++ t) : GP Unit) ⟨g, o⟩ = (.ok (), ⟨g, o ++
      ("In ACM_Adapt, the scaling factor for relative eigenvalues is chosen such that\nthat for the ".toList ++ (dec g.eig_L ++
      '(' :: (dec g.eig_idx ++ ')' :: (" state is ".toList ++ (itemText 0 6 g.eig_fit ++ ['\n'])))))⟩) := by
    intro g o
    show (StPy.lift (pyFormatFlt "f".toList g.eig_fit) >>= fun t => print _) _ = _
    rw [flt_eq]
    refine Prod.ext rfl (congrArg (GOut.mk g) ?_)
    simp [pyStr_eq_dec]
  exact (says_run (text := fun g => "In ACM_Adapt, the scaling factor for relative eigenvalues is chosen such that\nthat for the ".toList ++
    (dec g.eig_L ++ '(' :: (dec g.eig_idx ++ ')' :: (" state is ".toList ++ (itemText 0 6 g.eig_fit ++ ['\n']))))) hk (hq _)
    (by rw [hq]) h.1 h.2).2

/-- C123.  The message of `ACM_set_eig_fit` tells the state, and the value to six decimals. -/
theorem C123_eig_fit (n : Names) (f f' : Option ℝ) (l i l' i' : Option Int) (k k' : Int) (hk : 0 < k) (hk' : 0 < k') (s s' t t' : GOut)
    (m : List Char) (h : Says n (.eigFit f l i k) s m t) (h' : Says n (.eigFit f' l' i' k') s' m t') :
    t.glb.eig_L = t'.glb.eig_L ∧ t.glb.eig_idx = t'.glb.eig_idx ∧ |t.glb.eig_fit - t'.glb.eig_fit| ≤ 1 / 10 ^ 6 := by
  have e := (eigFit_text hk h).symm.trans (eigFit_text hk' h')
  obtain ⟨e1, e⟩ := dec_split (by decide) (List.append_cancel_left e)
  obtain ⟨e2, e⟩ := dec_split (by decide) e
  have e3 := List.append_cancel_right (List.append_cancel_left e)
  exact ⟨e1, e2, rounded_close (itemText_rounded 0 6 _) (e3 ▸ itemText_rounded 0 6 _)⟩

example (n : Names) : ∃ m t, Says n (.eigFit (some 1) (some 4) (some 2) 1) ⟨Glb.init, []⟩ m t ∧ t.glb.eig_L = 4 := by
  have h := sim_eigFit (some 1) (some 4) (some 2) 1 ⟨Glb.init, []⟩ rfl
  have h1 : (exec n (.eigFit (some 1) (some 4) (some 2) 1) ⟨Glb.init, []⟩).1 = .ok () := congrArg Prod.fst h.1
  refine ⟨_, (exec n (.eigFit (some 1) (some 4) (some 2) 1) ⟨Glb.init, []⟩).2, ⟨Prod.ext h1 rfl, rfl⟩, ?_⟩
  have := congrArg (fun p => p.2.eig_L) h.1
  exact this

theorem ratFit_text {n : Names} {f : Option ℝ} {a b c d : Option Int} {k : Int} (hk : 0 < k) {s t : GOut} {m m0 m1 m2 : List Char}
    (hm : Plain m0 ∧ Plain m1 ∧ Plain m2) (ht : t.glb.tran_format = Glb.init.tran_format) (hr : t.glb.rat_format.toList = template2 m0 m1 m2)
    (h : Says n (.ratFit f a b c d k) s m t) : ∃ u, Rounded u 6 t.glb.rat_fit ∧ m = "In ACM_Adapt, the scaling factor for \"".toList ++
      (t.glb.rat_desg.toList ++ ("\" is chosen such that\n".toList ++ (m0 ++ (dec t.glb.rat_L1 ++ '(' :: (dec t.glb.rat_1dx ++ ')' :: (" -> ".toList ++
        (dec t.glb.rat_L2 ++ '(' :: (dec t.glb.rat_2dx ++ ')' :: (m1 ++ (u ++ (m2 ++ ['\n']))))))))))) := by
  have ht' : t.glb.tran_format.toList = template4 [] "(".toList ") -> ".toList "(".toList ")".toList := by rw [ht]; rfl
  obtain ⟨u, hu, hu', -⟩ := C120_rat_fit t.glb m0 m1 m2 [] "(".toList ") -> ".toList "(".toList ")".toList (by
    simp only [List.mem_cons, List.not_mem_nil, or_false, forall_eq_or_imp, forall_eq]
    exact ⟨hm.1, hm.2.1, hm.2.2, plain_nil, by constructor <;> decide, by constructor <;> decide, by constructor <;> decide, by constructor <;> decide⟩) ht' hr
  refine ⟨u, hu', ?_⟩
  have hq : ∀ (o : List Char), (do
      let g ← glb
      let t ← StPy.lift (ratFitText g)
      print ("In ACM_Adapt, the scaling factor for \"".toList ++ g.rat_desg.toList ++ "\" is chosen such that\n".toList ++ t) : GP Unit) ⟨t.glb, o⟩ =
      (.ok (), ⟨t.glb, o ++ ("In ACM_Adapt, the scaling factor for \"".toList ++
      (t.glb.rat_desg.toList ++ ("\" is chosen such that\n".toList ++ (m0 ++ (dec t.glb.rat_L1 ++ '(' :: (dec t.glb.rat_1dx ++ ')' :: (" -> ".toList ++
        (dec t.glb.rat_L2 ++ '(' :: (dec t.glb.rat_2dx ++ ')' :: (m1 ++ (u ++ (m2 ++ ['\n'])))))))))))) ⟩) := by
    intro o
    show (StPy.lift (ratFitText t.glb) >>= fun t => print _) _ = _
    rw [hu]
    refine Prod.ext rfl (congrArg (GOut.mk t.glb) ?_)
    simp
  refine (says_run (text := fun _ => _) hk hq ?_ h.1 h.2).2
  show ((StPy.lift (ratFitText (Acm.ACM_set_rat_fit _ f a b c d k s.glb).2) >>= fun t => print _) _).2.glb = _
  generalize ratFitText _ = x
  cases x <;> rfl

/-- C123.  The message of `ACM_set_rat_fit` tells the transition, and the value to six decimals, if the format is two fields and plain text. -/
theorem C123_rat_fit (n : Names) (f f' : Option ℝ) (a b c d a' b' c' d' : Option Int) (k k' : Int) (hk : 0 < k) (hk' : 0 < k')
    (s s' t t' : GOut) (m m0 m1 m2 : List Char) (hm : Plain m0 ∧ Plain m1 ∧ Plain m2)
    (ht : t.glb.tran_format = Glb.init.tran_format) (ht' : t'.glb.tran_format = Glb.init.tran_format)
    (hr : t.glb.rat_format.toList = template2 m0 m1 m2) (hr' : t'.glb.rat_format.toList = template2 m0 m1 m2)
    (hd : t.glb.rat_desg = t'.glb.rat_desg)
    (h : Says n (.ratFit f a b c d k) s m t) (h' : Says n (.ratFit f' a' b' c' d' k') s' m t') :
    t.glb.rat_L1 = t'.glb.rat_L1 ∧ t.glb.rat_1dx = t'.glb.rat_1dx ∧ t.glb.rat_L2 = t'.glb.rat_L2 ∧ t.glb.rat_2dx = t'.glb.rat_2dx ∧
    |t.glb.rat_fit - t'.glb.rat_fit| ≤ 1 / 10 ^ 6 := by
  obtain ⟨u, hu, e⟩ := ratFit_text hk hm ht hr h
  obtain ⟨u', hu', e'⟩ := ratFit_text hk' hm ht' hr' h'
  rw [e, hd] at e'
  have e := List.append_cancel_left (List.append_cancel_left (List.append_cancel_left (List.append_cancel_left e')))
  obtain ⟨e1, e⟩ := dec_split (by decide) e
  obtain ⟨e2, e⟩ := dec_split (by decide) e
  obtain ⟨e3, e⟩ := dec_split (by decide) (List.append_cancel_left e)
  obtain ⟨e4, e⟩ := dec_split (by decide) e
  have e5 := List.append_cancel_right (List.append_cancel_left e)
  exact ⟨e1, e2, e3, e4, rounded_close hu (e5 ▸ hu')⟩

example (n : Names) : ∃ m t, Says n (.ratFit (some 1) (some 4) none (some 2) none 1) ⟨Glb.init, []⟩ m t ∧ t.glb.rat_L1 = 4 ∧
    t.glb.tran_format = Glb.init.tran_format ∧ t.glb.rat_format.toList = template2 "  B(E2: ".toList ") = ".toList [] := by
  have h := sim_ratFit (some 1) (some 4) none (some 2) none 1 ⟨Glb.init, []⟩ rfl
  have hf : fmtOf Glb.init.rat_format = .ok () := by
    obtain ⟨u, hu, -⟩ := C120_rat_fit Glb.init "  B(E2: ".toList ") = ".toList [] [] "(".toList ") -> ".toList "(".toList ")".toList (by
      simp only [List.mem_cons, List.not_mem_nil, or_false, forall_eq_or_imp, forall_eq]
      refine ⟨?_, ?_, ?_, ?_, ?_, ?_, ?_, ?_⟩ <;> constructor <;> decide) rfl rfl
    have : fmtOf Glb.init.rat_format = (ratFitText Glb.init).map fun _ => () := rfl
    rw [this, hu]
    rfl
  have e : (Acm.ACM_set_rat_fit fmtOf (some 1) (some 4) none (some 2) none 1).void Glb.init =
      (.ok (), { Glb.init with rat_fit := 1, rat_L1 := 4, rat_L2 := 0, rat_1dx := 2, rat_2dx := 1 }) := by
    have : (Acm.ACM_set_rat_fit fmtOf (some 1) (some 4) none (some 2) none 1).void Glb.init =
      (((StPy.lift (fmtOf Glb.init.rat_format) >>= fun _ => pure ((1 : ℝ), (4 : Int), (0 : Int), (2 : Int), (1 : Int))) >>= fun _ => pure ()) : GM Unit)
        { Glb.init with rat_fit := 1, rat_L1 := 4, rat_L2 := 0, rat_1dx := 2, rat_2dx := 1 } := rfl
    rw [this, hf]
    rfl
  have h1 := h.1.trans e
  have h2 : (exec n (.ratFit (some 1) (some 4) none (some 2) none 1) ⟨Glb.init, []⟩).1 = .ok () := congrArg Prod.fst h1
  have h3 := congrArg Prod.snd h1
  exact ⟨_, (exec n (.ratFit (some 1) (some 4) none (some 2) none 1) ⟨Glb.init, []⟩).2, ⟨Prod.ext h2 rfl, rfl⟩,
    (congrArg Glb.rat_L1 h3 :), (congrArg Glb.tran_format h3 :), (congrArg (fun g => g.rat_format.toList) h3 :)⟩

theorem basis_text (n : Names) (c : Int) (x : ℝ) {k : Int} (hk : 0 < k) {s t : GOut} {m : List Char} (h : Says n (.basisType c x k) s m t) :
    (c = 0 ∧ t.glb.lam_fun = lambda_fix_fun ∧ m = "Using the constant lambda basis.\n".toList) ∨
    (c = 1 ∧ t.glb.lam_fun = lambda_sho_fun ∧ m = "Using the harmonic oscillator basis with lambda_v = lambda_0 + v.\n".toList) ∨
    (c = 2 ∧ t.glb.lam_fun = lambda_acm_fun ∧ m = "Using the ACM parity basis.\n".toList) ∨
    (c = 3 ∧ t.glb.lam_fun = lambda_davi_fun (x ^ 4) ∧ m = "Using integer Davidson basis for potential with minimum at ".toList ++ (n.flt x ++
      " (dimensionless).\n".toList)) := by
  obtain ⟨h, e⟩ := h
  have fin : ∀ (f : LambdaFunction) (y : List Char), (print y >>= fun _ => Msg.ACM_set_lambda_fun n f 0) s = (.ok (), t) →
      t.glb.lam_fun = f ∧ m = y ++ ['\n'] := by
    intro f y hh
    have h2 : t = ⟨{ s.glb with lam_fun := f }, s.out ++ (y ++ ['\n'])⟩ := ((Prod.ext_iff.1 hh).2).symm
    subst h2
    exact ⟨rfl, (List.append_cancel_left e).symm⟩
  have h' : (StPy.lift (require_nonnegint c) >>= fun _ => if c = 0 then do
      Msg.say k (print "Using the constant lambda basis.".toList)
      Msg.ACM_set_lambda_fun n lambda_fix_fun 0
    else if c = 1 then do
      Msg.say k (print "Using the harmonic oscillator basis with lambda_v = lambda_0 + v.".toList)
      Msg.ACM_set_lambda_fun n lambda_sho_fun 0
    else if c = 2 then do
      Msg.say k (print "Using the ACM parity basis.".toList)
      Msg.ACM_set_lambda_fun n lambda_acm_fun 0
    else if c = 3 then do
      Msg.say k (print ("Using integer Davidson basis for potential with minimum at ".toList ++ n.flt x ++ " (dimensionless).".toList))
      Msg.ACM_set_lambda_fun n (lambda_davi_fun (x ^ 4)) 0
    else (StPy.lift (throw .valueError) : GP Unit)) s = (.ok (), t) := h
  cases hc : require_nonnegint c with
  | error e => rw [hc] at h'; cases h'
  | ok u =>
    rw [hc, st_lift_ok] at h'
    unfold Msg.say at h'
    simp only [show k > 0 from hk, if_true] at h'
    by_cases h0 : c = 0
    · rw [if_pos h0] at h'
      exact .inl ⟨h0, (fin _ _ h').1, (fin _ _ h').2⟩
    by_cases h1 : c = 1
    · rw [if_neg h0, if_pos h1] at h'
      exact .inr (.inl ⟨h1, (fin _ _ h').1, (fin _ _ h').2⟩)
    by_cases h2 : c = 2
    · rw [if_neg h0, if_neg h1, if_pos h2] at h'
      exact .inr (.inr (.inl ⟨h2, (fin _ _ h').1, (fin _ _ h').2⟩))
    by_cases h3 : c = 3
    · rw [if_neg h0, if_neg h1, if_neg h2, if_pos h3] at h'
      obtain ⟨a, b⟩ := fin _ _ h'
      exact .inr (.inr (.inr ⟨h3, a, by rw [b]; simp⟩))
    · rw [if_neg h0, if_neg h1, if_neg h2, if_neg h3] at h'
      cases h'

/-- C123.  The message of `ACM_set_basis_type` tells the lambda function, if different texts are shown for different values of `abeta0`. -/
theorem C123_basis (n : Names) (c c' : Int) (x x' : ℝ) (hx : n.flt x = n.flt x' → x = x') (k k' : Int) (hk : 0 < k) (hk' : 0 < k')
    (s s' t t' : GOut) (m : List Char) (h : Says n (.basisType c x k) s m t) (h' : Says n (.basisType c' x' k') s' m t') :
    c = c' ∧ t.glb.lam_fun = t'.glb.lam_fun := by
  have ne : ∀ {a b u v : List Char} (j : ℕ), a = b → (a ++ u)[j]? ≠ (b ++ v)[j]? → u ≠ v := by
    rintro a b u v j rfl hh rfl; exact hh rfl
  have d3 : ∀ (y z : List Char), "Using i".toList ++ y ≠ "Using t".toList ++ z := by
    intro y z hh
    have := congrArg (fun l => l[6]?) hh
    exact absurd this (by simp)
  have big : ∀ y, "Using integer Davidson basis for potential with minimum at ".toList ++ y =
    "Using i".toList ++ ("nteger Davidson basis for potential with minimum at ".toList ++ y) := fun y => rfl
  rcases basis_text n c x hk h with ⟨a, b, e⟩ | ⟨a, b, e⟩ | ⟨a, b, e⟩ | ⟨a, b, e⟩ <;>
    rcases basis_text n c' x' hk' h' with ⟨a', b', e'⟩ | ⟨a', b', e'⟩ | ⟨a', b', e'⟩ | ⟨a', b', e'⟩
  all_goals first
    | exact ⟨a.trans a'.symm, b.trans b'.symm⟩
    | (rw [e] at e'; exact absurd e' (by decide))
    | skip
  · rw [e, big] at e'; exact absurd e'.symm (d3 _ "he constant lambda basis.\n".toList)
  · rw [e, big] at e'; exact absurd e'.symm (d3 _ "he harmonic oscillator basis with lambda_v = lambda_0 + v.\n".toList)
  · rw [e, big] at e'; exact absurd e'.symm (d3 _ "he ACM parity basis.\n".toList)
  · rw [e, big] at e'; exact absurd e' (d3 _ "he constant lambda basis.\n".toList)
  · rw [e, big] at e'; exact absurd e' (d3 _ "he harmonic oscillator basis with lambda_v = lambda_0 + v.\n".toList)
  · rw [e, big] at e'; exact absurd e' (d3 _ "he ACM parity basis.\n".toList)
  · rw [e] at e'
    have := hx (List.append_cancel_right (List.append_cancel_left e'))
    exact ⟨a.trans a'.symm, by rw [b, b', this]⟩

example (n : Names) : Says n (.basisType 1 0 1) ⟨Glb.init, []⟩ "Using the harmonic oscillator basis with lambda_v = lambda_0 + v.\n".toList
    (exec n (.basisType 1 0 1) ⟨Glb.init, []⟩).2 := ⟨rfl, rfl⟩

end Acm.Props
