import Verif.Props.Messages
import Verif.Props.Lines

/-! Property C123, continued: refused designators, the lists, the defaults, and the messages of the forms. -/

namespace Acm.Props

open Acm Acm.Spec Acm.Msg

/-! ### refused designators -/

theorem dec_split' {a b : Int} {c d : Char} {x y : List Char} (hc : c ≠ '-' ∧ c.isDigit = false) (hd : d ≠ '-' ∧ d.isDigit = false)
    (h : dec a ++ c :: x = dec b ++ d :: y) : a = b ∧ c = d ∧ x = y := by
  have e : ∀ (a : Int) {c : Char} (x : List Char), (c ≠ '-' ∧ c.isDigit = false) →
      (dec a ++ c :: x).takeWhile (fun d => d == '-' || d.isDigit) = dec a := by
    intro a c x hc
    rw [List.takeWhile_append_of_pos (fun d hd => by rcases dec_chars a d hd with h | h <;> simp [h]),
      List.takeWhile_cons_of_neg (by simp [hc.1, hc.2]), List.append_nil]
  have h1 : dec a = dec b := by rw [← e a x hc, h, e b y hd]
  rw [h1] at h
  have := List.append_cancel_left h
  exact ⟨dec_inj h1, List.cons.inj this⟩

theorem tuple_split : ∀ (l l' : List Int), l ≠ [] → l' ≠ [] → ∀ (x y : List Char),
    ", ".toList.intercalate (l.map pyStr) ++ ')' :: x = ", ".toList.intercalate (l'.map pyStr) ++ ')' :: y → l = l' ∧ x = y
  | [], _, h, _, _, _, _ => absurd rfl h
  | _, [], _, h, _, _, _ => absurd rfl h
  | [a], [b], _, _, x, y, h => by
    simp only [List.map_cons, List.map_nil, List.intercalate_singleton, pyStr_eq_dec] at h
    obtain ⟨e, -, e'⟩ := dec_split' (by decide) (by decide) h
    exact ⟨by rw [e], e'⟩
  | [a], b :: c :: l, _, _, x, y, h => by
    simp only [List.map_cons, List.map_nil, List.intercalate_singleton, List.intercalate_cons_cons, pyStr_eq_dec, List.append_assoc] at h
    obtain ⟨-, e, -⟩ := dec_split' (c := ')') (d := ',') (by decide) (by decide) h
    exact absurd e (by decide)
  | a :: c :: l, [b], _, _, x, y, h => by
    simp only [List.map_cons, List.map_nil, List.intercalate_singleton, List.intercalate_cons_cons, pyStr_eq_dec, List.append_assoc] at h
    obtain ⟨-, e, -⟩ := dec_split' (c := ',') (d := ')') (by decide) (by decide) h
    exact absurd e (by decide)
  | a :: c :: l, b :: d :: l', _, _, x, y, h => by
    simp only [List.map_cons, List.intercalate_cons_cons, pyStr_eq_dec, List.append_assoc] at h
    obtain ⟨e, -, e'⟩ := dec_split' (c := ',') (d := ',') (by decide) (by decide) h
    have e2 := tuple_split (c :: l) (d :: l') (by simp) (by simp) x y (by
      simp only [List.map_cons, pyStr_eq_dec]
      exact (List.cons.inj e').2)
    exact ⟨by rw [e, e2.1], e2.2⟩

theorem bad_inj (w : List Char) : ∀ (l l' : List (List Int)), (∀ e ∈ l, e ≠ []) → (∀ e ∈ l', e ≠ []) →
    (l.flatMap fun ent => "  Bad ".toList ++ w ++ " specification: ".toList ++ tupleText ent ++ ['\n']) =
    (l'.flatMap fun ent => "  Bad ".toList ++ w ++ " specification: ".toList ++ tupleText ent ++ ['\n']) → l = l'
  | [], [], _, _, _ => rfl
  | [], _ :: _, _, _, h => by simp at h
  | _ :: _, [], _, _, h => by simp at h
  | e :: l, e' :: l', hl, hl', h => by
    simp only [List.flatMap_cons, List.append_assoc, tupleText] at h
    have h1 := List.append_cancel_left (List.append_cancel_left (List.append_cancel_left (List.append_cancel_left h)))
    obtain ⟨a, b⟩ := tuple_split e e' (hl e (by simp)) (hl' e' (by simp)) _ _ h1
    rw [a, bad_inj w l l' (fun x hx => hl x (by simp [hx])) (fun x hx => hl' x (by simp [hx])) (by
      simpa only [List.append_assoc, tupleText] using List.append_cancel_left (List.append_cancel_left b))]

theorem badLines_inj {w : List Char} {l l' : List (List Int)} (h : badLines w l = badLines w l') :
    l.filter (fun e => ¬ IsDesignator e) = l'.filter fun e => ¬ IsDesignator e := by
  have e : ∀ l : List (List Int), (l.filter fun ent => decide (ent.length > 5)) = l.filter fun e => decide (¬ IsDesignator e) := by
    intro l
    refine List.filter_congr fun x _ => decide_eq_decide.2 ?_
    unfold IsDesignator
    omega
  have ne : ∀ l : List (List Int), ∀ x ∈ l.filter (fun ent => decide (ent.length > 5)), x ≠ [] := by
    intro l x hx
    have := of_decide_eq_true (List.mem_filter.1 hx).2
    rintro rfl
    simp at this
  rw [← e, ← e]
  exact bad_inj w _ _ (ne l) (ne l') h

/-- C123.  From what is printed by the procedures that set or extend the lists one can read which designators were refused, and in which
order. -/
theorem C123_refused (n : Names) (l l' : List (List Int)) (s s' t t' : GOut) (m : List Char)
    (h : (Says n (.setRatLst l) s m t ∨ Says n (.addRatLst l) s m t) ∧ (Says n (.setRatLst l') s' m t' ∨ Says n (.addRatLst l') s' m t') ∨
      (Says n (.setAmpLst l) s m t ∨ Says n (.addAmpLst l) s m t) ∧ (Says n (.setAmpLst l') s' m t' ∨ Says n (.addAmpLst l') s' m t')) :
    l.filter (fun e => ¬ IsDesignator e) = l'.filter fun e => ¬ IsDesignator e := by
  have key : ∀ {w : List Char} {l : List (List Int)} {x : GM Unit} {s t : GOut}, (write (badLines w l) >>= fun _ => run x) s = (.ok (), t) →
      t.out = s.out ++ m → m = badLines w l := by
    intro w l x s t h e
    have : t.out = s.out ++ badLines w l := (congrArg (fun p => p.2.out) h).symm
    exact (List.append_cancel_left (this.symm.trans e)).symm
  rcases h with ⟨h, h'⟩ | ⟨h, h'⟩
  · have e1 : m = badLines "transition rate".toList l := h.elim (fun h => key h.1 h.2) (fun h => key h.1 h.2)
    have e2 : m = badLines "transition rate".toList l' := h'.elim (fun h => key h.1 h.2) (fun h => key h.1 h.2)
    exact badLines_inj (e1.symm.trans e2)
  · have e1 : m = badLines "amplitude".toList l := h.elim (fun h => key h.1 h.2) (fun h => key h.1 h.2)
    have e2 : m = badLines "amplitude".toList l' := h'.elim (fun h => key h.1 h.2) (fun h => key h.1 h.2)
    exact badLines_inj (e1.symm.trans e2)

set_option maxRecDepth 4096 in
example (n : Names) : Says n (.addRatLst [[2, 0], [1, 2, 3, 4, 5, -6]]) ⟨Glb.init, []⟩
    "  Bad transition rate specification: (1, 2, 3, 4, 5, -6)\n".toList (exec n (.addRatLst [[2, 0], [1, 2, 3, 4, 5, -6]]) ⟨Glb.init, []⟩).2 :=
  ⟨rfl, rfl⟩

/-! ### the lists -/

theorem print_bind {β : Type} (x : List Char) (f : Unit → GP β) (s : GOut) : (print x >>= f) s = f () ⟨s.glb, s.out ++ (x ++ ['\n'])⟩ := rfl

theorem showLines_text (g : Glb) (hg : g.tran_format = Glb.init.tran_format) : ∀ (lst : List (List Int)) (s : GOut),
    showLines g lst s = (.ok (), ⟨s.glb, s.out ++ (lst.filterMap show_lst_line).flatMap fun t => "  ".toList ++ t ++ ['\n']⟩)
  | [], s => by simp [showLines]
  | ent :: rest, s => by
    unfold showLines
    rw [C120_lst g hg ent, st_lift_ok]
    cases h : show_lst_line ent with
    | none =>
      dsimp only
      rw [showLines_text g hg rest, List.filterMap_cons_none h]
    | some t =>
      dsimp only
      rw [print_bind, showLines_text g hg rest, List.filterMap_cons_some h]
      simp

/-- C123.  The list of transition rates and that of amplitudes are shown under their designations, one line for each designator, with the
documented text if the designator is not one of four fields (see C47). -/
theorem C123_lists (k : Int) (hk : 0 < k) (s : GOut) (hs : s.glb.tran_format = Glb.init.tran_format) :
    ((∀ e ∈ s.glb.rat_lst, IsDesignator e ∧ e.length ≠ 4 ∧ (e.length = 5 → e[4]? ≠ some 0)) → Msg.ACM_show_rat_lst k s = (.ok (), ⟨s.glb, s.out ++
      if s.glb.rat_lst = [] then "Currently, no \"".toList ++ s.glb.rat_desg.toList ++ "\" are set to be displayed.\n".toList
      else "Following \"".toList ++ s.glb.rat_desg.toList ++ "\" are set to be displayed:\n".toList ++
        s.glb.rat_lst.flatMap fun e => "  ".toList ++ (docLine e).getD [] ++ "\n".toList⟩)) ∧
    ((∀ e ∈ s.glb.amp_lst, IsDesignator e ∧ e.length ≠ 4 ∧ (e.length = 5 → e[4]? ≠ some 0)) → Msg.ACM_show_amp_lst k s = (.ok (), ⟨s.glb, s.out ++
      if s.glb.amp_lst = [] then "Currently, no \"".toList ++ s.glb.amp_desg.toList ++ "\" are set to be displayed.\n".toList
      else "Following \"".toList ++ s.glb.amp_desg.toList ++ "\" are set to be displayed:\n".toList ++
        s.glb.amp_lst.flatMap fun e => "  ".toList ++ (docLine e).getD [] ++ "\n".toList⟩)) := by
  have key : ∀ (lst : List (List Int)) (d : List Char), (∀ e ∈ lst, IsDesignator e ∧ e.length ≠ 4 ∧ (e.length = 5 → e[4]? ≠ some 0)) →
      Msg.ACM_show_lst lst d k s = (.ok (), ⟨s.glb, s.out ++
      if lst = [] then "Currently, no \"".toList ++ d ++ "\" are set to be displayed.\n".toList
      else "Following \"".toList ++ d ++ "\" are set to be displayed:\n".toList ++
        lst.flatMap fun e => "  ".toList ++ (docLine e).getD [] ++ "\n".toList⟩) := by
    intro lst d h
    have h1 : Msg.ACM_show_lst lst d k s = (if lst.length > 0 then do
        print ("Following \"".toList ++ d ++ "\" are set to be displayed:".toList)
        showLines s.glb lst
      else print ("Currently, no \"".toList ++ d ++ "\" are set to be displayed.".toList) : GP Unit) s := by
      unfold Msg.ACM_show_lst Msg.say
      simp only [show k > 0 from hk, if_true]
      rfl
    have h2 : ((lst.filterMap show_lst_line).flatMap fun t => "  ".toList ++ t ++ ['\n']) =
        lst.flatMap fun e => "  ".toList ++ (docLine e).getD [] ++ "\n".toList := by
      clear h1
      induction lst with
      | nil => rfl
      | cons e rest ih =>
        obtain ⟨a, b⟩ := h e (by simp)
        have hd : ∃ t, docLine e = some t := by
          match e, a with
          | [], _ => exact ⟨_, rfl⟩
          | [_], _ => exact ⟨_, rfl⟩
          | [_, _], _ => exact ⟨_, rfl⟩
          | [_, _, _], _ => exact ⟨_, rfl⟩
          | [_, _, _, _], _ => exact ⟨_, rfl⟩
          | [_, _, _, _, k], _ => by_cases hk : k = 0 <;> simp [docLine, hk]
          | _ :: _ :: _ :: _ :: _ :: _ :: _, a => simp only [IsDesignator, List.length_cons] at a; omega
        obtain ⟨t, ht⟩ := hd
        rw [List.filterMap_cons_some ((C47_lines_partial e b).trans ht), List.flatMap_cons, List.flatMap_cons, ht,
          ih fun e he => h e (by simp [he])]
        rfl
    rw [h1]
    by_cases hl : lst = []
    · rw [if_neg (by simp [hl]), if_pos hl]
      refine Prod.ext rfl (congrArg (GOut.mk s.glb) ?_)
      simp
    · rw [if_pos (List.length_pos_iff.2 hl), if_neg hl, print_bind, showLines_text s.glb hs, h2]
      refine Prod.ext rfl (congrArg (GOut.mk s.glb) ?_)
      simp
  exact ⟨fun h => key _ _ h, fun h => key _ _ h⟩

example : ∀ e ∈ ({ Glb.init with rat_lst := [[2, 0, 1], [4, 2, 1, 1, -2]] } : Glb).rat_lst,
    IsDesignator e ∧ e.length ≠ 4 ∧ (e.length = 5 → e[4]? ≠ some 0) := by
  show ∀ e ∈ [[2, 0, 1], [4, 2, 1, 1, -2]], _
  decide

/-! ### the defaults -/

/-- In the settings `g` the procedure prints `x` and leaves `g'`. -/
def Does (p : GP Unit) (g g' : Glb) (x : List Char) : Prop := ∀ o, p ⟨g, o⟩ = (.ok (), ⟨g', o ++ x⟩)

theorem Does.bind {p q : GP Unit} {g g' g'' : Glb} {x y : List Char} (h : Does p g g' x) (h' : Does q g' g'' y) :
    Does (p >>= fun _ => q) g g'' (x ++ y) := by
  intro o
  rw [st_bind, h o]
  show q ⟨g', o ++ x⟩ = _
  rw [h', List.append_assoc]

theorem does_lists {k : Int} (hk : 0 < k) (g : Glb) (h1 : g.rat_lst = []) (h2 : g.amp_lst = []) :
    Does (Msg.ACM_show_rat_lst k) g g ("Currently, no \"".toList ++ g.rat_desg.toList ++ "\" are set to be displayed.\n".toList) ∧
    Does (Msg.ACM_show_amp_lst k) g g ("Currently, no \"".toList ++ g.amp_desg.toList ++ "\" are set to be displayed.\n".toList) := by
  have key : ∀ d o, Msg.ACM_show_lst [] d k ⟨g, o⟩ = (.ok (), ⟨g, o ++ ("Currently, no \"".toList ++ d ++ "\" are set to be displayed.\n".toList)⟩) := by
    intro d o
    unfold Msg.ACM_show_lst Msg.say
    simp only [show k > 0 from hk, if_true]
    refine Prod.ext rfl (congrArg (GOut.mk g) ?_)
    simp
  constructor
  · intro o
    show Msg.ACM_show_lst g.rat_lst g.rat_desg.toList k ⟨g, o⟩ = _
    rw [h1, key]
  · intro o
    show Msg.ACM_show_lst g.amp_lst g.amp_desg.toList k ⟨g, o⟩ = _
    rw [h2, key]

theorem does_scales {k : Int} (hk : 0 < k) (n : Names) (g : Glb) (hg : g.amp_sft_fun = pySqrt) :
    Does (Msg.ACM_set_scales n (some 1) (some 1) k) g { g with eig_sft := 1, rat_sft := 1, amp_sft := 1 }
      ("Relative eigenenergies to be multiplied by ".toList ++ n.flt 1 ++ ";\n\"".toList ++ g.rat_desg.toList ++ "\" to be multiplied by ".toList ++
        n.flt 1 ++ ";\n\"".toList ++ g.amp_desg.toList ++ "\" to be multiplied by ".toList ++ n.flt 1 ++ ".\n".toList) := by
  intro o
  have hs : pySqrt 1 = .ok 1 := by rw [pySqrt_ok (by norm_num), Real.sqrt_one]
  have hr : pyRecip 1 = .ok 1 := by rw [pyRecip_ne one_ne_zero, one_div_one]
  have e : Acm.ACM_set_scales (some 1) (some 1) 0 g = (.ok (), { g with eig_sft := 1, rat_sft := 1, amp_sft := 1 }) := by
    rw [ACM_set_scales_eq]
    simp only [Option.getD_some]
    rw [hg, hs]
    simp [scalesShown]
  unfold Msg.ACM_set_scales
  rw [st_bind]
  unfold Msg.run
  rw [e]
  show (Msg.ACM_show_scales n k >>= fun _ => (pure () : GP Unit)) ⟨{ g with eig_sft := 1, rat_sft := 1, amp_sft := 1 }, o⟩ = _
  unfold Msg.ACM_show_scales Msg.say
  simp only [show k > 0 from hk, if_true]
  have e2 : ∀ (x : Py ℝ), x = .ok 1 → (do
      let a ← StPy.lift x
      print ("Relative eigenenergies to be multiplied by ".toList ++ n.flt a ++ ";".toList)
      let b ← StPy.lift x
      print ("\"".toList ++ g.rat_desg.toList ++ "\" to be multiplied by ".toList ++ n.flt b ++ ";".toList)
      let c ← StPy.lift x
      print ("\"".toList ++ g.amp_desg.toList ++ "\" to be multiplied by ".toList ++ n.flt c ++ ".".toList) : GP Unit)
      ⟨{ g with eig_sft := 1, rat_sft := 1, amp_sft := 1 }, o⟩ = (.ok (), ⟨{ g with eig_sft := 1, rat_sft := 1, amp_sft := 1 }, o ++
      ("Relative eigenenergies to be multiplied by ".toList ++ n.flt 1 ++ ";\n\"".toList ++ g.rat_desg.toList ++ "\" to be multiplied by ".toList ++
        n.flt 1 ++ ";\n\"".toList ++ g.amp_desg.toList ++ "\" to be multiplied by ".toList ++ n.flt 1 ++ ".\n".toList)⟩) := by
    rintro _ rfl
    refine Prod.ext rfl (congrArg (GOut.mk _) ?_)
    simp
  have e3 := e2 _ hr
  have e4 : ∀ (p : GP Unit) (f : Unit → GP (ℝ × ℝ × ℝ)) (s s' : GOut), p s = (.ok (), s') → (∃ v, f () s' = (.ok v, s')) →
      ((p >>= f) >>= fun _ => (pure () : GP Unit)) s = (.ok (), s') := by
    intro p f s s' h1 ⟨v, h2⟩
    rw [st_bind_ok (a := v) (s' := s') (by rw [st_bind_ok h1, h2])]
    rfl
  exact e4 _ _ _ _ e3 ⟨_, rfl⟩

theorem does_preview {g : Glb} (h : g.tran_format = Glb.init.tran_format) (f : List Char) : Does (preview g f) g g
    ("Each will be output using the format:\n  ".toList ++ f ++ " L_i(j_i) -> L_f(j_f) *\n".toList) := fun o => preview_eq h f ⟨g, o⟩

theorem does_eigFit {k : Int} (hk : 0 < k) (g : Glb) : Does (Msg.ACM_set_eig_fit (some 6) (some 2) (some 1) k) g
    { g with eig_fit := 6, eig_L := 2, eig_idx := 1 }
    ("In ACM_Adapt, the scaling factor for relative eigenvalues is chosen such that\nthat for the 2(1) state is ".toList ++ itemText 0 6 6 ++
      "\n".toList) := by
  intro o
  unfold Msg.ACM_set_eig_fit Msg.say
  simp only [show k > 0 from hk, if_true]
  have e : ∀ x : Py (List Char), x = .ok (itemText 0 6 6) → (StPy.lift x >>= fun t => print
      ("In ACM_Adapt, the scaling factor for relative eigenvalues is chosen such that\nthat for the ".toList ++
        pyStr 2 ++ "(".toList ++ pyStr 1 ++ ") state is ".toList ++ t) : GP Unit) ⟨{ g with eig_fit := 6, eig_L := 2, eig_idx := 1 }, o⟩ =
      (.ok (), ⟨{ g with eig_fit := 6, eig_L := 2, eig_idx := 1 }, o ++
      ("In ACM_Adapt, the scaling factor for relative eigenvalues is chosen such that\nthat for the 2(1) state is ".toList ++ itemText 0 6 6 ++
      "\n".toList)⟩) := by
    rintro _ rfl
    refine Prod.ext rfl (congrArg (GOut.mk _) ?_)
    have h2 : pyStr 2 = "2".toList := rfl
    have h1 : pyStr 1 = "1".toList := rfl
    rw [h1, h2]
    simp
  exact e _ (flt_eq 6)

theorem does_ratFit {k : Int} (hk : 0 < k) (g : Glb) (ht : g.tran_format = Glb.init.tran_format) (hr : g.rat_format = def_rat_format) :
    Does (Msg.ACM_set_rat_fit (some 100) (some 2) (some 0) (some 1) (some 1) k) g
    { g with rat_fit := 100, rat_L1 := 2, rat_L2 := 0, rat_1dx := 1, rat_2dx := 1 }
    ("In ACM_Adapt, the scaling factor for \"".toList ++ g.rat_desg.toList ++ "\" is chosen such that\n  B(E2: 2(1) -> 0(1)) = ".toList ++
      itemText 0 6 100 ++ "\n".toList) := by
  intro o
  set g' : Glb := { g with rat_fit := 100, rat_L1 := 2, rat_L2 := 0, rat_1dx := 1, rat_2dx := 1 } with hg'
  have h1 : ratFitText g' = .ok ("  B(E2: 2(1) -> 0(1)) = ".toList ++ itemText 0 6 100) := by
    have := rat_fit_text g' "  B(E2: ".toList ") = ".toList [] [] "(".toList ") -> ".toList "(".toList ")".toList (by
      intro s hs
      constructor <;> revert s <;> decide) (by show g.tran_format.toList = _; rw [ht]; rfl) (by show g.rat_format.toList = _; rw [hr]; rfl)
    rw [this]
    refine congrArg Except.ok ?_
    have a2 : dec g'.rat_L1 = "2".toList := rfl
    have a0 : dec g'.rat_L2 = "0".toList := rfl
    have b1 : dec g'.rat_1dx = "1".toList := rfl
    rw [a2, a0, b1]
    show _ = _ ++ itemText 0 6 g'.rat_fit
    generalize itemText 0 6 g'.rat_fit = u
    simp
  have e : ∀ x : Py (List Char), x = .ok ("  B(E2: 2(1) -> 0(1)) = ".toList ++ itemText 0 6 100) → (StPy.lift x >>= fun t => print
      ("In ACM_Adapt, the scaling factor for \"".toList ++ g'.rat_desg.toList ++ "\" is chosen such that\n".toList ++ t) : GP Unit) ⟨g', o⟩ =
      (.ok (), ⟨g', o ++ ("In ACM_Adapt, the scaling factor for \"".toList ++ g.rat_desg.toList ++
        "\" is chosen such that\n  B(E2: 2(1) -> 0(1)) = ".toList ++ itemText 0 6 100 ++ "\n".toList)⟩) := by
    rintro _ rfl
    refine Prod.ext rfl (congrArg (GOut.mk _) ?_)
    show o ++ _ = _
    simp [hg']
  have e0 : Acm.ACM_set_rat_fit (fun _ => pure ()) (some 100) (some 2) (some 0) (some 1) (some 1) k g = (.ok (100, 2, 0, 1, 1), g') := by
    unfold Acm.ACM_set_rat_fit
    simp only [show k > 0 from hk, if_true]
    rfl
  unfold Msg.ACM_set_rat_fit Msg.say
  simp only [show k > 0 from hk, if_true]
  rw [st_bind]
  unfold Msg.run
  rw [e0]
  exact e _ h1

theorem does_output {k : Int} (hk : 0 < k) (g : Glb) : Does (Msg.ACM_set_output (some 2) (some 7) (some 4) k) g
    { g with rel_pre := 2, rel_wid := 7, low_pre := 4 } ("2 decimal places for each displayed value,\n7 total digits for each displayed value,\n".toList ++
      "except 4 decimal places for lowest (absolute) eigenvalue.\n".toList) := by
  intro o
  unfold Msg.ACM_set_output Msg.say
  simp only [show k > 0 from hk, if_true]
  refine Prod.ext rfl (congrArg (GOut.mk _) ?_)
  have h2 : pyStr 2 = "2".toList := rfl
  have h7 : pyStr 7 = "7".toList := rfl
  have h4 : pyStr 4 = "4".toList := rfl
  show o ++ (pyStr 2 ++ _ ++ ['\n']) ++ (pyStr 7 ++ _ ++ ['\n']) ++ (_ ++ pyStr 4 ++ _ ++ ['\n']) = _
  rw [h2, h7, h4]
  simp

theorem does_listln {k : Int} (hk : 0 < k) (g : Glb) : Does (Msg.ACM_set_listln (some 4) (some 4) k) g
    { g with eig_num := 4, rat_num := 4, amp_num := 4 }
    "Display lowest 4 eigenvalue(s) at each L.\nDisplay lowest 4 rate/amplitude(s) in each list.\n".toList := by
  intro o
  unfold Msg.ACM_set_listln Msg.say
  simp only [show k > 0 from hk, if_true]
  refine Prod.ext rfl (congrArg (GOut.mk _) ?_)
  have h4 : pyStr 4 = "4".toList := rfl
  show o ++ (_ ++ pyStr 4 ++ _ ++ ['\n']) ++ (_ ++ pyStr 4 ++ _ ++ ['\n']) = _
  rw [h4]
  simp

theorem does_datum {k : Int} (hk : 0 < k) (g : Glb) : Does (Msg.ACM_set_datum 1 k) g { g with eig_rel := true }
    "Eigenvalues displayed relative to minimal value.\n".toList := by
  intro o
  unfold Msg.ACM_set_datum Msg.say
  simp only [show k > 0 from hk, if_true]
  rfl

theorem does_basis {k : Int} (hk : 0 < k) (n : Names) (g : Glb) : Does (Msg.ACM_set_basis_type n 2 0 k) g { g with lam_fun := lambda_acm_fun }
    "Using the ACM parity basis.\n".toList := by
  intro o
  unfold Msg.ACM_set_basis_type Msg.say
  simp only [show k > 0 from hk, if_true, show ¬ ((2 : Int) = 0) by decide, show ¬ ((2 : Int) = 1) by decide, if_false]
  rfl

theorem does_transition {k : Int} (hk : 0 < k) (n : Names) (g : Glb) : Does (Msg.ACM_set_transition n (some quad_op) k) g
    { g with rat_TRop := quad_op, rat_TRopAM := 2 }
    ("In ACM_Scale and ACM_Adapt, transition matrix elements now calculated for the operator:\n".toList ++ g.rat_desg.toList ++ n.op quad_op ++
      "\n(This has angular momentum 2).\n\n".toList) := by
  intro o
  have hAM : Op_AM quad_op = 2 := C71_quad_AM.1
  have hA : |Op_AM quad_op| = 2 := by rw [hAM]; rfl
  have e : Acm.ACM_set_transition (some quad_op) k g = (.ok (quad_op, 2), { g with rat_TRop := quad_op, rat_TRopAM := 2 }) := by
    show ((Except.ok (quad_op, |Op_AM quad_op|) : Py _), ({ g with rat_TRop := quad_op, rat_TRopAM := |Op_AM quad_op| } : Glb)) = _
    rw [hA]
  unfold Msg.ACM_set_transition Msg.say
  simp only [show k > 0 from hk, if_true]
  rw [st_bind]
  unfold Msg.run
  rw [e]
  have e2 : ∀ x : Int, x = 2 → (do
      write ("In ACM_Scale and ACM_Adapt, transition matrix elements now calculated for the operator:\n".toList ++ g.rat_desg.toList)
      print (n.op quad_op)
      if x ≥ 0 then print ("(This has angular momentum ".toList ++ pyStr x ++ ").\n".toList)
      else print ("(This has indeterminate angular momentum: maximum ".toList ++ pyStr (-x) ++ ").\n".toList) : GP Unit)
      ⟨{ g with rat_TRop := quad_op, rat_TRopAM := 2 }, o⟩ = (.ok (), ⟨{ g with rat_TRop := quad_op, rat_TRopAM := 2 }, o ++
      ("In ACM_Scale and ACM_Adapt, transition matrix elements now calculated for the operator:\n".toList ++ g.rat_desg.toList ++ n.op quad_op ++
      "\n(This has angular momentum 2).\n\n".toList)⟩) := by
    rintro _ rfl
    rw [if_pos (by decide)]
    refine Prod.ext rfl (congrArg (GOut.mk _) ?_)
    have h2 : pyStr 2 = "2".toList := rfl
    rw [h2]
    show o ++ _ ++ _ ++ _ = _
    simp
  exact e2 _ hAM

theorem does_ratForm {k : Int} (hk : 0 < k) (n : Names) (g : Glb) (h : g.tran_format = Glb.init.tran_format) (f : MelFun) (a b : String) :
    Does (Msg.ACM_set_rat_form n (some f) (some a) (some b) k) g { g with rat_fun := f, rat_format := a, rat_desg := b }
    ("These are calculated from the (alternative reduced) transition matrix elements\nusing the procedure: \"".toList ++ n.mel f ++ "\"\n".toList ++
      ("Each will be output using the format:\n  ".toList ++ a.toList ++ " L_i(j_i) -> L_f(j_f) *\n".toList)) := by
  intro o
  unfold Msg.ACM_set_rat_form Msg.say
  simp only [show k > 0 from hk, if_true]
  show preview { g with rat_fun := f, rat_format := a, rat_desg := b } a.toList ⟨{ g with rat_fun := f, rat_format := a, rat_desg := b }, o ++ _⟩ = _
  rw [preview_eq (by exact h)]
  refine Prod.ext rfl (congrArg (GOut.mk _) ?_)
  change o ++ (_ ++ n.mel f ++ _ ++ ['\n']) ++ _ = _
  simp

theorem does_ampForm {k : Int} (hk : 0 < k) (n : Names) (g : Glb) (h : g.tran_format = Glb.init.tran_format) (f : MelFun) (a b : String) :
    Does (Msg.ACM_set_amp_form n (some f) (some a) (some b) k) g { g with amp_fun := f, amp_format := a, amp_desg := b }
    ("ACM_Scale and ACM_Adapt now set to display \"".toList ++ b.toList ++ "\" second.\n".toList ++
      ("These are calculated from the (alternative reduced) transition matrix elements\nusing the procedure: \"".toList ++ n.mel f ++ "\".\n".toList ++
      ("Each will be output using the format:\n  ".toList ++ a.toList ++ " L_i(j_i) -> L_f(j_f) *\n".toList))) := by
  intro o
  unfold Msg.ACM_set_amp_form Msg.say
  simp only [show k > 0 from hk, if_true]
  show preview { g with amp_fun := f, amp_format := a, amp_desg := b } a.toList ⟨{ g with amp_fun := f, amp_format := a, amp_desg := b }, o ++ _ ++ _⟩ = _
  rw [preview_eq (by exact h)]
  refine Prod.ext rfl (congrArg (GOut.mk _) ?_)
  change o ++ (_ ++ b.toList ++ _ ++ ['\n']) ++ (_ ++ n.mel f ++ _ ++ ['\n']) ++ _ = _
  simp

theorem does_sft {k : Int} (hk : 0 < k) (n : Names) (g : Glb) {w : List Char} (hw : n.sft pySqrt = .ok w) : Does (Msg.ACM_set_sft_fun n (some pySqrt) k) g
    { g with amp_sft_fun := pySqrt } ("\"".toList ++ g.amp_desg.toList ++ "\" scaling factor calculated using the procedure: ".toList ++ w ++ ".\n".toList) := by
  intro o
  unfold Msg.ACM_set_sft_fun Msg.say
  simp only [show k > 0 from hk, if_true]
  have e : ∀ x : Py (List Char), x = .ok w → (StPy.lift x >>= fun t => print
      ("\"".toList ++ g.amp_desg.toList ++ "\" scaling factor calculated using the procedure: ".toList ++ t ++ ".".toList) : GP Unit)
      ⟨{ g with amp_sft_fun := pySqrt }, o⟩ = (.ok (), ⟨{ g with amp_sft_fun := pySqrt }, o ++
        ("\"".toList ++ g.amp_desg.toList ++ "\" scaling factor calculated using the procedure: ".toList ++ w ++ ".\n".toList)⟩) := by
    rintro _ rfl
    refine Prod.ext rfl (congrArg (GOut.mk _) ?_)
    show o ++ _ = _
    simp
  exact e _ hw

theorem does_setLists (g : Glb) : Does (Msg.ACM_set_rat_lst []) g { g with rat_lst := [] } [] ∧ Does (Msg.ACM_set_amp_lst []) g { g with amp_lst := [] } [] :=
  ⟨fun _ => rfl, fun _ => rfl⟩

/-- Everything `ACM_set_defaults` prints, if the designation of the rates was `d`. -/
noncomputable def defaultsText (n : Names) (w d : List Char) : List Char :=
  ("2 decimal places for each displayed value,\n7 total digits for each displayed value,\n".toList ++
      "except 4 decimal places for lowest (absolute) eigenvalue.\n".toList) ++
  ("Display lowest 4 eigenvalue(s) at each L.\nDisplay lowest 4 rate/amplitude(s) in each list.\n".toList ++
  ("Eigenvalues displayed relative to minimal value.\n".toList ++
  ("Using the ACM parity basis.\n".toList ++
  (("In ACM_Scale and ACM_Adapt, transition matrix elements now calculated for the operator:\n".toList ++ d ++ n.op quad_op ++
      "\n(This has angular momentum 2).\n\n".toList) ++
  ("These are calculated from the (alternative reduced) transition matrix elements\nusing the procedure: \"".toList ++ n.mel quad_rat_fun ++ "\"\n".toList ++
      ("Each will be output using the format:\n  ".toList ++ "  B(E2: {}) = {}".toList ++ " L_i(j_i) -> L_f(j_f) *\n".toList) ++
  (("ACM_Scale and ACM_Adapt now set to display \"".toList ++ "transition amplitudes".toList ++ "\" second.\n".toList ++
      ("These are calculated from the (alternative reduced) transition matrix elements\nusing the procedure: \"".toList ++ n.mel quad_amp_fun ++ "\".\n".toList ++
      ("Each will be output using the format:\n  ".toList ++ "  Amp( {} ) = {}".toList ++ " L_i(j_i) -> L_f(j_f) *\n".toList))) ++
  (("\"".toList ++ "transition amplitudes".toList ++ "\" scaling factor calculated using the procedure: ".toList ++ w ++ ".\n".toList) ++
  (("In ACM_Adapt, the scaling factor for relative eigenvalues is chosen such that\nthat for the 2(1) state is ".toList ++ itemText 0 6 6 ++ "\n".toList) ++
  (("In ACM_Adapt, the scaling factor for \"".toList ++ "transition rates".toList ++ "\" is chosen such that\n  B(E2: 2(1) -> 0(1)) = ".toList ++
      itemText 0 6 100 ++ "\n".toList) ++
  ([] ++ ([] ++
  (("Currently, no \"".toList ++ "transition rates".toList ++ "\" are set to be displayed.\n".toList) ++
  (("Currently, no \"".toList ++ "transition amplitudes".toList ++ "\" are set to be displayed.\n".toList) ++
  (("Relative eigenenergies to be multiplied by ".toList ++ n.flt 1 ++ ";\n\"".toList ++ "transition rates".toList ++ "\" to be multiplied by ".toList ++
        n.flt 1 ++ ";\n\"".toList ++ "transition amplitudes".toList ++ "\" to be multiplied by ".toList ++ n.flt 1 ++ ".\n".toList) ++
  "\n".toList))))))))))))))

theorem Does.next (P : Glb → Prop) {p q : GP Unit} {g g' : Glb} {x y : List Char} (h : Does p g g' x) (hp : P g')
    (h' : ∀ f, P f → ∃ g'', Does q f g'' y) : ∃ g'', Does (p >>= fun _ => q) g g'' (x ++ y) := by
  obtain ⟨g'', h'⟩ := h' g' hp
  exact ⟨g'', h.bind h'⟩

theorem does_defaults {k : Int} (hk : 0 < k) (n : Names) (g : Glb) (h : g.tran_format = Glb.init.tran_format) {w : List Char}
    (hw : n.sft pySqrt = .ok w) : ∃ g', Does (Msg.ACM_set_defaults n k) g g' (defaultsText n w g.rat_desg.toList) := by
  unfold defaultsText
  generalize hd : g.rat_desg = d
  refine Does.next (fun f => f.tran_format = Glb.init.tran_format ∧ f.rat_desg = d) (does_output hk g) ⟨h, hd⟩ ?_
  rintro g ⟨h, hd⟩
  refine Does.next (fun f => f.tran_format = Glb.init.tran_format ∧ f.rat_desg = d) (does_listln hk _) ⟨h, hd⟩ ?_
  rintro g ⟨h, hd⟩
  refine Does.next (fun f => f.tran_format = Glb.init.tran_format ∧ f.rat_desg = d) (does_datum hk _) ⟨h, hd⟩ ?_
  rintro g ⟨h, hd⟩
  refine Does.next (fun f => f.tran_format = Glb.init.tran_format ∧ f.rat_desg = d) (does_basis hk n _) ⟨h, hd⟩ ?_
  rintro g ⟨h, rfl⟩
  refine Does.next (fun f => f.tran_format = Glb.init.tran_format) (does_transition hk n _) h ?_
  rintro g h
  refine Does.next (fun f => f.tran_format = Glb.init.tran_format ∧ f.rat_format = def_rat_format ∧ f.rat_desg = "transition rates")
    (does_ratForm hk n _ h _ _ _) ⟨h, rfl, rfl⟩ ?_
  rintro g ⟨h, h1, h2⟩
  refine Does.next (fun f => f.tran_format = Glb.init.tran_format ∧ f.rat_format = def_rat_format ∧ f.rat_desg = "transition rates" ∧
    f.amp_desg = "transition amplitudes") (does_ampForm hk n _ h _ _ _) ⟨h, h1, h2, rfl⟩ ?_
  rintro g ⟨h, h1, h2, h3⟩
  rw [← h3, ← h2]
  refine Does.next (fun f => f.tran_format = Glb.init.tran_format ∧ f.rat_format = def_rat_format ∧ f.rat_desg = g.rat_desg ∧
    f.amp_desg = g.amp_desg ∧ f.amp_sft_fun = pySqrt) (does_sft hk n _ hw) ⟨h, h1, rfl, rfl, rfl⟩ ?_
  rintro g' ⟨h, h1, e2, e3, h4⟩
  rw [← e3, ← e2]
  clear e2 e3
  refine Does.next (fun f => f.tran_format = Glb.init.tran_format ∧ f.rat_format = def_rat_format ∧ f.rat_desg = g'.rat_desg ∧
    f.amp_desg = g'.amp_desg ∧ f.amp_sft_fun = pySqrt) (does_eigFit hk _) ⟨h, h1, rfl, rfl, h4⟩ ?_
  rintro g ⟨h, h1, e2, e3, h4⟩
  rw [← e3, ← e2]
  clear e2 e3
  refine Does.next (fun f => f.rat_desg = g.rat_desg ∧ f.amp_desg = g.amp_desg ∧ f.amp_sft_fun = pySqrt) (does_ratFit hk _ h h1) ⟨rfl, rfl, h4⟩ ?_
  rintro g' ⟨e2, e3, h4⟩
  rw [← e3, ← e2]
  clear e2 e3
  refine Does.next (fun f => f.rat_desg = g'.rat_desg ∧ f.amp_desg = g'.amp_desg ∧ f.amp_sft_fun = pySqrt ∧ f.rat_lst = []) (does_setLists _).1
    ⟨rfl, rfl, h4, rfl⟩ ?_
  rintro g ⟨e2, e3, h4, h5⟩
  rw [← e3, ← e2]
  clear e2 e3
  refine Does.next (fun f => f.rat_desg = g.rat_desg ∧ f.amp_desg = g.amp_desg ∧ f.amp_sft_fun = pySqrt ∧ f.rat_lst = [] ∧ f.amp_lst = [])
    (does_setLists _).2 ⟨rfl, rfl, h4, h5, rfl⟩ ?_
  rintro g' ⟨e2, e3, h4, h5, h6⟩
  rw [← e3, ← e2]
  clear e2 e3
  have hl : ∀ g : Glb, Does (Msg.say k (print [])) g g "\n".toList := by
    intro g o
    unfold Msg.say
    rw [if_pos hk]
    rfl
  exact ⟨_, ((does_lists hk _ h5 h6).1).bind (((does_lists hk _ h5 h6).2).bind ((does_scales hk n _ h4).bind (hl _)))⟩

theorem roundEven_nat (m : ℕ) : roundEven (m : ℝ) = m := by
  have h := abs_le.1 (roundEven_near (Nat.cast_nonneg m : (0 : ℝ) ≤ m)).1
  have h1 : ((roundEven (m : ℝ) : ℕ) : ℝ) < (m + 1 : ℕ) := by push_cast; linarith
  have h2 : ((m : ℕ) : ℝ) < (roundEven (m : ℝ) + 1 : ℕ) := by push_cast; linarith
  have h1 := Nat.cast_lt.1 h1
  have h2 := Nat.cast_lt.1 h2
  omega

theorem item_six : itemText 0 6 6 = "6.000000".toList ∧ itemText 0 6 100 = "100.000000".toList := by
  have e1 : roundEven (|(6 : ℝ)| * 10 ^ 6) = 6000000 := by
    rw [abs_of_pos (by norm_num), show (6 : ℝ) * 10 ^ 6 = ((6000000 : ℕ) : ℝ) by norm_num, roundEven_nat]
  have e2 : roundEven (|(100 : ℝ)| * 10 ^ 6) = 100000000 := by
    rw [abs_of_pos (by norm_num), show (100 : ℝ) * 10 ^ 6 = ((100000000 : ℕ) : ℝ) by norm_num, roundEven_nat]
  constructor
  · unfold itemText fixedBody
    rw [e1, if_neg (by norm_num)]
    decide
  · unfold itemText fixedBody
    rw [e2, if_neg (by norm_num)]
    decide

/-- C123 for `ACM_set_defaults`: everything it prints, for any earlier settings and any texts of the objects.  Missing: the second text must not
depend on the earlier designation of the rates, see `C123_defaults_fails`. -/
theorem C123_defaults_partial (n : Names) (w : List Char) (hw : n.sft pySqrt = .ok w) (k : Int) (hk : 0 < k) (s : GOut)
    (hs : s.glb.tran_format = Glb.init.tran_format) : ∃ t, Says n (.defaults k) s
    [ "2 decimal places for each displayed value,\n7 total digits for each displayed value,\n".toList,
      "except 4 decimal places for lowest (absolute) eigenvalue.\n".toList,
      "Display lowest 4 eigenvalue(s) at each L.\nDisplay lowest 4 rate/amplitude(s) in each list.\n".toList,
      "Eigenvalues displayed relative to minimal value.\n".toList,
      "Using the ACM parity basis.\n".toList,
      "In ACM_Scale and ACM_Adapt, transition matrix elements now calculated for the operator:\n".toList,
      s.glb.rat_desg.toList, n.op quad_op, "\n(This has angular momentum 2).\n\n".toList,
      "These are calculated from the (alternative reduced) transition matrix elements\nusing the procedure: \"".toList, n.mel quad_rat_fun, "\"\n".toList,
      "Each will be output using the format:\n  ".toList, "  B(E2: {}) = {}".toList, " L_i(j_i) -> L_f(j_f) *\n".toList,
      "ACM_Scale and ACM_Adapt now set to display \"".toList, "transition amplitudes".toList, "\" second.\n".toList,
      "These are calculated from the (alternative reduced) transition matrix elements\nusing the procedure: \"".toList, n.mel quad_amp_fun, "\".\n".toList,
      "Each will be output using the format:\n  ".toList, "  Amp( {} ) = {}".toList, " L_i(j_i) -> L_f(j_f) *\n".toList,
      "\"".toList, "transition amplitudes".toList, "\" scaling factor calculated using the procedure: ".toList, w, ".\n".toList,
      "In ACM_Adapt, the scaling factor for relative eigenvalues is chosen such that\nthat for the 2(1) state is ".toList, "6.000000".toList, "\n".toList,
      "In ACM_Adapt, the scaling factor for \"".toList, "transition rates".toList, "\" is chosen such that\n  B(E2: 2(1) -> 0(1)) = ".toList,
      "100.000000".toList, "\n".toList,
      "Currently, no \"".toList, "transition rates".toList, "\" are set to be displayed.\n".toList,
      "Currently, no \"".toList, "transition amplitudes".toList, "\" are set to be displayed.\n".toList,
      "Relative eigenenergies to be multiplied by ".toList, n.flt 1, ";\n\"".toList, "transition rates".toList, "\" to be multiplied by ".toList,
      n.flt 1, ";\n\"".toList, "transition amplitudes".toList, "\" to be multiplied by ".toList, n.flt 1, ".\n".toList, "\n".toList ].flatten t := by
  obtain ⟨g', h⟩ := does_defaults hk n s.glb hs hw
  refine ⟨⟨g', _⟩, (h s.out), ?_⟩
  refine congrArg (s.out ++ ·) ?_
  unfold defaultsText
  rw [item_six.1, item_six.2]
  simp only [List.append_assoc, List.nil_append, List.flatten_cons, List.flatten_nil, List.append_nil]

example (n : Names) (hn : ∀ f, ∃ t, n.sft f = .ok t) (o : List Char) (cs : List GCall) :
    ∃ w, n.sft pySqrt = .ok w ∧ (execAll n cs ⟨Glb.init, o⟩).glb.tran_format = Glb.init.tran_format := by
  obtain ⟨w, hw⟩ := hn pySqrt
  obtain ⟨fmt, h⟩ := C123_settings n hn
  exact ⟨w, hw, by rw [(h o cs).1]; exact (tran_kept fmt cs).1⟩

/-- C123 fails for `ACM_set_defaults`: whatever the texts of the objects, it prints different texts after histories that leave different
designations of the rates, although it is called with the same argument and sets the same values. -/
theorem C123_defaults_fails (n : Names) (w : List Char) (hw : n.sft pySqrt = .ok w) (k : Int) (hk : 0 < k) (s s' : GOut)
    (hs : s.glb.tran_format = Glb.init.tran_format) (hs' : s'.glb.tran_format = Glb.init.tran_format) :
    ∃ m m' t t', Says n (.defaults k) s m t ∧ Says n (.defaults k) s' m' t' ∧ (m = m' ↔ s.glb.rat_desg = s'.glb.rat_desg) := by
  obtain ⟨g, h⟩ := does_defaults hk n s.glb hs hw
  obtain ⟨g', h'⟩ := does_defaults hk n s'.glb hs' hw
  refine ⟨_, _, _, _, ⟨h s.out, rfl⟩, ⟨h' s'.out, rfl⟩, ?_, fun e => by rw [e]⟩
  intro e
  unfold defaultsText at e
  generalize itemText 0 6 6 = x at e
  generalize itemText 0 6 100 = y at e
  simp only [List.append_assoc, List.append_cancel_left_eq] at e
  exact String.toList_inj.1 (List.append_cancel_right e)

example (n : Names) (f : MelFun) (o : List Char) :
    (exec n (.ratForm (some f) (some "  B(M1: {}) = {}") (some "M1 rates") 0) ⟨Glb.init, o⟩).2.glb.rat_desg = "M1 rates" ∧
    Glb.init.rat_desg = "transition rates" ∧ "M1 rates" ≠ "transition rates" := ⟨rfl, rfl, by decide⟩

/-- C123 fails for the announcement of a format: for every format of two fields it is not the documented text, the fields are not filled in. -/
theorem C123_preview_fails (n : Names) (f : MelFun) (a b : String) (m0 m1 m2 : List Char) (ha : a.toList = template2 m0 m1 m2) (k : Int)
    (hk : 0 < k) (s : GOut) (hs : s.glb.tran_format = Glb.init.tran_format) : ∃ x t t',
    Says n (.ratForm (some f) (some a) (some b) k) s
      ("These are calculated from the (alternative reduced) transition matrix elements\nusing the procedure: \"".toList ++ n.mel f ++ "\"\n".toList ++ x) t ∧
    Says n (.ampForm (some f) (some a) (some b) k) s ("ACM_Scale and ACM_Adapt now set to display \"".toList ++ b.toList ++ "\" second.\n".toList ++
      ("These are calculated from the (alternative reduced) transition matrix elements\nusing the procedure: \"".toList ++ n.mel f ++ "\".\n".toList ++ x)) t' ∧
    x ≠ docPreview m0 m1 m2 := by
  refine ⟨"Each will be output using the format:\n  ".toList ++ a.toList ++ " L_i(j_i) -> L_f(j_f) *\n".toList, _, _,
    ⟨does_ratForm hk n s.glb hs f a b s.out, rfl⟩, ⟨does_ampForm hk n s.glb hs f a b s.out, rfl⟩, ?_⟩
  rw [ha]
  intro h
  unfold docPreview template2 at h
  simp only [List.append_assoc] at h
  have h := List.append_cancel_left (List.append_cancel_left h)
  have := congrArg List.head? h
  simp [arrowLine] at this

example : Glb.init.rat_format.toList = template2 "  B(E2: ".toList ") = ".toList [] := rfl

/-- C123 fails for the message of `ACM_set_rat_form`: it does not tell the designation, as the documented message and that of
`ACM_set_amp_form` do. -/
theorem C123_desg_fails (n : Names) (f : MelFun) (a b b' : String) (k : Int) (hk : 0 < k) (s : GOut) (hs : s.glb.tran_format = Glb.init.tran_format) :
    (∃ m t t', Says n (.ratForm (some f) (some a) (some b) k) s m t ∧ Says n (.ratForm (some f) (some a) (some b') k) s m t' ∧
      t.glb.rat_desg = b ∧ t'.glb.rat_desg = b') ∧
    ∀ m t t', Says n (.ampForm (some f) (some a) (some b) k) s m t → Says n (.ampForm (some f) (some a) (some b') k) s m t' → b = b' := by
  refine ⟨⟨_, _, _, ⟨does_ratForm hk n s.glb hs f a b s.out, rfl⟩, ⟨does_ratForm hk n s.glb hs f a b' s.out, rfl⟩, rfl, rfl⟩, ?_⟩
  intro m t t' ⟨h1, e1⟩ ⟨h2, e2⟩
  have h1' := congrArg (fun x => x.2.out) (h1.symm.trans (does_ampForm hk n s.glb hs f a b s.out))
  have h2' := congrArg (fun x => x.2.out) (h2.symm.trans (does_ampForm hk n s.glb hs f a b' s.out))
  have := (List.append_cancel_left (e1.symm.trans h1')).symm.trans (List.append_cancel_left (e2.symm.trans h2'))
  exact String.toList_inj.1 (List.append_cancel_left (List.append_cancel_right (List.append_cancel_right this)))

/-! ### scales, operators, functions -/

/-- What `ACM_show_scales` prints. -/
noncomputable def scalesText (n : Names) (g : Glb) : List Char :=
  [ "Relative eigenenergies to be multiplied by ".toList, n.flt (1 / g.eig_sft), ";\n\"".toList, g.rat_desg.toList,
    "\" to be multiplied by ".toList, n.flt (1 / g.rat_sft), ";\n\"".toList, g.amp_desg.toList, "\" to be multiplied by ".toList,
    n.flt (1 / g.amp_sft), ".\n".toList ].flatten

theorem show_scales_text {n : Names} {k : Int} (hk : 0 < k) {g : Glb} {o : List Char} {t : GOut}
    (h : (Msg.ACM_show_scales n k >>= fun _ => (pure () : GP Unit)) ⟨g, o⟩ = (.ok (), t)) : t = ⟨g, o ++ scalesText n g⟩ := by
  have h' : Msg.ACM_show_scales n k ⟨g, o⟩ = (scaleLines n g >>= fun _ => pure (g.eig_sft, g.rat_sft, g.amp_sft)) ⟨g, o⟩ := by
    unfold Msg.ACM_show_scales Msg.say
    simp only [show k > 0 from hk, if_true]
    rfl
  rw [st_bind, h', st_bind] at h
  have key : ∀ (x y z : Py ℝ) (a b c : ℝ), (∀ v, x = .ok v → v = a) → (∀ v, y = .ok v → v = b) → (∀ v, z = .ok v → v = c) → ∀ u, (do
      let a ← StPy.lift x
      print ("Relative eigenenergies to be multiplied by ".toList ++ n.flt a ++ ";".toList)
      let b ← StPy.lift y
      print ("\"".toList ++ g.rat_desg.toList ++ "\" to be multiplied by ".toList ++ n.flt b ++ ";".toList)
      let c ← StPy.lift z
      print ("\"".toList ++ g.amp_desg.toList ++ "\" to be multiplied by ".toList ++ n.flt c ++ ".".toList) : GP Unit) ⟨g, o⟩ =
      (.ok (), u) → u = ⟨g, o ++ [ "Relative eigenenergies to be multiplied by ".toList, n.flt a, ";\n\"".toList, g.rat_desg.toList,
        "\" to be multiplied by ".toList, n.flt b, ";\n\"".toList, g.amp_desg.toList, "\" to be multiplied by ".toList,
        n.flt c, ".\n".toList ].flatten⟩ := by
    rintro (x | x) (y | y) (z | z) a b c ha hb hc u h
    all_goals first | cases h; done | skip
    rw [← ha x rfl, ← hb y rfl, ← hc z rfl]
    refine (congrArg Prod.snd h).symm.trans (congrArg (GOut.mk g) ?_)
    show o ++ _ ++ _ ++ _ = _
    simp
  have hr : ∀ a v : ℝ, pyRecip a = .ok v → v = 1 / a := by
    intro a v h
    unfold pyRecip at h
    split at h
    · cases h
    · cases h; rfl
  rcases hl : scaleLines n g ⟨g, o⟩ with ⟨_ | _, u⟩
  · rw [hl] at h; cases h
  · rw [hl] at h
    have := key _ _ _ _ _ _ (hr g.eig_sft) (hr g.rat_sft) (hr g.amp_sft) u hl
    have e : u = t := congrArg Prod.snd h
    rw [← e, this]
    rfl

/-- C123.  `ACM_set_scales` shows the factors by which values are multiplied: the reciprocals of the scaling factors then in force, each with
its designation. -/
theorem C123_scales (n : Names) (e r : Option ℝ) (k : Int) (hk : 0 < k) (s t : GOut) (m : List Char) (h : Says n (.scales e r k) s m t) :
    m = [ "Relative eigenenergies to be multiplied by ".toList, n.flt (1 / t.glb.eig_sft), ";\n\"".toList, t.glb.rat_desg.toList,
      "\" to be multiplied by ".toList, n.flt (1 / t.glb.rat_sft), ";\n\"".toList, t.glb.amp_desg.toList, "\" to be multiplied by ".toList,
      n.flt (1 / t.glb.amp_sft), ".\n".toList ].flatten := by
  obtain ⟨h, ho⟩ := h
  have h : (Msg.run (Acm.ACM_set_scales e r 0) >>= fun _ => Msg.ACM_show_scales n k >>= fun _ => (pure () : GP Unit)) s = (.ok (), t) := h
  rw [st_bind] at h
  rcases hr : Msg.run (Acm.ACM_set_scales e r 0) s with ⟨x | v, s'⟩
  · rw [hr] at h; cases h
  · rw [hr] at h
    have hs : s'.out = s.out := by
      have := congrArg (fun x => x.2.out) hr
      exact this.symm
    have ht := show_scales_text (g := s'.glb) (o := s'.out) hk h
    have hg : t.glb = s'.glb := by rw [ht]
    have ho' : s.out ++ scalesText n s'.glb = s.out ++ m := by rw [← ho, ht, hs]
    rw [hg]
    exact (List.append_cancel_left ho').symm

example (n : Names) (o : List Char) : ∃ m t, Says n (.scales (some 1) (some 1) 1) ⟨Glb.init, o⟩ m t :=
  ⟨_, _, does_scales (by decide) n Glb.init rfl o, rfl⟩

/-- C123 for `ACM_set_transition`: it shows the operator and its angular momentum, or the largest if it is not definite.  Missing: the
designation must not be in front of the operator. -/
theorem C123_transition_partial (n : Names) (op : OperatorSum) (k : Int) (hk : 0 < k) (s : GOut) : ∃ (x : List Char) (t : GOut),
    Says n (.transition (some op) k) s ("In ACM_Scale and ACM_Adapt, transition matrix elements now calculated for the operator:\n".toList ++
      s.glb.rat_desg.toList ++ n.op op ++ "\n(This has ".toList ++ x ++ ").\n\n".toList) t ∧
    (∀ a : ℕ, op ≠ [] → (∀ w ∈ op, termAM w.2 = a) → x = "angular momentum ".toList ++ dec a) ∧
    ∀ v ∈ op, (∀ w ∈ op, termAM w.2 ≤ termAM v.2) → (∃ w ∈ op, termAM w.2 ≠ termAM v.2) →
      x = "indeterminate angular momentum: maximum ".toList ++ dec (termAM v.2) := by
  have e : ∀ x : Int, (do
      write ("In ACM_Scale and ACM_Adapt, transition matrix elements now calculated for the operator:\n".toList ++ s.glb.rat_desg.toList)
      print (n.op op)
      if x ≥ 0 then print ("(This has angular momentum ".toList ++ pyStr x ++ ").\n".toList)
      else print ("(This has indeterminate angular momentum: maximum ".toList ++ pyStr (-x) ++ ").\n".toList) : GP Unit)
      ⟨{ s.glb with rat_TRop := op, rat_TRopAM := |Op_AM op| }, s.out⟩ = (.ok (), ⟨{ s.glb with rat_TRop := op, rat_TRopAM := |Op_AM op| }, s.out ++
      ("In ACM_Scale and ACM_Adapt, transition matrix elements now calculated for the operator:\n".toList ++
      s.glb.rat_desg.toList ++ n.op op ++ "\n(This has ".toList ++
      (if x ≥ 0 then "angular momentum ".toList ++ dec x else "indeterminate angular momentum: maximum ".toList ++ dec (-x)) ++ ").\n\n".toList)⟩) := by
    intro x
    by_cases hx : x ≥ 0
    · rw [if_pos hx, if_pos hx]
      refine Prod.ext rfl (congrArg (GOut.mk _) ?_)
      show s.out ++ _ ++ _ ++ _ = _
      simp [pyStr_eq_dec]
    · rw [if_neg hx, if_neg hx]
      refine Prod.ext rfl (congrArg (GOut.mk _) ?_)
      show s.out ++ _ ++ _ ++ _ = _
      simp [pyStr_eq_dec]
  refine ⟨if Op_AM op ≥ 0 then "angular momentum ".toList ++ dec (Op_AM op) else "indeterminate angular momentum: maximum ".toList ++ dec (-Op_AM op),
    ⟨{ s.glb with rat_TRop := op, rat_TRopAM := |Op_AM op| }, _⟩, ⟨?_, rfl⟩, ?_, ?_⟩
  · show Msg.ACM_set_transition n (some op) k s = _
    unfold Msg.ACM_set_transition Msg.say
    simp only [show k > 0 from hk, if_true]
    exact e (Op_AM op)
  · intro a hne h
    rw [C62_definite op hne a h, if_pos (Int.natCast_nonneg a)]
  · intro v hv hmax ⟨w, hw, hne⟩
    obtain ⟨r, hr, e1, e2⟩ := C62_indefinite op w v hw hv hne
    have er : termAM r.2 = termAM v.2 := le_antisymm (hmax r hr) (e2 v hv)
    rw [e1, er, if_neg, neg_neg]
    have := lt_of_le_of_ne (hmax w hw) hne
    omega

example : ∃ op : OperatorSum, ∃ v ∈ op, (∀ w ∈ op, termAM w.2 ≤ termAM v.2) ∧ ∃ w ∈ op, termAM w.2 ≠ termAM v.2 :=
  ⟨[(1, [.harm .y214]), (1, [.PiPi2]), (1, [.harm .y316])], (1, [.harm .y316]), by simp, by simp [termAM, symAM, SpHarm.table],
    (1, [.PiPi2]), by simp, by simp [termAM, symAM, SpHarm.table]⟩

/-- C123.  `ACM_set_sft_fun` and `ACM_set_lambda_fun` show the function that was given. -/
theorem C123_functions (n : Names) (f : ℝ → Py ℝ) (w : List Char) (hw : n.sft f = .ok w) (l : LambdaFunction) (k : Int) (hk : 0 < k) (s : GOut) :
    (∃ t, Says n (.sftFun (some f) k) s
      ("\"".toList ++ s.glb.amp_desg.toList ++ "\" scaling factor calculated using the procedure: ".toList ++ w ++ ".\n".toList) t) ∧
    ∃ t, Says n (.lambdaFun l k) s ("lambda values calculated from v using the procedure: \"".toList ++ n.lam l ++ "\",\n".toList) t := by
  constructor
  · refine ⟨⟨{ s.glb with amp_sft_fun := f }, _⟩, ?_, rfl⟩
    show Msg.ACM_set_sft_fun n (some f) k s = _
    unfold Msg.ACM_set_sft_fun Msg.say
    simp only [show k > 0 from hk, if_true]
    have e : ∀ x : Py (List Char), x = .ok w → (StPy.lift x >>= fun t => print
        ("\"".toList ++ s.glb.amp_desg.toList ++ "\" scaling factor calculated using the procedure: ".toList ++ t ++ ".".toList) : GP Unit)
        ⟨{ s.glb with amp_sft_fun := f }, s.out⟩ = (.ok (), ⟨{ s.glb with amp_sft_fun := f }, s.out ++
          ("\"".toList ++ s.glb.amp_desg.toList ++ "\" scaling factor calculated using the procedure: ".toList ++ w ++ ".\n".toList)⟩) := by
      rintro _ rfl
      refine Prod.ext rfl (congrArg (GOut.mk _) ?_)
      show s.out ++ _ = _
      simp
    exact e _ hw
  · refine ⟨⟨{ s.glb with lam_fun := l }, _⟩, ?_, rfl⟩
    show Msg.ACM_set_lambda_fun n l k s = _
    unfold Msg.ACM_set_lambda_fun Msg.say
    simp only [show k > 0 from hk, if_true]
    refine Prod.ext rfl (congrArg (GOut.mk _) ?_)
    show s.out ++ (_ ++ n.lam l ++ _ ++ ['\n']) = _
    simp

example : ∃ n : Names, n.sft pySqrt = .ok "sqrt".toList := ⟨⟨fun _ => [], fun _ => [], fun _ => [], fun _ => [], fun _ => .ok "sqrt".toList⟩, rfl⟩

end Acm.Props
