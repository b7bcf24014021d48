import Verif.Model.Examples
import Verif.Props.Repeat

/-!
# C116: the display procedures called directly
-/

namespace Acm.Props

open Acm.Spec

/-- The same settings; `o` and `o'` had been printed, and since then the same. -/
def Loose (o o' : List Shown) (s t : FState) : Prop := s.glb = t.glb ∧ ∃ ls, s.out = o ++ ls ∧ t.out = o' ++ ls

theorem loose_frame (o o' : List Shown) : TwinFrame (Loose o o') where
  glb _ _ h := h.1
  print s t l h := by
    obtain ⟨h3, ls, h4, h5⟩ := h
    refine ⟨h3, ls ++ [l], ?_, ?_⟩
    · show s.out ++ [l] = _; rw [h4, List.append_assoc]
    · show t.out ++ [l] = _; rw [h5, List.append_assoc]

/-- Diagonalising prints nothing. -/
theorem dig_out (env : XEnv) (ham : OperatorSum) (a : XArgs) (s : FState) : (DigXspace env ham a s).2.out = s.out :=
  (twin_Dig (env := env) (R := fun u v => u = v ∧ u.out = s.out) (fun ts b u v h => by
    obtain ⟨rfl, h⟩ := h
    exact ⟨rfl, rfl, h⟩) ham a s s ⟨rfl, rfl⟩).2.2

/-- Calculating matrix elements prints nothing. -/
theorem amp_out (env : FEnv) (op : OperatorSum) (bs : List Arr) (a : XArgs) (Ls : List Int) (s : FState) :
    (AmpXspeig env op bs a Ls s).2.out = s.out :=
  (twin_Amp (env := env) (R := fun u v => u = v ∧ u.out = s.out) (fun ts b u v h => by
    obtain ⟨rfl, h⟩ := h
    exact ⟨rfl, rfl, h⟩) op bs a Ls s s ⟨rfl, rfl⟩).2.2

/-- The settings after the transitions have been displayed. -/
theorem scaleRest_glb (env : FEnv) (fr : Int) (a : XArgs) (r : List LEig) (s : FState) :
    ∃ p q l, (scaleRest env fr a r s).2.glb = { s.glb with rat_sft := p, amp_sft := q, nu_lap := l } := by
  have F := frame_glb (P := fun g g' => ∃ p q l, g' = { g with rat_sft := p, amp_sft := q, nu_lap := l })
    (fun g => ⟨g.rat_sft, g.amp_sft, g.nu_lap, rfl⟩) (by
      intro g g' g'' k1 k2
      obtain ⟨p, q, l, rfl⟩ := k1
      obtain ⟨p', q', l', rfl⟩ := k2
      exact ⟨p', q', l', rfl⟩)
  exact keeps_scaleRest0 F (fun s y => ⟨s.glb.rat_sft, s.glb.amp_sft, 0, rfl⟩) env a r fr (fun _ t Ls =>
    keeps_fitRat F (fun s y => ⟨y, s.glb.amp_sft, s.glb.nu_lap, rfl⟩) (fun s y => ⟨s.glb.rat_sft, y, s.glb.nu_lap, rfl⟩) t Ls) s

/-- What was displayed of the energies can be displayed again. -/
theorem scaleEig_redisplay {fe : Int} {r : List LEig} {s s' : FState} (h : scaleEig fe r s = (.ok (), s'))
    (hn : 0 ≤ s.glb.eig_num) : ∃ ls, s'.out = s.out ++ ls ∧ ∀ w : FState, w.glb.eig_rel = s'.glb.eig_rel →
      w.glb.eig_sft = s'.glb.eig_sft → w.glb.eig_num = s'.glb.eig_num → ∃ x,
      Show_Eigs (r.map LEig.vals) (r.map LEig.L) w.glb.eig_num none none w = (.ok x, w.add ls) := by
  unfold scaleEig at h
  rw [st_bind_ok (x := FM.glb) (s := s) (s' := s) rfl] at h
  by_cases c : s.glb.eig_num > 0
  swap
  · rw [if_neg c] at h
    cases h
    refine ⟨[], (List.append_nil _).symm, fun w _ _ h3 => ⟨none, ?_⟩⟩
    have : w.glb.eig_num = 0 := by omega
    unfold Show_Eigs
    rw [this, nonneg_ok le_rfl, st_lift_ok, if_pos (.inl rfl), add_nil]
    rfl
  rw [if_pos c] at h
  obtain ⟨u, hu, h⟩ : ∃ u : FState, (u.glb.eig_num = s.glb.eig_num ∧ u.out = s.out) ∧ (Show_Eigs (r.map LEig.vals) (r.map LEig.L) s.glb.eig_num none none
      >>= fun _ => pure () : FM Unit) u = (.ok (), s') := by
    split_ifs at h
    · obtain ⟨_, u, h1, k1⟩ := st_bind_eq_ok h
      obtain ⟨low, E, y, _, _, _, _, _, hu⟩ := fitEig_ok h1
      exact ⟨u, by rw [hu]; exact ⟨rfl, rfl⟩, k1⟩
    · exact ⟨s, ⟨rfl, rfl⟩, h⟩
  obtain ⟨x, v, h2, k2⟩ := st_bind_eq_ok h
  cases k2
  have hsu : s'.glb = u.glb := by
    have := keeps_Show_Eigs (frame_glb (P := Eq) (fun _ => rfl) fun _ _ _ => Eq.trans) (r.map LEig.vals) (r.map LEig.L)
      s.glb.eig_num none none u
    rw [h2] at this
    exact this.symm
  obtain ⟨_, ls, i0, _⟩ := show_eigs_alike (r.map LEig.vals) (r.map LEig.L) s.glb.eig_num none none (s := u) (t := u) rfl rfl
  have e0 : s' = u.add ls := by
    rw [h2] at i0
    exact (Prod.mk.inj i0).2
  refine ⟨ls, by rw [e0, ← hu.2]; rfl, fun w h3 h4 h5 => ?_⟩
  obtain ⟨x', ls', i1, i2⟩ := show_eigs_alike (r.map LEig.vals) (r.map LEig.L) s.glb.eig_num none none (s := u) (t := w)
    (by rw [h3, hsu]) (by rw [h4, hsu])
  rw [h2] at i1
  obtain ⟨rfl, i3⟩ := Prod.mk.inj i1
  have : ls' = ls := by
    have h6 : u.out ++ ls' = u.out ++ ls := by
      have := congrArg FState.out (i3.symm.trans e0)
      exact this
    exact List.append_cancel_left h6
  subst this
  exact ⟨x, by rw [h5, hsu, hu.1]; exact i2⟩

/-- What was displayed of the transitions can be displayed again. -/
theorem scaleRest_redisplay {env : FEnv} {fr : Int} {a : XArgs} {r r' : List LEig} {tr : Option LBlockArray} {s s' : FState}
    (h : scaleRest env fr a r s = (.ok (r', tr), s')) : ∃ ls, s'.out = s.out ++ ls ∧ ∀ (imp : Glb) (w : FState), w.glb = s'.glb →
      ∃ w', (Show_Rats_call imp tr (some s'.glb.rat_lst) (some s'.glb.rat_num) >>= fun _ =>
        Show_Amps_call imp tr (some s'.glb.amp_lst) (some s'.glb.amp_num) : FM Unit) w = (.ok (), w') ∧ w'.glb = w.glb ∧
        w'.out = w.out ++ ls := by
  have hg := scaleRest_glb env fr a r s
  rw [h] at hg
  obtain ⟨p, q, l, hg⟩ := hg
  replace hg : s'.glb = { s.glb with rat_sft := p, amp_sft := q, nu_lap := l } := hg
  unfold scaleRest at h
  rw [st_bind_ok (x := FM.glb) (s := s) (s' := s) rfl] at h
  by_cases c : s.glb.rat_lst.length > 0 ∨ s.glb.amp_lst.length > 0
  swap
  · rw [if_neg c] at h
    have e1 : s.glb.rat_lst = [] := List.length_eq_zero_iff.1 (by omega)
    have e2 : s.glb.amp_lst = [] := List.length_eq_zero_iff.1 (by omega)
    clear hg
    cases h
    refine ⟨[], (List.append_nil _).symm, fun imp w _ => ⟨w, ?_, rfl, (List.append_nil _).symm⟩⟩
    rw [e1, e2]
    rfl
  rw [if_pos c] at h
  obtain ⟨T, t1, h1, k1⟩ := st_bind_eq_ok h
  clear hg
  cases k1
  unfold scaleTrans at h1
  rw [st_bind_ok (x := FM.glb) (s := s) (s' := s) rfl] at h1
  obtain ⟨T', u, h2, k2⟩ := st_bind_eq_ok h1
  have ou : u.out = s.out := by
    have := amp_out env s.glb.rat_TRop (r.map LEig.basis) a (r.map LEig.L) s
    rw [h2] at this
    exact this
  obtain ⟨u', ou', h4⟩ : ∃ u', u'.out = u.out ∧ (showRatsAmps T' >>= fun _ => pure T' : FM LBlockArray) u' = (.ok T, s') := by
    split_ifs at k2
    · obtain ⟨_, u', h3, k3⟩ := st_bind_eq_ok k2
      obtain ⟨B, mel, x, z, _, _, _, _, _, _, _, hu'⟩ := fitRat_ok h3
      exact ⟨u', by rw [hu'], k3⟩
    · exact ⟨u, rfl, k2⟩
  obtain ⟨_, u'', h5, k5⟩ := st_bind_eq_ok h4
  cases k5
  have hsu : s'.glb = u'.glb := by
    have := keeps_RatsAmps (frame_glb (P := Eq) (fun _ => rfl) fun _ _ _ => Eq.trans) T u'
    rw [h5] at this
    exact this.symm
  obtain ⟨ls, hls⟩ : ∃ ls, s'.out = u'.out ++ ls := by
    have := keeps_RatsAmps frame_out T u'
    rw [h5] at this
    obtain ⟨ls, h6⟩ := this
    exact ⟨ls, h6.symm⟩
  refine ⟨ls, by rw [hls, ou', ou], fun imp w hw => ?_⟩
  obtain ⟨e2, g3, ls', o3, o4⟩ := twin_RatsAmps (loose_frame u'.out w.out) T u' w
    ⟨by rw [hw, hsu], [], (List.append_nil _).symm, (List.append_nil _).symm⟩
  rw [h5] at e2 g3 o3
  rcases hR : showRatsAmps T w with ⟨x2, w2⟩
  rw [hR] at e2 g3 o4
  replace e2 : .ok () = x2 := e2
  subst e2
  replace o3 : s'.out = u'.out ++ ls' := o3
  have : ls = ls' := List.append_cancel_left (hls.symm.trans o3)
  subst this
  refine ⟨w2, ?_, by rw [← g3, hw], o4⟩
  -- the same calls
  unfold showRatsAmps at hR
  rw [st_bind_ok (x := FM.glb) (s := w) (s' := w) rfl] at hR
  unfold Show_Rats_call Show_Amps_call
  obtain ⟨_, w1, i1, i2⟩ := st_bind_eq_ok hR
  have gw : w1.glb = w.glb := by
    have := keeps_Show_Mels (frame_glb (P := Eq) (fun _ => rfl) fun _ _ _ => Eq.trans) T w.glb.rat_lst w.glb.rat_num
      w.glb.rat_fun w.glb.rat_sft w
    rw [i1] at this
    exact this.symm
  rw [st_bind_ok (x := FM.glb) (s := w1) (s' := w1) rfl] at i2
  have j1 : (FM.glb >>= fun g => Show_Mels_opt (some T) ((some s'.glb.rat_lst).getD imp.rat_lst)
      ((some s'.glb.rat_num).getD imp.rat_num) g.rat_fun g.rat_sft : FM Unit) w = (.ok (), w1) := by
    rw [st_bind_ok (x := FM.glb) (s := w) (s' := w) rfl, ← hw]
    exact i1
  rw [st_bind_ok j1, st_bind_ok (x := FM.glb) (s := w1) (s' := w1) rfl, ← hw]
  rw [gw] at i2 ⊢
  exact i2

/-- C116 (partial: the arguments have to be given, see `C116_fails`): after `ACM_Scale` or `ACM_Adapt` has returned, calling
`Show_Eigs`, `Show_Rats` and `Show_Amps` on the returned values, with the current settings as arguments, prints again exactly
what had been printed, and changes no settings. -/
theorem C116_redisplay_partial (imp : Glb) {env : FEnv} {fe fr : Int} {ham : OperatorSum} {a : XArgs} {s s1 : FState} {r : List LEig}
    {tr : Option LBlockArray} (hn : 0 ≤ s.glb.eig_num) (h : ACM_ScaleOrAdapt env fe fr ham a s = (.ok (r, tr), s1)) :
    ∃ ls s2, s1.out = s.out ++ ls ∧ (do
      let _ ← Show_Eigs_call imp (r.map LEig.vals) (r.map LEig.L) (some s1.glb.eig_num) none none
      Show_Rats_call imp tr (some s1.glb.rat_lst) (some s1.glb.rat_num)
      Show_Amps_call imp tr (some s1.glb.amp_lst) (some s1.glb.amp_num) : FM Unit) s1 = (.ok (), s2) ∧
      s2.glb = s1.glb ∧ s2.out = s1.out ++ ls := by
  obtain ⟨u1, u2, d1, d2, d3⟩ := adapt_split h
  have o1 : u1.out = s.out := by
    have := dig_out env.x ham a s
    rw [d1] at this
    exact this
  have g1 : u1.glb.eig_num = s.glb.eig_num := by
    have := dig_glb env.x ham a s
    rw [d1] at this
    rcases this with e | e
    · exact congrArg Glb.eig_num e
    · exact (congrArg Glb.eig_num e).trans rfl
  obtain ⟨l1, q1, q2⟩ := scaleEig_redisplay d2 (by rw [g1]; exact hn)
  obtain ⟨l2, q3, q4⟩ := scaleRest_redisplay d3
  have hg := scaleRest_glb env fr a r u2
  rw [d3] at hg
  obtain ⟨p, q, l, hg⟩ := hg
  replace hg : s1.glb = { u2.glb with rat_sft := p, amp_sft := q, nu_lap := l } := hg
  obtain ⟨x, j1⟩ := q2 s1 (by rw [hg]) (by rw [hg]) (by rw [hg])
  obtain ⟨w', j2, j3, j4⟩ := q4 imp (s1.add l1) rfl
  refine ⟨l1 ++ l2, w', by rw [q3, q1, o1, List.append_assoc], ?_, j3, ?_⟩
  · have j1' : Show_Eigs_call imp (r.map LEig.vals) (r.map LEig.L) (some s1.glb.eig_num) none none s1 = (.ok x, s1.add l1) := j1
    rw [st_bind_ok j1']
    exact j2
  · rw [j4]
    show s1.out ++ l1 ++ l2 = _
    rw [List.append_assoc]

/-- The hypotheses of C116 are met: a run of `ACM_Adapt` that displays energies and a transition. -/
example {env : FEnv} (hla : LinAlgOk env.x.la) : ∃ (ham : OperatorSum) (a : XArgs) (s s1 : FState) (r : List LEig)
    (tr : Option LBlockArray), 0 ≤ s.glb.eig_num ∧ ACM_ScaleOrAdapt env 1 1 ham a s = (.ok (r, tr), s1) ∧ s.glb.rat_lst ≠ [] := by
  obtain ⟨_, r, tr, s1, h⟩ := adapt_succeeds (env := env) hla
  exact ⟨_, _, _, s1, r, tr, (show (0 : Int) ≤ 4 by norm_num), h, by unfold fitGlb; simp⟩

/-- C116 fails for arguments left out: `Show_Rats` and `Show_Amps` then print nothing at all, whatever the lists in force are,
since the lists were empty when the module was imported. -/
theorem C116_omitted_lists (A : LBlockArray) (n : Option Int) (s : FState) :
    Show_Rats_call Glb.init (some A) none n s = (.ok (), s) ∧ Show_Amps_call Glb.init (some A) none n s = (.ok (), s) :=
  ⟨rfl, rfl⟩

/-- C116 fails: there is a run of `ACM_Adapt` which prints the transition rates in the list in force, but `Show_Rats` on the
matrix elements returned prints nothing. -/
theorem C116_fails {env : FEnv} (hla : LinAlgOk env.x.la) : ∃ (ham : OperatorSum) (a : XArgs) (s s1 : FState) (r : List LEig)
    (A : LBlockArray), ACM_Adapt env ham a s = (.ok (r, some A), s1) ∧ s1.glb.rat_lst ≠ [] ∧ s1.out ≠ s.out ∧
    (∃ s2, Show_Rats_call Glb.init (some A) (some s1.glb.rat_lst) (some s1.glb.rat_num) s1 = (.ok (), s2) ∧ s2.out ≠ s1.out) ∧
    Show_Rats_call Glb.init (some A) none none s1 = (.ok (), s1) := by
  obtain ⟨_, r, tr, s1, h⟩ := adapt_succeeds (env := env) hla
  have hlst : s1.glb.rat_lst = [[2, 2, 1, 1]] := by
    have := C39_frame_partial env [(fun _ => 1, [])] arg22 ⟨fitGlb, fun _ => none, fun _ _ => none, fun _ => none, []⟩
    rw [h] at this
    exact congrArg Glb.rat_lst this
  obtain ⟨ls, s2, h1, h2, _, h3⟩ := C116_redisplay_partial Glb.init (s := ⟨fitGlb, fun _ => none, fun _ _ => none, fun _ => none, []⟩)
    (show (0 : Int) ≤ 4 by norm_num) h
  obtain ⟨_, v1, k1, k2⟩ := st_bind_eq_ok h2
  obtain ⟨_, v2, k3, k4⟩ := st_bind_eq_ok k2
  have hv : v1.glb = s1.glb ∧ s1.out <+: v1.out := by
    have e1 := keeps_Show_Eigs (frame_glb (P := Eq) (fun _ => rfl) fun _ _ _ => Eq.trans) (r.map LEig.vals) (r.map LEig.L)
      s1.glb.eig_num none none s1
    have e2 := keeps_Show_Eigs frame_out (r.map LEig.vals) (r.map LEig.L) s1.glb.eig_num none none s1
    replace k1 : Show_Eigs (r.map LEig.vals) (r.map LEig.L) s1.glb.eig_num none none s1 = _ := k1
    rw [k1] at e1 e2
    exact ⟨e1.symm, e2⟩
  cases tr with
  | none =>
    exfalso
    rw [hlst] at k3
    unfold Show_Rats_call at k3
    rw [st_bind_ok (x := FM.glb) (s := v1) (s' := v1) rfl] at k3
    cases k3
  | some A =>
    -- the display of the rates, from two states with the same settings
    obtain ⟨e1, g1, l2, o1, o2⟩ := twin_bind (R := Loose v1.out s1.out) (twin_glb (loose_frame _ _)) (fun g => twin_Show_Mels
      (loose_frame v1.out s1.out) A s1.glb.rat_lst s1.glb.rat_num g.rat_fun g.rat_sft) v1 s1
      ⟨hv.1, [], (List.append_nil _).symm, (List.append_nil _).symm⟩
    replace k3 : (FM.glb >>= fun g => Show_Mels A s1.glb.rat_lst s1.glb.rat_num g.rat_fun g.rat_sft : FM Unit) v1 = _ := k3
    rw [k3] at e1 o1
    have hl2 : l2 ≠ [] := by
      rintro rfl
      rw [st_bind_ok (x := FM.glb) (s := v1) (s' := v1) rfl] at k3
      unfold Show_Mels at k3
      rw [hlst, if_neg (by simp)] at k3
      split_ifs at k3
      · cases k3
      · obtain ⟨_, v3, k5, k6⟩ := st_bind_eq_ok k3
        cases k5
        have := keeps_Designators frame_out A s1.glb.rat_num v1.glb.rat_fun v1.glb.rat_sft [[2, 2, 1, 1]] (v1.add [.melHead v1.glb.rat_sft])
        rw [show showDesignators A s1.glb.rat_num v1.glb.rat_fun v1.glb.rat_sft [[2, 2, 1, 1]] (v1.add [.melHead v1.glb.rat_sft]) = _ from k6] at this
        have h5 := this.length_le
        replace o1 : v2.out = v1.out ++ [] := o1
        rw [o1] at h5
        simp [FState.add] at h5
    have h6 : ls ≠ [] := by
      rintro rfl
      have e2 := keeps_bind frame_out (keeps_glb frame_out) (fun g => keeps_Show_Mels frame_out A s1.glb.amp_lst s1.glb.amp_num
        g.amp_fun g.amp_sft) v2
      replace k4 : (FM.glb >>= fun g => Show_Mels A s1.glb.amp_lst s1.glb.amp_num g.amp_fun g.amp_sft : FM Unit) v2 = _ := k4
      rw [k4] at e2
      have e3 := e2.length_le
      have e4 := hv.2.length_le
      replace o1 : v2.out = v1.out ++ l2 := o1
      rw [o1, h3] at e3
      simp only [List.length_append, List.length_nil] at e3
      have := List.length_pos_iff.2 hl2
      omega
    refine ⟨_, _, _, s1, r, A, h, by rw [hlst]; simp, ?_, ⟨(Show_Rats_call Glb.init (some A) (some s1.glb.rat_lst)
      (some s1.glb.rat_num) s1).2, Prod.ext e1.symm rfl, ?_⟩, rfl⟩
    · rw [h1]
      intro h7
      exact h6 (List.append_cancel_left (h7.trans (List.append_nil _).symm))
    · intro h7
      exact hl2 (List.append_cancel_left (o2.symm.trans (h7.trans (List.append_nil _).symm)))

/-- C116 fails for the number of energies: with 6 energies for each angular momentum asked for by `ACM_set_listln`,
`Show_Eigs` without that argument prints 4. -/
theorem C116_fails_eigs : ∃ (s : FState) (vals : List (List ℝ)) (Ls : List Int), s.glb.eig_num = 6 ∧
    (Show_Eigs_call Glb.init vals Ls (some s.glb.eig_num) none none s).2.out = s.out ++ [.eigHead (some 1) 1, .eigs 0 [0, 1, 2, 3, 4]] ∧
    (Show_Eigs_call Glb.init vals Ls none none none s).2.out = s.out ++ [.eigHead (some 1) 1, .eigs 0 [0, 1, 2, 3]] := by
  have hm : min_head [[(1 : ℝ), 2, 3, 4, 5]] = .ok 1 := rfl
  refine ⟨⟨{ Glb.init with eig_num := 6 }, fun _ => none, fun _ _ => none, fun _ => none, []⟩, [[1, 2, 3, 4, 5]], [0], rfl, ?_, ?_⟩
  · unfold Show_Eigs_call
    rw [C40_show (low := 1) (by simp) (by decide) rfl (by simp) rfl hm]
    simp [FState.add, Glb.init]
    norm_num
  · unfold Show_Eigs_call
    rw [C40_show (low := 1) (by simp) (by decide) rfl (by simp) rfl hm]
    simp [FState.add, Glb.init]
    norm_num

end Acm.Props
