import Verif.Lemmas.Twin

/-!
# C109: repeating a calculation
-/

namespace Acm.Props

open Acm.Spec

/-- C109: what `ACM_Scale` and `ACM_Adapt` return or raise, how they change the settings and what they print is a function of
the settings: neither the content of the memo tables, as long as they are current, nor what has been printed has an influence. -/
theorem C109_settings (env : FEnv) (fe fr : Int) (ham : OperatorSum) (a : XArgs) {s t : FState} (h : s.glb = t.glb)
    (hs : MemoOk env.x s.xs) (ht : MemoOk env.x t.xs) :
    (ACM_ScaleOrAdapt env fe fr ham a s).1 = (ACM_ScaleOrAdapt env fe fr ham a t).1 ∧
    (ACM_ScaleOrAdapt env fe fr ham a s).2.glb = (ACM_ScaleOrAdapt env fe fr ham a t).2.glb ∧
    MemoOk env.x (ACM_ScaleOrAdapt env fe fr ham a s).2.xs ∧
    ∃ ls, (ACM_ScaleOrAdapt env fe fr ham a s).2.out = s.out ++ ls ∧ (ACM_ScaleOrAdapt env fe fr ham a t).2.out = t.out ++ ls := by
  obtain ⟨h1, h2, _, h4, h5⟩ := alike_ScaleOrAdapt env s.out t.out fe fr ham a s t
    ⟨hs, ht, h, [], (List.append_nil _).symm, (List.append_nil _).symm⟩
  exact ⟨h1, h4, h2, h5⟩

/-- `Show_Eigs` prints, and what it prints depends on two of the settings. -/
theorem show_eigs_alike (vals : List (List ℝ)) (Ls : List Int) (n : Int) (l m : Option Int) {s t : FState}
    (h1 : s.glb.eig_rel = t.glb.eig_rel) (h2 : s.glb.eig_sft = t.glb.eig_sft) :
    ∃ x ls, Show_Eigs vals Ls n l m s = (x, s.add ls) ∧ Show_Eigs vals Ls n l m t = (x, t.add ls) := by
  have nil : ∀ (y : Py (Option ℝ)), ∃ x ls, ((y, s) : Py (Option ℝ) × FState) = (x, s.add ls) ∧
      ((y, t) : Py (Option ℝ) × FState) = (x, t.add ls) := fun y => ⟨y, [], by rw [add_nil], by rw [add_nil]⟩
  unfold Show_Eigs
  cases require_nonnegint n with
  | error e => rw [st_lift_error, st_lift_error]; exact nil _
  | ok u =>
    rw [st_lift_ok, st_lift_ok]
    by_cases c1 : n = 0 ∨ vals.length = 0
    · rw [if_pos c1]; exact nil _
    rw [if_neg c1]
    cases require_nonnegint_range (eigBounds l m).1 (eigBounds l m).2.1 with
    | error e => rw [st_lift_error, st_lift_error]; exact nil _
    | ok u =>
      rw [st_lift_ok, st_lift_ok]
      by_cases c2 : (Ls.any fun L => decide ((eigBounds l m).1 ≤ L ∧ L ≤ (eigBounds l m).2.2)) = true
      swap
      · rw [if_neg c2]; exact nil _
      rw [if_pos c2]
      unfold showEigsBody
      rw [st_bind_ok (x := FM.glb) (s := s) (s' := s) rfl, st_bind_ok (x := FM.glb) (s := t) (s' := t) rfl, ← h1, ← h2]
      by_cases c3 : s.glb.eig_rel = true
      · rw [if_pos c3]
        cases min_head vals with
        | error e => rw [st_lift_error, st_lift_error]; exact nil _
        | ok low =>
          rw [st_lift_ok, st_lift_ok, st_bind_ok (x := FM.print _) (print_add _ _), st_bind_ok (x := FM.print _) (print_add _ _),
            st_bind_ok (eigsLoop_ok _ _ _ _ _ _ _), st_bind_ok (eigsLoop_ok _ _ _ _ _ _ _), add_add, add_add]
          exact ⟨_, _, rfl, rfl⟩
      · rw [if_neg c3, st_bind_ok (x := FM.print _) (print_add _ _), st_bind_ok (x := FM.print _) (print_add _ _),
          st_bind_ok (eigsLoop_ok _ _ _ _ _ _ _), st_bind_ok (eigsLoop_ok _ _ _ _ _ _ _), add_add, add_add]
        exact ⟨_, _, rfl, rfl⟩

/-- Settings and what has been printed are given; the memo tables are current. -/
def Quiet (env : XEnv) (g g' : Glb) (o o' : List Shown) (s t : FState) : Prop :=
  MemoOk env s.xs ∧ MemoOk env t.xs ∧ (s.glb = g ∧ s.out = o) ∧ t.glb = g' ∧ t.out = o'

theorem resetLap_eq {g : Glb} (h : g.nu_lap = 0) : g.resetLap = g := by
  unfold Glb.resetLap
  cases g
  simp_all

theorem quiet_rep {env : XEnv} {g g' : Glb} (h0 : g.nu_lap = 0) (h0' : g'.nu_lap = 0) (hl : g.lam_fun = g'.lam_fun)
    (o o' : List Shown) (ts : OperatorSum) (a : XArgs) : Twin (Quiet env g g' o o') (FM.liftX (RepXspace env ts a)) := by
  intro s t h
  obtain ⟨h1, h2, ⟨h3, h4⟩, h5, h6⟩ := h
  refine ⟨?_, memoOk_afterX h1 ts a, memoOk_afterX h2 ts a, ⟨?_, h4⟩, ?_, h6⟩
  · show (RepXspace env ts a s.xs).1 = (RepXspace env ts a t.xs).1
    rw [(tracks_rep env a ts s.xs h1).1, (tracks_rep env a ts t.xs h2).1]
    show (a.check >>= fun _ => allMat env a ts s.glb.lam_fun) = (a.check >>= fun _ => allMat env a ts t.glb.lam_fun)
    rw [h3, h5, hl]
  · show s.glb.resetLap = g
    rw [h3, resetLap_eq h0]
  · show t.glb.resetLap = g'
    rw [h5, resetLap_eq h0']

theorem setGlb_same {f : Glb → Glb} {w : FState} (h : f w.glb = w.glb) : FM.setGlb f w = (.ok (), w) := by
  unfold FM.setGlb
  rw [h]

open Classical in
/-- Fitting the energies again changes nothing. -/
theorem fitEig_again {r : List LEig} {s s' w : FState} (h : fitEig r s = (.ok (), s')) {p q : ℝ}
    (hw : w.glb = { s'.glb with rat_sft := p, amp_sft := q }) : fitEig r w = (.ok (), w) := by
  unfold fitEig at h
  obtain ⟨g, t1, h1, k1⟩ := st_bind_eq_ok h
  cases h1
  obtain ⟨low, t2, h2, k2⟩ := st_bind_eq_ok k1
  obtain ⟨hlow, rfl⟩ := st_lift_eq_ok h2
  obtain ⟨vals, t3, h3, k3⟩ := st_bind_eq_ok k2
  obtain ⟨hv, rfl⟩ := st_lift_eq_ok h3
  obtain ⟨E, t4, h4, k4⟩ := st_bind_eq_ok k3
  obtain ⟨hE, rfl⟩ := st_lift_eq_ok h4
  obtain ⟨_, t5, h5, k5⟩ := st_bind_eq_ok k4
  cases h5
  split_ifs at k5 with hz
  · cases k5
  cases k5
  replace hw : w.glb = { t4.glb with eig_sft := (E - low) / t4.glb.eig_fit, rat_sft := p, amp_sft := q } := hw
  have e1 : w.glb.eig_L = t4.glb.eig_L := by rw [hw]
  have e2 : w.glb.eig_idx = t4.glb.eig_idx := by rw [hw]
  have e3 : w.glb.eig_fit = t4.glb.eig_fit := by rw [hw]
  have e4 : eigenLow w.glb (r.map LEig.vals) = .ok low := by rw [hw]; exact hlow
  unfold fitEig
  rw [st_bind_ok (x := FM.glb) (s := w) (s' := w) rfl, e4, st_lift_ok, e1, hv, st_lift_ok, e2, hE, st_lift_ok, e3,
    st_bind_ok (x := FM.setGlb _) (s' := w) (a := ()) ?_, if_neg hz]
  · rfl
  · exact setGlb_same (by rw [hw])

open Classical in
/-- Fitting the rates again changes nothing. -/
theorem fitRat_again {T : LBlockArray} {Ls : List Int} {s s' w : FState} (h : fitRat T Ls s = (.ok (), s'))
    (hw : w.glb = s'.glb) : fitRat T Ls w = (.ok (), w) := by
  obtain ⟨B, mel, x, y, c1, c2, hB, hm, hx, hz, hy, rfl⟩ := fitRat_ok h
  replace hw : w.glb = { s.glb with rat_sft := |x| / s.glb.rat_fit, amp_sft := y } := hw
  have e1 : w.glb.rat_L1 = s.glb.rat_L1 := by rw [hw]
  have e2 : w.glb.rat_L2 = s.glb.rat_L2 := by rw [hw]
  have e3 : w.glb.rat_fit = s.glb.rat_fit := by rw [hw]
  have e4 : w.glb.rat_1dx = s.glb.rat_1dx := by rw [hw]
  have e5 : w.glb.rat_2dx = s.glb.rat_2dx := by rw [hw]
  have e6 : w.glb.rat_fun = s.glb.rat_fun := by rw [hw]
  have e7 : w.glb.rat_TRopAM = s.glb.rat_TRopAM := by rw [hw]
  have e8 : w.glb.amp_sft_fun = s.glb.amp_sft_fun := by rw [hw]
  unfold fitRat
  rw [st_bind_ok (x := FM.glb) (s := w) (s' := w) rfl, e1, e2, if_neg (not_not.2 c1), if_neg (not_not.2 c2), hB, st_lift_ok,
    e4, e5, hm, st_lift_ok, e6, e7, hx, st_lift_ok, e3, e8, st_bind_ok (x := FM.setGlb _) (s' := w) (a := ()) ?_, if_neg hz, hy,
    st_lift_ok]
  · exact setGlb_same (by rw [hw])
  · exact setGlb_same (by rw [hw])

theorem adapt_checks {env : FEnv} {fe fr : Int} {ham : OperatorSum} {a : XArgs} {s s' : FState} {x : List LEig × Option LBlockArray}
    (h : ACM_ScaleOrAdapt env fe fr ham a s = (.ok x, s')) : a.check = .ok () ∧ refChecks fe fr a s.glb = .ok () := by
  unfold ACM_ScaleOrAdapt at h
  obtain ⟨_, t1, h1, k1⟩ := st_bind_eq_ok h
  obtain ⟨_, rfl⟩ := st_lift_eq_ok h1
  obtain ⟨_, t2, h2, k2⟩ := st_bind_eq_ok k1
  obtain ⟨_, rfl⟩ := st_lift_eq_ok h2
  obtain ⟨_, t3, h3, k3⟩ := st_bind_eq_ok k2
  obtain ⟨c1, rfl⟩ := st_lift_eq_ok h3
  obtain ⟨g, t4, h4, k4⟩ := st_bind_eq_ok k3
  cases h4
  obtain ⟨_, t5, h5, k5⟩ := st_bind_eq_ok k4
  obtain ⟨c2, rfl⟩ := st_lift_eq_ok h5
  exact ⟨c1, c2⟩

theorem refChecks_eq (fe fr : Int) (a : XArgs) (g : Glb) : refChecks fe fr a g =
    ((if fe > 0 ∧ g.eig_num > 0 then refCheck a g.eig_L g.eig_idx else pure () : Py Unit) >>= fun _ =>
      if fr > 0 ∧ g.rat_lst.length > 0 then do
        refCheck a g.rat_L1 g.rat_1dx
        refCheck a g.rat_L2 g.rat_2dx
      else pure ()) := by
  unfold refChecks
  split_ifs <;> rfl

theorem refChecks_weaken {a : XArgs} {g : Glb} (h : refChecks 1 1 a g = .ok ()) (fe fr : Int) (p q z : ℝ) :
    refChecks fe fr a { g with eig_sft := p, rat_sft := q, amp_sft := z } = .ok () := by
  rw [refChecks_eq] at h ⊢
  obtain ⟨_, h1, h2⟩ := py_bind_eq_ok h
  have e1 : (if fe > 0 ∧ g.eig_num > 0 then refCheck a g.eig_L g.eig_idx else pure () : Py Unit) = .ok () := by
    split_ifs with c
    · rw [if_pos ⟨one_pos, c.2⟩] at h1; exact h1
    · rfl
  have e2 : (if fr > 0 ∧ g.rat_lst.length > 0 then do
      refCheck a g.rat_L1 g.rat_1dx
      refCheck a g.rat_L2 g.rat_2dx else pure () : Py Unit) = .ok () := by
    split_ifs with c
    · rw [if_pos ⟨one_pos, c.2⟩] at h2; exact h2
    · rfl
  rw [e1, py_bind_ok]
  exact e2

theorem nonneg_ok {z : Int} (h : 0 ≤ z) : require_nonnegint z = .ok () := by
  unfold require_nonnegint
  rw [if_neg (by omega)]
  rfl

/-- The display of the energies, after the scale has been fitted. -/
theorem scaleEig_again {r : List LEig} {s s' w : FState} (h : scaleEig 1 r s = (.ok (), s')) {p q : ℝ}
    (hw : w.glb = { s'.glb with rat_sft := p, amp_sft := q }) (fe : Int) :
    ∃ x ls, s'.glb = { s.glb with eig_sft := x } ∧ s'.out = s.out ++ ls ∧ s'.xs = s.xs ∧ scaleEig fe r w = (.ok (), w.add ls) := by
  unfold scaleEig at h ⊢
  rw [st_bind_ok (x := FM.glb) (s := s) (s' := s) rfl] at h
  rw [st_bind_ok (x := FM.glb) (s := w) (s' := w) rfl]
  by_cases c : s.glb.eig_num > 0
  swap
  · rw [if_neg c] at h
    cases h
    rw [if_neg (by rw [hw]; exact c)]
    exact ⟨s.glb.eig_sft, [], rfl, (List.append_nil _).symm, rfl, by rw [add_nil]; rfl⟩
  rw [if_pos c, if_pos one_pos] at h
  obtain ⟨_, u, h1, k1⟩ := st_bind_eq_ok h
  obtain ⟨low, E, y, _, _, _, _, _, hu⟩ := fitEig_ok h1
  obtain ⟨x, v, h2, k2⟩ := st_bind_eq_ok k1
  cases k2
  obtain ⟨g, hg⟩ : ∃ g, s'.glb = g := ⟨_, rfl⟩
  have hsu : s'.glb = u.glb := by
    have := keeps_Show_Eigs (frame_glb (P := Eq) (fun _ => rfl) fun _ _ _ => Eq.trans) (r.map LEig.vals) (r.map LEig.L)
      s.glb.eig_num none none u
    rw [h2] at this
    exact this.symm
  rw [hsu] at hw
  have hug : u.glb = { s.glb with eig_sft := (E - low) / s.glb.eig_fit } := by rw [hu]
  have hn : w.glb.eig_num = s.glb.eig_num := by rw [hw, hug]
  have hfit : fitEig r w = (.ok (), w) := fitEig_again h1 hw
  obtain ⟨x', ls, i1, i2⟩ := show_eigs_alike (r.map LEig.vals) (r.map LEig.L) s.glb.eig_num none none (s := u) (t := w)
    (by rw [hw]) (by rw [hw])
  rw [h2] at i1
  injection i1 with i1 i3
  refine ⟨(E - low) / s.glb.eig_fit, ls, by rw [hsu, hug], ?_, ?_, ?_⟩
  · rw [i3, hu]; rfl
  · rw [i3, hu]; rfl
  · rw [hn, if_pos c]
    subst i1
    split_ifs
    · rw [st_bind_ok hfit, st_bind_ok i2]; rfl
    · rw [st_bind_ok i2]; rfl

/-- The display of the transitions, after the scales have been fitted. -/
theorem scaleRest_again {env : FEnv} {a : XArgs} {r : List LEig} {s s' w : FState} {y : List LEig × Option LBlockArray}
    (h : scaleRest env 1 a r s = (.ok y, s')) (hs : MemoOk env.x s.xs) (hw : MemoOk env.x w.xs) (h0 : s.glb.nu_lap = 0)
    (hg : w.glb = s'.glb) (fr : Int) : ∃ p q ls w', s'.glb = { s.glb with rat_sft := p, amp_sft := q } ∧ s'.out = s.out ++ ls ∧
      MemoOk env.x s'.xs ∧ scaleRest env fr a r w = (.ok y, w') ∧ w'.glb = w.glb ∧ w'.out = w.out ++ ls ∧ MemoOk env.x w'.xs := by
  unfold scaleRest at h ⊢
  rw [st_bind_ok (x := FM.glb) (s := s) (s' := s) rfl] at h
  rw [st_bind_ok (x := FM.glb) (s := w) (s' := w) rfl]
  by_cases c : s.glb.rat_lst.length > 0 ∨ s.glb.amp_lst.length > 0
  swap
  · rw [if_neg c] at h
    cases h
    rw [if_neg (by rw [hg]; exact c)]
    exact ⟨s.glb.rat_sft, s.glb.amp_sft, [], w, rfl, (List.append_nil _).symm, hs, rfl, rfl, (List.append_nil _).symm, hw⟩
  rw [if_pos c] at h
  obtain ⟨T, t1, h1, k1⟩ := st_bind_eq_ok h
  cases k1
  unfold scaleTrans at h1 ⊢
  rw [st_bind_ok (x := FM.glb) (s := s) (s' := s) rfl] at h1
  obtain ⟨T', u, h2, k2⟩ := st_bind_eq_ok h1
  rw [if_pos one_pos] at k2
  obtain ⟨_, u', h3, k3⟩ := st_bind_eq_ok k2
  obtain ⟨_, u'', h4, k4⟩ := st_bind_eq_ok k3
  cases k4
  obtain ⟨B, mel, x, z, _, _, _, _, _, _, _, hu'⟩ := fitRat_ok h3
  have hsu : s'.glb = u'.glb := by
    have := keeps_RatsAmps (frame_glb (P := Eq) (fun _ => rfl) fun _ _ _ => Eq.trans) T u'
    rw [h4] at this
    exact this.symm
  -- the matrix of the transition operator
  obtain ⟨g, hgd⟩ : ∃ g, u.glb = g := ⟨_, rfl⟩
  have hsg : s.glb = u.glb := by
    have := twin_Amp (env := env) (R := Quiet env.x s.glb s.glb s.out s.out) (quiet_rep h0 h0 rfl _ _) s.glb.rat_TRop
      (r.map LEig.basis) a (r.map LEig.L) s s ⟨hs, hs, ⟨rfl, rfl⟩, rfl, rfl⟩
    rw [h2] at this
    exact this.2.2.2.1.1.symm
  have hwg : w.glb = { s.glb with rat_sft := |x| / s.glb.rat_fit, amp_sft := z } := by rw [hg, hsu, hu', hsg]
  have w0 : w.glb.nu_lap = 0 := by rw [hwg]; exact h0
  obtain ⟨e1, m1, m2, ⟨_, o1⟩, g2, o2⟩ := twin_Amp (env := env) (R := Quiet env.x s.glb w.glb s.out w.out)
    (quiet_rep h0 w0 (by rw [hwg]) _ _) s.glb.rat_TRop (r.map LEig.basis) a (r.map LEig.L) s w ⟨hs, hw, ⟨rfl, rfl⟩, rfl, rfl⟩
  rw [h2] at e1 m1 o1
  rcases hA : AmpXspeig env s.glb.rat_TRop (r.map LEig.basis) a (r.map LEig.L) w with ⟨T2, w1⟩
  rw [hA] at e1 m2 g2 o2
  replace e1 : .ok T = T2 := e1
  subst e1
  replace g2 : w1.glb = w.glb := g2
  replace o2 : w1.out = w.out := o2
  replace m2 : MemoOk env.x w1.xs := m2
  have hw1 : w1.glb = u'.glb := by rw [g2, hg, hsu]
  have hfit : fitRat T (r.map LEig.L) w1 = (.ok (), w1) := fitRat_again h3 hw1
  have m1' : MemoOk env.x u'.xs := by
    rw [hu']
    exact memoOk_set (s := u) m1 rfl _
  have ou : u'.out = s.out := by rw [hu']; exact o1
  obtain ⟨e2, m3, m4, g3, ls, o3, o4⟩ := twin_RatsAmps (alike_frame env.x u'.out w1.out) T u' w1
    ⟨m1', m2, hw1.symm, [], (List.append_nil _).symm, (List.append_nil _).symm⟩
  rw [h4] at e2 m3 g3 o3
  rcases hR : showRatsAmps T w1 with ⟨x2, w2⟩
  rw [hR] at e2 m4 g3 o4
  replace e2 : .ok () = x2 := e2
  subst e2
  refine ⟨|x| / s.glb.rat_fit, z, ls, w2, by rw [← hg, hwg], by rw [← ou]; exact o3, m3, ?_, ?_, by rw [← o2]; exact o4, m4⟩
  · have hlst : w.glb.rat_lst = s.glb.rat_lst := by rw [hwg]
    have hlst' : w.glb.amp_lst = s.glb.amp_lst := by rw [hwg]
    have hop : w.glb.rat_TRop = s.glb.rat_TRop := by rw [hwg]
    rw [hlst, hlst', if_pos c]
    have : (FM.glb >>= fun g => AmpXspeig env g.rat_TRop (r.map LEig.basis) a (r.map LEig.L) >>= fun trans =>
        if fr > 0 then fitRat trans (r.map LEig.L) >>= fun _ => showRatsAmps trans >>= fun _ => pure trans
        else showRatsAmps trans >>= fun _ => pure trans : FM LBlockArray) w = (.ok T, w2) := by
      rw [st_bind_ok (x := FM.glb) (s := w) (s' := w) rfl, hop, st_bind_ok hA]
      split_ifs
      · rw [st_bind_ok hfit, st_bind_ok hR]; rfl
      · rw [st_bind_ok hR]; rfl
    rw [st_bind_ok this]
    rfl
  · show w2.glb = w.glb
    replace g3 : s'.glb = w2.glb := g3
    rw [← g3, hg]

/-- C109: after `ACM_Adapt` has succeeded, the same calculation, with or without fitting the scales again, returns the same,
prints the same and leaves all settings as they are; so `ACM_Scale` repeats `ACM_Adapt`, and `ACM_Adapt` is idempotent. -/
theorem C109_after_adapt {env : FEnv} {ham : OperatorSum} {a : XArgs} {s s1 : FState} {x : List LEig × Option LBlockArray}
    (hs : MemoOk env.x s.xs) (h0 : s.glb.nu_lap = 0) (h : ACM_Adapt env ham a s = (.ok x, s1)) {fe fr : Int} (hfe : 0 ≤ fe)
    (hfr : 0 ≤ fr) : ∃ ls s2, s1.out = s.out ++ ls ∧ ACM_ScaleOrAdapt env fe fr ham a s1 = (.ok x, s2) ∧ s2.glb = s1.glb ∧
      s2.out = s1.out ++ ls ∧ MemoOk env.x s1.xs ∧ MemoOk env.x s2.xs := by
  obtain ⟨r, tr⟩ := x
  obtain ⟨c1, c2⟩ := adapt_checks h
  obtain ⟨u1, u2, d1, d2, d3⟩ := adapt_split h
  have q1 := twin_Dig (env := env.x) (R := Quiet env.x s.glb s.glb s.out s.out) (quiet_rep h0 h0 rfl _ _) ham a s s
    ⟨hs, hs, ⟨rfl, rfl⟩, rfl, rfl⟩
  rw [d1] at q1
  obtain ⟨_, m1, _, ⟨g1, o1⟩, _⟩ := q1
  replace g1 : u1.glb = s.glb := g1
  replace o1 : u1.out = s.out := o1
  obtain ⟨p, q, hshape⟩ : ∃ p q, s1.glb = { u2.glb with rat_sft := p, amp_sft := q } := by
    have := keeps_scaleRest0 (R := fun s s' => s.glb.nu_lap = 0 → ∃ p q, s'.glb = { s.glb with rat_sft := p, amp_sft := q })
      (frame_glb (P := fun g g' => g.nu_lap = 0 → ∃ p q, g' = { g with rat_sft := p, amp_sft := q }) (fun g _ => ⟨g.rat_sft, g.amp_sft, rfl⟩) (by
        intro g g' g'' k1 k2 k3
        obtain ⟨p, q, rfl⟩ := k1 k3
        obtain ⟨p', q', rfl⟩ := k2 k3
        exact ⟨p', q', rfl⟩)) (fun s y h => ⟨s.glb.rat_sft, s.glb.amp_sft, resetLap_eq h⟩) env a r 1 (fun _ t Ls =>
        keeps_fitRat (frame_glb (P := fun g g' => g.nu_lap = 0 → ∃ p q, g' = { g with rat_sft := p, amp_sft := q }) (fun g _ => ⟨g.rat_sft, g.amp_sft, rfl⟩) (by
        intro g g' g'' k1 k2 k3
        obtain ⟨p, q, rfl⟩ := k1 k3
        obtain ⟨p', q', rfl⟩ := k2 k3
        exact ⟨p', q', rfl⟩)) (fun s y _ => ⟨y, s.glb.amp_sft, rfl⟩) (fun s y _ => ⟨s.glb.rat_sft, y, rfl⟩) t Ls) u2
    rw [d3] at this
    refine this ?_
    obtain ⟨x, ls, e1, _⟩ := scaleEig_again (w := ⟨{ u2.glb with rat_sft := 0, amp_sft := 0 }, s.piMemo, s.pipiMemo, s.piqpiMemo, []⟩) d2 rfl 0
    rw [e1, g1]
    exact h0
  -- the second run
  obtain ⟨y, _, hy, _⟩ := scaleEig_again (w := ⟨{ u2.glb with rat_sft := 0, amp_sft := 0 }, s.piMemo, s.pipiMemo, s.piqpiMemo, []⟩) d2 rfl 0
  have hglb : s1.glb = { s.glb with eig_sft := y, rat_sft := p, amp_sft := q } := by rw [hshape, hy, g1]
  have h1 : s1.glb.nu_lap = 0 := by rw [hglb]; exact h0
  have hu2 : MemoOk env.x u2.xs := by
    obtain ⟨_, _, _, _, e, _⟩ := scaleEig_again (w := ⟨{ u2.glb with rat_sft := 0, amp_sft := 0 }, s.piMemo, s.pipiMemo, s.piqpiMemo, []⟩) d2 rfl 0
    rw [e]; exact m1
  have hu0 : u2.glb.nu_lap = 0 := by rw [hy, g1]; exact h0
  have hs1 : MemoOk env.x s1.xs := by
    obtain ⟨_, _, _, _, _, _, e, _⟩ := scaleRest_again (w := ⟨s1.glb, u2.piMemo, u2.pipiMemo, u2.piqpiMemo, []⟩) d3 hu2
      (memoOk_set hu2 (by rw [hshape]) _) hu0 rfl 0
    exact e
  have q2 := twin_Dig (env := env.x) (R := Quiet env.x s.glb s1.glb s.out s1.out) (quiet_rep h0 h1 (by rw [hglb]) _ _) ham a s s1
    ⟨hs, hs1, ⟨rfl, rfl⟩, rfl, rfl⟩
  rw [d1] at q2
  rcases hD : DigXspace env.x ham a s1 with ⟨r', w1⟩
  rw [hD] at q2
  obtain ⟨e, _, m2, _, g2, o2⟩ := q2
  replace e : .ok r = r' := e
  subst e
  replace g2 : w1.glb = s1.glb := g2
  replace o2 : w1.out = s1.out := o2
  replace m2 : MemoOk env.x w1.xs := m2
  obtain ⟨_, l1, _, ol1, _, hE⟩ := scaleEig_again (w := w1) d2 (p := p) (q := q) (by rw [g2, hshape]) fe
  obtain ⟨_, _, l2, w2, _, ol2, _, hR, g3, o3, m3⟩ := scaleRest_again (w := w1.add l1) d3 hu2 m2 hu0 g2 fr
  refine ⟨l1 ++ l2, w2, by rw [ol2, ol1, o1, List.append_assoc], ?_, ?_, ?_, hs1, m3⟩
  · unfold ACM_ScaleOrAdapt
    rw [nonneg_ok hfe, st_lift_ok, nonneg_ok hfr, st_lift_ok, c1, st_lift_ok, st_bind_ok (x := FM.glb) (s := s1) (s' := s1) rfl, hglb,
      refChecks_weaken c2, st_lift_ok, st_bind_ok hD, st_bind_ok hE]
    exact hR
  · rw [g3]; exact g2
  · rw [o3]
    show w1.out ++ l1 ++ l2 = _
    rw [o2, List.append_assoc]

/-- C109: `ACM_Scale` repeated returns and prints the same. -/
theorem C109_scale_twice {env : FEnv} {ham : OperatorSum} {a : XArgs} {s : FState} (hs : MemoOk env.x s.xs) (h0 : s.glb.nu_lap = 0) :
    ∃ ls, (ACM_Scale env ham a s).2.out = s.out ++ ls ∧
      (ACM_Scale env ham a (ACM_Scale env ham a s).2).1 = (ACM_Scale env ham a s).1 ∧
      (ACM_Scale env ham a (ACM_Scale env ham a s).2).2.glb = s.glb ∧
      (ACM_Scale env ham a (ACM_Scale env ham a s).2).2.out = (ACM_Scale env ham a s).2.out ++ ls := by
  have e := C38_scale_all env ham a h0
  obtain ⟨_, _, m, _⟩ := C109_settings env 0 0 ham a rfl hs hs
  obtain ⟨k1, k2, _, ls, k3, k4⟩ := C109_settings env 0 0 ham a (s := s) (t := (ACM_Scale env ham a s).2) e.symm hs m
  exact ⟨ls, k3, k1.symm, k2.symm.trans e, k4⟩

/-- The hypotheses of C109 are met: a call of `ACM_Adapt` that succeeds, prints and displays a transition. -/
example {env : FEnv} (hla : LinAlgOk env.x.la) : ∃ (ham : OperatorSum) (a : XArgs) (s s1 : FState) (x : List LEig × Option LBlockArray),
    MemoOk env.x s.xs ∧ s.glb.nu_lap = 0 ∧ ACM_Adapt env ham a s = (.ok x, s1) ∧ s.glb.eig_num = 4 ∧ s.glb.rat_lst ≠ [] := by
  obtain ⟨h1, r, tr, s', h2⟩ := adapt_succeeds (env := env) hla
  exact ⟨_, _, _, s', (r, tr), h1, rfl, h2, rfl, by unfold fitGlb; simp⟩

end Acm.Props
