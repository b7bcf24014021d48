import Verif.Spec.Show
import Verif.Props.Display
import Verif.Props.Scale

/-!
# Properties C93, C94: the arguments of Show_Eigs and the reference states of ACM_Adapt
-/

namespace Acm.Props

open Acm Acm.Spec

/-! ## C93 -/

/-- C93: nothing is displayed, nothing is changed and nothing is returned if no levels are asked for or there are none. -/
theorem C93_nothing {vals : List (List ℝ)} {Ls : List Int} {toshow : Int} (ht : 0 ≤ toshow)
    (h : toshow = 0 ∨ vals = []) (l m : Option Int) (s : FState) :
    Show_Eigs vals Ls toshow l m s = (.ok none, s) := by
  unfold Show_Eigs
  rw [require_nonnegint_ok ht, st_lift_ok, if_pos (by rcases h with h | h <;> simp [h])]
  rfl

example : Show_Eigs [] [] 4 (some 3) (some 2) = pure none := by
  funext s
  exact C93_nothing (by norm_num) (.inr rfl) _ _ s

/-- C93: a negative number of levels is refused with `ValueError`, whatever the other arguments, and nothing is displayed. -/
theorem C93_negative (vals : List (List ℝ)) (Ls : List Int) {toshow : Int} (ht : toshow < 0) (l m : Option Int)
    (s : FState) : Show_Eigs vals Ls toshow l m s = (.error .valueError, s) := by
  unfold Show_Eigs
  rw [require_nonnegint_err (by omega)]
  rfl

theorem bounds_ok {l m : Option Int} (h : BoundsOk l m) (hl : ∀ x ∈ l, x ≤ 1000000) :
    require_nonnegint_range (eigBounds l m).1 (eigBounds l m).2.1 = .ok () := by
  obtain ⟨h1, h2, h3⟩ := h
  cases l with
  | none =>
    cases m with
    | none => exact require_nonnegint_range_ok (by norm_num [eigBounds]) (by norm_num [eigBounds, L_MAX_DEFAULT])
    | some y => exact require_nonnegint_range_ok (le_refl _) (h2 y rfl)
  | some x =>
    cases m with
    | none => exact require_nonnegint_range_ok (h1 x rfl) (hl x rfl)
    | some y => exact require_nonnegint_range_ok (h1 x rfl) (h3 x rfl y rfl)

theorem bounds_asked {l m : Option Int} {L : Int} (h0 : 0 ≤ L) (h1 : L ≤ 1000000) :
    ((eigBounds l m).1 ≤ L ∧ L ≤ (eigBounds l m).2.2) ↔ Asked l m L := by
  cases l <;> cases m <;> simp only [eigBounds, Asked, Option.getD_none, Option.getD_some, L_MAX_DEFAULT, iff_true] <;>
    omega

/-- C93: bounds that are negative or in the wrong order are refused with `ValueError`, and nothing is displayed. -/
theorem C93_bounds {vals : List (List ℝ)} (hn : vals ≠ []) (Ls : List Int) {toshow : Int} (ht : 0 < toshow)
    {l m : Option Int} (h : ¬ BoundsOk l m) (s : FState) :
    Show_Eigs vals Ls toshow l m s = (.error .valueError, s) := by
  have hlen : 0 < vals.length := List.length_pos_iff.2 hn
  unfold Show_Eigs
  rw [require_nonnegint_ok ht.le, st_lift_ok, if_neg (by omega)]
  have : require_nonnegint_range (eigBounds l m).1 (eigBounds l m).2.1 = .error .valueError := by
    refine require_nonnegint_range_err fun hh => h ?_
    cases l with
    | none =>
      cases m with
      | none => exact ⟨by simp, by simp, by simp⟩
      | some y => exact ⟨by simp, fun x hx => by cases hx; exact hh.2, by simp⟩
    | some x =>
      cases m with
      | none => exact ⟨fun x hx => by cases hx; exact hh.1, by simp, by simp⟩
      | some y =>
        have h1 : 0 ≤ x := hh.1
        have h2 : x ≤ y := hh.2
        exact ⟨fun x hx => by cases hx; exact h1, fun x hx => by cases hx; omega,
          fun x hx y hy => by cases hx; cases hy; exact h2⟩
  show (StPy.lift (require_nonnegint_range (eigBounds l m).1 (eigBounds l m).2.1) >>= fun _ => _ : FM _) s = _
  rw [this]
  rfl

example : ¬ BoundsOk (some 3) (some 2) := fun h => absurd (h.2.2 3 rfl 2 rfl) (by norm_num)

/-- C93: if no angular momentum asked for is present, nothing is displayed, nothing is changed and nothing is returned. -/
theorem C93_absent {vals : List (List ℝ)} {Ls : List Int} (hL : ∀ L ∈ Ls, 0 ≤ L ∧ L ≤ 1000000) {toshow : Int}
    (ht : 0 < toshow) {l m : Option Int} (hb : BoundsOk l m) (hl : ∀ x ∈ l, x ≤ 1000000)
    (ha : ∀ L ∈ Ls, ¬ Asked l m L) (s : FState) :
    Show_Eigs vals Ls toshow l m s = (.ok none, s) := by
  unfold Show_Eigs
  rw [require_nonnegint_ok ht.le, st_lift_ok]
  split_ifs with h0
  · rfl
  · show (StPy.lift (require_nonnegint_range (eigBounds l m).1 (eigBounds l m).2.1) >>= fun _ => _ : FM _) s = _
    rw [bounds_ok hb hl, st_lift_ok, if_neg]
    · rfl
    · intro hc
      obtain ⟨L, h1, h2⟩ := List.any_eq_true.1 hc
      exact ha L h1 ((bounds_asked (hL L h1).1 (hL L h1).2).1 (of_decide_eq_true h2))

/-- L = 2 is asked for, and only L = 0 is there. -/
example (s : FState) : Show_Eigs [[1, 4]] [0] 1 (some 2) none s = (.ok none, s) :=
  C93_absent (by simp) (by decide) (by simp [BoundsOk]) (by simp) (by simp [Asked]) s

/-- C93: otherwise `Show_Eigs` displays a heading and one line for each angular momentum asked for, in the order of the
list, with at most `toshow` levels each, measured from the lowest level of all angular momenta (whether asked for or
not) and divided by the scaling factor. -/
theorem C93_relative {vals : List (List ℝ)} {Ls : List Int} (hL : ∀ L ∈ Ls, 0 ≤ L ∧ L ≤ 1000000) {toshow : Int}
    (ht : 0 < toshow) (hn : vals ≠ []) {l m : Option Int} (hb : BoundsOk l m) (hl : ∀ x ∈ l, x ≤ 1000000)
    (ha : ∃ L ∈ Ls, Asked l m L) {s : FState} (hrel : s.glb.eig_rel = true) {low : ℝ} (hm : min_head vals = .ok low) :
    Show_Eigs vals Ls toshow l m s = (.ok (some low), s.add (.eigHead (some low) s.glb.eig_sft ::
      (((Ls.zip vals).filter fun x => decide (Asked l m x.1)).map fun x =>
        .eigs x.1 ((x.2.take toshow.toNat).map fun val => (val - low) / s.glb.eig_sft)))) := by
  have hlen : 0 < vals.length := List.length_pos_iff.2 hn
  unfold Show_Eigs
  rw [require_nonnegint_ok ht.le, st_lift_ok, if_neg (by omega)]
  show (StPy.lift (require_nonnegint_range (eigBounds l m).1 (eigBounds l m).2.1) >>= fun _ => _ : FM _) s = _
  rw [bounds_ok hb hl, st_lift_ok, if_pos]
  · unfold showEigsBody
    rw [st_bind_ok (x := FM.glb) (s := s) (s' := s) rfl, if_pos hrel, hm, st_lift_ok,
      st_bind_ok (x := FM.print _) (print_add _ _), st_bind_ok (eigsLoop_ok _ _ _ _ _ _ _), add_add,
      List.filter_congr (q := fun x => decide (Asked l m x.1)) fun x hx => by
        have := hL x.1 (List.of_mem_zip hx).1
        rw [decide_eq_decide]
        exact bounds_asked this.1 this.2]
    rfl
  · obtain ⟨L, h1, h2⟩ := ha
    exact List.any_eq_true.2 ⟨L, h1, decide_eq_true ((bounds_asked (hL L h1).1 (hL L h1).2).2 h2)⟩

/-- The same for energies that are not relative. -/
theorem C93_absolute {vals : List (List ℝ)} {Ls : List Int} (hL : ∀ L ∈ Ls, 0 ≤ L ∧ L ≤ 1000000) {toshow : Int}
    (ht : 0 < toshow) (hn : vals ≠ []) {l m : Option Int} (hb : BoundsOk l m) (hl : ∀ x ∈ l, x ≤ 1000000)
    (ha : ∃ L ∈ Ls, Asked l m L) {s : FState} (hrel : s.glb.eig_rel = false) :
    Show_Eigs vals Ls toshow l m s = (.ok (some 0), s.add (.eigHead none s.glb.eig_sft ::
      (((Ls.zip vals).filter fun x => decide (Asked l m x.1)).map fun x =>
        .eigs x.1 ((x.2.take toshow.toNat).map fun val => val / s.glb.eig_sft)))) := by
  have hlen : 0 < vals.length := List.length_pos_iff.2 hn
  unfold Show_Eigs
  rw [require_nonnegint_ok ht.le, st_lift_ok, if_neg (by omega)]
  show (StPy.lift (require_nonnegint_range (eigBounds l m).1 (eigBounds l m).2.1) >>= fun _ => _ : FM _) s = _
  rw [bounds_ok hb hl, st_lift_ok, if_pos]
  · unfold showEigsBody
    rw [st_bind_ok (x := FM.glb) (s := s) (s' := s) rfl, if_neg (by rw [hrel]; simp),
      st_bind_ok (x := FM.print _) (print_add _ _), st_bind_ok (eigsLoop_ok _ _ _ _ _ _ _), add_add,
      List.filter_congr (q := fun x => decide (Asked l m x.1)) fun x hx => by
        have := hL x.1 (List.of_mem_zip hx).1
        rw [decide_eq_decide]
        exact bounds_asked this.1 this.2]
    simp only [sub_zero]
    rfl
  · obtain ⟨L, h1, h2⟩ := ha
    exact List.any_eq_true.2 ⟨L, h1, decide_eq_true ((bounds_asked (hL L h1).1 (hL L h1).2).2 h2)⟩

/-- Of two angular momenta, only the one asked for is displayed, relative to the lowest level of the other. -/
example (s : FState) (h : s.glb.eig_rel = true) :
    Show_Eigs [[1, 4], [2, 3]] [0, 2] 1 (some 2) none s = (.ok (some 1), s.add
      [.eigHead (some 1) s.glb.eig_sft, .eigs 2 [(2 - 1) / s.glb.eig_sft]]) := by
  have hm : min_head [[1, 4], [2, 3]] = .ok 1 := by
    obtain ⟨m, h1, ⟨v, hv, h2⟩, h3⟩ := C40_min_head (alist := [[1, 4], [2, 3]])
      (by intro v hv; simp at hv; rcases hv with rfl | rfl <;> norm_num) ⟨[1, 4], by simp, by simp⟩
    have h4 := h3 [1, 4] (by simp) 1 (by simp)
    simp at hv
    rcases hv with rfl | rfl
    · simp at h2; rw [h1, ← h2]
    · simp at h2; rw [← h2] at h4; norm_num at h4
  rw [C93_relative (by intro L hL; simp at hL; omega) (by norm_num) (by simp)
    ⟨by simp, by simp, by simp⟩ (by simp) ⟨2, by simp, by simp [Asked]⟩ h hm]
  have : (([0, 2] : List Int).zip [[1, 4], [2, 3]]).filter (fun x => decide (Asked (some 2) none x.1)) =
      [((2, [2, 3]) : Int × List ℝ)] := by
    simp [List.zip, Asked]
  rw [this]
  simp

/-! ## C94 -/

theorem refCheck_iff {a : XArgs} (h : LegalRanges a) {L idx : Int} : refCheck a L idx = .ok () ↔ HasState a L idx := by
  unfold refCheck HasState
  split_ifs with hr
  · exact iff_of_false (fun h => by cases h) fun h => by omega
  · have hL : 0 ≤ L := by have := h.2.2.1; omega
    have hx := lbsXspace_ok (legal_at h hL)
    replace hx : lbsXspace a.nu_min a.nu_max a.v_min a.v_max L (some L) = .ok (a.at L).xlabels := hx
    rw [dimXspace_at h hL, py_bind_ok, hx]
    have hd : (a.at L).dim = (a.at L).xlabels.length := (length_xlabels _).symm
    constructor
    · intro hh
      split_ifs at hh with hi
      exact ⟨by omega, _, rfl, by omega⟩
    · rintro ⟨_, xs, hxs, hi⟩
      injection hxs with hxs
      subst hxs
      rw [if_neg (by omega)]
      rfl

theorem refCheck_err {a : XArgs} (h : LegalRanges a) {L idx : Int} (hn : ¬ HasState a L idx) :
    refCheck a L idx = .error .valueError := by
  have h1 := mt (refCheck_iff h).1 hn
  unfold refCheck at *
  split_ifs at * with hr
  · rfl
  · have hL : 0 ≤ L := by have := h.2.2.1; omega
    rw [dimXspace_at h hL, py_bind_ok] at *
    split_ifs at * with hi
    · rfl
    · exact absurd rfl h1

theorem refChecks_eq (fe fr : Int) (a : XArgs) (g : Glb) : refChecks fe fr a g =
    ((if fe > 0 ∧ g.eig_num > 0 then refCheck a g.eig_L g.eig_idx else pure ()) >>= fun _ =>
      if fr > 0 ∧ g.rat_lst.length > 0 then (do refCheck a g.rat_L1 g.rat_1dx; refCheck a g.rat_L2 g.rat_2dx)
      else pure () : Py Unit) := by
  unfold refChecks
  dsimp only
  split_ifs <;> rfl

/-- C94: the reference states that `ACM_ScaleOrAdapt` accepts: that of the energies is in the space, if it is to be
fitted and energies are displayed; those of the transition are, if it is to be fitted and rates are listed. -/
theorem C94_accepts {a : XArgs} (h : LegalRanges a) (fe fr : Int) (g : Glb) :
    refChecks fe fr a g = .ok () ↔
      (0 < fe → 0 < g.eig_num → HasState a g.eig_L g.eig_idx) ∧
      (0 < fr → g.rat_lst ≠ [] → HasState a g.rat_L1 g.rat_1dx ∧ HasState a g.rat_L2 g.rat_2dx) := by
  have hlist : g.rat_lst.length > 0 ↔ g.rat_lst ≠ [] := List.length_pos_iff
  have hA : (if fe > 0 ∧ g.eig_num > 0 then refCheck a g.eig_L g.eig_idx else pure () : Py Unit) = .ok () ↔
      (0 < fe → 0 < g.eig_num → HasState a g.eig_L g.eig_idx) := by
    split_ifs with hc
    · rw [refCheck_iff h]; tauto
    · exact ⟨fun _ h1 h2 => absurd ⟨h1, h2⟩ hc, fun _ => rfl⟩
  have hB : (if fr > 0 ∧ g.rat_lst.length > 0 then
        (do refCheck a g.rat_L1 g.rat_1dx; refCheck a g.rat_L2 g.rat_2dx) else pure () : Py Unit) = .ok () ↔
      (0 < fr → g.rat_lst ≠ [] → HasState a g.rat_L1 g.rat_1dx ∧ HasState a g.rat_L2 g.rat_2dx) := by
    split_ifs with hc
    · rw [hlist] at hc
      constructor
      · intro hh _ _
        obtain ⟨_, h1, h2⟩ := py_bind_eq_ok hh
        exact ⟨(refCheck_iff h).1 h1, (refCheck_iff h).1 h2⟩
      · intro hh
        obtain ⟨h1, h2⟩ := hh hc.1 hc.2
        rw [(refCheck_iff h).2 h1, py_bind_ok, (refCheck_iff h).2 h2]
    · rw [hlist] at hc
      exact ⟨fun _ h1 h2 => absurd ⟨h1, h2⟩ hc, fun _ => rfl⟩
  rw [← hA, ← hB]
  rw [refChecks_eq]
  constructor
  · intro hh
    obtain ⟨_, h1, h2⟩ := py_bind_eq_ok hh
    exact ⟨h1, h2⟩
  · rintro ⟨h1, h2⟩
    rw [h1, py_bind_ok]
    exact h2

theorem refChecks_cases {a : XArgs} (h : LegalRanges a) (fe fr : Int) (g : Glb) :
    refChecks fe fr a g = .ok () ∨ refChecks fe fr a g = .error .valueError := by
  have hc : ∀ L i, refCheck a L i = .ok () ∨ refCheck a L i = .error .valueError := fun L i => by
    by_cases hh : HasState a L i
    · exact .inl ((refCheck_iff h).2 hh)
    · exact .inr (refCheck_err h hh)
  have hB : ∀ x : Py Unit, x = .ok () ∨ x = .error .valueError →
      (x >>= fun _ => if fr > 0 ∧ g.rat_lst.length > 0 then
        (do refCheck a g.rat_L1 g.rat_1dx; refCheck a g.rat_L2 g.rat_2dx) else pure () : Py Unit) = .ok () ∨
      (x >>= fun _ => if fr > 0 ∧ g.rat_lst.length > 0 then
        (do refCheck a g.rat_L1 g.rat_1dx; refCheck a g.rat_L2 g.rat_2dx) else pure () : Py Unit) =
          .error .valueError := by
    rintro x (rfl | rfl)
    · rw [py_bind_ok]
      split_ifs
      · rcases hc g.rat_L1 g.rat_1dx with h1 | h1 <;> rw [h1]
        · rw [py_bind_ok]; exact hc _ _
        · exact .inr rfl
      · exact .inl rfl
    · exact .inr rfl
  rw [refChecks_eq]
  refine hB _ ?_
  split_ifs
  · exact hc _ _
  · exact .inl rfl

/-- C94, what holds of every call: if the reference state of the energies (when energies are displayed) or one of the
reference transition (when rates are listed) is not in the space, `ACM_Adapt` raises `ValueError` before anything is
computed, displayed or changed.  Missing: the same when amplitudes are listed but no rates, `C94_fails`. -/
theorem C94_refuses_partial {a : XArgs} (h : LegalRanges a) (env : FEnv) (ham : OperatorSum) {s : FState}
    (hn : 0 < s.glb.eig_num ∧ ¬ HasState a s.glb.eig_L s.glb.eig_idx ∨
      s.glb.rat_lst ≠ [] ∧ ¬ (HasState a s.glb.rat_L1 s.glb.rat_1dx ∧ HasState a s.glb.rat_L2 s.glb.rat_2dx)) :
    ACM_Adapt env ham a s = (.error .valueError, s) := by
  have he : refChecks 1 1 a s.glb = .error .valueError := by
    refine (refChecks_cases h 1 1 s.glb).resolve_left fun hh => ?_
    obtain ⟨h1, h2⟩ := (C94_accepts h 1 1 s.glb).1 hh
    rcases hn with ⟨h3, h4⟩ | ⟨h3, h4⟩
    · exact h4 (h1 (by norm_num) h3)
    · exact h4 (h2 (by norm_num) h3)
  unfold ACM_Adapt ACM_ScaleOrAdapt
  rw [require_nonnegint_ok (by decide), st_lift_ok, st_lift_ok, check_ok h, st_lift_ok,
    st_bind_ok (x := FM.glb) (s := s) (s' := s) rfl, he]
  rfl

/-- C94: `ACM_Scale` has no reference states to refuse. -/
theorem C94_scale {a : XArgs} (h : LegalRanges a) (g : Glb) : refChecks 0 0 a g = .ok () :=
  (C94_accepts h 0 0 g).2 ⟨fun h => absurd h (by norm_num), fun h => absurd h (by norm_num)⟩

/-- C94: once accepted, the level of the reference state is found: the eigenvalue exists, and no `IndexError` arises. -/
theorem C94_found {env : FEnv} {ham : OperatorSum} (ht : Op_Tame ham = true) {a : XArgs} (h : LegalRanges a) {s s1 : FState}
    (hs : MemoOk env.x s.xs) {r : List LEig} (hd : DigXspace env.x ham a s = (.ok r, s1)) {L idx : Int}
    (hst : HasState a L idx) (hi : 1 ≤ idx) :
    ∃ x ∈ r, x.L = L ∧ ∃ E, pyGet x.vals (idx - 1) = .ok E ∧ x.vals[(idx - 1).toNat]? = some E := by
  obtain ⟨ho, hx⟩ := C32_partial ht h hs hd
  have hL : 0 ≤ L := by have := h.2.2.1; have := hst.1; omega
  obtain ⟨hr, xs, hxs, hlen⟩ := hst
  have hx' := lbsXspace_ok (legal_at h hL)
  replace hx' : lbsXspace a.nu_min a.nu_max a.v_min a.v_max L (some L) = .ok (a.at L).xlabels := hx'
  rw [hx'] at hxs
  injection hxs with hxs
  subst hxs
  have hd : (a.at L).dim = (a.at L).xlabels.length := (length_xlabels _).symm
  obtain ⟨x, hxr, hxL⟩ := List.mem_map.1 ((ho.2 L).2 ⟨hr, _, dimXspace_at h hL, by omega⟩)
  have hl := (hx x hxr).1
  rw [hxL, dimXspace_at h hL] at hl
  injection hl with hl
  refine ⟨x, hxr, hxL, x.vals[(idx - 1).toNat]'(by omega), ?_, by rw [List.getElem?_eq_getElem]⟩
  rw [pyGet_int x.vals _ (idx - 1).toNat (by omega) (by omega)]

/-- C94 fails: if amplitudes are listed but no rates, the reference transition is used for the fit (full_space.py lines
1320-1343) but was never checked (line 1284): any labels are accepted. -/
theorem C94_fails {a : XArgs} (h : LegalRanges a) {g : Glb} (he : 0 < g.eig_num → HasState a g.eig_L g.eig_idx)
    (hr : g.rat_lst = []) (L1 L2 i1 i2 : Int) :
    refChecks 1 1 a { g with rat_L1 := L1, rat_L2 := L2, rat_1dx := i1, rat_2dx := i2 } = .ok () :=
  (C94_accepts h 1 1 _).2 ⟨fun _ h2 => he h2, fun _ h2 => absurd hr h2⟩

/-- The state 2(1) is in the space of seniority 2 with one radial state, 2(2) and 3(1) are not. -/
theorem arg22_state : HasState arg22 2 1 ∧ ¬ HasState arg22 2 2 ∧ ¬ HasState arg22 5 1 := by
  have h2 : lbsXspace 0 0 2 2 2 (some 2) = .ok [(0, (2, 1, 2))] := by decide +kernel
  refine ⟨⟨by decide, _, h2, by decide⟩, ?_, fun h => absurd h.1 (by decide)⟩
  rintro ⟨_, xs, hxs, hl⟩
  have : lbsXspace 0 0 2 2 2 (some 2) = .ok xs := hxs
  rw [h2] at this
  injection this with this
  rw [← this] at hl
  norm_num at hl

example : refChecks 1 1 arg22 { Glb.init with amp_lst := [[2, 2]], rat_lst := [], rat_L1 := 40 } = .ok () :=
  C94_fails (g := { Glb.init with amp_lst := [[2, 2]], rat_lst := [] }) arg22_legal (fun _ => arg22_state.1) rfl 40 _ _ _

example (env : FEnv) (ham : OperatorSum) :
    let s : FState := ⟨{ Glb.init with eig_idx := 2 }, fun _ => none, fun _ _ => none, fun _ => none, []⟩
    ACM_Adapt env ham arg22 s = (.error .valueError, s) :=
  C94_refuses_partial arg22_legal env ham (.inl ⟨by decide, arg22_state.2.1⟩)

end Acm.Props
