import Verif.Props.FullAmp
import Verif.Lemmas.Frame

/-!
# Properties C37, C38, C39: ACM_Scale and ACM_Adapt
-/

namespace Acm.Props

open Acm Acm.Spec

/-! ## C38 -/

/-- C38: whatever `ACM_Scale` displays, and whether it raises or not, no setting is changed (`glb_nu_lap`, which is
0 initially and not a setting, may be set to 0). -/
theorem C38_scale (env : FEnv) (ham : OperatorSum) (a : XArgs) (s : FState) :
    (ACM_Scale env ham a s).2.glb = s.glb ∨ (ACM_Scale env ham a s).2.glb = { s.glb with nu_lap := 0 } :=
  keeps_ScaleOrAdapt (R := fun s s' => s'.glb = s.glb ∨ s'.glb = s.glb.resetLap)
    (frame_glb (P := fun g g' => g' = g ∨ g' = g.resetLap) (fun _ => .inl rfl) (by
      intro g g' g'' h1 h2
      rcases h1 with rfl | rfl <;> rcases h2 with rfl | rfl
      · exact .inl rfl
      · exact .inr rfl
      · exact .inr rfl
      · exact .inr rfl))
    (fun _ _ => .inr rfl) env 0 0 ham a (fun h => absurd h (by decide)) (fun h => absurd h (by decide)) s

/-- C38: from the initial value of `glb_nu_lap` on, nothing at all is changed. -/
theorem C38_scale_all (env : FEnv) (ham : OperatorSum) (a : XArgs) {s : FState} (h : s.glb.nu_lap = 0) :
    (ACM_Scale env ham a s).2.glb = s.glb := by
  rcases C38_scale env ham a s with h' | h'
  · exact h'
  · rw [h', ← h]

example : Glb.init.nu_lap = 0 := rfl

/-! ## C39 -/

/-- The settings agree but for the scaling factors. -/
def SameButScales (g g' : Glb) : Prop :=
  { g' with eig_sft := g.eig_sft, rat_sft := g.rat_sft, amp_sft := g.amp_sft, nu_lap := g.nu_lap } = g

/-- C39, what holds of every call: `ACM_Adapt` changes nothing but the three scaling factors. -/
theorem C39_frame_partial (env : FEnv) (ham : OperatorSum) (a : XArgs) (s : FState) :
    SameButScales s.glb (ACM_Adapt env ham a s).2.glb := by
  have F : Frame fun s s' : FState => SameButScales s.glb s'.glb := frame_glb (fun g => rfl) (by
    intro g g' g'' h1 h2
    unfold SameButScales at *
    rw [← h1, ← h2])
  exact keeps_ScaleOrAdapt (R := fun s s' => SameButScales s.glb s'.glb) F (fun _ _ => rfl) env 1 1 ham a
    (fun _ => keeps_fitEig F fun _ _ => rfl) (fun _ => keeps_fitRat F (fun _ _ => rfl) fun _ _ => rfl) s

theorem keeps_lap {P : Glb → Glb → Prop} (h1 : ∀ g, P g g) (h2 : ∀ g g' g'', P g g' → P g' g'' → P g g'')
    (h3 : ∀ g, P g g.resetLap) (env : XEnv) (ham : OperatorSum) (a : XArgs) :
    Keeps (fun s s' => P s.glb s'.glb) (DigXspace env ham a) :=
  keeps_Dig (frame_glb h1 h2) (fun _ _ => h3 _) env ham a

/-- The scaling factors agree. -/
def SameScales (g g' : Glb) : Prop := g'.eig_sft = g.eig_sft ∧ g'.rat_sft = g.rat_sft ∧ g'.amp_sft = g.amp_sft

/-- C39: if `ACM_Adapt` raises because an argument is wrong, the reference states are out of range, or
the Hamiltonian cannot be diagonalised, the scaling factors are what they were. -/
theorem C39_partial (env : FEnv) (ham : OperatorSum) (a : XArgs) (s : FState)
    (h : ∀ r s', DigXspace env.x ham a s ≠ (.ok r, s')) :
    SameScales s.glb (ACM_Adapt env ham a s).2.glb := by
  have F : Frame fun s s' : FState => SameScales s.glb s'.glb := frame_glb (fun g => ⟨rfl, rfl, rfl⟩)
    (fun _ _ _ h1 h2 => ⟨h2.1.trans h1.1, h2.2.1.trans h1.2.1, h2.2.2.trans h1.2.2⟩)
  unfold ACM_Adapt ACM_ScaleOrAdapt
  rw [require_nonnegint_ok (by decide), st_lift_ok, st_lift_ok]
  cases hc : a.check with
  | error e => exact F.refl s
  | ok u =>
    rw [st_lift_ok, st_bind_ok (x := FM.glb) (s := s) (s' := s) rfl]
    cases hr : refChecks 1 1 a s.glb with
    | error e => exact F.refl s
    | ok u =>
      rw [st_lift_ok]
      have hk := keeps_Dig F (fun _ _ => ⟨rfl, rfl, rfl⟩) env.x ham a s
      rcases hd : DigXspace env.x ham a s with ⟨e | r, s'⟩
      · rw [hd] at hk
        rw [st_bind_error (x := DigXspace env.x ham a) hd]
        exact hk
      · exact absurd hd (h r s')

/-- A range on which nothing is diagonalised. -/
example (env : FEnv) (ham : OperatorSum) (s : FState) :
    SameScales s.glb (ACM_Adapt env ham ⟨1, 5 / 2, 0, 5, 0, 6, 4, 2⟩ s).2.glb :=
  C39_partial env ham _ s fun r s' h => by rw [C32_illegal env.x ham (by simp [LegalRanges])] at h; cases h

/-- C39: if no transitions are listed, the scaling factors of the rates and the amplitudes are what they were, whether
the call raises or not; if moreover no energies are displayed, so is that of the energies. -/
theorem C39_none_partial (env : FEnv) (ham : OperatorSum) (a : XArgs) (s : FState) (h1 : s.glb.rat_lst = [])
    (h2 : s.glb.amp_lst = []) :
    (ACM_Adapt env ham a s).2.glb.rat_sft = s.glb.rat_sft ∧ (ACM_Adapt env ham a s).2.glb.amp_sft = s.glb.amp_sft ∧
      (s.glb.eig_num ≤ 0 → (ACM_Adapt env ham a s).2.glb.eig_sft = s.glb.eig_sft) := by
  let P : Glb → Glb → Prop := fun g g' => g'.rat_lst = g.rat_lst ∧ g'.amp_lst = g.amp_lst ∧ g'.eig_num = g.eig_num ∧
    g'.rat_sft = g.rat_sft ∧ g'.amp_sft = g.amp_sft ∧ (g.eig_num ≤ 0 → g'.eig_sft = g.eig_sft)
  have hrefl : ∀ g, P g g := fun g => ⟨rfl, rfl, rfl, rfl, rfl, fun _ => rfl⟩
  have htrans : ∀ g g' g'', P g g' → P g' g'' → P g g'' := by
    rintro g g' g'' ⟨a1, a2, a3, a4, a5, a6⟩ ⟨b1, b2, b3, b4, b5, b6⟩
    exact ⟨b1.trans a1, b2.trans a2, b3.trans a3, b4.trans a4, b5.trans a5,
      fun h => (b6 (by rw [a3]; exact h)).trans (a6 h)⟩
  have F : Frame fun s s' : FState => P s.glb s'.glb := frame_glb hrefl htrans
  have hlap : ∀ (s : FState) x, P s.glb (s.afterX x).glb := fun s x => ⟨rfl, rfl, rfl, rfl, rfl, fun _ => rfl⟩
  suffices P s.glb (ACM_Adapt env ham a s).2.glb from ⟨this.2.2.2.1, this.2.2.2.2.1, this.2.2.2.2.2⟩
  have hE : ∀ r, Keeps (fun s s' : FState => P s.glb s'.glb) (scaleEig 1 r) := by
    intro r s
    unfold scaleEig
    rw [st_bind_ok (x := FM.glb) (s := s) (s' := s) rfl]
    split_ifs with hn hh
    · have : Keeps (fun s s' : FState => s.glb.eig_num > 0 → P s.glb s'.glb) (fitEig r) := by
        refine keeps_fitEig (R := fun s s' => s.glb.eig_num > 0 → P s.glb s'.glb)
          ⟨fun s _ => hrefl _, fun s s' s'' k1 k2 h => ?_, fun _ _ _ => hrefl _⟩ ?_ r
        · exact htrans _ _ _ (k1 h) (k2 (by rw [(k1 h).2.2.1]; exact h))
        · intro s x h
          exact ⟨rfl, rfl, rfl, rfl, rfl, fun h' => absurd h (not_lt.2 h')⟩
      have h1 := this s hn
      rw [st_bind]
      rcases hf : fitEig r s with ⟨e | u, s'⟩
      · rw [hf] at h1; exact h1
      · rw [hf] at h1
        exact htrans _ _ _ h1 (keeps_bind F (keeps_Show_Eigs F _ _ _ _ _) (fun _ => keeps_pure F _) s')
    · exact absurd (by decide : (1 : Int) > 0) hh
    · exact hrefl _
  unfold ACM_Adapt ACM_ScaleOrAdapt
  rw [require_nonnegint_ok (by decide), st_lift_ok, st_lift_ok]
  cases hc : a.check with
  | error e => exact F.refl s
  | ok u =>
    rw [st_lift_ok, st_bind_ok (x := FM.glb) (s := s) (s' := s) rfl]
    cases hr : refChecks 1 1 a s.glb with
    | error e => exact F.refl s
    | ok u =>
      rw [st_lift_ok]
      have hk := keeps_Dig F hlap env.x ham a s
      rcases hd : DigXspace env.x ham a s with ⟨e | r, s'⟩
      · rw [hd] at hk
        rw [st_bind_error (x := DigXspace env.x ham a) hd]
        exact hk
      · rw [hd] at hk
        rw [st_bind_ok (x := DigXspace env.x ham a) hd]
        have hk' := htrans _ _ _ hk (hE r s')
        rw [st_bind]
        rcases he : scaleEig 1 r s' with ⟨e | u, s''⟩
        · rw [he] at hk'; exact hk'
        · rw [he] at hk'
          show P s.glb (scaleRest env 1 a r s'').2.glb
          unfold scaleRest
          rw [st_bind_ok (x := FM.glb) (s := s'') (s' := s'') rfl]
          rw [if_neg (by rw [hk'.1, hk'.2.1, h1, h2]; simp)]
          exact hk'

/-! ### C39 fails -/

theorem digTame_total {env : XEnv} {ts : OperatorSum} {a : XArgs} (h : LegalRanges a) :
    ∀ (Ls : List Int), (∀ L ∈ Ls, 0 ≤ L) → ∀ (s : FState), FOk env s →
      (∀ L ∈ Ls, ∃ M, allMat env (a.at L) ts s.glb.lam_fun = .ok M) →
      ∃ r s', digTame env ts a Ls s = (.ok r, s') := by
  intro Ls
  induction Ls with
  | nil => intro _ s _ _; exact ⟨[], s, rfl⟩
  | cons L Ls ih =>
    intro hLs s hs hM
    have hL := hLs L List.mem_cons_self
    have ih := ih fun M hM => hLs M (List.mem_cons_of_mem _ hM)
    rw [digTame, rngV_at h hL, st_lift_ok]
    split_ifs
    · obtain ⟨s1, e1, hok, hg, _⟩ := liftX_rep (legal_at h hL) hs ts
      obtain ⟨M, hM1⟩ := hM L List.mem_cons_self
      rw [hM1] at e1
      have hsq := allMat_square (legal_at h hL) hM1
      obtain ⟨v, P, _, e2⟩ := Eigenlist_ok env.la hsq.1 hsq.2.1
      obtain ⟨r, s2, e3⟩ := ih s1 hok fun K hK => by
        rw [hg]
        exact hM K (List.mem_cons_of_mem _ hK)
      exact ⟨_, s2, by rw [st_bind_ok e1, e2, st_lift_ok, st_bind_ok e3]; rfl⟩
    · exact ih s hs fun K hK => hM K (List.mem_cons_of_mem _ hK)

/-- All eigenvalues of the zero matrix are 0. -/
theorem eig_zero {la : LinAlg} (hla : LinAlgOk la) {n : ℕ} {v : ℕ → ℝ} {P : Arr}
    (h : Eigenfiddle la (Arr.zeros n n) = .ok (v, P)) : ∀ i < n, v i = 0 := by
  obtain ⟨v', P', e1, _, _, _, e2, _⟩ := C70_eigen la hla n (Arr.zeros n n) rfl rfl
  rw [h] at e1
  injection e1 with e1
  injection e1 with e1 e3
  subst e1 e3
  intro i hi
  have hz : mat n (Arr.zeros n n) = 0 := by ext a b; simp [mat, Arr.zeros, Arr.of]
  rw [hz] at e2
  have := congrFun (congrFun e2 ⟨i, hi⟩) ⟨i, hi⟩
  rw [Matrix.diagonal_apply_eq] at this
  rw [← this]
  simp

/-- C39 fails: for the zero Hamiltonian, on every range in which the reference state of the energies exists, `ACM_Adapt`
raises `ValueError` with the scaling factor of the energies changed to 0 (full_space.py lines 1309-1312). -/
theorem C39_fails {env : FEnv} (hla : LinAlgOk env.x.la) {a : XArgs} (h : LegalRanges a) {s : FState}
    (hs : MemoOk env.x s.xs) (hn : 0 < s.glb.eig_num) (hi : 1 ≤ s.glb.eig_idx)
    (hr : refChecks 1 1 a s.glb = .ok ()) :
    (ACM_Adapt env [] a s).1 = .error .valueError ∧ (ACM_Adapt env [] a s).2.glb.eig_sft = 0 := by
  unfold ACM_Adapt ACM_ScaleOrAdapt
  rw [require_nonnegint_ok (by decide), st_lift_ok, st_lift_ok, check_ok h, st_lift_ok,
    st_bind_ok (x := FM.glb) (s := s) (s' := s) rfl, hr, st_lift_ok]
  have hz : ∀ (L : Int) (hL : 0 ≤ L) lam, allMat env.x (a.at L) [] lam = .ok (Arr.zeros (a.at L).dim (a.at L).dim) :=
    fun L hL lam => (allMat_iff (legal_at h hL)).2 (.inl ⟨rfl, rfl⟩)
  obtain ⟨r, s1, hd⟩ := digTame_total (ts := []) h _ (range_nonneg h) s hs
    (fun L hL => ⟨_, hz L (range_nonneg h L hL) _⟩)
  have hdig : DigXspace env.x [] a s = (.ok r, s1) := by
    unfold DigXspace
    rw [check_ok h, st_lift_ok, if_pos (show Op_Tame [] = true from rfl)]
    exact hd
  have hg : s1.glb = s.glb ∨ s1.glb = s.glb.resetLap := by
    have := keeps_lap (P := fun g g' => g' = g ∨ g' = g.resetLap) (fun _ => .inl rfl) (by
      intro g g' g'' h1 h2
      rcases h1 with rfl | rfl <;> rcases h2 with rfl | rfl
      · exact .inl rfl
      · exact .inr rfl
      · exact .inr rfl
      · exact .inr rfl) (fun _ => .inr rfl) env.x [] a s
    rw [hdig] at this
    exact this
  obtain ⟨ho, hx⟩ := C32_partial (ham := []) rfl h hs hdig
  -- every eigenvalue is 0
  have hzero : ∀ x ∈ r, ∀ e ∈ x.vals, e = 0 := by
    intro x hxr e he
    obtain ⟨hdim, M, v, e1, e2, e3⟩ := hx x hxr
    have hL : 0 ≤ x.L := by
      have := ((ho.2 x.L).1 (List.mem_map_of_mem hxr)).1; have := h.2.2.1; omega
    rw [rep_eq (legal_at h hL) hs, hz x.L hL] at e1
    injection e1 with e1
    subst e1
    rw [e3] at he
    obtain ⟨i, hi, rfl⟩ := List.mem_map.1 he
    exact eig_zero hla e2 i (List.mem_range.1 hi)
  -- the reference state exists
  have hc : refCheck a s.glb.eig_L s.glb.eig_idx = .ok () := by
    unfold refChecks at hr
    rw [if_pos ⟨by decide, hn⟩] at hr
    obtain ⟨_, h1, _⟩ := py_bind_eq_ok hr
    exact h1
  unfold refCheck at hc
  split_ifs at hc with hrange
  have hL : 0 ≤ s.glb.eig_L := by have := h.2.2.1; omega
  rw [dimXspace_at h hL, py_bind_ok] at hc
  split_ifs at hc with hidx
  have hmem : s.glb.eig_L ∈ r.map LEig.L :=
    (ho.2 _).2 ⟨by omega, _, dimXspace_at h hL, by omega⟩
  obtain ⟨x, hxr, hxL⟩ := List.mem_map.1 hmem
  have hfind : ∃ y ∈ r, y.L = s.glb.eig_L ∧ eigenAt r s.glb.eig_L = .ok y.vals := by
    unfold eigenAt
    cases hf : r.find? fun x => decide (x.L = s.glb.eig_L) with
    | none =>
      have := List.find?_eq_none.1 hf x hxr
      rw [decide_eq_true_iff] at this
      exact absurd hxL this
    | some y =>
      have := List.find?_some hf
      exact ⟨y, List.mem_of_find?_eq_some hf, of_decide_eq_true this, rfl⟩
  obtain ⟨y, hyr, hyL, hat⟩ := hfind
  have hlen := (hx y hyr).1
  rw [hyL, dimXspace_at h hL] at hlen
  injection hlen with hlen
  have hlen' : (a.at s.glb.eig_L).dim = y.vals.length := by exact_mod_cast hlen
  obtain ⟨E, hE⟩ : ∃ E, pyGet y.vals (s.glb.eig_idx - 1) = .ok E := by
    rw [pyGet_int y.vals _ (s.glb.eig_idx - 1).toNat (by omega) (by omega)]
    exact ⟨_, rfl⟩
  have hE0 : E = 0 := by
    rw [pyGet_int y.vals _ (s.glb.eig_idx - 1).toNat (by omega) (by omega)] at hE
    injection hE with hE
    exact hzero y hyr E (hE ▸ List.getElem_mem _)
  have hlow : eigenLow s.glb (r.map LEig.vals) = .ok 0 := by
    unfold eigenLow
    split_ifs with hrel
    · obtain ⟨m, h1, ⟨v, hv, h2⟩, _⟩ := C40_min_head (C40_sorted hla hs hdig) ⟨y.vals, List.mem_map_of_mem hyr, by
        intro hh; rw [hh] at hlen'; simp at hlen'; omega⟩
      obtain ⟨z, hz1, rfl⟩ := List.mem_map.1 hv
      rw [h1, hzero z hz1 m (List.mem_of_mem_head? h2)]
    · rfl
  rw [st_bind_ok (x := DigXspace env.x [] a) hdig]
  have hfit : fitEig r s1 = (.error .valueError, ⟨{ s1.glb with eig_sft := 0 }, s1.piMemo, s1.pipiMemo, s1.piqpiMemo, s1.out⟩) := by
    have g1 : s1.glb.eig_L = s.glb.eig_L := by rcases hg with h | h <;> simp only [h, Glb.resetLap]
    have g2 : s1.glb.eig_idx = s.glb.eig_idx := by rcases hg with h | h <;> simp only [h, Glb.resetLap]
    have g3 : eigenLow s1.glb (r.map LEig.vals) = .ok 0 := by rcases hg with h | h <;> (rw [h]; exact hlow)
    unfold fitEig
    rw [st_bind_ok (x := FM.glb) (s := s1) (s' := s1) rfl, g3, st_lift_ok, g1, hat, st_lift_ok, g2, hE, st_lift_ok, hE0,
      st_bind_ok (x := FM.setGlb _) (s' := ⟨{ s1.glb with eig_sft := 0 }, s1.piMemo, s1.pipiMemo, s1.piqpiMemo, s1.out⟩)
        (a := ()) (by unfold FM.setGlb; simp), if_pos (by simp)]
    rfl
  have hsc : scaleEig 1 r s1 = (.error .valueError, ⟨{ s1.glb with eig_sft := 0 }, s1.piMemo, s1.pipiMemo, s1.piqpiMemo, s1.out⟩) := by
    have g4 : s1.glb.eig_num = s.glb.eig_num := by rcases hg with h | h <;> simp only [h, Glb.resetLap]
    unfold scaleEig
    rw [st_bind_ok (x := FM.glb) (s := s1) (s' := s1) rfl, if_pos (by rw [g4]; exact hn), if_pos (by decide),
      st_bind_error hfit]
  rw [st_bind_error hsc]
  exact ⟨rfl, rfl⟩

/-- The hypotheses of `C39_fails` are met with the initial settings, in which the scaling factor is 1. -/
example (x : XEnv) : let s : FState := ⟨Glb.init, fun _ => none, fun _ _ => none, fun _ => none, []⟩
    LegalRanges arg22 ∧ MemoOk x s.xs ∧ 0 < s.glb.eig_num ∧ 1 ≤ s.glb.eig_idx ∧ refChecks 1 1 arg22 s.glb = .ok () ∧
      s.glb.eig_sft = 1 := by
  refine ⟨arg22_legal, memoOk_start x lambda_acm_fun, (by decide), (by decide), ?_, rfl⟩
  have h2 : dimXspace 0 0 2 2 2 none = .ok 1 := by decide +kernel
  have : refCheck arg22 2 1 = .ok () := by
    unfold refCheck
    rw [if_neg (by unfold arg22; simp)]
    show (dimXspace 0 0 2 2 2 none >>= fun d => if 1 > d then throw .valueError else pure () : Py Unit) = _
    rw [h2]
    rfl
  unfold refChecks
  rw [if_pos (by unfold Glb.init; decide), if_neg (by unfold Glb.init; simp)]
  show refCheck arg22 2 1 >>= _ = _
  rw [this]
  rfl

/-! ## C37 -/

theorem set_block_space {A A' : LBlockArray} {Lr Lc : Int} {B : Arr} (h : A.set_block Lr Lc B = .ok A') :
    A'.full_space = A.full_space := by
  unfold LBlockArray.set_block at h
  obtain ⟨_, _, h⟩ := py_bind_eq_ok h
  obtain ⟨_, _, h⟩ := py_bind_eq_ok h
  obtain ⟨_, _, h⟩ := py_bind_eq_ok h
  injection h with h
  rw [← h]

theorem ampSet_space {t A A' : LBlockArray} {Lr Lc : Int} {P Q : Arr} (h : ampSet t A Lr Lc P Q = .ok A') :
    A'.full_space = A.full_space := by
  unfold ampSet at h
  obtain ⟨_, _, h⟩ := py_bind_eq_ok h
  obtain ⟨_, _, h⟩ := py_bind_eq_ok h
  obtain ⟨_, _, h⟩ := py_bind_eq_ok h
  exact set_block_space h

theorem ampInner_space {t : LBlockArray} {Lr : Int} {P : Arr} : ∀ {cols : List (Arr × Int)} {A A' : LBlockArray},
    ampInner t Lr P cols A = .ok A' → A'.full_space = A.full_space
  | [], A, A', h => by injection h with h; rw [← h]
  | c :: cols, A, A', h => by
    rw [ampInner] at h
    obtain ⟨_, h1, h⟩ := py_bind_eq_ok h
    exact (ampInner_space h).trans (ampSet_space h1)

theorem ampOuter_space {t : LBlockArray} {cols : List (Arr × Int)} : ∀ {rows : List (Arr × Int)} {A A' : LBlockArray},
    ampOuter t cols rows A = .ok A' → A'.full_space = A.full_space
  | [], A, A', h => by injection h with h; rw [← h]
  | c :: rows, A, A', h => by
    rw [ampOuter] at h
    obtain ⟨_, h1, h⟩ := py_bind_eq_ok h
    exact (ampOuter_space h).trans (ampInner_space h1)

theorem ampBlocks_space {env : FEnv} {T : Arr} {bs : List Arr} {S : LBlockFullSpace} {Ls : List Int} {R : LBlockArray}
    (h : ampBlocks env T bs S Ls = .ok R) : R.full_space = S := by
  unfold ampBlocks LBlockArray.new at h
  obtain ⟨A, h1, h⟩ := py_bind_eq_ok h
  obtain ⟨A', h2, h⟩ := py_bind_eq_ok h
  rw [ampOuter_space h]
  split_ifs at h2
  injection h2 with h2
  rw [← h2]

theorem adapt_split {env : FEnv} {fe fr : Int} {ham : OperatorSum} {a : XArgs} {s s' : FState} {r : List LEig}
    {tr : Option LBlockArray} (h : ACM_ScaleOrAdapt env fe fr ham a s = (.ok (r, tr), s')) :
    ∃ s1 s2, DigXspace env.x ham a s = (.ok r, s1) ∧ scaleEig fe r s1 = (.ok (), s2) ∧
      scaleRest env fr a r s2 = (.ok (r, tr), s') := by
  unfold ACM_ScaleOrAdapt at h
  obtain ⟨_, t1, h1, k1⟩ := st_bind_eq_ok h
  obtain ⟨_, rfl⟩ := st_lift_eq_ok h1
  obtain ⟨_, t2, h2, k2⟩ := st_bind_eq_ok k1
  obtain ⟨_, rfl⟩ := st_lift_eq_ok h2
  obtain ⟨_, t3, h3, k3⟩ := st_bind_eq_ok k2
  obtain ⟨_, rfl⟩ := st_lift_eq_ok h3
  obtain ⟨g, t4, h4, k4⟩ := st_bind_eq_ok k3
  cases h4
  obtain ⟨_, t5, h5, k5⟩ := st_bind_eq_ok k4
  obtain ⟨_, rfl⟩ := st_lift_eq_ok h5
  obtain ⟨r0, s1, h6, k6⟩ := st_bind_eq_ok k5
  obtain ⟨_, s2, h7, k7⟩ := st_bind_eq_ok k6
  have : r = r0 := by
    have h' := k7
    unfold scaleRest at h'
    obtain ⟨g, t6, h8, h'⟩ := st_bind_eq_ok h'
    split_ifs at h' with hc
    · obtain ⟨t, t7, h9, h'⟩ := st_bind_eq_ok h'
      injection h' with h' _
      injection h' with h'
      injection h' with h' _
      exact h'.symm
    · injection h' with h' _
      injection h' with h'
      injection h' with h' _
      exact h'.symm
  subst this
  exact ⟨s1, s2, h6, h7, k7⟩

/-- The settings after a successful diagonalisation are the same, but for `glb_nu_lap`. -/
theorem dig_glb (env : XEnv) (ham : OperatorSum) (a : XArgs) (s : FState) :
    (DigXspace env ham a s).2.glb = s.glb ∨ (DigXspace env ham a s).2.glb = s.glb.resetLap :=
  keeps_lap (P := fun g g' => g' = g ∨ g' = g.resetLap) (fun _ => .inl rfl) (by
      intro g g' g'' h1 h2
      rcases h1 with rfl | rfl <;> rcases h2 with rfl | rfl
      · exact .inl rfl
      · exact .inr rfl
      · exact .inr rfl
      · exact .inr rfl) (fun _ => .inr rfl) env ham a s

theorem fitEig_ok {r : List LEig} {s s' : FState} (h : fitEig r s = (.ok (), s')) :
    ∃ low E, ∃ x ∈ r, eigenLow s.glb (r.map LEig.vals) = .ok low ∧ x.L = s.glb.eig_L ∧
      pyGet x.vals (s.glb.eig_idx - 1) = .ok E ∧ (E - low) / s.glb.eig_fit ≠ 0 ∧
      s' = ⟨{ s.glb with eig_sft := (E - low) / s.glb.eig_fit }, s.piMemo, s.pipiMemo, s.piqpiMemo, s.out⟩ := by
  unfold fitEig at h
  obtain ⟨g, t1, h1, k1⟩ := st_bind_eq_ok h
  cases h1
  obtain ⟨low, t2, h2, k2⟩ := st_bind_eq_ok k1
  obtain ⟨hlow, rfl⟩ := st_lift_eq_ok h2
  obtain ⟨vals, t3, h3, k3⟩ := st_bind_eq_ok k2
  obtain ⟨hv, rfl⟩ := st_lift_eq_ok h3
  obtain ⟨E, t4, h4, k4⟩ := st_bind_eq_ok k3
  obtain ⟨hE, rfl⟩ := st_lift_eq_ok h4
  obtain ⟨_, t5, h5, k5⟩ := st_bind_eq_ok k4
  unfold eigenAt at hv
  cases hf : r.find? fun x => decide (x.L = t4.glb.eig_L) with
  | none => rw [hf] at hv; cases hv
  | some x =>
    rw [hf] at hv
    injection hv with hv
    subst hv
    cases h5
    split_ifs at k5 with hz
    · cases k5
    · cases k5
      exact ⟨low, E, x, List.mem_of_find?_eq_some hf, hlow, by simpa using List.find?_some hf, hE, hz, rfl⟩

theorem fitRat_ok {t : LBlockArray} {Ls : List Int} {s s' : FState} (h : fitRat t Ls s = (.ok (), s')) :
    ∃ B mel x y, s.glb.rat_L1 ∈ Ls ∧ s.glb.rat_L2 ∈ Ls ∧ t.get_block s.glb.rat_L2 s.glb.rat_L1 = .ok B ∧
      B.get (s.glb.rat_2dx - 1) (s.glb.rat_1dx - 1) = .ok mel ∧
      s.glb.rat_fun s.glb.rat_TRopAM s.glb.rat_L1 s.glb.rat_L2 mel = .ok x ∧ |x| / s.glb.rat_fit ≠ 0 ∧
      s.glb.amp_sft_fun (|x| / s.glb.rat_fit) = .ok y ∧
      s' = ⟨{ s.glb with rat_sft := |x| / s.glb.rat_fit, amp_sft := y }, s.piMemo, s.pipiMemo, s.piqpiMemo, s.out⟩ := by
  unfold fitRat at h
  obtain ⟨g, t1, h1, k1⟩ := st_bind_eq_ok h
  cases h1
  by_cases c1 : s.glb.rat_L1 ∈ Ls
  swap
  · rw [if_pos c1] at k1; cases k1
  by_cases c2 : s.glb.rat_L2 ∈ Ls
  swap
  · rw [if_neg (not_not.2 c1), if_pos c2] at k1; cases k1
  rw [if_neg (not_not.2 c1), if_neg (not_not.2 c2)] at k1
  · obtain ⟨B, t2, h2, k2⟩ := st_bind_eq_ok k1
    obtain ⟨hB, rfl⟩ := st_lift_eq_ok h2
    obtain ⟨mel, t3, h3, k3⟩ := st_bind_eq_ok k2
    obtain ⟨hm, rfl⟩ := st_lift_eq_ok h3
    obtain ⟨x, t4, h4, k4⟩ := st_bind_eq_ok k3
    obtain ⟨hx, rfl⟩ := st_lift_eq_ok h4
    obtain ⟨_, t5, h5, k5⟩ := st_bind_eq_ok k4
    cases h5
    split_ifs at k5 with hz
    · cases k5
    · obtain ⟨y, t6, h6, k6⟩ := st_bind_eq_ok k5
      obtain ⟨hy, rfl⟩ := st_lift_eq_ok h6
      cases k6
      exact ⟨B, mel, x, y, c1, c2, hB, hm, hx, hz, hy, rfl⟩

theorem div_div_ne {x f : ℝ} (h : x / f ≠ 0) : x / (x / f) = f := by
  have hx : x ≠ 0 := fun hh => h (by rw [hh, zero_div])
  have hf : f ≠ 0 := fun hh => h (by rw [hh, div_zero])
  field_simp

theorem pyGet_ok_int {α : Type} {xs : List α} {z : Int} (hz : 0 ≤ z) {x : α} (h : pyGet xs z = .ok x) :
    xs[z.toNat]? = some x := by
  obtain ⟨n, rfl⟩ := Int.eq_ofNat_of_zero_le hz
  exact pyGet_ok_some h

/-- C37, energies: after a successful `ACM_Adapt` (that displays energies), the energy of the reference state,
relative to the lowest one or absolute as chosen, divided by the new scaling factor is the requested energy; and
a line has been printed for the reference angular momentum in which it is shown so (if enough states are
displayed). -/
theorem C37_energy {env : FEnv} {ham : OperatorSum} {a : XArgs} {s s' : FState} (hs : MemoOk env.x s.xs) {r : List LEig}
    {tr : Option LBlockArray} (h : ACM_Adapt env ham a s = (.ok (r, tr), s')) (hn : 0 < s.glb.eig_num)
    (hi : 1 ≤ s.glb.eig_idx) :
    ∃ x ∈ r, x.L = s.glb.eig_L ∧ ∃ E low, x.vals[(s.glb.eig_idx - 1).toNat]? = some E ∧
      (if s.glb.eig_rel then min_head (r.map LEig.vals) = .ok low else low = 0) ∧
      (E - low) / s'.glb.eig_sft = s.glb.eig_fit ∧
      (a.L_max ≤ 1000000 → s.glb.eig_idx ≤ s.glb.eig_num →
        ∃ es, Shown.eigs s.glb.eig_L es ∈ s'.out ∧ es[(s.glb.eig_idx - 1).toNat]? = some s.glb.eig_fit) := by
  obtain ⟨s1, s2, h1, h2, h3⟩ := adapt_split h
  have hg : s1.glb = s.glb ∨ s1.glb = s.glb.resetLap := by
    have := dig_glb env.x ham a s
    rw [h1] at this
    exact this
  obtain ⟨hleg, ho, _⟩ := dig_eig hs h1
  have g : s1.glb.eig_num = s.glb.eig_num ∧ s1.glb.eig_idx = s.glb.eig_idx ∧ s1.glb.eig_L = s.glb.eig_L ∧
      s1.glb.eig_fit = s.glb.eig_fit ∧ s1.glb.eig_rel = s.glb.eig_rel := by
    rcases hg with h | h <;> rw [h] <;> exact ⟨rfl, rfl, rfl, rfl, rfl⟩
  obtain ⟨g1, g2, g3, g4, g5⟩ := g
  unfold scaleEig at h2
  rw [st_bind_ok (x := FM.glb) (s := s1) (s' := s1) rfl, if_pos (by rw [g1]; exact hn), if_pos (by decide)] at h2
  obtain ⟨_, s3, h4, h2⟩ := st_bind_eq_ok h2
  obtain ⟨low, E, x, hxr, hlow, hxL, hE, hz, hs3⟩ := fitEig_ok h4
  rw [g2] at hE
  rw [g4] at hz hs3
  have hE' := pyGet_ok_int (by omega) hE
  obtain ⟨sh, s4, h5, h2⟩ := st_bind_eq_ok h2
  cases h2
  have hsft : s'.glb.eig_sft = (E - low) / s.glb.eig_fit := by
    have F : Frame fun s s' : FState => s'.glb.eig_sft = s.glb.eig_sft :=
      frame_glb (P := fun g g' => g'.eig_sft = g.eig_sft) (fun _ => rfl) (fun _ _ _ h1 h2 => h2.trans h1)
    have k1 := keeps_Show_Eigs F (r.map LEig.vals) (r.map LEig.L) s1.glb.eig_num none none s3
    rw [h5] at k1
    have k2 := keeps_scaleRest0 F (fun _ _ => rfl) env a r 1
      (fun _ => keeps_fitRat F (fun _ _ => rfl) fun _ _ => rfl) s2
    rw [h3] at k2
    exact k2.trans (k1.trans (by rw [hs3]))
  refine ⟨x, hxr, hxL.trans g3, E, low, hE', ?_, ?_, fun hmax hshow => ?_⟩
  · unfold eigenLow at hlow
    rw [g5] at hlow
    split_ifs at hlow ⊢ with hrel
    · exact hlow
    · injection hlow with hlow; exact hlow.symm
  · rw [hsft, div_div_ne hz]
  · have hL : ∀ L ∈ r.map LEig.L, 0 ≤ L ∧ L ≤ 1000000 := by
      intro L hL
      have := ((ho.2 L).1 hL).1
      have := hleg.2.2.1
      omega
    have hrne : r ≠ [] := fun hh => by rw [hh] at hxr; cases hxr
    have hlen : (r.map LEig.vals).length = (r.map LEig.L).length := by simp
    have hzip : (x.L, x.vals) ∈ (r.map LEig.L).zip (r.map LEig.vals) := by
      rw [List.zip_map']
      exact List.mem_map.2 ⟨x, hxr, rfl⟩
    have hpre : s2.out <+: s'.out := by
      have := keeps_scaleRest0 frame_out (fun _ _ => List.prefix_rfl) env a r 1
        (fun _ => keeps_fitRat frame_out (fun _ _ => List.prefix_rfl) fun _ _ => List.prefix_rfl) s2
      rw [h3] at this
      exact this
    have hs3g : s3.glb.eig_sft = (E - low) / s.glb.eig_fit ∧ s3.glb.eig_rel = s.glb.eig_rel := by
      rw [hs3]; exact ⟨rfl, g5⟩
    have htake : ∀ c : ℝ, c = low → (((x.vals.take s1.glb.eig_num.toNat).map fun val => (val - c) / s3.glb.eig_sft))[
        (s.glb.eig_idx - 1).toNat]? = some s.glb.eig_fit := by
      intro c hc
      rw [List.getElem?_map, List.getElem?_take, if_pos (by rw [g1]; omega), hE', hs3g.1, hc]
      show some ((E - low) / ((E - low) / s.glb.eig_fit)) = _
      rw [div_div_ne hz]
    unfold eigenLow at hlow
    rw [g5] at hlow
    by_cases hrel : s.glb.eig_rel = true
    · rw [if_pos hrel] at hlow
      have := C40_show hL (toshow := s1.glb.eig_num) (by omega) hlen (by simpa using hrne) (hs3g.2.trans hrel) hlow
      rw [h5] at this
      injection this with _ this
      refine ⟨_, hpre.subset ?_, htake low rfl⟩
      rw [this]
      refine List.mem_append_right _ (List.mem_cons_of_mem _ (List.mem_map.2 ⟨_, hzip, ?_⟩))
      rw [hxL.trans g3]
    · rw [if_neg hrel] at hlow
      injection hlow with hlow
      have := C40_show_absolute hL (toshow := s1.glb.eig_num) (by omega) hlen (by simpa using hrne)
        (hs3g.2.trans (by simpa using hrel))
      rw [h5] at this
      injection this with _ this
      refine ⟨_, hpre.subset ?_, htake 0 hlow⟩
      rw [this]
      refine List.mem_append_right _ (List.mem_cons_of_mem _ (List.mem_map.2 ⟨_, hzip, ?_⟩))
      rw [hxL.trans g3]
      simp only [sub_zero]

theorem designators_mem {A : LBlockArray} {t : Int} {f : MelFun} {sc : ℝ} {ent : List Int} :
    ∀ {l : List (List Int)} {s s' : FState}, showDesignators A t f sc l s = (.ok (), s') → ent ∈ l →
      ∃ s1 s2, showDesignator A t f sc ent s1 = (.ok (), s2) ∧ s1.glb = s.glb ∧ s2.out <+: s'.out
  | [], _, _, _, he => by cases he
  | e :: l, s, s', h, he => by
    rw [showDesignators] at h
    obtain ⟨_, t1, h1, h'⟩ := st_bind_eq_ok h
    have F : Frame fun s s' : FState => s'.glb = s.glb :=
      frame_glb (P := fun g g' => g' = g) (fun _ => rfl) (fun _ _ _ h1 h2 => h2.trans h1)
    rcases List.mem_cons.1 he with rfl | he
    · refine ⟨s, t1, h1, rfl, ?_⟩
      have := keeps_Designators frame_out A t f sc l t1
      rw [h'] at this
      exact this
    · obtain ⟨u1, u2, k1, k2, k3⟩ := designators_mem h' he
      have := keeps_Designator F A t f sc e s
      rw [h1] at this
      exact ⟨u1, u2, k1, k2.trans this, k3⟩

/-- What is printed for a designator of four integers whose states exist. -/
theorem showOne_prints {A : LBlockArray} {L1 L2 n1 n2 : Int} {f : MelFun} {sc : ℝ} {s s' : FState}
    (h : showOne A L1 L2 n1 n2 f sc s = (.ok (), s')) (h1 : L1 ∈ A.full_space.Lvals) (h2 : L2 ∈ A.full_space.Lvals)
    {B : Arr} (hB : A.get_block L2 L1 = .ok B) (p1 : 1 ≤ n1) (p2 : 1 ≤ n2) {mel x : ℝ}
    (hm : B.get (n2 - 1) (n1 - 1) = .ok mel) (hx : f s.glb.rat_TRopAM L1 L2 mel = .ok x) :
    Shown.mel L1 n1 L2 n2 (x / sc) ∈ s'.out := by
  have hr : (n1 ≤ B.cols) ∧ n2 ≤ B.rows := by
    unfold Arr.get at hm
    simp only [] at hm
    rw [if_neg (show ¬ n2 - 1 < 0 by omega), if_neg (show ¬ n1 - 1 < 0 by omega)] at hm
    split_ifs at hm with hc
    omega
  unfold showOne at h
  rw [if_pos ⟨h1, h2⟩, hB, st_lift_ok, if_pos ⟨⟨by omega, hr.1⟩, by omega, hr.2⟩] at h
  have hv : melValue f sc B L1 L2 n1 n2 s = (.ok (x / sc), s) := by
    unfold melValue
    rw [st_bind_ok (x := FM.glb) (s := s) (s' := s) rfl, hm, st_lift_ok, hx, st_lift_ok]
    rfl
  rw [st_bind_ok hv, print_add] at h
  injection h with _ h
  rw [← h]
  exact List.mem_append_right _ (List.mem_singleton.2 rfl)

/-- C37, transitions: after a successful `ACM_Adapt` (with transitions listed), the matrix element of the reference
transition has a rate whose absolute value, divided by the new scaling factor of the rates, is the requested
rate; the scaling factor of the amplitudes is the configured function of that of the rates; and if the reference transition
is listed it is displayed with that value. -/
theorem C37_transition {env : FEnv} {ham : OperatorSum} {a : XArgs} {s s' : FState} {r : List LEig}
    {tr : Option LBlockArray} (h : ACM_Adapt env ham a s = (.ok (r, tr), s'))
    (hl : s.glb.rat_lst ≠ [] ∨ s.glb.amp_lst ≠ []) :
    ∃ R B mel x, tr = some R ∧ s.glb.rat_L1 ∈ r.map LEig.L ∧ s.glb.rat_L2 ∈ r.map LEig.L ∧
      R.get_block s.glb.rat_L2 s.glb.rat_L1 = .ok B ∧ B.get (s.glb.rat_2dx - 1) (s.glb.rat_1dx - 1) = .ok mel ∧
      s.glb.rat_fun s.glb.rat_TRopAM s.glb.rat_L1 s.glb.rat_L2 mel = .ok x ∧
      |x| / s'.glb.rat_sft = s.glb.rat_fit ∧ s.glb.amp_sft_fun s'.glb.rat_sft = .ok s'.glb.amp_sft ∧
      ([s.glb.rat_L1, s.glb.rat_L2, s.glb.rat_1dx, s.glb.rat_2dx] ∈ s.glb.rat_lst → 1 ≤ s.glb.rat_1dx →
        1 ≤ s.glb.rat_2dx → 0 ≤ s.glb.rat_L1 → 0 ≤ s.glb.rat_L2 →
        Shown.mel s.glb.rat_L1 s.glb.rat_1dx s.glb.rat_L2 s.glb.rat_2dx (x / s'.glb.rat_sft) ∈ s'.out) := by
  obtain ⟨s1, s2, h1, h2, h3⟩ := adapt_split h
  -- up to here, only eig_sft and nu_lap may have changed
  let P : Glb → Glb → Prop := fun g g' => { g' with eig_sft := g.eig_sft, nu_lap := g.nu_lap } = g
  have hrefl : ∀ g, P g g := fun g => rfl
  have htrans : ∀ g g' g'', P g g' → P g' g'' → P g g'' := by
    intro g g' g'' h1 h2
    show _ = g
    have h1' : { g' with eig_sft := g.eig_sft, nu_lap := g.nu_lap } = g := h1
    have h2' : { g'' with eig_sft := g'.eig_sft, nu_lap := g'.nu_lap } = g' := h2
    rw [← h1', ← h2']
  have F : Frame fun s s' : FState => P s.glb s'.glb := frame_glb hrefl htrans
  have hg1 : P s.glb s1.glb := by
    have := keeps_Dig F (fun _ _ => rfl) env.x ham a s
    rw [h1] at this
    exact this
  have hg2 : P s1.glb s2.glb := by
    have := keeps_scaleEig F r 1 (fun _ => keeps_fitEig F (fun _ _ => rfl) r) s1
    rw [h2] at this
    exact this
  have hg := htrans _ _ _ hg1 hg2
  have fld : ∀ {α : Type} (p : Glb → α), (∀ g x y, p { g with eig_sft := x, nu_lap := y } = p g) → p s2.glb = p s.glb := by
    intro α p hp
    have : P s.glb s2.glb := hg
    have h' : { s2.glb with eig_sft := s.glb.eig_sft, nu_lap := s.glb.nu_lap } = s.glb := this
    rw [← hp s2.glb s.glb.eig_sft s.glb.nu_lap, h']
  unfold scaleRest at h3
  rw [st_bind_ok (x := FM.glb) (s := s2) (s' := s2) rfl, if_pos (by
    rw [fld Glb.rat_lst fun _ _ _ => rfl, fld Glb.amp_lst fun _ _ _ => rfl]
    simpa [List.length_pos_iff] using hl)] at h3
  obtain ⟨R, s5, h4, h3⟩ := st_bind_eq_ok h3
  cases h3
  unfold scaleTrans at h4
  rw [st_bind_ok (x := FM.glb) (s := s2) (s' := s2) rfl] at h4
  obtain ⟨R', s3, h5, h4⟩ := st_bind_eq_ok h4
  rw [if_pos (by decide)] at h4
  obtain ⟨_, s4, h6, h4⟩ := st_bind_eq_ok h4
  obtain ⟨_, s6, h7, h4⟩ := st_bind_eq_ok h4
  cases h4
  have hg3 : P s2.glb s3.glb := by
    have := keeps_Amp F (fun _ _ => rfl) env s2.glb.rat_TRop (r.map LEig.basis) a (r.map LEig.L) s2
    rw [h5] at this
    exact this
  have hg' := htrans _ _ _ hg hg3
  have fld3 : ∀ {α : Type} (p : Glb → α), (∀ g x y, p { g with eig_sft := x, nu_lap := y } = p g) → p s3.glb = p s.glb := by
    intro α p hp
    have h' : { s3.glb with eig_sft := s.glb.eig_sft, nu_lap := s.glb.nu_lap } = s.glb := hg'
    rw [← hp s3.glb s.glb.eig_sft s.glb.nu_lap, h']
  obtain ⟨B, mel, x, y, k1, k2, k3, k4, k5, k6, k7, k8⟩ := fitRat_ok h6
  rw [fld3 Glb.rat_L1 fun _ _ _ => rfl] at k1 k3 k5
  rw [fld3 Glb.rat_L2 fun _ _ _ => rfl] at k2 k3 k5
  rw [fld3 Glb.rat_1dx fun _ _ _ => rfl, fld3 Glb.rat_2dx fun _ _ _ => rfl] at k4
  rw [fld3 Glb.rat_fun fun _ _ _ => rfl, fld3 Glb.rat_TRopAM fun _ _ _ => rfl] at k5
  rw [fld3 Glb.rat_fit fun _ _ _ => rfl] at k6 k7 k8
  rw [fld3 Glb.amp_sft_fun fun _ _ _ => rfl] at k7
  -- displaying changes nothing
  have E : Frame fun s s' : FState => s'.glb = s.glb :=
    frame_glb (P := fun g g' => g' = g) (fun _ => rfl) (fun _ _ _ h1 h2 => h2.trans h1)
  have hgs : s'.glb = s4.glb := by
    have := keeps_RatsAmps E R s4
    rw [h7] at this
    exact this
  have hrat : s'.glb.rat_sft = |x| / s.glb.rat_fit := by rw [hgs, k8]
  have hamp : s'.glb.amp_sft = y := by rw [hgs, k8]
  refine ⟨R, B, mel, x, rfl, k1, k2, k3, k4, k5, ?_, ?_, fun hmem i1 i2 i3 i4 => ?_⟩
  · rw [hrat, div_div_ne k6]
  · rw [hrat, hamp]; exact k7
  · have g4 : ∀ {α : Type} (p : Glb → α), (∀ g x y, p { g with rat_sft := x, amp_sft := y } = p g) →
        p s4.glb = p s3.glb := by
      intro α p hp
      rw [k8]
      exact hp s3.glb _ _
    unfold showRatsAmps at h7
    rw [st_bind_ok (x := FM.glb) (s := s4) (s' := s4) rfl] at h7
    obtain ⟨_, s7, h8, h7⟩ := st_bind_eq_ok h7
    have hlst : s4.glb.rat_lst = s.glb.rat_lst :=
      (g4 Glb.rat_lst fun _ _ _ => rfl).trans (fld3 Glb.rat_lst fun _ _ _ => rfl)
    have hfun : s4.glb.rat_fun = s.glb.rat_fun :=
      (g4 Glb.rat_fun fun _ _ _ => rfl).trans (fld3 Glb.rat_fun fun _ _ _ => rfl)
    have hAM : s4.glb.rat_TRopAM = s.glb.rat_TRopAM :=
      (g4 Glb.rat_TRopAM fun _ _ _ => rfl).trans (fld3 Glb.rat_TRopAM fun _ _ _ => rfl)
    have hpre : s7.out <+: s'.out := by
      have := keeps_bind frame_out (keeps_glb frame_out) (fun g => keeps_Show_Mels frame_out R g.amp_lst g.amp_num
        g.amp_fun g.amp_sft) s7
      rw [h7] at this
      exact this
    unfold Show_Mels at h8
    have hne : ¬ s4.glb.rat_lst.length = 0 := by
      rw [hlst]
      intro hh
      rw [List.length_eq_zero_iff] at hh
      rw [hh] at hmem
      cases hmem
    rw [if_neg hne] at h8
    split_ifs at h8 with hrow
    · cases h8
    · obtain ⟨_, s8, h9, h8⟩ := st_bind_eq_ok h8
      have hg8 : s8.glb = s4.glb := by
        have := keeps_print E (.melHead s4.glb.rat_sft) s4
        rw [h9] at this
        exact this
      rw [← hlst] at hmem
      obtain ⟨u1, u2, w1, w2, w3⟩ := designators_mem h8 hmem
      rw [showDesignator, if_neg (by omega)] at w1
      -- the angular momenta belong to the space of the matrix
      have hLs : R.full_space.Lvals = r.map LEig.L := by
        unfold AmpXspeig at h5
        obtain ⟨_, t1, v1, q1⟩ := st_bind_eq_ok h5
        obtain ⟨S, t2, v2, q2⟩ := st_bind_eq_ok q1
        obtain ⟨vS, _⟩ := st_lift_eq_ok v2
        obtain ⟨l0, t3, v3, q3⟩ := st_bind_eq_ok q2
        obtain ⟨l1, t4, v4, q4⟩ := st_bind_eq_ok q3
        obtain ⟨T, t5, v5, q5⟩ := st_bind_eq_ok q4
        obtain ⟨h5, _⟩ := st_lift_eq_ok q5
        rw [ampBlocks_space h5, (new_iff.1 vS).2.2]
      have := showOne_prints w1 (by rw [hLs]; exact k1) (by rw [hLs]; exact k2) k3 i1 i2 k4 (by
        rw [w2, hg8, hAM, hfun]; exact k5)
      have hsc : s'.glb.rat_sft = s4.glb.rat_sft := by rw [hgs]
      rw [hsc]
      exact hpre.subset (w3.subset this)

/-! ### A successful fit -/

/-- The matrix of the constant 1, on subspaces of the range with two states. -/
theorem one_22 (env : XEnv) {L L' : Int} (h : LegalRanges ⟨1, 5 / 2, 0, 0, 2, 2, L, L'⟩) :
    ∃ n : ℕ, allMat env ⟨1, 5 / 2, 0, 0, 2, 2, L, L'⟩ [(fun _ => 1, [])] lambda_acm_fun = .ok ((Arr.eye n).smul 1) := by
  obtain ⟨n, _, hT⟩ := C29_identity h env lambda_acm_fun (states_ok h) (fun _ => 0) (by
      rintro ⟨v, b, K⟩ hs
      have hv := (mem_labelsV.1 hs).1
      have : v = 2 := by
        have e1 : (⟨1, 5 / 2, 0, 0, 2, 2, L, L'⟩ : XArgs).v_min = 2 := rfl
        have e2 : (⟨1, 5 / 2, 0, 0, 2, 2, L, L'⟩ : XArgs).v_max = 2 := rfl
        rw [e1, e2] at hv
        omega
      subst this
      exact show lambda_acm_fun 2 = .ok 0 by decide +kernel) (by
      intro s _
      show (0 : ℝ) < 5 / 2 + ((0 : ℤ) : ℝ)
      norm_num)
  refine ⟨n, (allMat_iff h).2 (.inr ⟨_, [], Arr.eye n, [], rfl, ?_, .nil, ?_⟩)⟩
  · unfold prodMat
    rw [check_ok h, py_bind_ok, show segsOf [] [] [] = [.twin [] []] from rfl]
    simp only [segMat, segsMat, hT, py_bind_ok]
    rfl
  · simp only [List.zipWith_nil_left, List.foldl_nil]
    unfold scaleTerm
    rw [if_pos ⟨1, rfl⟩]

/-- The matrix of the constant 1, on each subspace of the range with two states. -/
theorem one_at22 (env : XEnv) {L : Int} (hL : 0 ≤ L) :
    ∃ n : ℕ, allMat env (arg22.at L) [(fun _ => 1, [])] lambda_acm_fun = .ok ((Arr.eye n).smul 1) :=
  one_22 env (legal_at arg22_legal hL)

/-- All eigenvalues of the unit matrix are 1. -/
theorem eig_one {la : LinAlg} (hla : LinAlgOk la) {n : ℕ} {v : ℕ → ℝ} {P : Arr}
    (h : Eigenfiddle la ((Arr.eye n).smul 1) = .ok (v, P)) : ∀ i < n, v i = 1 := by
  obtain ⟨v', P', e1, _, _, e0, e2, _⟩ := C70_eigen la hla n ((Arr.eye n).smul 1) rfl rfl
  rw [h] at e1
  injection e1 with e1
  injection e1 with e1 e3
  subst e1 e3
  intro i hi
  have hz : mat n ((Arr.eye n).smul 1) = 1 := by
    ext a b
    simp only [mat, Arr.smul, Arr.eye, Arr.of, Matrix.of_apply, Matrix.one_apply, Fin.ext_iff]
    simp
  rw [hz, Matrix.transpose_one, ← two_smul ℝ (1 : Matrix (Fin n) (Fin n) ℝ), smul_smul, div_mul_cancel₀ _ two_ne_zero,
    one_smul, mul_one, e0] at e2
  have := congrFun (congrFun e2 ⟨i, hi⟩) ⟨i, hi⟩
  rw [Matrix.diagonal_apply_eq, Matrix.one_apply_eq] at this
  exact this.symm

/-- Settings under which a fit succeeds: energies are absolute, and the transition listed is that of the state
with L = 2 to itself, for the operator 1. -/
noncomputable def fitGlb : Glb :=
  { Glb.init with eig_rel := false, rat_L2 := 2, rat_TRop := [(fun _ => 1, [])], rat_lst := [[2, 2, 1, 1]] }

theorem Ls22 : arg22.Ls = [2, 4] := by
  unfold XArgs.Ls
  have hL : ∀ L : Int, arg22.occ L = decide (0 < (labelsV 2 2 L L).length) := fun _ => rfl
  rw [List.filter_congr (fun L _ => hL L)]
  decide +kernel

/-- The hypotheses of C37 are met: a call of `ACM_Adapt` that succeeds. -/
theorem adapt_succeeds {env : FEnv} (hla : LinAlgOk env.x.la) :
    let s : FState := ⟨fitGlb, fun _ => none, fun _ _ => none, fun _ => none, []⟩
    MemoOk env.x s.xs ∧ ∃ r tr s', ACM_Adapt env [(fun _ => 1, [])] arg22 s = (.ok (r, tr), s') := by
  intro s
  have hs : MemoOk env.x s.xs := memoOk_start env.x lambda_acm_fun
  refine ⟨hs, ?_⟩
  obtain ⟨r, s1, hd⟩ := digTame_total (ts := [(fun _ => 1, [])]) arg22_legal _ (range_nonneg arg22_legal) s hs
    (fun L hL => by
      obtain ⟨n, h⟩ := one_at22 env.x (range_nonneg arg22_legal L hL)
      exact ⟨_, h⟩)
  have hdig : DigXspace env.x [(fun _ => 1, [])] arg22 s = (.ok r, s1) := by
    unfold DigXspace
    rw [check_ok arg22_legal, st_lift_ok, if_pos (show Op_Tame [(fun _ => 1, [])] = true from rfl)]
    exact hd
  have hg : s1.glb = fitGlb := by
    have := dig_glb env.x [(fun _ => 1, [])] arg22 s
    rw [hdig] at this
    rcases this with h | h <;> exact h
  obtain ⟨ho, hx⟩ := C32_partial (ham := [(fun _ => 1, [])]) rfl arg22_legal hs hdig
  have hok := (dig_eig hs hdig).2.2.1
  have hLs : r.map LEig.L = [2, 4] := by rw [occupied_eq arg22_legal ho, Ls22]
  have hone : ∀ x ∈ r, ∀ e ∈ x.vals, e = 1 := by
    intro x hxr e he
    obtain ⟨_, M, v, e1, e2, e3⟩ := hx x hxr
    have hL : 0 ≤ x.L := by
      have : x.L ∈ r.map LEig.L := List.mem_map_of_mem hxr
      rw [hLs] at this
      simp at this
      omega
    obtain ⟨n, hn⟩ := one_at22 env.x hL
    rw [rep_eq (legal_at arg22_legal hL) hs] at e1
    replace e1 : allMat env.x (arg22.at x.L) [(fun _ => 1, [])] lambda_acm_fun = .ok M := e1
    rw [hn] at e1
    injection e1 with e1
    subst e1
    rw [e3] at he
    obtain ⟨i, hi, rfl⟩ := List.mem_map.1 he
    exact eig_one hla e2 i (List.mem_range.1 hi)
  have h2 : dimXspace 0 0 2 2 2 none = .ok 1 := by decide +kernel
  -- the two subspaces
  obtain ⟨x, y, rfl⟩ : ∃ x y, r = [x, y] := by
    have : r.length = 2 := by rw [← List.length_map (f := LEig.L), hLs]; rfl
    exact List.length_eq_two.1 this
  · have hxL : x.L = 2 := by simp at hLs; exact hLs.1
    have hyL : y.L = 4 := by simp at hLs; exact hLs.2
    have hlen : x.vals.length = 1 := by
      have := (hx x (by simp)).1
      rw [hxL] at this
      replace this : dimXspace 0 0 2 2 2 none = .ok (x.vals.length : Int) := this
      rw [h2] at this
      injection this with this
      omega
    obtain ⟨e, he⟩ := List.length_eq_one_iff.1 hlen
    have he1 : e = 1 := hone x (by simp) e (by rw [he]; simp)
    subst he1
    have hchk : refChecks 1 1 arg22 fitGlb = .ok () := by
      have : refCheck arg22 2 1 = .ok () := by
        unfold refCheck
        rw [if_neg (by unfold arg22; simp)]
        show (dimXspace 0 0 2 2 2 none >>= fun d => if 1 > d then throw .valueError else pure () : Py Unit) = _
        rw [h2]
        rfl
      unfold refChecks
      rw [if_pos (by unfold fitGlb Glb.init; decide), if_pos (by unfold fitGlb; simp)]
      show refCheck arg22 2 1 >>= _ = _
      rw [this]
      show refCheck arg22 2 1 >>= _ = _
      rw [this]
      exact this
    have hfit : fitEig [x, y] s1 = (.ok (), ⟨{ fitGlb with eig_sft := (1 - 0) / 6 }, s1.piMemo, s1.pipiMemo,
        s1.piqpiMemo, s1.out⟩) := by
      unfold fitEig
      rw [st_bind_ok (x := FM.glb) (s := s1) (s' := s1) rfl, hg]
      rw [show eigenLow fitGlb ([x, y].map LEig.vals) = .ok 0 from rfl, st_lift_ok]
      have : eigenAt [x, y] fitGlb.eig_L = .ok [1] := by
        unfold eigenAt
        rw [List.find?_cons_of_pos (by rw [hxL]; rfl), ← he]
        rfl
      rw [this, st_lift_ok]
      rw [show pyGet [(1 : ℝ)] (fitGlb.eig_idx - 1) = .ok 1 from rfl, st_lift_ok]
      rw [st_bind_ok (x := FM.setGlb _) (s' := ⟨{ fitGlb with eig_sft := (1 - 0) / 6 }, s1.piMemo, s1.pipiMemo,
        s1.piqpiMemo, s1.out⟩) (a := ()) (by unfold FM.setGlb; rw [hg]; rfl)]
      rw [if_neg (by show ¬ (1 - 0 : ℝ) / 6 = 0; norm_num)]
      rfl
    obtain ⟨s2, hE, hg2, hok2⟩ : ∃ s2, scaleEig 1 [x, y] s1 = (.ok (), s2) ∧
        s2.glb = { fitGlb with eig_sft := (1 - 0) / 6 } ∧ MemoOk env.x s2.xs := by
      unfold scaleEig
      rw [st_bind_ok (x := FM.glb) (s := s1) (s' := s1) rfl, if_pos (by rw [hg]; unfold fitGlb Glb.init; decide),
        if_pos (by decide), st_bind_ok hfit]
      have hn : s1.glb.eig_num = 4 := by rw [hg]; rfl
      rw [hn, st_bind_ok (C40_show_absolute (by rw [hLs]; simp) (by norm_num) (by simp) (by simp) rfl)]
      refine ⟨_, rfl, rfl, ?_⟩
      have hl : s1.glb.lam_fun = lambda_acm_fun := by rw [hg]; rfl
      refine ⟨fun b m hb => ?_, fun L b m hb => ?_, fun b m hb => ?_⟩
      · have := hok.pi b m hb; rw [show s1.xs.lam_fun = lambda_acm_fun from hl] at this; exact this
      · have := hok.pipi L b m hb; rw [show s1.xs.lam_fun = lambda_acm_fun from hl] at this; exact this
      · have := hok.piqpi b m hb; rw [show s1.xs.lam_fun = lambda_acm_fun from hl] at this; exact this
    have hdim : ∀ z ∈ [x, y], z.basis.cols = z.basis.rows ∧
        dimXspace 0 0 2 2 z.L none = .ok (z.basis.rows : Int) := by
      intro z hz
      obtain ⟨e0, M, v, e1, e2, e3⟩ := hx z hz
      have hL : 0 ≤ z.L := by
        have : z.L ∈ [x, y].map LEig.L := List.mem_map_of_mem hz
        rw [hLs] at this
        simp at this
        omega
      rw [rep_eq (legal_at arg22_legal hL) hs] at e1
      have hsq := allMat_square (legal_at arg22_legal hL) e1
      obtain ⟨v', P', q1, q2, q3, _⟩ := C70_eigen env.x.la hla _ M hsq.1 hsq.2.1
      rw [e2] at q1
      injection q1 with q1
      injection q1 with _ q1
      subst q1
      rw [e3, List.length_map, List.length_range, hsq.1] at e0
      exact ⟨q3.trans q2.symm, by rw [q2]; exact e0⟩
    obtain ⟨n, hTm⟩ : ∃ n : ℕ, allMat env.x arg22 [(fun _ => 1, [])] lambda_acm_fun = .ok ((Arr.eye n).smul 1) :=
      one_22 env.x arg22_legal
    have hT : (RepXspace env.x [(fun _ => 1, [])] arg22 s2.xs).1 = .ok ((Arr.eye n).smul 1) := by
      rw [rep_eq arg22_legal hok2, show s2.xs.lam_fun = lambda_acm_fun by
        show s2.glb.lam_fun = _
        rw [hg2]; rfl]
      exact hTm
    obtain ⟨R, hR, hRS, hrows, hcols, hblk⟩ := C73_blocks hla (op := [(fun _ => 1, [])]) arg22_legal ho (l0 := 2) (l1 := 4)
      (by rw [hLs]; rfl) (by rw [hLs]; rfl) (bases := [x, y].map LEig.basis)
      (.cons (hdim x (by simp)) (.cons (hdim y (by simp)) .nil)) hok2 hT
    obtain ⟨B, hB, G, hG, hG1, hG2, hG3⟩ := hblk x.basis 2 x.basis 2 (by
      rw [hLs]; simp) (by rw [hLs]; simp)
    have hP : x.basis.rows = 1 ∧ x.basis.cols = 1 := by
      obtain ⟨q1, q2⟩ := hdim x (by simp)
      rw [hxL, h2] at q2
      injection q2 with q2
      omega
    have hGr : G.rows = 1 := by rw [hG1]; exact (hla.inv_shape 1 x.basis hP.1 hP.2).1
    have hGc : G.cols = 1 := by rw [hG2]; exact hP.2
    have hn : arg22.dim = n := by
      have := (allMat_square arg22_legal hTm).1
      exact this.symm
    have hmel : G.get 0 0 = .ok 1 := by
      have hg : G.get 0 0 = .ok (G.e 0 0) := by
        unfold Arr.get
        simp [hGr, hGc]
      rw [hg]
      refine congrArg Except.ok ?_
      have hinv := hla.inv_shape 1 x.basis hP.1 hP.2
      have hBB : B.cols = 1 ∧ B.e 0 0 = 1 := by
        unfold LBlockArray.get_block at hB hG
        obtain ⟨b, h1, hB⟩ := py_bind_eq_ok hB
        obtain ⟨c, h2, hB⟩ := py_bind_eq_ok hB
        dsimp only at h1 h2
        rw [h1] at h2 hG
        injection h2 with h2
        subst h2
        simp only [py_bind_ok] at hG
        injection hB with hB
        injection hG with hG
        subst hB hG
        unfold Arr.slice Arr.of at hGr hGc ⊢
        dsimp only at hGr hGc ⊢
        have e1 : ((Arr.eye n).smul 1).rows = n := rfl
        have e2 : ((Arr.eye n).smul 1).cols = n := rfl
        rw [hrows, e1] at hGr
        rw [hcols, e2] at hGc
        rw [e1, e2]
        have hb : sliceBound n b.2 ≤ n := by
          unfold sliceBound
          split_ifs <;> omega
        refine ⟨hGc, ?_⟩
        rw [if_pos (by omega)]
        unfold Arr.smul Arr.eye Arr.of
        dsimp only
        rw [if_pos (by omega), if_pos (by omega)]
        simp
      rw [hG3 0 0 (by rw [← hG1, hGr]; norm_num) (by rw [← hG2, hGc]; norm_num)]
      have hu : x.basis.e 0 0 * (env.x.la.inv x.basis).e 0 0 = 1 := by
        obtain ⟨_, M, v, e1, e2, e3⟩ := hx x (by simp)
        have hL : 0 ≤ x.L := by rw [hxL]; norm_num
        rw [rep_eq (legal_at arg22_legal hL) hs] at e1
        have hsq := allMat_square (legal_at arg22_legal hL) e1
        obtain ⟨v', P', q1, q2, q3, q4, _⟩ := C70_eigen env.x.la hla _ M hsq.1 hsq.2.1
        rw [e2] at q1
        injection q1 with q1
        injection q1 with _ q1
        subst q1
        have q5 : (arg22.at x.L).dim = 1 := q2.symm.trans hP.1
        rw [q5] at q4
        have := hla.inv_inverse 1 x.basis hP.1 hP.2 (IsUnit.of_mul_eq_one_right _ q4)
        have := congrFun (congrFun this 0) 0
        simpa [mat, Matrix.mul_apply] using this
      unfold Arr.mul Arr.of
      dsimp only
      rw [hinv.1, hinv.2, hBB.1, hP.2]
      simp [hBB.2]
      rw [mul_comm]
      exact hu
    have hspace : R.full_space.Lvals = [2, 4] := by rw [(new_iff.1 hRS).2.2, hLs]
    have hmat : R.mat.rows ≠ 0 := by
      rw [hrows]
      show n ≠ 0
      rw [← hn]
      show arg22.states.length * arg22.rdim ≠ 0
      rw [arg22_states]
      decide
    obtain ⟨s3, hA, hg3⟩ : ∃ s3, AmpXspeig env [(fun _ => 1, [])] ([x, y].map LEig.basis) arg22 ([x, y].map LEig.L) s2 = (.ok R, s3) ∧
        s3.glb = s2.glb.resetLap := by
      have := (amp_eq (op := [(fun _ => 1, [])]) arg22_legal ho (l0 := 2) (l1 := 4) (by rw [hLs]; rfl) (by rw [hLs]; rfl) hok2
        ([x, y].map LEig.basis)).2.1
      rcases hq : AmpXspeig env [(fun _ => 1, [])] ([x, y].map LEig.basis) arg22 ([x, y].map LEig.L) s2 with ⟨q1, q2⟩
      rw [hq] at hR this
      exact ⟨q2, by rw [show q1 = .ok R from hR], this⟩
    have hg3' : s3.glb = { fitGlb with eig_sft := (1 - 0) / 6 } := by rw [hg3, hg2]; rfl
    let g4 : Glb := { fitGlb with eig_sft := (1 - 0) / 6, rat_sft := |1| / 100, amp_sft := Real.sqrt (|1| / 100) }
    have hrat : quad_rat_fun 2 2 2 1 = .ok 1 := by
      unfold quad_rat_fun
      rw [show dimSO3 2 = .ok 5 from rfl]
      refine congrArg Except.ok ?_
      norm_num
    have hF : fitRat R [2, 4] s3 = (.ok (), ⟨g4, s3.piMemo, s3.pipiMemo, s3.piqpiMemo, s3.out⟩) := by
      unfold fitRat
      rw [st_bind_ok (x := FM.glb) (s := s3) (s' := s3) rfl, hg3']
      rw [if_neg (by unfold fitGlb Glb.init; simp), if_neg (by unfold fitGlb; simp)]
      rw [show R.get_block fitGlb.rat_L2 fitGlb.rat_L1 = .ok G from hG, st_lift_ok]
      rw [show G.get (fitGlb.rat_2dx - 1) (fitGlb.rat_1dx - 1) = .ok 1 from hmel, st_lift_ok]
      rw [show fitGlb.rat_fun fitGlb.rat_TRopAM fitGlb.rat_L1 fitGlb.rat_L2 1 = .ok 1 from hrat, st_lift_ok]
      rw [st_bind_ok (x := FM.setGlb _) (s' := ⟨{ fitGlb with eig_sft := (1 - 0) / 6, rat_sft := |1| / 100 }, s3.piMemo,
        s3.pipiMemo, s3.piqpiMemo, s3.out⟩) (a := ()) (by unfold FM.setGlb; rw [hg3']; rfl)]
      rw [if_neg (by show ¬ |(1 : ℝ)| / 100 = 0; norm_num)]
      rw [show fitGlb.amp_sft_fun (|1| / fitGlb.rat_fit) = .ok (Real.sqrt (|1| / 100)) by
        show pySqrt (|1| / 100) = _
        unfold pySqrt
        rw [if_neg (by norm_num)]
        rfl, st_lift_ok]
      rfl
    have hD : ∃ s5, showRatsAmps R ⟨g4, s3.piMemo, s3.pipiMemo, s3.piqpiMemo, s3.out⟩ = (.ok (), s5) := by
      unfold showRatsAmps
      rw [st_bind_ok (x := FM.glb) rfl]
      have : ∀ u : FState, u.glb = g4 → ∃ u', Show_Mels R [[2, 2, 1, 1]] 4 quad_rat_fun (|1| / 100) u
          = (.ok (), u') ∧ u'.glb = g4 := by
        intro u hu
        unfold Show_Mels
        rw [if_neg (by simp), if_neg hmat, st_bind_ok (print_add _ u)]
        have hv : melValue quad_rat_fun (|1| / 100) G 2 2 1 1 (u.add [.melHead (|1| / 100)]) =
            (.ok (1 / (|1| / 100)), u.add [.melHead (|1| / 100)]) := by
          unfold melValue
          rw [st_bind_ok (x := FM.glb) rfl, show G.get (1 - 1) (1 - 1) = .ok 1 from hmel, st_lift_ok,
            show (u.add [.melHead (|1| / 100)]).glb.rat_TRopAM = 2 by show u.glb.rat_TRopAM = 2; rw [hu]; rfl, hrat, st_lift_ok]
          rfl
        rw [showDesignators, showDesignator, if_neg (by simp), showOne, if_pos (by rw [hspace]; simp), hG]
        rw [st_bind_assoc, st_lift_ok, if_pos (by rw [hGr, hGc]; simp), st_bind_assoc, st_bind_ok hv, st_bind_ok (print_add _ _)]
        exact ⟨_, rfl, hu⟩
      obtain ⟨u, hu, hgu⟩ := this ⟨g4, s3.piMemo, s3.pipiMemo, s3.piqpiMemo, s3.out⟩ rfl
      refine ⟨u, ?_⟩
      show (Show_Mels R [[2, 2, 1, 1]] 4 quad_rat_fun (|1| / 100) >>= fun _ => FM.glb >>= fun g =>
        Show_Mels R g.amp_lst g.amp_num g.amp_fun g.amp_sft) _ = _
      rw [st_bind_ok hu, st_bind_ok (x := FM.glb) (s := u) (s' := u) rfl, hgu]
      rfl
    unfold ACM_Adapt ACM_ScaleOrAdapt
    rw [require_nonnegint_ok (by decide), st_lift_ok, st_lift_ok, check_ok arg22_legal, st_lift_ok,
      st_bind_ok (x := FM.glb) (s := s) (s' := s) rfl, hchk, st_lift_ok, st_bind_ok hdig, st_bind_ok hE]
    obtain ⟨s5, hD⟩ := hD
    refine ⟨[x, y], some R, s5, ?_⟩
    unfold scaleRest
    rw [st_bind_ok (x := FM.glb) (s := s2) (s' := s2) rfl, hg2, if_pos (by unfold fitGlb; simp)]
    unfold scaleTrans
    rw [st_bind_assoc, st_bind_ok (x := FM.glb) (s := s2) (s' := s2) rfl, show s2.glb.rat_TRop = [(fun _ => 1, [])] by rw [hg2]; rfl,
      st_bind_assoc, st_bind_ok hA,
      if_pos (by decide), st_bind_assoc, hLs, st_bind_ok hF, st_bind_assoc, st_bind_ok hD]
    rfl

/-- So C37 applies to some call: both its parts have their hypotheses met. -/
example : ∃ (env : FEnv) (ham : OperatorSum) (a : XArgs) (s s' : FState) (r : List LEig) (tr : Option LBlockArray),
    LinAlgOk env.x.la ∧ MemoOk env.x s.xs ∧ ACM_Adapt env ham a s = (.ok (r, tr), s') ∧ 0 < s.glb.eig_num ∧
      1 ≤ s.glb.eig_idx ∧ s.glb.rat_lst ≠ [] ∧ a.L_max ≤ 1000000 ∧ s.glb.eig_idx ≤ s.glb.eig_num ∧
      [s.glb.rat_L1, s.glb.rat_L2, s.glb.rat_1dx, s.glb.rat_2dx] ∈ s.glb.rat_lst := by
  obtain ⟨la, hla⟩ := linAlg_exists
  obtain ⟨h1, r, tr, s', h2⟩ := adapt_succeeds (env := ⟨⟨fun _ _ _ => .error .valueError, la⟩, fun _ _ => 0⟩) hla
  exact ⟨_, _, _, _, s', r, tr, hla, h1, h2, by show (0 : Int) < 4; decide, by show (1 : Int) ≤ 1; decide,
    by unfold fitGlb; simp, by decide, by show (1 : Int) ≤ 4; decide, List.mem_singleton.2 rfl⟩

end Acm.Props
