import Verif.Lemmas.Pair
import Verif.Props.Affine
import Verif.Props.Repeat
import Verif.Spec.Rescale

/-!
# C110: what the display of `ACM_Adapt` does not depend on
-/

namespace Acm.Props

open Acm.Spec

/-- The elements of two arrays give `κ` times the rate and, if amplitudes are displayed, `μ` times the amplitude. -/
def MelTimes (g : Glb) (κ μ : ℝ) (A A' : LBlockArray) : Prop :=
  A'.full_space = A.full_space ∧ A'.mat.rows = A.mat.rows ∧ ∀ L1 ∈ A.full_space.Lvals, ∀ L2 ∈ A.full_space.Lvals,
    ∃ B B', A.get_block L2 L1 = .ok B ∧ A'.get_block L2 L1 = .ok B' ∧ B'.rows = B.rows ∧ B'.cols = B.cols ∧
      ∀ i j, i < B.rows → j < B.cols →
        g.rat_fun g.rat_TRopAM L1 L2 (B'.e i j) = (g.rat_fun g.rat_TRopAM L1 L2 (B.e i j)).map (κ * ·) ∧
        (g.amp_lst = [] ∨ g.amp_fun g.rat_TRopAM L1 L2 (B'.e i j) = (g.amp_fun g.rat_TRopAM L1 L2 (B.e i j)).map (μ * ·))

theorem map_div {κ : ℝ} (hκ : κ ≠ 0) (x : Py ℝ) (sc : ℝ) : x.map (· / sc) = (x.map (κ * ·)).map (· / (κ * sc)) := by
  cases x with
  | error e => rfl
  | ok v => exact congrArg Except.ok (mul_div_mul_left v sc hκ).symm

theorem melSame_rat {g : Glb} {κ μ : ℝ} (hκ : κ ≠ 0) {A A' : LBlockArray} (h : MelTimes g κ μ A A') (sc : ℝ) :
    MelSame g.rat_TRopAM g.rat_fun g.rat_fun sc (κ * sc) A A' := by
  refine ⟨h.1, h.2.1, fun L1 h1 L2 h2 => ?_⟩
  obtain ⟨B, B', b1, b2, b3, b4, b5⟩ := h.2.2 L1 h1 L2 h2
  refine ⟨B, B', b1, b2, b3, b4, fun i j hi hj => ?_⟩
  rw [(b5 i j hi hj).1]
  exact map_div hκ _ _

theorem melSame_amp {g : Glb} {κ μ : ℝ} (hμ : μ ≠ 0) (hl : g.amp_lst ≠ []) {A A' : LBlockArray} (h : MelTimes g κ μ A A') (sc : ℝ) :
    MelSame g.rat_TRopAM g.amp_fun g.amp_fun sc (μ * sc) A A' := by
  refine ⟨h.1, h.2.1, fun L1 h1 L2 h2 => ?_⟩
  obtain ⟨B, B', b1, b2, b3, b4, b5⟩ := h.2.2 L1 h1 L2 h2
  refine ⟨B, B', b1, b2, b3, b4, fun i j hi hj => ?_⟩
  rw [(b5 i j hi hj).2.resolve_left hl]
  exact map_div hμ _ _

theorem show_nil (A : LBlockArray) (t : Int) (f : MelFun) (sc : ℝ) : Show_Mels A [] t f sc = pure () := by
  unfold Show_Mels
  exact if_pos rfl

theorem glb_Show_Mels (A : LBlockArray) (l : List (List Int)) (t : Int) (f : MelFun) (sc : ℝ) (s : FState) :
    (Show_Mels A l t f sc s).2.glb = s.glb :=
  (keeps_Show_Mels (frame_glb (P := Eq) (fun _ => rfl) fun _ _ _ => Eq.trans) A l t f sc s).symm

/-- The displays of rates and amplitudes. -/
theorem ratsAmps_same {κ μ : ℝ} (hκ : κ ≠ 0) (hμ : μ ≠ 0) {A A' : LBlockArray} {s t : FState}
    (h : MelTimes s.glb κ μ A A') (hg : ∃ x op, t.glb.resetLap = { s.glb.resetLap with rat_TRop := op, eig_sft := x, rat_sft := κ * s.glb.rat_sft, amp_sft := μ * s.glb.amp_sft })
    (ho : valueLines s.out = valueLines t.out) :
    (showRatsAmps A s).1 = (showRatsAmps A' t).1 ∧ valueLines (showRatsAmps A s).2.out = valueLines (showRatsAmps A' t).2.out := by
  obtain ⟨_, _, hg⟩ := hg
  have e1 : t.glb.rat_lst = s.glb.rat_lst := (congrArg Glb.rat_lst hg :)
  have e2 : t.glb.rat_num = s.glb.rat_num := (congrArg Glb.rat_num hg :)
  have e3 : t.glb.rat_fun = s.glb.rat_fun := (congrArg Glb.rat_fun hg :)
  have e4 : t.glb.rat_sft = κ * s.glb.rat_sft := (congrArg Glb.rat_sft hg :)
  have e5 : t.glb.amp_lst = s.glb.amp_lst := (congrArg Glb.amp_lst hg :)
  have e6 : t.glb.amp_num = s.glb.amp_num := (congrArg Glb.amp_num hg :)
  have e7 : t.glb.amp_fun = s.glb.amp_fun := (congrArg Glb.amp_fun hg :)
  have e8 : t.glb.amp_sft = μ * s.glb.amp_sft := (congrArg Glb.amp_sft hg :)
  have e9 : t.glb.rat_TRopAM = s.glb.rat_TRopAM := (congrArg Glb.rat_TRopAM hg :)
  unfold showRatsAmps
  rw [st_bind_ok (x := FM.glb) (s := s) (s' := s) rfl, st_bind_ok (x := FM.glb) (s := t) (s' := t) rfl, e1, e2, e3, e4]
  obtain ⟨k1, k2⟩ := pair_Show_Mels (melSame_rat hκ h s.glb.rat_sft) s.glb.rat_lst s.glb.rat_num s t ⟨rfl, e9, ho⟩
  have g1 := glb_Show_Mels A s.glb.rat_lst s.glb.rat_num s.glb.rat_fun s.glb.rat_sft s
  have g2 := glb_Show_Mels A' s.glb.rat_lst s.glb.rat_num s.glb.rat_fun (κ * s.glb.rat_sft) t
  rcases hm : Show_Mels A s.glb.rat_lst s.glb.rat_num s.glb.rat_fun s.glb.rat_sft s with ⟨x, s'⟩
  rcases hn : Show_Mels A' s.glb.rat_lst s.glb.rat_num s.glb.rat_fun (κ * s.glb.rat_sft) t with ⟨y, t'⟩
  rw [hm] at k1 k2 g1
  rw [hn] at k1 k2 g2
  replace k1 : x = y := k1
  replace g1 : s'.glb = s.glb := g1
  replace g2 : t'.glb = t.glb := g2
  subst k1
  cases x with
  | error e =>
    rw [st_bind_error hm, st_bind_error hn]
    exact ⟨rfl, k2.2.2⟩
  | ok u =>
    rw [st_bind_ok hm, st_bind_ok hn, st_bind_ok (x := FM.glb) (s := s') (s' := s') rfl,
      st_bind_ok (x := FM.glb) (s := t') (s' := t') rfl, g1, g2, e5, e6, e7, e8]
    by_cases hl : s.glb.amp_lst = []
    · rw [hl, show_nil, show_nil]
      exact ⟨rfl, k2.2.2⟩
    · obtain ⟨k3, k4⟩ := pair_Show_Mels (melSame_amp hμ hl h s.glb.amp_sft) s.glb.amp_lst s.glb.amp_num s' t' k2
      exact ⟨k3, k4.2.2⟩

open Classical in
/-- The scales of rates and amplitudes. -/
theorem fitRat_times {κ μ : ℝ} (hκ : 0 < κ) {A A' : LBlockArray} {Ls : List Int} (hLs : A.full_space.Lvals = Ls) {s t s' : FState}
    (h : MelTimes s.glb κ μ A A') {op : OperatorSum} {x : ℝ} (hg : t.glb.resetLap = { s.glb.resetLap with rat_TRop := op, eig_sft := x })
    (hsft : ∀ z, s.glb.amp_sft_fun (κ * z) = (s.glb.amp_sft_fun z).map (μ * ·)) (hf : fitRat A Ls s = (.ok (), s')) :
    ∃ t', fitRat A' Ls t = (.ok (), t') ∧ t'.out = t.out ∧ s'.out = s.out ∧
      t'.glb.resetLap = { s'.glb.resetLap with rat_TRop := op, eig_sft := x, rat_sft := κ * s'.glb.rat_sft, amp_sft := μ * s'.glb.amp_sft } ∧
      MelTimes s'.glb κ μ A A' := by
  obtain ⟨B, mel, z, y, c1, c2, hB, hm, hx, hz, hy, rfl⟩ := fitRat_ok hf
  have e1 : t.glb.rat_L1 = s.glb.rat_L1 := (congrArg Glb.rat_L1 hg :)
  have e2 : t.glb.rat_L2 = s.glb.rat_L2 := (congrArg Glb.rat_L2 hg :)
  have e3 : t.glb.rat_fit = s.glb.rat_fit := (congrArg Glb.rat_fit hg :)
  have e4 : t.glb.rat_1dx = s.glb.rat_1dx := (congrArg Glb.rat_1dx hg :)
  have e5 : t.glb.rat_2dx = s.glb.rat_2dx := (congrArg Glb.rat_2dx hg :)
  have e6 : t.glb.rat_fun = s.glb.rat_fun := (congrArg Glb.rat_fun hg :)
  have e7 : t.glb.rat_TRopAM = s.glb.rat_TRopAM := (congrArg Glb.rat_TRopAM hg :)
  have e8 : t.glb.amp_sft_fun = s.glb.amp_sft_fun := (congrArg Glb.amp_sft_fun hg :)
  obtain ⟨B1, B', b1, b2, b3, b4, b5⟩ := h.2.2 s.glb.rat_L1 (by rw [hLs]; exact c1) s.glb.rat_L2 (by rw [hLs]; exact c2)
  rw [hB] at b1
  injection b1 with b1
  subst b1
  obtain ⟨mel', m1, m2⟩ : ∃ mel', B'.get (s.glb.rat_2dx - 1) (s.glb.rat_1dx - 1) = .ok mel' ∧
      s.glb.rat_fun s.glb.rat_TRopAM s.glb.rat_L1 s.glb.rat_L2 mel' = .ok (κ * z) := by
    unfold Arr.get at hm ⊢
    simp only [b3, b4] at hm ⊢
    generalize (if s.glb.rat_2dx - 1 < 0 then s.glb.rat_2dx - 1 + (B.rows : Int) else s.glb.rat_2dx - 1) = i at hm ⊢
    generalize (if s.glb.rat_1dx - 1 < 0 then s.glb.rat_1dx - 1 + (B.cols : Int) else s.glb.rat_1dx - 1) = j at hm ⊢
    by_cases hc : 0 ≤ i ∧ i < B.rows ∧ 0 ≤ j ∧ j < B.cols
    · rw [if_pos hc] at hm ⊢
      cases hm
      refine ⟨_, rfl, ?_⟩
      rw [(b5 i.toNat j.toNat (by omega) (by omega)).1, hx]
      rfl
    · rw [if_neg hc] at hm
      cases hm
  have hab : |κ * z| / s.glb.rat_fit = κ * (|z| / s.glb.rat_fit) := by rw [abs_mul, abs_of_pos hκ, mul_div_assoc]
  refine ⟨⟨{ t.glb with rat_sft := κ * (|z| / s.glb.rat_fit), amp_sft := μ * y }, t.piMemo, t.pipiMemo, t.piqpiMemo, t.out⟩, ?_, rfl, rfl,
    ?_, h⟩
  · unfold fitRat
    rw [st_bind_ok (x := FM.glb) (s := t) (s' := t) rfl, e1, e2, if_neg (not_not.2 c1), if_neg (not_not.2 c2), b2, st_lift_ok,
      e4, e5, m1, st_lift_ok, e6, e7, m2, st_lift_ok, e3, e8, hab]
    rw [st_bind_ok (x := FM.setGlb _) (a := ())
      (s' := ⟨{ t.glb with rat_sft := κ * (|z| / s.glb.rat_fit) }, t.piMemo, t.pipiMemo, t.piqpiMemo, t.out⟩) (by
        unfold FM.setGlb
        simp only [e3, hab]), if_neg (mul_ne_zero hκ.ne' hz), hsft, hy]
    rfl
  · have := congrArg (fun g : Glb => ({ g with rat_sft := κ * (|z| / s.glb.rat_fit), amp_sft := μ * y } : Glb)) hg
    exact this

/-- The part of `ACM_Adapt` for transitions. -/
theorem rest_times {κ μ : ℝ} (hκ : 0 < κ) (hμ : μ ≠ 0) {env env' : FEnv} {a : XArgs} {r r' : List LEig} (hL : r'.map LEig.L = r.map LEig.L)
    {s t s' : FState} {op : OperatorSum} {x : ℝ} (hg : t.glb.resetLap = { s.glb.resetLap with rat_TRop := op, eig_sft := x })
    (hsft : ∀ z, s.glb.amp_sft_fun (κ * z) = (s.glb.amp_sft_fun z).map (μ * ·)) (ho : valueLines s.out = valueLines t.out)
    (hA : ∀ T, (AmpXspeig env s.glb.rat_TRop (r.map LEig.basis) a (r.map LEig.L) s).1 = .ok T → T.full_space.Lvals = r.map LEig.L ∧
      ∃ T', (AmpXspeig env' op (r'.map LEig.basis) a (r.map LEig.L) t).1 = .ok T' ∧ MelTimes s.glb κ μ T T') {tr : Option LBlockArray}
    (h : scaleRest env 1 a r s = (.ok (r, tr), s')) :
    ∃ tr' t', scaleRest env' 1 a r' t = (.ok (r', tr'), t') ∧ valueLines t'.out = valueLines s'.out ∧ t'.glb.eig_sft = t.glb.eig_sft ∧
      s'.glb.eig_sft = s.glb.eig_sft ∧ (s.glb.rat_lst ≠ [] ∨ s.glb.amp_lst ≠ [] → t'.glb.rat_sft = κ * s'.glb.rat_sft ∧ t'.glb.amp_sft = μ * s'.glb.amp_sft) := by
  have e1 : t.glb.rat_lst = s.glb.rat_lst := (congrArg Glb.rat_lst hg :)
  have e2 : t.glb.amp_lst = s.glb.amp_lst := (congrArg Glb.amp_lst hg :)
  have e3 : t.glb.rat_TRop = op := (congrArg Glb.rat_TRop hg :)
  have e4 : t.glb.eig_sft = x := (congrArg Glb.eig_sft hg :)
  have pos : ∀ l : List (List Int), l ≠ [] → l.length > 0 := fun l hl => List.length_pos_of_ne_nil hl
  unfold scaleRest at h ⊢
  rw [st_bind_ok (x := FM.glb) (s := s) (s' := s) rfl] at h
  rw [st_bind_ok (x := FM.glb) (s := t) (s' := t) rfl, e1, e2]
  by_cases c : s.glb.rat_lst.length > 0 ∨ s.glb.amp_lst.length > 0
  swap
  · rw [if_neg c] at h ⊢
    cases h
    refine ⟨none, t, rfl, ho.symm, rfl, rfl, fun hl => absurd ?_ c⟩
    exact hl.imp (pos _) (pos _)
  rw [if_pos c] at h ⊢
  obtain ⟨T, t1, h1, k1⟩ := st_bind_eq_ok h
  cases k1
  clear h
  unfold scaleTrans at h1 ⊢
  rw [st_bind_ok (x := FM.glb) (s := s) (s' := s) rfl] at h1
  obtain ⟨T1, u, h2, k2⟩ := st_bind_eq_ok h1
  rw [if_pos one_pos] at k2
  obtain ⟨_, u', h3, k3⟩ := st_bind_eq_ok k2
  obtain ⟨_, u'', h4, k4⟩ := st_bind_eq_ok k3
  cases k4
  clear h1 k2 k3
  obtain ⟨hLs, T', hT', hTT⟩ := hA T (by rw [h2])
  have F : Frame fun s s' : FState => s'.glb.resetLap = s.glb.resetLap ∧ s'.glb.rat_TRop = s.glb.rat_TRop :=
    frame_glb (P := fun g g' => g'.resetLap = g.resetLap ∧ g'.rat_TRop = g.rat_TRop) (fun _ => ⟨rfl, rfl⟩)
      fun _ _ _ p q => ⟨q.1.trans p.1, q.2.trans p.2⟩
  have st : ∀ (env : FEnv) (op : OperatorSum) (bs : List Arr) (Ls : List Int) (w : FState),
      (AmpXspeig env op bs a Ls w).2.glb.resetLap = w.glb.resetLap ∧ (AmpXspeig env op bs a Ls w).2.out = w.out := by
    intro env op bs Ls w
    refine ⟨(keeps_Amp F (fun s y => ⟨rfl, rfl⟩) env op bs a Ls w).1, ?_⟩
    unfold AmpXspeig
    have hl : ∀ {α β : Type} (x : Py α) (f : α → FM β) (v : FState), (∀ z, (f z v).2.out = v.out) → ((StPy.lift x >>= f) v).2.out = v.out := by
      intro α β x f v hz
      cases x with
      | error e => rw [st_lift_error]
      | ok z => rw [st_lift_ok]; exact hz z
    refine hl _ _ _ fun _ => hl _ _ _ fun S => hl _ _ _ fun _ => hl _ _ _ fun _ => ?_
    rw [st_bind]
    generalize RepXspace env.x op _ = m
    rcases hq : FM.liftX m w with ⟨q, w'⟩
    have ho : w'.out = w.out := by
      have : (FM.liftX m w).2.out = w.out := rfl
      rw [hq] at this
      exact this
    cases q with
    | error e => exact ho
    | ok z => exact ho
  obtain ⟨st1, st2⟩ := st env s.glb.rat_TRop (r.map LEig.basis) (r.map LEig.L) s
  rw [h2] at st1 st2
  replace st1 : u.glb.resetLap = s.glb.resetLap := st1
  replace st2 : u.out = s.out := st2
  obtain ⟨st3, st4⟩ := st env' op (r'.map LEig.basis) (r.map LEig.L) t
  rcases hq : AmpXspeig env' op (r'.map LEig.basis) a (r.map LEig.L) t with ⟨q, v⟩
  rw [hq] at hT' st3 st4
  replace hT' : q = .ok T' := hT'
  subst hT'
  replace st3 : v.glb.resetLap = t.glb.resetLap := st3
  replace st4 : v.out = t.out := st4
  have f1 : u.glb.rat_fun = s.glb.rat_fun := (congrArg Glb.rat_fun st1 :)
  have f2 : u.glb.rat_TRopAM = s.glb.rat_TRopAM := (congrArg Glb.rat_TRopAM st1 :)
  have f3 : u.glb.amp_fun = s.glb.amp_fun := (congrArg Glb.amp_fun st1 :)
  have f4 : u.glb.amp_lst = s.glb.amp_lst := (congrArg Glb.amp_lst st1 :)
  have f5 : u.glb.amp_sft_fun = s.glb.amp_sft_fun := (congrArg Glb.amp_sft_fun st1 :)
  have f6 : u.glb.eig_sft = s.glb.eig_sft := (congrArg Glb.eig_sft st1 :)
  have hTT' : MelTimes u.glb κ μ T T' := by
    unfold MelTimes
    rw [f1, f2, f3, f4]
    exact hTT
  obtain ⟨v', d1, d2, d3, d4, d5⟩ := fitRat_times hκ hLs hTT' (t := v) (op := op) (x := x) (by rw [st3, hg, st1])
    (by rw [f5]; exact hsft) h3
  obtain ⟨i1, i2⟩ := ratsAmps_same hκ.ne' hμ d5 ⟨x, op, d4⟩ (by rw [d3, d2, st2, st4]; exact ho)
  have gg : ∀ (A : LBlockArray) (w : FState), (showRatsAmps A w).2.glb = w.glb := fun A w =>
    (keeps_RatsAmps (frame_glb (P := Eq) (fun _ => rfl) fun _ _ _ => Eq.trans) A w).symm
  have gs := gg T u'
  have gt := gg T' v'
  rcases hR : showRatsAmps T' v' with ⟨q, w⟩
  rw [h4, hR] at i1 i2
  rw [h4] at gs
  rw [hR] at gt
  replace i1 : .ok () = q := i1
  subst i1
  replace i2 : valueLines s'.out = valueLines w.out := i2
  replace gs : s'.glb = u'.glb := gs
  replace gt : w.glb = v'.glb := gt
  obtain ⟨_, _, _, y, _, _, _, _, _, _, _, hu'⟩ := fitRat_ok h3
  refine ⟨some T', w, ?_, i2.symm, ?_, ?_, fun _ => ⟨?_, ?_⟩⟩
  · have : (FM.glb >>= fun g => AmpXspeig env' g.rat_TRop (r'.map LEig.basis) a (r'.map LEig.L) >>= fun trans =>
        if (1 : Int) > 0 then fitRat trans (r'.map LEig.L) >>= fun _ => showRatsAmps trans >>= fun _ => pure trans
        else showRatsAmps trans >>= fun _ => pure trans : FM LBlockArray) t = (.ok T', w) := by
      rw [st_bind_ok (x := FM.glb) (s := t) (s' := t) rfl, e3, hL, st_bind_ok hq, if_pos one_pos, st_bind_ok d1, st_bind_ok hR]
      rfl
    rw [st_bind_ok this]
    rfl
  · rw [gt, e4]
    exact (congrArg Glb.eig_sft d4 :)
  · rw [gs, hu']
    exact f6
  · rw [gt, gs]
    exact (congrArg Glb.rat_sft d4 :)
  · rw [gt, gs]
    exact (congrArg Glb.amp_sft d4 :)

/-- The part of `ACM_Adapt` for energies. -/
theorem eig_times {c : ℝ} (hc : 0 < c) {d : ℝ} {r r' : List LEig} (hr : levels r' = relevel (fun e => c * e + d) (levels r))
    {s t s1 : FState} {op : OperatorSum} (hg : t.glb.resetLap = { s.glb.resetLap with rat_TRop := op })
    (ho : valueLines t.out = valueLines s.out) (h4 : s.glb.eig_rel = true ∨ d = 0) (h : scaleEig 1 r s = (.ok (), s1)) :
    ∃ t1, scaleEig 1 r' t = (.ok (), t1) ∧ t1.glb.resetLap = { s1.glb.resetLap with rat_TRop := op, eig_sft := t1.glb.eig_sft } ∧
      valueLines t1.out = valueLines s1.out ∧ (0 < s.glb.eig_num → t1.glb.eig_sft = c * s1.glb.eig_sft) ∧ t1.xs = t.xs ∧ s1.xs = s.xs ∧
      ∃ x, s1.glb = { s.glb with eig_sft := x } := by
  have g1 : t.glb.eig_num = s.glb.eig_num := (congrArg Glb.eig_num hg :)
  have shape : ∀ {r : List LEig} {w w1 : FState}, scaleEig 1 r w = (.ok (), w1) → ∃ x, w1.glb = { w.glb with eig_sft := x } ∧ w1.xs = w.xs := by
    intro r w w1 hw
    obtain ⟨x, _, e1, _, e2, _⟩ := scaleEig_again (w := ⟨{ w1.glb with rat_sft := 0, amp_sft := 0 }, w.piMemo, w.pipiMemo, w.piqpiMemo, []⟩) hw rfl 0
    exact ⟨x, e1, e2⟩
  obtain ⟨x, x1, x2⟩ := shape h
  by_cases hn : 0 < s.glb.eig_num
  · obtain ⟨t1, f1, f2, f3, _, _⟩ := scaleEig_aff hc hr hg ho h4 hn h
    obtain ⟨y, y1, y2⟩ := shape f1
    refine ⟨t1, f1, ?_, f3, fun _ => f2, y2, x2, x, x1⟩
    rw [y1, x1]
    exact congrArg (fun g : Glb => ({ g with eig_sft := y } : Glb)) hg
  · unfold scaleEig at h
    rw [st_bind_ok (x := FM.glb) (s := s) (s' := s) rfl, if_neg hn] at h
    cases h
    refine ⟨t, ?_, ?_, ho, fun hh => absurd hh hn, rfl, rfl, x, x1⟩
    · unfold scaleEig
      rw [st_bind_ok (x := FM.glb) (s := t) (s' := t) rfl, if_neg (by rw [g1]; exact hn)]
      rfl
    · have := congrArg (fun g : Glb => ({ g with eig_sft := t.glb.eig_sft } : Glb)) hg
      exact this

theorem dig_lap (env : XEnv) (ham : OperatorSum) (a : XArgs) {s s' : FState} {x : Py (List LEig)} (h : DigXspace env ham a s = (x, s')) :
    s'.glb.resetLap = s.glb.resetLap := by
  have := dig_glb env ham a s
  rw [h] at this
  rcases this with e | e
  · exact congrArg Glb.resetLap e
  · rw [show s'.glb = s.glb.resetLap from e]
    rfl

theorem amp_Lvals {env : FEnv} {op : OperatorSum} {bs : List Arr} {a : XArgs} {Ls : List Int} {t : FState} {T : LBlockArray}
    (hT : (AmpXspeig env op bs a Ls t).1 = .ok T) : T.full_space.Lvals = Ls := by
  unfold AmpXspeig at hT
  generalize hz : (StPy.lift (validate_Lvals Ls) >>= _ : FM LBlockArray) t = z at hT
  obtain ⟨z1, z2⟩ := z
  replace hT : z1 = .ok T := hT
  subst hT
  obtain ⟨_, w1, a1, b1⟩ := st_bind_eq_ok hz
  obtain ⟨S, w2, a2, b2⟩ := st_bind_eq_ok b1
  obtain ⟨n2, _⟩ := st_lift_eq_ok a2
  obtain ⟨_, w3, a3, b3⟩ := st_bind_eq_ok b2
  obtain ⟨_, w4, a4, b4⟩ := st_bind_eq_ok b3
  obtain ⟨M, w5, a5, b5⟩ := st_bind_eq_ok b4
  obtain ⟨n5, _⟩ := st_lift_eq_ok b5
  rw [ampBlocks_space n5, (new_iff.1 n2).2.2]

/-- `ACM_Adapt` for two Hamiltonians, with two routines and two transition operators. -/
theorem adapt_times {c d κ μ : ℝ} (hc : 0 < c) (hκ : 0 < κ) (hμ : μ ≠ 0) {env env' : FEnv} {ham ham' op : OperatorSum} {a : XArgs}
    {s t s1 : FState} (hs : MemoOk env.x s.xs) (ht : MemoOk env'.x t.xs) (hg : t.glb.resetLap = { s.glb.resetLap with rat_TRop := op })
    (ho : t.out = s.out) (h4 : s.glb.eig_rel = true ∨ d = 0)
    (hsft : ∀ z, s.glb.amp_sft_fun (κ * z) = (s.glb.amp_sft_fun z).map (μ * ·)) {r : List LEig} {tr : Option LBlockArray}
    (h : ACM_Adapt env ham a s = (.ok (r, tr), s1)) {r' : List LEig} {u' : FState} (hq : DigXspace env'.x ham' a t = (.ok r', u'))
    (hlev : levels r' = relevel (fun e => c * e + d) (levels r))
    (hA : ∀ v w T, MemoOk env.x v.xs → MemoOk env'.x w.xs → v.glb.lam_fun = s.glb.lam_fun → w.glb.lam_fun = s.glb.lam_fun →
      (AmpXspeig env s.glb.rat_TRop (r.map LEig.basis) a (r.map LEig.L) v).1 = .ok T →
      ∃ T', (AmpXspeig env' op (r'.map LEig.basis) a (r.map LEig.L) w).1 = .ok T' ∧ MelTimes s.glb κ μ T T') :
    ∃ tr' t1, ACM_Adapt env' ham' a t = (.ok (r', tr'), t1) ∧ valueLines t1.out = valueLines s1.out ∧
      (0 < s.glb.eig_num → t1.glb.eig_sft = c * s1.glb.eig_sft) ∧ (s.glb.rat_lst ≠ [] ∨ s.glb.amp_lst ≠ [] →
        t1.glb.rat_sft = κ * s1.glb.rat_sft ∧ t1.glb.amp_sft = μ * s1.glb.amp_sft) := by
  obtain ⟨c1, c2⟩ := adapt_checks h
  obtain ⟨u1, u2, k1, k2, k3⟩ := adapt_split h
  have l1 := dig_lap _ _ _ k1
  have l2 := dig_lap _ _ _ hq
  obtain ⟨_, _, m1, o1, _⟩ := dig_eig hs k1
  obtain ⟨_, _, m2, o2, _⟩ := dig_eig ht hq
  have e1 : u1.glb.eig_rel = s.glb.eig_rel := (congrArg Glb.eig_rel l1 :)
  have e2 : u1.glb.eig_num = s.glb.eig_num := (congrArg Glb.eig_num l1 :)
  obtain ⟨t2, f1, f2, f3, f4, f5, f6, x, f7⟩ := eig_times hc hlev (op := op) (t := u') (by rw [l2, hg, l1]) (by rw [o1, o2, ho])
    (by rw [e1]; exact h4) k2
  have hL : r'.map LEig.L = r.map LEig.L := levels_L hlev
  have q : u2.glb.resetLap = { s.glb.resetLap with eig_sft := x } := by
    rw [f7]
    exact congrArg (fun g : Glb => ({ g with eig_sft := x } : Glb)) l1
  have q1 : u2.glb.rat_fun = s.glb.rat_fun := (congrArg Glb.rat_fun q :)
  have q2 : u2.glb.rat_TRopAM = s.glb.rat_TRopAM := (congrArg Glb.rat_TRopAM q :)
  have q3 : u2.glb.amp_fun = s.glb.amp_fun := (congrArg Glb.amp_fun q :)
  have q4 : u2.glb.amp_lst = s.glb.amp_lst := (congrArg Glb.amp_lst q :)
  have q5 : u2.glb.amp_sft_fun = s.glb.amp_sft_fun := (congrArg Glb.amp_sft_fun q :)
  have q6 : u2.glb.rat_TRop = s.glb.rat_TRop := (congrArg Glb.rat_TRop q :)
  have q7 : u2.glb.lam_fun = s.glb.lam_fun := (congrArg Glb.lam_fun q :)
  have q8 : t2.glb.lam_fun = u2.glb.lam_fun := (congrArg Glb.lam_fun f2 :)
  have q9 : u2.glb.rat_lst = s.glb.rat_lst := (congrArg Glb.rat_lst q :)
  obtain ⟨tr', t3, i1, i2, i3, i4, i5⟩ := rest_times hκ hμ (env' := env') (a := a) hL f2 (by rw [q5]; exact hsft) f3.symm (by
    intro T hT
    rw [q6] at hT
    obtain ⟨T', j1, j2⟩ := hA u2 t2 T (by rw [f6]; exact m1) (by rw [f5]; exact m2) q7 (q8.trans q7) hT
    refine ⟨?_, T', j1, ?_⟩
    · exact amp_Lvals hT
    · unfold MelTimes
      rw [q1, q2, q3, q4]
      exact j2) k3
  refine ⟨tr', t3, ?_, i2, fun hn => ?_, fun hl => i5 (by rw [q9, q4]; exact hl)⟩
  · unfold ACM_Adapt ACM_ScaleOrAdapt
    have hck : refChecks 1 1 a t.glb = .ok () := by
      have w1 : t.glb.eig_num = s.glb.eig_num := (congrArg Glb.eig_num hg :)
      have w2 : t.glb.eig_L = s.glb.eig_L := (congrArg Glb.eig_L hg :)
      have w3 : t.glb.eig_idx = s.glb.eig_idx := (congrArg Glb.eig_idx hg :)
      have w4 : t.glb.rat_lst = s.glb.rat_lst := (congrArg Glb.rat_lst hg :)
      have w5 : t.glb.rat_L1 = s.glb.rat_L1 := (congrArg Glb.rat_L1 hg :)
      have w6 : t.glb.rat_L2 = s.glb.rat_L2 := (congrArg Glb.rat_L2 hg :)
      have w7 : t.glb.rat_1dx = s.glb.rat_1dx := (congrArg Glb.rat_1dx hg :)
      have w8 : t.glb.rat_2dx = s.glb.rat_2dx := (congrArg Glb.rat_2dx hg :)
      rw [refChecks_eq] at c2 ⊢
      rw [w1, w2, w3, w4, w5, w6, w7, w8]
      exact c2
    rw [nonneg_ok (by norm_num), st_lift_ok, st_lift_ok, c1, st_lift_ok, st_bind_ok (x := FM.glb) (s := t) (s' := t) rfl, hck,
      st_lift_ok, st_bind_ok hq, st_bind_ok f1]
    exact i1
  · rw [i3, i4]
    exact f4 (by rw [e2]; exact hn)

/-- The matrix of an operator depends on the settings through the function for lambda only. -/
theorem amp_settings {env : FEnv} (op : OperatorSum) (bs : List Arr) (a : XArgs) (Ls : List Int) {v w : FState} (hv : MemoOk env.x v.xs)
    (hw : MemoOk env.x w.xs) (hl : v.glb.lam_fun = w.glb.lam_fun) : (AmpXspeig env op bs a Ls v).1 = (AmpXspeig env op bs a Ls w).1 := by
  refine (twin_Amp (env := env) (R := fun s t => MemoOk env.x s.xs ∧ MemoOk env.x t.xs ∧ s.glb.lam_fun = t.glb.lam_fun) ?_ op bs a Ls v w
    ⟨hv, hw, hl⟩).1
  intro ts a s t h
  obtain ⟨h1, h2, h3⟩ := h
  refine ⟨?_, memoOk_afterX h1 ts a, memoOk_afterX h2 ts a, h3⟩
  show (RepXspace env.x ts a s.xs).1 = (RepXspace env.x ts a t.xs).1
  rw [(tracks_rep env.x a ts s.xs h1).1, (tracks_rep env.x a ts t.xs h2).1]
  show (a.check >>= fun _ => allMat env.x a ts s.glb.lam_fun) = (a.check >>= fun _ => allMat env.x a ts t.glb.lam_fun)
  rw [h3]

theorem dig_settings {env : XEnv} (ham : OperatorSum) (a : XArgs) {v w : FState} (hv : MemoOk env v.xs)
    (hw : MemoOk env w.xs) (hl : v.glb.lam_fun = w.glb.lam_fun) : (DigXspace env ham a v).1 = (DigXspace env ham a w).1 := by
  refine (twin_Dig (env := env) (R := fun s t => MemoOk env s.xs ∧ MemoOk env t.xs ∧ s.glb.lam_fun = t.glb.lam_fun) ?_ ham a v w
    ⟨hv, hw, hl⟩).1
  intro ts a s t h
  obtain ⟨h1, h2, h3⟩ := h
  refine ⟨?_, memoOk_afterX h1 ts a, memoOk_afterX h2 ts a, h3⟩
  show (RepXspace env ts a s.xs).1 = (RepXspace env ts a t.xs).1
  rw [(tracks_rep env a ts s.xs h1).1, (tracks_rep env a ts t.xs h2).1]
  show (a.check >>= fun _ => allMat env a ts s.glb.lam_fun) = (a.check >>= fun _ => allMat env a ts t.glb.lam_fun)
  rw [h3]

theorem simple_of_nodup {xs : List ℝ} (h : xs.Nodup) {k : ℕ} (hk : k < xs.length) : Simple xs k := by
  refine ⟨xs[k], by rw [List.getElem?_eq_getElem hk], fun j hj => ?_⟩
  obtain ⟨hj', e⟩ := List.getElem?_eq_some_iff.1 hj
  exact (List.Nodup.getElem_inj_iff h).1 e

theorem adapt_units {c : ℝ} (hc : 0 < c) (d : ℝ) {CG : CGFun} {la la' : LinAlg} (h : LinAlgOk la) (h' : LinAlgOk la')
    (j j' : ℕ → ℕ → ℝ) {ham ham' : OperatorSum} (htame : Op_Tame ham = true) {a : XArgs} {s s1 : FState} (hs : MemoOk ⟨CG, la⟩ s.xs)
    (ha : IsAff CG la' a s.glb.lam_fun c d ham ham') (h4 : s.glb.eig_rel = true ∨ d = 0) (hev : EvenFun s.glb.rat_fun)
    (hl : s.glb.amp_lst = []) {r : List LEig} {tr : Option LBlockArray} (hr : ACM_Adapt ⟨⟨CG, la⟩, j⟩ ham a s = (.ok (r, tr), s1))
    (hnd : ∀ x ∈ r, x.vals.Nodup) :
    ∃ r' tr' s1', ACM_Adapt ⟨⟨CG, la'⟩, j'⟩ ham' a s = (.ok (r', tr'), s1') ∧ levels r' = relevel (fun e => c * e + d) (levels r) ∧
      valueLines s1'.out = valueLines s1.out ∧ (0 < s.glb.eig_num → s1'.glb.eig_sft = c * s1.glb.eig_sft) ∧
      (s.glb.rat_lst ≠ [] → s1'.glb.rat_sft = s1.glb.rat_sft) := by
  obtain ⟨u1, u2, k1, k2, k3⟩ := adapt_split hr
  have hs' : MemoOk ⟨CG, la'⟩ s.xs := memoOk_same CG h h' hs
  have hx := affLA_ok (d := d) hc h'
  have e := dig_aff hc d h' ha.1 hs' hs' rfl ha.2
  obtain ⟨n1, n2⟩ := dig_same CG h hx ham a s
  rcases n2 with ⟨e', m1, m2⟩ | ⟨r0, q, m1, m2, m3⟩
  · rw [k1] at m1; cases m1
  rw [k1] at m1
  injection m1 with m1
  subst m1
  rcases hz : DigXspace ⟨CG, affLA c d la'⟩ ham a s with ⟨q0, s2⟩
  rw [hz] at m2
  replace m2 : q0 = .ok q := m2
  subst m2
  rw [hz] at e
  rcases hd : DigXspace ⟨CG, la'⟩ ham' a s with ⟨q1, s3⟩
  rw [hd] at e
  replace e : q1 = .ok (q.map (affEig c d)) := e
  subst e
  have hlq : levels q = levels r := by
    have := (C105_energies CG h hx ham a s).2
    rw [k1, hz] at this
    injection this with this
    exact this.symm
  have hlev : levels (q.map (affEig c d)) = relevel (fun e => c * e + d) (levels r) := by rw [levels_aff, hlq]
  have hL : q.map LEig.L = r.map LEig.L := by
    have := congrArg (List.map Prod.fst) hlq
    unfold levels at this
    rw [List.map_map, List.map_map] at this
    exact this
  obtain ⟨tr', t1, i1, i2, i3, i4⟩ := adapt_times (κ := 1) (μ := 1) (d := d) hc one_pos one_ne_zero
    (env := ⟨⟨CG, la⟩, j⟩) (env' := ⟨⟨CG, la'⟩, j'⟩) (op := s.glb.rat_TRop) hs hs' rfl rfl h4 (fun z => by
      rw [one_mul]
      cases s.glb.amp_sft_fun z with
      | error e => rfl
      | ok y => exact congrArg Except.ok (one_mul y).symm) hr hd hlev (by
    intro v w T hv hw lv lw hT
    obtain ⟨T', p1, p2, p3⟩ := C105_rates h hx j j' htame hs k1 hz hv hT
    rw [amp_aff hc d CG h'] at p1
    refine ⟨T', ?_, p2.1, p2.2.1, ?_⟩
    · rw [amp_settings _ _ _ _ hw (memoOk_same CG h h' hv) (lw.trans lv.symm), ← hL, List.map_map]
      exact p1
    · intro L1 h1 L2 h2
      have hLv := amp_Lvals hT
      rw [hLv] at h1 h2
      obtain ⟨y, hy, rfl⟩ := List.mem_map.1 h1
      obtain ⟨x, hx, rfl⟩ := List.mem_map.1 h2
      obtain ⟨B, B', b1, b2, b3, b4, _, b6, _⟩ := p3 x hx y hy
      refine ⟨B, B', b1, b2, by rw [b3.1, b4.1], by rw [b3.2, b4.2], fun f i hf hi => ⟨?_, .inl hl⟩⟩
      have one : ∀ z : Py ℝ, z.map (1 * ·) = z := fun z => by
        cases z with
        | error e => rfl
        | ok y => exact congrArg Except.ok (one_mul y)
      rw [one]
      rcases b6 f i (simple_of_nodup (hnd x hx) (by rw [← b3.1]; exact hf)) (simple_of_nodup (hnd y hy) (by rw [← b3.2]; exact hi)) with e | e
      · rw [e]
      · rw [e, hev])
  refine ⟨_, tr', t1, i1, hlev, i2, i3, fun hn => ?_⟩
  rw [(i4 (.inl hn)).1, one_mul]

/-- C110: what `ACM_Adapt` displays of energies and rates does not depend on the routine for eigenvalues and eigenvectors, on what
uninitialised memory contains and on the unit of the energy, if there are no degenerate levels with the same angular momentum. -/
theorem C110_units {c : ℝ} (hc : 0 < c) {CG : CGFun} {la la' : LinAlg} (h : LinAlgOk la) (h' : LinAlgOk la')
    (j j' : ℕ → ℕ → ℝ) {ham : OperatorSum} (htame : Op_Tame ham = true) {a : XArgs} {s s1 : FState} (hs : MemoOk ⟨CG, la⟩ s.xs)
    (hev : EvenFun s.glb.rat_fun) (hl : s.glb.amp_lst = []) {r : List LEig} {tr : Option LBlockArray}
    (hr : ACM_Adapt ⟨⟨CG, la⟩, j⟩ ham a s = (.ok (r, tr), s1)) (hnd : ∀ x ∈ r, x.vals.Nodup) :
    ∃ r' tr' s1', ACM_Adapt ⟨⟨CG, la'⟩, j'⟩ (ctimes c ham) a s = (.ok (r', tr'), s1') ∧
      levels r' = relevel (fun e => c * e) (levels r) ∧
      valueLines s1'.out = valueLines s1.out ∧ (0 < s.glb.eig_num → s1'.glb.eig_sft = c * s1.glb.eig_sft) ∧
      (s.glb.rat_lst ≠ [] → s1'.glb.rat_sft = s1.glb.rat_sft) := by
  have := adapt_units hc 0 h h' j j' htame hs (isAff_times CG la' a s.glb.lam_fun c ham) (.inr rfl) hev hl hr hnd
  simpa only [add_zero] using this

/-- C110: if energies are displayed relative to the lowest, the display does not depend on the zero of the energy either. -/
theorem C110_zero {c : ℝ} (hc : 0 < c) (d : ℝ) {CG : CGFun} {la la' : LinAlg} (h : LinAlgOk la) (h' : LinAlgOk la')
    (j j' : ℕ → ℕ → ℝ) {ham : OperatorSum} (htame : Op_Tame ham = true) {a : XArgs} {s s1 : FState} (hs : MemoOk ⟨CG, la⟩ s.xs)
    {ls : Int → Int} (hlam : ∀ v, a.v_min ≤ v → v ≤ a.v_max → s.glb.lam_fun v = .ok (ls v))
    (hpos : ∀ v, a.v_min ≤ v → v ≤ a.v_max → 0 < a.lambda_base + ls v) (hrel : s.glb.eig_rel = true)
    (hev : EvenFun s.glb.rat_fun) (hl : s.glb.amp_lst = []) {r : List LEig} {tr : Option LBlockArray}
    (hr : ACM_Adapt ⟨⟨CG, la⟩, j⟩ ham a s = (.ok (r, tr), s1)) (hnd : ∀ x ∈ r, x.vals.Nodup) :
    ∃ r' tr' s1', ACM_Adapt ⟨⟨CG, la'⟩, j'⟩ (plus (ctimes c ham) d) a s = (.ok (r', tr'), s1') ∧
      levels r' = relevel (fun e => c * e + d) (levels r) ∧
      valueLines s1'.out = valueLines s1.out ∧ (0 < s.glb.eig_num → s1'.glb.eig_sft = c * s1.glb.eig_sft) ∧
      (s.glb.rat_lst ≠ [] → s1'.glb.rat_sft = s1.glb.rat_sft) :=
  adapt_units hc d h h' j j' htame hs (isAff_plus CG la' ⟨ls, hlam, hpos⟩ c d ham) (.inl hrel) hev hl hr hnd

/-! ### the transition operator -/

/-- `k` times the transition operator: `k` times the amplitudes. -/
theorem amp_norm (k : ℝ) {env : FEnv} (hla : LinAlgOk env.x.la) {ham op : OperatorSum} (htame : Op_Tame ham = true) {a : XArgs}
    {s s1 : FState} (hs : MemoOk env.x s.xs) {r : List LEig} (hr : DigXspace env.x ham a s = (.ok r, s1)) {t : FState}
    (ht : MemoOk env.x t.xs) {T : LBlockArray} (hT : (AmpXspeig env op (r.map LEig.basis) a (r.map LEig.L) t).1 = .ok T) :
    ∃ T', (AmpXspeig env (ctimes k op) (r.map LEig.basis) a (r.map LEig.L) t).1 = .ok T' ∧ T'.full_space = T.full_space ∧
      T'.mat.rows = T.mat.rows ∧ ∀ L1 ∈ r.map LEig.L, ∀ L2 ∈ r.map LEig.L, ∃ B B', T.get_block L1 L2 = .ok B ∧
        T'.get_block L1 L2 = .ok B' ∧ B'.rows = B.rows ∧ B'.cols = B.cols ∧ ∀ i j, i < B.rows → j < B.cols → B'.e i j = k * B.e i j := by
  have hleg : LegalRanges a := (dig_eig hs hr).1
  obtain ⟨ho, hd⟩ := C32_partial htame hleg hs hr
  have hne := amp_some hT
  obtain ⟨l0, h0⟩ : ∃ l0, (r.map LEig.L).head? = some l0 := by
    cases hh : r.map LEig.L with
    | nil => exact absurd hh hne
    | cons l ls => exact ⟨l, rfl⟩
  obtain ⟨l1, h1⟩ : ∃ l1, (r.map LEig.L).getLast? = some l1 := ⟨_, List.getLast?_eq_some_getLast hne⟩
  have hT0 := hT
  rw [(amp_eq hleg ho h0 h1 ht _).1] at hT0
  obtain ⟨M, hM, hMT⟩ := py_bind_eq_ok hT0
  clear hMT
  have hn := narrow_legal hleg ho h0 h1
  have hM1 : (RepXspace env.x op ⟨a.anorm, a.lambda_base, a.nu_min, a.nu_max, a.v_min, a.v_max, l0, l1⟩ t.xs).1 = .ok M := by
    show (RepXspace env.x op (XArgs.narrow a l0 l1) t.xs).1 = .ok M
    rw [rep_eq hn ht]
    exact hM
  have hM2 : (RepXspace env.x (ctimes k op) ⟨a.anorm, a.lambda_base, a.nu_min, a.nu_max, a.v_min, a.v_max, l0, l1⟩ t.xs).1 =
      .ok (affArr k 0 M) := by
    show (RepXspace env.x (ctimes k op) (XArgs.narrow a l0 l1) t.xs).1 = _
    rw [rep_eq hn ht, allMat_times hn, show allMat env.x (XArgs.narrow a l0 l1) op t.xs.lam_fun = .ok M from hM]
    rfl
  have hsh : ∀ x ∈ r, x.basis.cols = x.basis.rows ∧ dimXspace a.nu_min a.nu_max a.v_min a.v_max x.L none = .ok (x.basis.rows : Int) := by
    intro x hx
    obtain ⟨e0, N, v, e1, e2, e3⟩ := hd x hx
    have hL : 0 ≤ x.L := by
      have := ((ho.2 x.L).1 (List.mem_map_of_mem hx)).1
      have := hleg.2.2.1
      omega
    rw [rep_eq (legal_at hleg hL) hs] at e1
    have hsq := allMat_square (legal_at hleg hL) e1
    obtain ⟨v', P', q1, q2, q3, _⟩ := C70_eigen env.x.la hla _ N hsq.1 hsq.2.1
    rw [e2] at q1
    injection q1 with q1
    injection q1 with _ q1
    subst q1
    rw [e3, List.length_map, List.length_range, hsq.1] at e0
    exact ⟨q3.trans q2.symm, by rw [q2]; exact e0⟩
  have hb : List.Forall₂ (fun P L => P.cols = P.rows ∧ dimXspace a.nu_min a.nu_max a.v_min a.v_max L none = .ok (P.rows : Int))
      (r.map LEig.basis) (r.map LEig.L) := by
    rw [List.forall₂_map_left_iff, List.forall₂_map_right_iff, List.forall₂_same]
    exact hsh
  obtain ⟨R1, e1, n1, r1, c1, b1⟩ := C73_blocks hla hleg ho h0 h1 hb ht hM1
  obtain ⟨R2, e2, n2, r2, c2, b2⟩ := C73_blocks hla hleg ho h0 h1 hb ht hM2
  rw [hT] at e1
  injection e1 with e1
  subst e1
  have nn : R2.full_space = T.full_space := by
    rw [n1] at n2
    injection n2 with n2
    exact n2.symm
  refine ⟨R2, e2, nn, by rw [r1, r2]; rfl, fun L1 hL1 L2 hL2 => ?_⟩
  obtain ⟨x, hx, rfl⟩ := List.mem_map.1 hL1
  obtain ⟨y, hy, rfl⟩ := List.mem_map.1 hL2
  obtain ⟨B, t1, G, g1, g2, g3, g4⟩ := b1 _ _ _ _ (pair_mem hx) (pair_mem hy)
  obtain ⟨B', t2, G', g1', g2', g3', g4'⟩ := b2 _ _ _ _ (pair_mem hx) (pair_mem hy)
  have hBB : B'.cols = B.cols ∧ ∀ i j, B'.e i j = k * B.e i j := by
    rw [nn] at t2
    unfold LBlockArray.get_block at t1 t2
    obtain ⟨b, h1, t1⟩ := py_bind_eq_ok t1
    obtain ⟨c, h2, t1⟩ := py_bind_eq_ok t1
    dsimp only at h1 h2
    rw [h1, h2] at t2
    simp only [py_bind_ok] at t2
    injection t1 with t1
    injection t2 with t2
    subst t1 t2
    refine ⟨rfl, fun i j => ?_⟩
    have hle : ∀ (n : ℕ) (i : Int), sliceBound n i ≤ n := by
      intro n i
      unfold sliceBound
      split_ifs <;> omega
    have b1' := hle M.rows b.2
    have b2' := hle M.cols c.2
    have e1 : ∀ A : Arr, (A.slice b.1 b.2 c.1 c.2).e i j =
        if i < sliceBound A.rows b.2 - sliceBound A.rows b.1 ∧ j < sliceBound A.cols c.2 - sliceBound A.cols c.1 then
          A.e (sliceBound A.rows b.1 + i) (sliceBound A.cols c.1 + j) else 0 := fun _ => rfl
    have e2 : ∀ u v, (affArr k 0 M).e u v = if u < M.rows ∧ v < M.cols then k * M.e u v + (if u = v then 0 else 0) else 0 :=
      fun _ _ => rfl
    rw [e1, e1, e2, show (affArr k 0 M).rows = M.rows from rfl, show (affArr k 0 M).cols = M.cols from rfl]
    by_cases hin : i < sliceBound M.rows b.2 - sliceBound M.rows b.1 ∧ j < sliceBound M.cols c.2 - sliceBound M.cols c.1
    · rw [if_pos hin, if_pos hin, if_pos ⟨by omega, by omega⟩, ite_self, add_zero]
    · rw [if_neg hin, if_neg hin, mul_zero]
  refine ⟨G, G', g1, g1', by rw [g2, g2']; rfl, by rw [g3, g3']; rfl, fun i j hi hj => ?_⟩
  rw [g4 i j (by rw [← g2]; exact hi) (by rw [← g3]; exact hj), g4' i j (by
    have : G.rows = G'.rows := by rw [g2, g2']; rfl
    rw [← g2', ← this]; exact hi) (by
    have : G.cols = G'.cols := by rw [g3, g3']; rfl
    rw [← g3', ← this]; exact hj)]
  have m1 : ∀ u v, ((env.x.la.inv x.basis).mul B').e u v = k * ((env.x.la.inv x.basis).mul B).e u v := by
    intro u v
    unfold Arr.mul Arr.of
    dsimp only
    rw [hBB.1]
    split_ifs
    · rw [Finset.mul_sum]
      exact Finset.sum_congr rfl fun z _ => by rw [hBB.2]; ring
    · rw [mul_zero]
  have m2 : ((env.x.la.inv x.basis).mul B').cols = ((env.x.la.inv x.basis).mul B).cols := hBB.1
  rw [show (((env.x.la.inv x.basis).mul B').mul y.basis).e i j = if i < (env.x.la.inv x.basis).rows ∧ j < y.basis.cols then
      ∑ z ∈ Finset.range ((env.x.la.inv x.basis).mul B').cols, ((env.x.la.inv x.basis).mul B').e i z * y.basis.e z j else 0 from rfl,
    show (((env.x.la.inv x.basis).mul B).mul y.basis).e i j = if i < (env.x.la.inv x.basis).rows ∧ j < y.basis.cols then
      ∑ z ∈ Finset.range ((env.x.la.inv x.basis).mul B).cols, ((env.x.la.inv x.basis).mul B).e i z * y.basis.e z j else 0 from rfl, m2]
  split_ifs
  · rw [Finset.mul_sum]
    exact Finset.sum_congr rfl fun z _ => by rw [m1]; ring
  · rw [mul_zero]

/-- C110: what `ACM_Adapt` displays does not depend on the normalisation of the transition operator: for `k` times the operator, if
the functions for rates and amplitudes scale, and the function that finds the scale of amplitudes from that of rates fits to them, the
same values are printed. -/
theorem C110_norm {k κ μ : ℝ} (hκ : 0 < κ) (hμ : μ ≠ 0) {env : FEnv} (hla : LinAlgOk env.x.la) {ham : OperatorSum}
    (htame : Op_Tame ham = true) {a : XArgs} {s s1 : FState} (hs : MemoOk env.x s.xs) (hrat : ScalesAs s.glb.rat_fun k κ)
    (hamp : ScalesAs s.glb.amp_fun k μ) (hsft : ∀ z, s.glb.amp_sft_fun (κ * z) = (s.glb.amp_sft_fun z).map (μ * ·)) {r : List LEig}
    {tr : Option LBlockArray} (h : ACM_Adapt env ham a s = (.ok (r, tr), s1)) :
    ∃ tr' s1', ACM_Adapt env ham a (withOp s (ctimes k s.glb.rat_TRop)) = (.ok (r, tr'), s1') ∧
      valueLines s1'.out = valueLines s1.out ∧ (0 < s.glb.eig_num → s1'.glb.eig_sft = s1.glb.eig_sft) ∧
      (s.glb.rat_lst ≠ [] ∨ s.glb.amp_lst ≠ [] → s1'.glb.rat_sft = κ * s1.glb.rat_sft ∧ s1'.glb.amp_sft = μ * s1.glb.amp_sft) := by
  obtain ⟨u1, u2, k1, k2, k3⟩ := adapt_split h
  have ht : MemoOk env.x (withOp s (ctimes k s.glb.rat_TRop)).xs := hs
  have hq := dig_settings ham a hs ht rfl
  rw [k1] at hq
  rcases hz : DigXspace env.x ham a (withOp s (ctimes k s.glb.rat_TRop)) with ⟨q, u'⟩
  rw [hz] at hq
  replace hq : .ok r = q := hq
  subst hq
  have hlev : levels r = relevel (fun e => 1 * e + 0) (levels r) := by
    unfold relevel
    simp
  obtain ⟨tr', t1, i1, i2, i3, i4⟩ := adapt_times (κ := κ) (μ := μ) (d := 0) one_pos hκ hμ (env' := env)
    (op := ctimes k s.glb.rat_TRop) hs ht rfl rfl (.inr rfl) hsft h hz hlev (by
    intro v w T hv hw lv lw hT
    obtain ⟨T', p1, p2, p3, p4⟩ := amp_norm k hla htame hs k1 hv hT
    refine ⟨T', ?_, p2, p3, ?_⟩
    · rw [amp_settings _ _ _ _ hw hv (lw.trans lv.symm)]
      exact p1
    · intro L1 h1 L2 h2
      rw [amp_Lvals hT] at h1 h2
      obtain ⟨B, B', b1, b2, b3, b4, b5⟩ := p4 L2 h2 L1 h1
      exact ⟨B, B', b1, b2, b3, b4, fun i j hi hj => ⟨by rw [b5 i j hi hj, hrat], .inr (by rw [b5 i j hi hj, hamp])⟩⟩)
  exact ⟨tr', t1, i1, i2, fun hn => by rw [i3 hn, one_mul], i4⟩

/-- C110: the functions for rates in globals.py scale with the square of the matrix element and do not depend on its sign. -/
theorem C110_rate_functions (k : ℝ) : (ScalesAs quad_rat_fun k (k ^ 2) ∧ EvenFun quad_rat_fun) ∧
    (ScalesAs mel_rat_fun k (k ^ 2) ∧ EvenFun mel_rat_fun) ∧ ScalesAs unit_rat_fun k (k ^ 2) ∧ EvenFun unit_rat_fun := by
  refine ⟨⟨fun AM Li Lf x => ?_, fun AM Li Lf x => ?_⟩, ⟨fun AM Li Lf x => ?_, fun AM Li Lf x => ?_⟩, fun AM Li Lf x => ?_,
    fun AM Li Lf x => ?_⟩
  · unfold quad_rat_fun
    cases dimSO3 Lf with
    | error e => rfl
    | ok df =>
      cases dimSO3 Li with
      | error e => rfl
      | ok di => exact congrArg Except.ok (by ring)
  · unfold quad_rat_fun
    simp only [neg_sq]
  · unfold mel_rat_fun
    cases dimSO3 Lf with
    | error e => rfl
    | ok df => exact congrArg Except.ok (by ring)
  · unfold mel_rat_fun
    simp only [neg_sq]
  · exact congrArg Except.ok (by ring)
  · exact congrArg Except.ok (neg_sq x)

/-- C110: the functions for amplitudes in globals.py scale with the matrix element. -/
theorem C110_amplitude_functions (k : ℝ) : ScalesAs quad_amp_fun k k ∧ ScalesAs mel_amp_fun k k ∧ ScalesAs unit_amp_fun k k ∧
    ScalesAs mix_amp_fun k k := by
  refine ⟨fun AM Li Lf x => ?_, fun AM Li Lf x => ?_, fun AM Li Lf x => rfl, fun AM Li Lf x => ?_⟩
  · unfold quad_amp_fun
    cases CG_SO3 Li Li AM (Lf - Li) Lf Lf with
    | error e => rfl
    | ok c => exact congrArg Except.ok (mul_assoc ..)
  · unfold mel_amp_fun
    cases pySqrt (2 * Lf + 1) with
    | error e => rfl
    | ok c => exact congrArg Except.ok (mul_assoc ..)
  · unfold mix_amp_fun
    cases gen_amp_mul Li Lf AM with
    | error e => rfl
    | ok c => exact congrArg Except.ok (mul_assoc ..)

/-- C110: the default function that finds the scale of amplitudes from that of rates, the square root, fits to these. -/
theorem C110_default_scale {k : ℝ} (hk : 0 < k) (z : ℝ) : pySqrt (k ^ 2 * z) = (pySqrt z).map (k * ·) := by
  unfold pySqrt
  by_cases hz : z < 0
  · rw [if_pos hz, if_pos (mul_neg_of_pos_of_neg (pow_pos hk 2) hz)]
    rfl
  · rw [if_neg hz, if_neg (not_lt.2 (mul_nonneg (sq_nonneg k) (not_lt.1 hz)))]
    refine congrArg Except.ok ?_
    rw [Real.sqrt_mul (sq_nonneg k), Real.sqrt_sq hk.le]

/-- The levels of the calculation of `adapt_succeeds`. -/
theorem succeeds_levels {env : FEnv} (hla : LinAlgOk env.x.la) :
    let s : FState := ⟨fitGlb, fun _ => none, fun _ _ => none, fun _ => none, []⟩
    MemoOk env.x s.xs ∧ ∃ r tr s', ACM_Adapt env [(fun _ => 1, [])] arg22 s = (.ok (r, tr), s') ∧ ∀ x ∈ r, x.vals.Nodup := by
  intro s
  obtain ⟨hs, r, tr, s', h⟩ := adapt_succeeds (env := env) hla
  refine ⟨hs, r, tr, s', h, fun x hx => ?_⟩
  obtain ⟨u1, u2, k1, _⟩ := adapt_split h
  obtain ⟨ho, hd⟩ := C32_partial (ham := [(fun _ => 1, [])]) rfl arg22_legal hs k1
  have hL : x.L ∈ [(2 : Int), 4] := by
    rw [← Ls22, ← occupied_eq arg22_legal ho]
    exact List.mem_map_of_mem hx
  have hlen : x.vals.length = 1 := by
    have e := (hd x hx).1
    replace e : dimXspace 0 0 2 2 x.L none = .ok (x.vals.length : Int) := e
    simp only [List.mem_cons, List.not_mem_nil, or_false] at hL
    rcases hL with hL | hL
    · rw [hL, show dimXspace 0 0 2 2 2 none = .ok 1 by decide +kernel] at e
      injection e with e
      omega
    · rw [hL, show dimXspace 0 0 2 2 4 none = .ok 1 by decide +kernel] at e
      injection e with e
      omega
  obtain ⟨e, he⟩ := List.length_eq_one_iff.1 hlen
  rw [he]
  exact List.nodup_singleton e

/-- The hypotheses of C110 are met: a call of `ACM_Adapt` with the default functions, with energies and a rate to display, any two
routines, and another normalisation of the transition operator. -/
example {CG : CGFun} {la : LinAlg} (h : LinAlgOk la) (j : ℕ → ℕ → ℝ) : ∃ (la' : LinAlg) (ham : OperatorSum) (a : XArgs) (s s1 : FState)
    (r : List LEig) (tr : Option LBlockArray), la' ≠ la ∧ LinAlgOk la' ∧ Op_Tame ham = true ∧ MemoOk ⟨CG, la⟩ s.xs ∧
    EvenFun s.glb.rat_fun ∧ s.glb.amp_lst = [] ∧ s.glb.rat_lst ≠ [] ∧ 0 < s.glb.eig_num ∧
    ACM_Adapt ⟨⟨CG, la⟩, j⟩ ham a s = (.ok (r, tr), s1) ∧ (∀ x ∈ r, x.vals.Nodup) ∧ ScalesAs s.glb.rat_fun 3 (3 ^ 2) ∧
    ScalesAs s.glb.amp_fun 3 3 ∧ ∀ z, s.glb.amp_sft_fun (3 ^ 2 * z) = (s.glb.amp_sft_fun z).map (3 * ·) := by
  obtain ⟨_, _, _, _, _, _, e1, e2, _⟩ := two_levels (CG := CG) h
  obtain ⟨hs, r, tr, s', h1, h2⟩ := succeeds_levels (env := ⟨⟨CG, la⟩, j⟩) h
  exact ⟨_, _, _, _, s', r, tr, e1, e2, rfl, hs, (C110_rate_functions 3).1.2, rfl, by unfold fitGlb; simp, by unfold fitGlb Glb.init; decide,
    h1, h2, (C110_rate_functions 3).1.1, (C110_amplitude_functions 3).1, C110_default_scale (by norm_num)⟩

/-- The hypotheses of C110 on the zero of the energy are met: see `adapt_angmom`. -/
example {CG : CGFun} {la : LinAlg} (h : LinAlgOk la) (j : ℕ → ℕ → ℝ) : ∃ (ham : OperatorSum) (a : XArgs) (s s1 : FState)
    (r : List LEig) (tr : Option LBlockArray) (ls : Int → Int), Op_Tame ham = true ∧ MemoOk ⟨CG, la⟩ s.xs ∧
    (∀ v, a.v_min ≤ v → v ≤ a.v_max → s.glb.lam_fun v = .ok (ls v)) ∧ (∀ v, a.v_min ≤ v → v ≤ a.v_max → 0 < a.lambda_base + ls v) ∧
    s.glb.eig_rel = true ∧ EvenFun s.glb.rat_fun ∧ s.glb.amp_lst = [] ∧
    ACM_Adapt ⟨⟨CG, la⟩, j⟩ ham a s = (.ok (r, tr), s1) ∧ ∀ x ∈ r, x.vals.Nodup := by
  obtain ⟨hs, r, s', h1, h2, _⟩ := adapt_angmom (env := ⟨⟨CG, la⟩, j⟩) h
  refine ⟨[(ANGMOM, [])], arg22, _, s', r, none, fun _ => 0, rfl, hs, fun v k1 k2 => ?_, fun _ _ _ => ?_, rfl, (C110_rate_functions 1).1.2, rfl,
    h1, fun x hx => ?_⟩
  · have h1' : 2 ≤ v := k1
    have h2' : v ≤ 2 := k2
    have : v = 2 := by omega
    subst this
    exact show lambda_acm_fun 2 = .ok 0 by decide +kernel
  · show (0 : ℝ) < 5 / 2 + ((0 : Int) : ℝ)
    norm_num
  · have : (x.L, x.vals) ∈ levels r := List.mem_map.2 ⟨x, hx, rfl⟩
    rw [h2] at this
    simp only [List.mem_cons, List.not_mem_nil, or_false, Prod.mk.injEq] at this
    rcases this with ⟨_, e⟩ | ⟨_, e⟩ <;> rw [e] <;> exact List.nodup_singleton _

end Acm.Props
