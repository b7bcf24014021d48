import Verif.Spec.Globals
import Verif.Lemmas.Globals
import Verif.Props.Operators

/-!
# Properties of the settings (C42-C46)
-/

namespace Acm.Props

open Acm.Spec

theorem preserves_scales {P : Glb → Prop} (e r : Option ℝ) (s : Int)
    (h1 : ∀ g, P g → P { g with eig_sft := e.getD g.eig_sft, rat_sft := r.getD g.rat_sft })
    (h2 : ∀ g a, P g → g.amp_sft_fun g.rat_sft = .ok a → P { g with amp_sft := a }) :
    Preserves P (ACM_set_scales e r s) := by
  intro g hg
  rw [ACM_set_scales_eq]
  have h := h1 g hg
  dsimp only
  cases hc : g.amp_sft_fun (r.getD g.rat_sft) with
  | error x => exact h
  | ok a => exact h2 _ a h hc

theorem preserves_basis {P : Glb → Prop} (c : Int) (a : ℝ) (s : Int)
    (h : ∀ g f, P g → P { g with lam_fun := f }) : Preserves P (ACM_set_basis_type c a s) := by
  intro g hg
  rw [ACM_set_basis_type_eq]
  split_ifs
  · exact h g _ hg
  · exact h g _ hg
  · exact h g _ hg
  · exact h g _ hg
  · exact hg

/-- The invariant `P` survives each assignment made by a setting procedure other than
`ACM_set_scales` and `ACM_set_sft_fun`. -/
structure Keeps (P : Glb → Prop) : Prop where
  rel_pre : ∀ (g : Glb) x, 0 ≤ x → P g → P { g with rel_pre := x }
  rel_wid : ∀ (g : Glb) x, 0 ≤ x → P g → P { g with rel_wid := x }
  low_pre : ∀ (g : Glb) x, 0 ≤ x → P g → P { g with low_pre := x }
  eig_num : ∀ (g : Glb) x, 0 ≤ x → P g → P { g with eig_num := x }
  rat_num : ∀ (g : Glb) x, 0 ≤ x → P g → P { g with rat_num := x, amp_num := x }
  eig_rel : ∀ (g : Glb) x, P g → P { g with eig_rel := x }
  eig_fit : ∀ (g : Glb) x L i, 0 ≤ L → 1 ≤ i → P g →
    P { g with eig_fit := x, eig_L := L, eig_idx := i }
  rat_fit : ∀ (g : Glb) x L1 L2 i1 i2, 0 ≤ L1 → 0 ≤ L2 → 1 ≤ i1 → 1 ≤ i2 → P g →
    P { g with rat_fit := x, rat_L1 := L1, rat_L2 := L2, rat_1dx := i1, rat_2dx := i2 }
  rat_nil : ∀ g : Glb, P g → P { g with rat_lst := [] }
  rat_add : ∀ (g : Glb) es, P g → P { g with rat_lst := addDesignators g.rat_lst es }
  amp_nil : ∀ g : Glb, P g → P { g with amp_lst := [] }
  amp_add : ∀ (g : Glb) es, P g → P { g with amp_lst := addDesignators g.amp_lst es }
  transition : ∀ (g : Glb) op, P g → P { g with rat_TRop := op, rat_TRopAM := |Op_AM op| }
  rat_form : ∀ (g : Glb) f a b, P g → P { g with rat_fun := f, rat_format := a, rat_desg := b }
  amp_form : ∀ (g : Glb) f a b, P g → P { g with amp_fun := f, amp_format := a, amp_desg := b }
  lam_fun : ∀ (g : Glb) f, P g → P { g with lam_fun := f }

theorem nonneg_of_check {x : Int} {u : Unit} (h : require_nonnegint x = .ok u) : 0 ≤ x := by
  by_contra hc
  rw [require_nonnegint_err (by omega)] at h
  cases h

theorem pos_of_check {x : Int} {u : Unit} (h : require_posint x = .ok u) : 1 ≤ x := by
  by_contra hc
  rw [require_posint_err (by omega)] at h
  cases h

theorem exec_keeps {P : Glb → Prop} (fmt : String → Py Unit) (k : Keeps P) (c : GCall)
    (hsc : ∀ e r s, c = .scales e r s ∨ (c = .defaults s ∧ e = some 1 ∧ r = some 1) →
      Preserves P (ACM_set_scales e r s))
    (hsf : ∀ f s, c = .sftFun f s ∨ f = some pySqrt → Preserves P (ACM_set_sft_fun f s)) :
    Preserves P (c.exec fmt) := by
  have hl : ∀ l, Preserves P (ACM_add_rat_lst l) := fun l =>
    Preserves.modify_bind (fun g h => k.rat_add g l h) (Preserves.get_bind fun _ => Preserves.pure _)
  have hl2 : ∀ l, Preserves P (ACM_set_rat_lst l) := fun l =>
    Preserves.modify_bind (fun g h => k.rat_nil g h) (hl l)
  have hk : ∀ l, Preserves P (ACM_add_amp_lst l) := fun l =>
    Preserves.modify_bind (fun g h => k.amp_add g l h) (Preserves.get_bind fun _ => Preserves.pure _)
  have hk2 : ∀ l, Preserves P (ACM_set_amp_lst l) := fun l =>
    Preserves.modify_bind (fun g h => k.amp_nil g h) (hk l)
  have h1 : ∀ a b c s, Preserves P (ACM_set_output a b c s) := fun a b c s =>
    (Preserves.setIf fun x g _ h hg => k.rel_pre g x (nonneg_of_check h) hg).bind fun _ =>
    (Preserves.setIf fun x g _ h hg => k.rel_wid g x (nonneg_of_check h) hg).bind fun _ =>
    (Preserves.setIf fun x g _ h hg => k.low_pre g x (nonneg_of_check h) hg).bind fun _ =>
    Preserves.get_bind fun _ => Preserves.pure _
  have h2 : ∀ a b s, Preserves P (ACM_set_listln a b s) := fun a b s =>
    (Preserves.setIf fun x g _ h hg => k.eig_num g x (nonneg_of_check h) hg).bind fun _ =>
    (Preserves.setIf fun x g _ h hg => k.rat_num g x (nonneg_of_check h) hg).bind fun _ =>
    Preserves.get_bind fun _ => Preserves.pure _
  have h3 : ∀ a s, Preserves P (ACM_set_datum a s) := fun a s =>
    Preserves.lift_bind fun _ _ => Preserves.modify_bind (fun g h => k.eig_rel g _ h)
      (Preserves.get_bind fun _ => Preserves.pure _)
  have h4 : ∀ a b s, Preserves P (ACM_set_basis_type a b s) :=
    fun a b s => preserves_basis a b s k.lam_fun
  have h5 : ∀ a s, Preserves P (ACM_set_transition a s) := fun a s =>
    Preserves.modify_bind (fun g h => k.transition g _ h)
      (Preserves.get_bind fun _ => Preserves.pure _)
  have h6 : ∀ a b c s, Preserves P (ACM_set_rat_form a b c s) := fun a b c s =>
    Preserves.modify_bind (fun g h => k.rat_form g _ _ _ h)
      (Preserves.get_bind fun _ => Preserves.pure _)
  have h7 : ∀ a b c s, Preserves P (ACM_set_amp_form a b c s) := fun a b c s =>
    Preserves.modify_bind (fun g h => k.amp_form g _ _ _ h)
      (Preserves.get_bind fun _ => Preserves.pure _)
  have h9 : ∀ a b c s, Preserves P (ACM_set_eig_fit a b c s) := fun a b c s =>
    Preserves.lift_bind fun _ e1 => Preserves.lift_bind fun _ e2 =>
      Preserves.modify_bind
        (fun g h => k.eig_fit g _ _ _ (nonneg_of_check e1) (pos_of_check e2) h)
        (Preserves.get_bind fun _ => Preserves.pure _)
  have h10 : ∀ a b c d e s, Preserves P (ACM_set_rat_fit fmt a b c d e s) := fun a b c d e s =>
    Preserves.lift_bind fun _ e1 => Preserves.lift_bind fun _ e2 =>
    Preserves.lift_bind fun _ e3 => Preserves.lift_bind fun _ e4 =>
      Preserves.modify_bind
        (fun g h => k.rat_fit g _ _ _ _ _ (nonneg_of_check e1) (nonneg_of_check e2)
          (pos_of_check e3) (pos_of_check e4) h)
        (Preserves.get_bind fun _ => Preserves.lift_bind fun _ _ => Preserves.pure _)
  have h14 : ∀ f s, Preserves P (ACM_set_lambda_fun f s) := fun f s =>
    Preserves.modify_bind (fun g h => k.lam_fun g _ h) (Preserves.pure _)
  cases c with
  | scales => exact hsc _ _ _ (.inl rfl)
  | sftFun => exact (hsf _ _ (.inl rfl)).void
  | output => exact (h1 _ _ _ _).void
  | listln => exact (h2 _ _ _).void
  | datum => exact (h3 _ _).void
  | eigFit => exact (h9 _ _ _ _).void
  | ratFit => exact (h10 _ _ _ _ _ _).void
  | setRatLst => exact (hl2 _).void
  | addRatLst => exact (hl _).void
  | setAmpLst => exact (hk2 _).void
  | addAmpLst => exact (hk _).void
  | transition => exact (h5 _ _).void
  | ratForm => exact (h6 _ _ _ _).void
  | ampForm => exact (h7 _ _ _ _).void
  | lambdaFun => exact (h14 _ _).void
  | basisType => exact (h4 _ _ _).void
  | defaults s =>
    exact (h1 _ _ _ _).bind fun _ => (h2 _ _ _).bind fun _ => (h3 _ _).bind fun _ =>
      (h4 _ _ _).bind fun _ => (h5 _ _).bind fun _ => (h6 _ _ _ _).bind fun _ =>
      (h7 _ _ _ _).bind fun _ => (hsf _ s (.inr rfl)).bind fun _ => (h9 _ _ _ _).bind fun _ =>
      (h10 _ _ _ _ _ _).bind fun _ => (hl2 _).bind fun _ => (hk2 _).bind fun _ =>
      hsc _ _ s (.inr ⟨rfl, rfl, rfl⟩)

/-- An invariant that does not depend on the scaling factors and functions either. -/
theorem exec_keeps' {P : Glb → Prop} (fmt : String → Py Unit) (k : Keeps P)
    (h1 : ∀ (g : Glb) x y, P g → P { g with eig_sft := x, rat_sft := y })
    (h2 : ∀ (g : Glb) a, P g → P { g with amp_sft := a })
    (h3 : ∀ (g : Glb) f, P g → P { g with amp_sft_fun := f }) (c : GCall) :
    Preserves P (c.exec fmt) :=
  exec_keeps fmt k c
    (fun _ _ _ _ => preserves_scales _ _ _ (fun g h => h1 g _ _ h) fun g a h _ => h2 g a h)
    fun _ _ _ => Preserves.modify_bind (fun g h => h3 g _ h)
      (Preserves.get_bind fun _ => Preserves.pure _)

/-! ### C42 -/

/-- C42.  The state after import is the documented default state. -/
theorem C42_init : IsDefault Glb.init := by
  constructor <;> rfl

/-- What `ACM_set_defaults` does in any state. -/
theorem defaults_eq (fmt : String → Py Unit) (hf : fmt def_rat_format = .ok ()) (s : Int) (g : Glb) :
    ACM_set_defaults fmt s g =
      (.ok (), { Glb.init with tran_format := g.tran_format, tran_fill := g.tran_fill,
                               nu_lap := g.nu_lap }) := by
  have hs : pySqrt 1 = .ok 1 := by rw [pySqrt_ok (by norm_num), Real.sqrt_one]
  have hAM : |Op_AM quad_op| = 2 := by rw [C71_quad_AM.1]; rfl
  have hr : ∀ g : Glb, g.rat_format = def_rat_format →
      ACM_set_rat_fit fmt (some 100) (some 2) (some 0) (some 1) (some 1) s g =
      (.ok (100, 2, 0, 1, 1), { g with rat_fit := 100, rat_L1 := 2, rat_L2 := 0, rat_1dx := 1,
                                       rat_2dx := 1 }) := by
    intro g hg
    have hh : (if s > 0 then fmt g.rat_format else pure ()) = (.ok () : Py Unit) := by
      rw [hg, hf]; split_ifs <;> rfl
    unfold ACM_set_rat_fit
    simp only [Option.getD_some]
    rw [require_nonnegint_ok (by decide), require_nonnegint_ok (by decide),
      require_posint_ok (by decide), st_lift_ok, st_lift_ok, st_lift_ok, st_lift_ok,
      gm_modify_bind, gm_get_bind]
    show (StPy.lift (if s > 0 then fmt g.rat_format else pure ()) >>= _) _ = _
    rw [hh]; rfl
  have hsc : ∀ g : Glb, g.amp_sft_fun = pySqrt → ACM_set_scales (some 1) (some 1) s g =
      (.ok (), { g with eig_sft := 1, rat_sft := 1, amp_sft := 1 }) := by
    intro g hg
    rw [ACM_set_scales_eq]
    simp only [Option.getD_some]
    rw [hg, hs]
    simp [scalesShown]
  have htr : ∀ g : Glb, ACM_set_transition (some quad_op) s g =
      (.ok (quad_op, 2), { g with rat_TRop := quad_op, rat_TRopAM := 2 }) := by
    intro g
    unfold ACM_set_transition
    simp only [Option.getD_some, hAM]
    rfl
  have h1 : ∀ g : Glb, ACM_set_output (some 2) (some 7) (some 4) s g =
      (.ok (2, 7, 4), { g with rel_pre := 2, rel_wid := 7, low_pre := 4 }) := fun _ => rfl
  have h2 : ∀ g : Glb, ACM_set_listln (some 4) (some 4) s g =
      (.ok (4, 4, 4), { g with eig_num := 4, rat_num := 4, amp_num := 4 }) := fun _ => rfl
  have h3 : ∀ g : Glb, ACM_set_datum 1 s g = (.ok true, { g with eig_rel := true }) :=
    fun _ => rfl
  have h4 : ∀ g : Glb, ACM_set_basis_type 2 0 s g =
      (.ok lambda_acm_fun, { g with lam_fun := lambda_acm_fun }) := by
    intro g; rw [ACM_set_basis_type_eq]; simp
  have h6 : ∀ g : Glb, ACM_set_rat_form (some quad_rat_fun) (some def_rat_format)
      (some def_rat_desg) s g = (.ok (quad_rat_fun, def_rat_format, def_rat_desg),
        { g with rat_fun := quad_rat_fun, rat_format := def_rat_format,
                 rat_desg := def_rat_desg }) := fun _ => rfl
  have h7 : ∀ g : Glb, ACM_set_amp_form (some quad_amp_fun) (some def_amp_format)
      (some def_amp_desg) s g = (.ok (quad_amp_fun, def_amp_format, def_amp_desg),
        { g with amp_fun := quad_amp_fun, amp_format := def_amp_format,
                 amp_desg := def_amp_desg }) := fun _ => rfl
  have h8 : ∀ g : Glb, ACM_set_sft_fun (some pySqrt) s g =
      (.ok pySqrt, { g with amp_sft_fun := pySqrt }) := fun _ => rfl
  have h9 : ∀ g : Glb, ACM_set_eig_fit (some 6) (some 2) (some 1) s g =
      (.ok (6, 2, 1), { g with eig_fit := 6, eig_L := 2, eig_idx := 1 }) := fun _ => rfl
  have h11 : ∀ g : Glb, ACM_set_rat_lst [] g = (.ok 0, { g with rat_lst := [] }) := fun _ => rfl
  have h12 : ∀ g : Glb, ACM_set_amp_lst [] g = (.ok 0, { g with amp_lst := [] }) := fun _ => rfl
  unfold ACM_set_defaults
  rw [st_bind_ok (h1 _), st_bind_ok (h2 _), st_bind_ok (h3 _), st_bind_ok (h4 _),
    st_bind_ok (htr _), st_bind_ok (h6 _), st_bind_ok (h7 _), st_bind_ok (h8 _),
    st_bind_ok (h9 _), st_bind_ok (hr _ rfl), st_bind_ok (h11 _), st_bind_ok (h12 _)]
  exact hsc _ rfl

/-- C42.  After any history of setting calls, failing ones included, `ACM_set_defaults` succeeds
and re-establishes exactly the state after import (which `C42_init` identifies with the documented
defaults).  The hypothesis says that the default format string accepts its two arguments. -/
theorem C42_defaults (fmt : String → Py Unit) (hf : fmt "  B(E2: {}) = {}" = .ok ()) (s : Int)
    (cs : List GCall) :
    ACM_set_defaults fmt s (runGCalls fmt cs Glb.init) = (.ok (), Glb.init) := by
  have h : (runGCalls fmt cs Glb.init).tran_format = Glb.init.tran_format ∧
      (runGCalls fmt cs Glb.init).tran_fill = Glb.init.tran_fill ∧
      (runGCalls fmt cs Glb.init).nu_lap = Glb.init.nu_lap := by
    refine Preserves.run (P := fun g => g.tran_format = Glb.init.tran_format ∧
      g.tran_fill = Glb.init.tran_fill ∧ g.nu_lap = Glb.init.nu_lap) cs (fun c _ => ?_)
      ⟨rfl, rfl, rfl⟩
    refine exec_keeps' fmt ?_ (fun _ _ _ h => h) (fun _ _ h => h) (fun _ _ h => h) c
    constructor <;> intros <;> assumption
  rw [defaults_eq fmt hf, h.1, h.2.1, h.2.2]

/-- C42.  In every state whatsoever, `ACM_set_defaults` succeeds, sets the documented defaults and
is idempotent. -/
theorem C42_any_state (fmt : String → Py Unit) (hf : fmt "  B(E2: {}) = {}" = .ok ()) (s t : Int)
    (g : Glb) : ∃ g', ACM_set_defaults fmt s g = (.ok (), g') ∧ IsDefault g' ∧
      ACM_set_defaults fmt t g' = (.ok (), g') := by
  refine ⟨_, defaults_eq fmt hf s g, ?_, ?_⟩
  · constructor <;> rfl
  · rw [defaults_eq fmt hf]

/-- A history with a failing call that leaves a non-default state. -/
example : ¬ IsDefault (runGCalls (fun _ => .ok ()) [.output (some 3) (some (-1)) none 0] Glb.init) := by
  intro h
  have h1 := h.rel_pre
  have h2 : (runGCalls (fun _ => .ok ()) [.output (some 3) (some (-1)) none 0] Glb.init).rel_pre = 3 :=
    rfl
  omega

/-! ### C43 -/

/-- C43.  After any history all entries of both lists are valid designators. -/
theorem C43_valid (fmt : String → Py Unit) (cs : List GCall) :
    (∀ e ∈ (runGCalls fmt cs Glb.init).rat_lst, IsDesignator e) ∧
    (∀ e ∈ (runGCalls fmt cs Glb.init).amp_lst, IsDesignator e) := by
  have hadd : ∀ l es : List (List Int), (∀ e ∈ l, IsDesignator e) →
      ∀ e ∈ addDesignators l es, IsDesignator e := by
    intro l es hl e he
    rw [addDesignators_eq, List.mem_append] at he
    rcases he with he | he
    · exact hl e he
    · exact of_decide_eq_true (List.mem_filter.1 he).2
  refine Preserves.run (P := fun g => (∀ e ∈ g.rat_lst, IsDesignator e) ∧
    (∀ e ∈ g.amp_lst, IsDesignator e)) cs (fun c _ => ?_) ⟨by simp [Glb.init], by simp [Glb.init]⟩
  refine exec_keeps' fmt ?_ (fun _ _ _ h => h) (fun _ _ h => h) (fun _ _ h => h) c
  constructor
  case rat_nil => intro g h; exact ⟨by simp, h.2⟩
  case amp_nil => intro g h; exact ⟨h.1, by simp⟩
  case rat_add => intro g es h; exact ⟨hadd _ _ h.1, h.2⟩
  case amp_add => intro g es h; exact ⟨h.1, hadd _ _ h.2⟩
  all_goals intros; assumption

/-- C43.  The set procedures replace the list by the valid designators given, in order, the add
procedures append them; the other list and all other settings are left alone; the returned count
is the length of the new list. -/
theorem C43_lists (g : Glb) (es : List (List Int)) :
    let valid := es.filter fun e => decide (IsDesignator e)
    ACM_set_rat_lst es g = (.ok valid.length, { g with rat_lst := valid }) ∧
    ACM_add_rat_lst es g =
      (.ok ((g.rat_lst ++ valid).length : ℕ), { g with rat_lst := g.rat_lst ++ valid }) ∧
    ACM_set_amp_lst es g = (.ok valid.length, { g with amp_lst := valid }) ∧
    ACM_add_amp_lst es g =
      (.ok ((g.amp_lst ++ valid).length : ℕ), { g with amp_lst := g.amp_lst ++ valid }) := by
  intro valid
  have h : ∀ l, addDesignators l es = l ++ valid := fun l => addDesignators_eq l es
  refine ⟨?_, ?_, ?_, ?_⟩
  · show (Except.ok ((addDesignators [] es).length : Int),
      { g with rat_lst := addDesignators [] es }) = _
    rw [h]; rfl
  · show (Except.ok ((addDesignators g.rat_lst es).length : Int),
      { g with rat_lst := addDesignators g.rat_lst es }) = _
    rw [h]
  · show (Except.ok ((addDesignators [] es).length : Int),
      { g with amp_lst := addDesignators [] es }) = _
    rw [h]; rfl
  · show (Except.ok ((addDesignators g.amp_lst es).length : Int),
      { g with amp_lst := addDesignators g.amp_lst es }) = _
    rw [h]

/-- A call in which one entry is kept and one (six fields) is dropped. -/
example : (ACM_set_rat_lst [[2, 0], [1, 2, 3, 4, 5, 6]] Glb.init).1 = .ok 1 := rfl

/-! ### C44 -/

/-- C44.  After any history precisions, widths and counts are non-negative, reference indices
positive, and the number of amplitudes is that of rates.  Missing: the scaling factors, see
`C44_scales_fails`. -/
theorem C44_ranges_partial (fmt : String → Py Unit) (cs : List GCall) :
    RangesOk (runGCalls fmt cs Glb.init) := by
  refine Preserves.run cs (fun c _ => ?_) ?_
  · refine exec_keeps' fmt ?_ (fun _ _ _ h => ?_) (fun _ _ h => ?_) (fun _ _ h => ?_) c
    · constructor
      case rel_pre => intro g x hx h; exact { h with rel_pre := hx }
      case rel_wid => intro g x hx h; exact { h with rel_wid := hx }
      case low_pre => intro g x hx h; exact { h with low_pre := hx }
      case eig_num => intro g x hx h; exact { h with eig_num := hx }
      case rat_num => intro g x hx h; exact { h with rat_num := hx, amp_num := rfl }
      case eig_fit => intro g x L i hL hi h; exact { h with eig_L := hL, eig_idx := hi }
      case rat_fit =>
        intro g x L1 L2 i1 i2 a1 a2 a3 a4 h
        exact { h with rat_L1 := a1, rat_L2 := a2, rat_1dx := a3, rat_2dx := a4 }
      case transition => intro g op h; exact { h with opAM := abs_nonneg _ }
      all_goals intros; rename_i h; exact { h with }
    all_goals exact { h with }
  · constructor <;> simp [Glb.init]

/-- C44 fails for the scaling factors: `ACM_set_scales` accepts 0. -/
theorem C44_scales_fails (fmt : String → Py Unit) :
    ACM_set_scales (some 0) none 0 Glb.init = (.ok (), { Glb.init with eig_sft := 0 }) ∧
    ¬ ScalesOk (runGCalls fmt [.scales (some 0) none 0] Glb.init) := by
  have hs : pySqrt 1 = .ok 1 := by rw [pySqrt_ok (by norm_num), Real.sqrt_one]
  have h : ACM_set_scales (some 0) none 0 Glb.init = (.ok (), { Glb.init with eig_sft := 0 }) := by
    rw [ACM_set_scales_eq]
    show (match pySqrt 1 with
      | .error x => _
      | .ok a => _) = _
    rw [hs]
    rfl
  refine ⟨h, fun hh => hh.1 ?_⟩
  show (ACM_set_scales (some 0) none 0 Glb.init).2.eig_sft = 0
  rw [h]

/-- C44.  The scaling factors are non-zero after any history in which `ACM_set_scales` is only
called with a non-zero energy factor and a positive rate factor and all amplitude factor functions
give non-zero results for positive arguments. -/
theorem C44_scales_partial (fmt : String → Py Unit) (cs : List GCall)
    (h1 : ∀ e r s, GCall.scales e r s ∈ cs → (∀ x, e = some x → x ≠ 0) ∧ (∀ x, r = some x → 0 < x))
    (h2 : ∀ f s, GCall.sftFun (some f) s ∈ cs → ∀ x a, 0 < x → f x = .ok a → a ≠ 0) :
    ScalesOk (runGCalls fmt cs Glb.init) := by
  have hsq : ∀ x a : ℝ, 0 < x → pySqrt x = .ok a → a ≠ 0 := by
    intro x a hx h
    rw [pySqrt_ok hx.le] at h
    cases h
    exact (Real.sqrt_pos.2 hx).ne'
  have key := Preserves.run (fmt := fmt) (g := Glb.init)
    (P := fun g => g.eig_sft ≠ 0 ∧ 0 < g.rat_sft ∧ g.amp_sft ≠ 0 ∧
      ∀ x a, 0 < x → g.amp_sft_fun x = .ok a → a ≠ 0) cs (fun c hc => ?_)
    ⟨by simp [Glb.init], by simp [Glb.init], by simp [Glb.init], hsq⟩
  · exact ⟨key.1, key.2.1.ne', key.2.2.1⟩
  · refine exec_keeps fmt ?_ c ?_ ?_
    · constructor <;> intros <;> assumption
    · intro e r s h
      have hv : (∀ x, e = some x → x ≠ 0) ∧ (∀ x, r = some x → 0 < x) := by
        rcases h with h | ⟨_, he, hr⟩
        · exact h1 e r s (h ▸ hc)
        · subst he hr
          constructor <;> intro x hx <;> cases hx <;> norm_num
      refine preserves_scales _ _ _ (fun g hg => ⟨?_, ?_, hg.2.2.1, hg.2.2.2⟩) (fun g a hg ha => ?_)
      · cases e with
        | none => exact hg.1
        | some x => exact hv.1 x rfl
      · cases r with
        | none => exact hg.2.1
        | some x => exact hv.2 x rfl
      · exact ⟨hg.1, hg.2.1, hg.2.2.2 _ _ hg.2.1 ha, hg.2.2.2⟩
    · intro f s h
      refine Preserves.modify_bind (fun g hg => ⟨hg.1, hg.2.1, hg.2.2.1, ?_⟩)
        (Preserves.get_bind fun _ => Preserves.pure _)
      cases f with
      | none => exact hsq
      | some f =>
        rcases h with h | h
        · exact h2 f s (h ▸ hc)
        · cases h; exact hsq

/-- A history with non-default scales that meets the hypotheses. -/
example : ∀ e r s, GCall.scales e r s ∈ [GCall.scales (some (-2)) (some 3) 1] →
    (∀ x, e = some x → x ≠ 0) ∧ (∀ x, r = some x → 0 < x) := by
  intro e r s h
  simp only [List.mem_singleton, GCall.scales.injEq] at h
  obtain ⟨rfl, rfl, rfl⟩ := h
  constructor <;> intro x hx <;> cases hx <;> norm_num

/-! ### C45 -/

/-- C45 for `ACM_set_scales`, `ACM_set_output` and `ACM_set_listln`: an omitted argument leaves its
setting unchanged, also if the procedure raises.  The other procedures with optional arguments do
not have this property, see `C45_fails`. -/
theorem C45_omitted_partial (g : Glb) (e r : Option ℝ) (a b c : Option Int) (s : Int) :
    (ACM_set_scales none r s g).2.eig_sft = g.eig_sft ∧
    (ACM_set_scales e none s g).2.rat_sft = g.rat_sft ∧
    (ACM_set_output none b c s g).2.rel_pre = g.rel_pre ∧
    (ACM_set_output a none c s g).2.rel_wid = g.rel_wid ∧
    (ACM_set_output a b none s g).2.low_pre = g.low_pre ∧
    (ACM_set_listln none b s g).2.eig_num = g.eig_num ∧
    (ACM_set_listln a none s g).2.rat_num = g.rat_num ∧
    (ACM_set_listln a none s g).2.amp_num = g.amp_num := by
  have P1 : ∀ {α : Type} (P : Glb → Prop) (x : GM α), Preserves P x → P g → P (x g).2 :=
    fun P x h hg => h g hg
  have hsi : ∀ {α : Type} (P : Glb → Prop) (c : α → Py Unit) (u : α → Glb → Glb),
      Preserves P (setIf none c u) := fun P c u g hg => hg
  have hg : ∀ {α : Type} (P : Glb → Prop) (f : Glb → α), Preserves P (do
      let g ← GM.get
      pure (f g) : GM α) := fun P f => Preserves.get_bind fun _ => Preserves.pure _
  refine ⟨?_, ?_, ?_, ?_, ?_, ?_, ?_, ?_⟩
  · rw [ACM_set_scales_eq]; dsimp only; split <;> rfl
  · rw [ACM_set_scales_eq]; dsimp only; split <;> rfl
  · refine P1 (fun g' => g'.rel_pre = g.rel_pre) _ ?_ rfl
    unfold ACM_set_output
    refine Preserves.bind (hsi _ _ _) fun _ => ?_
    refine Preserves.bind (Preserves.setIf fun _ _ _ _ h => ?_) fun _ => ?_
    · exact h
    refine Preserves.bind (Preserves.setIf fun _ _ _ _ h => ?_) fun _ => ?_
    · exact h
    exact hg _ _
  · refine P1 (fun g' => g'.rel_wid = g.rel_wid) _ ?_ rfl
    unfold ACM_set_output
    refine Preserves.bind (Preserves.setIf fun _ _ _ _ h => ?_) fun _ => ?_
    · exact h
    refine Preserves.bind (hsi _ _ _) fun _ => ?_
    refine Preserves.bind (Preserves.setIf fun _ _ _ _ h => ?_) fun _ => ?_
    · exact h
    exact hg _ _
  · refine P1 (fun g' => g'.low_pre = g.low_pre) _ ?_ rfl
    unfold ACM_set_output
    refine Preserves.bind (Preserves.setIf fun _ _ _ _ h => ?_) fun _ => ?_
    · exact h
    refine Preserves.bind (Preserves.setIf fun _ _ _ _ h => ?_) fun _ => ?_
    · exact h
    refine Preserves.bind (hsi _ _ _) fun _ => ?_
    exact hg _ _
  · refine P1 (fun g' => g'.eig_num = g.eig_num) _ ?_ rfl
    unfold ACM_set_listln
    refine Preserves.bind (hsi _ _ _) fun _ => ?_
    refine Preserves.bind (Preserves.setIf fun _ _ _ _ h => ?_) fun _ => ?_
    · exact h
    exact hg _ _
  · refine P1 (fun g' => g'.rat_num = g.rat_num) _ ?_ rfl
    unfold ACM_set_listln
    refine Preserves.bind (Preserves.setIf fun _ _ _ _ h => ?_) fun _ => ?_
    · exact h
    refine Preserves.bind (hsi _ _ _) fun _ => ?_
    exact hg _ _
  · refine P1 (fun g' => g'.amp_num = g.amp_num) _ ?_ rfl
    unfold ACM_set_listln
    refine Preserves.bind (Preserves.setIf fun _ _ _ _ h => ?_) fun _ => ?_
    · exact h
    refine Preserves.bind (hsi _ _ _) fun _ => ?_
    exact hg _ _

/-- A call with an omitted and a given argument that does change the given setting. -/
example : (ACM_set_output none (some 9) none 0 Glb.init).2.rel_wid = 9 := rfl

/-- C45 fails for `ACM_set_eig_fit`, `ACM_set_rat_fit`, `ACM_set_transition`, `ACM_set_rat_form`,
`ACM_set_amp_form` and `ACM_set_sft_fun`: an omitted argument resets the setting to its value at
import, whatever the current value. -/
theorem C45_fails (fmt : String → Py Unit) (g : Glb) (x : ℝ) :
    (ACM_set_eig_fit (some x) none none 0 g).2.eig_L = 2 ∧
    (ACM_set_eig_fit (some x) none none 0 g).2.eig_idx = 1 ∧
    (ACM_set_rat_fit fmt (some x) none none none none 0 g).2.rat_L1 = 2 ∧
    (ACM_set_rat_fit fmt (some x) none none none none 0 g).2.rat_L2 = 0 ∧
    (ACM_set_transition none 0 g).2.rat_TRop = quad_op ∧
    (ACM_set_rat_form none none none 0 g).2.rat_format = def_rat_format ∧
    (ACM_set_amp_form none none none 0 g).2.amp_format = def_amp_format ∧
    (ACM_set_sft_fun none 0 g).2.amp_sft_fun = pySqrt :=
  ⟨rfl, rfl, rfl, rfl, rfl, rfl, rfl, rfl⟩

/-- C45 fails: an instance, reachable from the initial state. -/
theorem C45_fails_witness (fmt : String → Py Unit) :
    (runGCalls fmt [.eigFit (some 7) (some 4) (some 2) 0] Glb.init).eig_L = 4 ∧
    (runGCalls fmt [.eigFit (some 7) (some 4) (some 2) 0, .eigFit (some 7) none none 0]
      Glb.init).eig_L = 2 := ⟨rfl, rfl⟩

/-! ### C46 -/

/-- The procedure changes nothing if it raises. -/
def Atomic {α : Type} (x : GM α) : Prop := ∀ g e g', x g = (.error e, g') → g' = g

/-- C46 for the procedures that check before they assign.  Missing: `ACM_set_output`,
`ACM_set_listln` and `ACM_set_scales`, see `C46_fails`; and `ACM_set_rat_fit` with output, where
the user's format string may be rejected after the assignments. -/
theorem C46_atomic_partial (fmt : String → Py Unit) :
    (∀ d s, Atomic (ACM_set_datum d s)) ∧
    (∀ x L i s, Atomic (ACM_set_eig_fit x L i s)) ∧
    (∀ x L1 L2 i1 i2 s, s ≤ 0 → Atomic (ACM_set_rat_fit fmt x L1 L2 i1 i2 s)) ∧
    (∀ c a s, Atomic (ACM_set_basis_type c a s)) ∧
    (∀ es, Atomic (ACM_set_rat_lst es) ∧ Atomic (ACM_add_rat_lst es) ∧
      Atomic (ACM_set_amp_lst es) ∧ Atomic (ACM_add_amp_lst es)) ∧
    (∀ op s, Atomic (ACM_set_transition op s)) ∧
    (∀ f a b s, Atomic (ACM_set_rat_form f a b s) ∧ Atomic (ACM_set_amp_form f a b s)) ∧
    (∀ f s, Atomic (ACM_set_sft_fun f s)) ∧
    (∀ f s, Atomic (ACM_set_lambda_fun f s)) := by
  have lb : ∀ {α β : Type} (x : Py α) (f : α → GM β), (∀ a, Atomic (f a)) →
      Atomic (StPy.lift x >>= f) := by
    intro α β x f hf g e g' h
    cases x with
    | ok a => exact hf a g e g' h
    | error e' =>
      have h' : ((.error e', g) : Py β × Glb) = (.error e, g') := h
      simp only [Prod.mk.injEq] at h'
      exact h'.2.symm
  have ok : ∀ {α : Type} (x : GM α), (∀ g, ∃ a g', x g = (.ok a, g')) → Atomic x := by
    intro α x hx g e g' h
    obtain ⟨a, g2, ha⟩ := hx g
    rw [ha] at h
    simp at h
  refine ⟨?_, ?_, ?_, ?_, ?_, ?_, ?_, ?_, ?_⟩
  · intro d s
    exact lb _ _ fun _ => ok _ fun g => ⟨_, _, rfl⟩
  · intro x L i s
    exact lb _ _ fun _ => lb _ _ fun _ => ok _ fun g => ⟨_, _, rfl⟩
  · intro x L1 L2 i1 i2 s hs
    unfold ACM_set_rat_fit
    simp only [if_neg (show ¬ s > 0 by omega)]
    exact lb _ _ fun _ => lb _ _ fun _ => lb _ _ fun _ => lb _ _ fun _ => ok _ fun g => ⟨_, _, rfl⟩
  · intro c a s g e g' h
    rw [ACM_set_basis_type_eq] at h
    split_ifs at h <;> simp only [Prod.mk.injEq, reduceCtorEq, false_and] at h
    exact h.2.symm
  · intro es
    exact ⟨ok _ fun g => ⟨_, _, rfl⟩, ok _ fun g => ⟨_, _, rfl⟩, ok _ fun g => ⟨_, _, rfl⟩,
      ok _ fun g => ⟨_, _, rfl⟩⟩
  · intro op s; exact ok _ fun g => ⟨_, _, rfl⟩
  · intro f a b s; exact ⟨ok _ fun g => ⟨_, _, rfl⟩, ok _ fun g => ⟨_, _, rfl⟩⟩
  · intro f s; exact ok _ fun g => ⟨_, _, rfl⟩
  · intro f s; exact ok _ fun g => ⟨_, _, rfl⟩

/-- Rejected calls of procedures that check first. -/
example : (ACM_set_datum (-1) 0 Glb.init).1 = .error .valueError ∧
    (ACM_set_eig_fit none none (some 0) 0 Glb.init).1 = .error .valueError := ⟨rfl, rfl⟩

/-- C46 fails: `ACM_set_output`, `ACM_set_listln` and `ACM_set_scales` keep what they assigned
before the rejection. -/
theorem C46_fails :
    ACM_set_output (some 3) (some (-1)) none 0 Glb.init =
      (.error .valueError, { Glb.init with rel_pre := 3 }) ∧
    ACM_set_listln (some 9) (some (-1)) 0 Glb.init =
      (.error .valueError, { Glb.init with eig_num := 9 }) ∧
    ACM_set_scales (some 5) (some (-1)) 0 Glb.init =
      (.error .valueError, { Glb.init with eig_sft := 5, rat_sft := -1 }) ∧
    ACM_set_scales (some 0) none 1 Glb.init =
      (.error .zeroDivisionError, { Glb.init with eig_sft := 0 }) := by
  refine ⟨rfl, rfl, ?_, ?_⟩
  · have h : pySqrt (-1) = .error .valueError := by
      unfold pySqrt; rw [if_pos (by norm_num)]; rfl
    rw [ACM_set_scales_eq]
    show (match pySqrt (-1) with
      | .error x => _
      | .ok a => _) = _
    rw [h]; rfl
  · have hs : pySqrt 1 = .ok 1 := by rw [pySqrt_ok (by norm_num), Real.sqrt_one]
    rw [ACM_set_scales_eq]
    show (match pySqrt 1 with
      | .error x => _
      | .ok a => _) = _
    rw [hs]
    simp [scalesShown, Glb.init]

/-- C46 for `ACM_set_output` and `ACM_set_listln`, restricted: a rejected first argument changes nothing.
Missing: the later arguments, see `C46_fails`, `C46_frame_partial`. -/
theorem C46_first_partial (g : Glb) (x : Int) (hx : x < 0) (b c : Option Int) (s : Int) :
    ACM_set_output (some x) b c s g = (.error .valueError, g) ∧
    ACM_set_listln (some x) b s g = (.error .valueError, g) :=
  ⟨setIf_error_bind _ _ _ (require_nonnegint_err hx),
   setIf_error_bind _ _ _ (require_nonnegint_err hx)⟩

/-- A negative precision. -/
example (g : Glb) : ACM_set_output (some (-3)) (some 9) none 0 g = (.error .valueError, g) :=
  (C46_first_partial g (-3) (by decide) (some 9) none 0).1

/-- What `setIf` does: nothing, the assignment, or an exception before the assignment. -/
theorem setIf_frame {α : Type} (x : Option α) (check : α → Py Unit) (upd : α → Glb → Glb) (g : Glb) :
    setIf x check upd g = (.ok (), g) ∨ (∃ y, x = some y ∧ setIf x check upd g = (.ok (), upd y g)) ∨
    ∃ e, setIf x check upd g = (.error e, g) := by
  cases x with
  | none => exact .inl rfl
  | some y =>
    cases h : check y with
    | error e =>
      refine .inr (.inr ⟨e, ?_⟩)
      show StPy.bind (StPy.lift (check y)) _ g = _
      rw [h]; rfl
    | ok u =>
      refine .inr (.inl ⟨y, rfl, ?_⟩)
      show StPy.bind (StPy.lift (check y)) _ g = _
      rw [h]; rfl

theorem gm_bind_ok {α β : Type} {x : GM α} {f : α → GM β} {g g' : Glb} {y : α} (h : x g = (.ok y, g')) : (x >>= f) g = f y g' := by
  show StPy.bind x f g = _
  unfold StPy.bind; rw [h]

theorem gm_bind_error {α β : Type} {x : GM α} {f : α → GM β} {g g' : Glb} {e : PyErr} (h : x g = (.error e, g')) :
    (x >>= f) g = (.error e, g') := by
  show StPy.bind x f g = _
  unfold StPy.bind; rw [h]

/-- C46 for the setters that assign before they check, as far as it holds: whether the call succeeds or raises, only the settings
it names change, each to the value given (the number of amplitudes follows that of rates, the scale of amplitudes is recomputed
from that of rates), and all others are as before.  Missing: that nothing changes if the call raises, which is wrong (`C46_fails`). -/
theorem C46_frame_partial (g : Glb) (p w l : Option Int) (x y : Option ℝ) (s : Int) :
    (∃ p' w' l', (p' = g.rel_pre ∨ p = some p') ∧ (w' = g.rel_wid ∨ w = some w') ∧ (l' = g.low_pre ∨ l = some l') ∧
      (ACM_set_output p w l s g).2 = { g with rel_pre := p', rel_wid := w', low_pre := l' }) ∧
    (∃ n r a, (n = g.eig_num ∨ p = some n) ∧ (r = g.rat_num ∧ a = g.amp_num ∨ w = some r ∧ a = r) ∧
      (ACM_set_listln p w s g).2 = { g with eig_num := n, rat_num := r, amp_num := a }) ∧
    ∃ a, (a = g.amp_sft ∨ g.amp_sft_fun (y.getD g.rat_sft) = .ok a) ∧
      (ACM_set_scales x y s g).2 = { g with eig_sft := x.getD g.eig_sft, rat_sft := y.getD g.rat_sft, amp_sft := a } := by
  refine ⟨?_, ?_, ?_⟩
  · unfold ACM_set_output
    rcases setIf_frame p require_nonnegint (fun x g => { g with rel_pre := x }) g with h1 | ⟨y1, e1, h1⟩ | ⟨e, h1⟩
    · rw [gm_bind_ok h1]
      rcases setIf_frame w require_nonnegint (fun x g => { g with rel_wid := x }) g with h2 | ⟨y2, e2, h2⟩ | ⟨e, h2⟩
      · rw [gm_bind_ok h2]
        rcases setIf_frame l require_nonnegint (fun x g => { g with low_pre := x }) g with h3 | ⟨y3, e3, h3⟩ | ⟨e, h3⟩
        · rw [gm_bind_ok h3]; exact ⟨_, _, _, .inl rfl, .inl rfl, .inl rfl, rfl⟩
        · rw [gm_bind_ok h3]; exact ⟨_, _, _, .inl rfl, .inl rfl, .inr e3, rfl⟩
        · rw [gm_bind_error h3]; exact ⟨_, _, _, .inl rfl, .inl rfl, .inl rfl, rfl⟩
      · rw [gm_bind_ok h2]
        rcases setIf_frame l require_nonnegint (fun x g => { g with low_pre := x }) { g with rel_wid := y2 } with h3 | ⟨y3, e3, h3⟩ | ⟨e, h3⟩
        · rw [gm_bind_ok h3]; exact ⟨_, _, _, .inl rfl, .inr e2, .inl rfl, rfl⟩
        · rw [gm_bind_ok h3]; exact ⟨_, _, _, .inl rfl, .inr e2, .inr e3, rfl⟩
        · rw [gm_bind_error h3]; exact ⟨_, _, _, .inl rfl, .inr e2, .inl rfl, rfl⟩
      · rw [gm_bind_error h2]; exact ⟨_, _, _, .inl rfl, .inl rfl, .inl rfl, rfl⟩
    · rw [gm_bind_ok h1]
      rcases setIf_frame w require_nonnegint (fun x g => { g with rel_wid := x }) { g with rel_pre := y1 } with h2 | ⟨y2, e2, h2⟩ | ⟨e, h2⟩
      · rw [gm_bind_ok h2]
        rcases setIf_frame l require_nonnegint (fun x g => { g with low_pre := x }) { g with rel_pre := y1 } with h3 | ⟨y3, e3, h3⟩ | ⟨e, h3⟩
        · rw [gm_bind_ok h3]; exact ⟨_, _, _, .inr e1, .inl rfl, .inl rfl, rfl⟩
        · rw [gm_bind_ok h3]; exact ⟨_, _, _, .inr e1, .inl rfl, .inr e3, rfl⟩
        · rw [gm_bind_error h3]; exact ⟨_, _, _, .inr e1, .inl rfl, .inl rfl, rfl⟩
      · rw [gm_bind_ok h2]
        rcases setIf_frame l require_nonnegint (fun x g => { g with low_pre := x }) { g with rel_pre := y1, rel_wid := y2 } with h3 | ⟨y3, e3, h3⟩ | ⟨e, h3⟩
        · rw [gm_bind_ok h3]; exact ⟨_, _, _, .inr e1, .inr e2, .inl rfl, rfl⟩
        · rw [gm_bind_ok h3]; exact ⟨_, _, _, .inr e1, .inr e2, .inr e3, rfl⟩
        · rw [gm_bind_error h3]; exact ⟨_, _, _, .inr e1, .inr e2, .inl rfl, rfl⟩
      · rw [gm_bind_error h2]; exact ⟨_, _, _, .inr e1, .inl rfl, .inl rfl, rfl⟩
    · rw [gm_bind_error h1]; exact ⟨_, _, _, .inl rfl, .inl rfl, .inl rfl, rfl⟩
  · unfold ACM_set_listln
    rcases setIf_frame p require_nonnegint (fun x g => { g with eig_num := x }) g with h1 | ⟨y1, e1, h1⟩ | ⟨e, h1⟩
    · rw [gm_bind_ok h1]
      rcases setIf_frame w require_nonnegint (fun x g => { g with rat_num := x, amp_num := x }) g with h2 | ⟨y2, e2, h2⟩ | ⟨e, h2⟩
      · rw [gm_bind_ok h2]; exact ⟨_, _, _, .inl rfl, .inl ⟨rfl, rfl⟩, rfl⟩
      · rw [gm_bind_ok h2]; exact ⟨_, _, _, .inl rfl, .inr ⟨e2, rfl⟩, rfl⟩
      · rw [gm_bind_error h2]; exact ⟨_, _, _, .inl rfl, .inl ⟨rfl, rfl⟩, rfl⟩
    · rw [gm_bind_ok h1]
      rcases setIf_frame w require_nonnegint (fun x g => { g with rat_num := x, amp_num := x }) { g with eig_num := y1 } with h2 | ⟨y2, e2, h2⟩ | ⟨e, h2⟩
      · rw [gm_bind_ok h2]; exact ⟨_, _, _, .inr e1, .inl ⟨rfl, rfl⟩, rfl⟩
      · rw [gm_bind_ok h2]; exact ⟨_, _, _, .inr e1, .inr ⟨e2, rfl⟩, rfl⟩
      · rw [gm_bind_error h2]; exact ⟨_, _, _, .inr e1, .inl ⟨rfl, rfl⟩, rfl⟩
    · rw [gm_bind_error h1]; exact ⟨_, _, _, .inl rfl, .inl ⟨rfl, rfl⟩, rfl⟩
  · rw [ACM_set_scales_eq]
    dsimp only
    cases h : g.amp_sft_fun (y.getD g.rat_sft) with
    | error e => exact ⟨g.amp_sft, .inl rfl, rfl⟩
    | ok a => exact ⟨a, .inr rfl, rfl⟩

/-- A rejected second argument: the first setting is changed to the value given and the third is kept. -/
example : (ACM_set_output (some 3) (some (-1)) (some 7) 0 Glb.init).2 = { Glb.init with rel_pre := 3 } := rfl

end Acm.Props
