import Verif.Spec.Settings
import Verif.Props.Globals
import Verif.Lemmas.SO5Prod

/-!
# Property C98: a setting procedure sets what it is given and nothing else
-/

namespace Acm.Props

open Acm Acm.Spec

/-- C98: `ACM_set_output` sets the given numbers, keeps the omitted ones and returns all three. -/
theorem C98_output (g : Glb) (p w l : Option Int) (s : Int) (hp : IfGiven p (0 ≤ ·)) (hw : IfGiven w (0 ≤ ·))
    (hl : IfGiven l (0 ≤ ·)) :
    ∃ g', ACM_set_output p w l s g = (.ok (g'.rel_pre, g'.rel_wid, g'.low_pre), g') ∧
      g'.rel_pre = p.getD g.rel_pre ∧ g'.rel_wid = w.getD g.rel_wid ∧ g'.low_pre = l.getD g.low_pre ∧
      ChangesOnly [.rel_pre, .rel_wid, .low_pre] g g' := by
  refine ⟨{ g with rel_pre := p.getD g.rel_pre, rel_wid := w.getD g.rel_wid, low_pre := l.getD g.low_pre }, ?_,
    rfl, rfl, rfl, fun s hs => by cases s <;> first | rfl | simp at hs⟩
  unfold ACM_set_output
  have k : ∀ {β : Type} (x : Option Int) (hx : IfGiven x (0 ≤ ·)) (u : Int → Glb → Glb) (f : Unit → GM β) (g : Glb),
      (setIf x require_nonnegint u >>= f) g = f () (x.elim g fun a => u a g) := by
    intro β x hx u f g
    cases x with
    | none => rfl
    | some a => exact setIf_some_bind _ _ _ (require_nonnegint_ok (hx a rfl))
  rw [k p hp, k w hw, k l hl]
  cases p <;> cases w <;> cases l <;> rfl

/-- C98: `ACM_set_listln` sets the given numbers; the second one is also the number of amplitudes. -/
theorem C98_listln (g : Glb) (e r : Option Int) (s : Int) (he : IfGiven e (0 ≤ ·)) (hr : IfGiven r (0 ≤ ·)) :
    ∃ g', ACM_set_listln e r s g = (.ok (g'.eig_num, g'.rat_num, g'.amp_num), g') ∧
      g'.eig_num = e.getD g.eig_num ∧ g'.rat_num = r.getD g.rat_num ∧ g'.amp_num = r.getD g.amp_num ∧
      ChangesOnly [.eig_num, .rat_num, .amp_num] g g' := by
  refine ⟨{ g with eig_num := e.getD g.eig_num, rat_num := r.getD g.rat_num, amp_num := r.getD g.amp_num }, ?_,
    rfl, rfl, rfl, fun s hs => by cases s <;> first | rfl | simp at hs⟩
  unfold ACM_set_listln
  have k : ∀ {β : Type} (x : Option Int) (hx : IfGiven x (0 ≤ ·)) (u : Int → Glb → Glb) (f : Unit → GM β) (g : Glb),
      (setIf x require_nonnegint u >>= f) g = f () (x.elim g fun a => u a g) := by
    intro β x hx u f g
    cases x with
    | none => rfl
    | some a => exact setIf_some_bind _ _ _ (require_nonnegint_ok (hx a rfl))
  rw [k e he, k r hr]
  cases e <;> cases r <;> rfl

/-- C98: `ACM_set_datum` chooses relative energies exactly for a positive flag. -/
theorem C98_datum (g : Glb) (d : ℕ) (s : Int) :
    ∃ g', ACM_set_datum d s g = (.ok g'.eig_rel, g') ∧ (g'.eig_rel = true ↔ d ≠ 0) ∧ ChangesOnly [.eig_rel] g g' := by
  refine ⟨{ g with eig_rel := decide ((d : Int) > 0) }, ?_, ?_, fun s hs => by cases s <;> first | rfl | simp at hs⟩
  · unfold ACM_set_datum
    rw [require_nonnegint_ok (by omega), st_lift_ok]
    rfl
  · simp only [decide_eq_true_eq]; omega

/-- C98: `ACM_set_eig_fit` sets the value, the angular momentum and the index of the reference state (an omitted
argument is replaced by the value at import, see C45). -/
theorem C98_eig_fit (g : Glb) (x : Option ℝ) (L i : Option Int) (s : Int) (hL : IfGiven L (0 ≤ ·))
    (hi : IfGiven i (1 ≤ ·)) :
    ∃ g', ACM_set_eig_fit x L i s g = (.ok (g'.eig_fit, g'.eig_L, g'.eig_idx), g') ∧
      g'.eig_fit = x.getD 6 ∧ g'.eig_L = L.getD 2 ∧ g'.eig_idx = i.getD 1 ∧
      ChangesOnly [.eig_fit, .eig_L, .eig_idx] g g' := by
  refine ⟨{ g with eig_fit := x.getD 6, eig_L := L.getD 2, eig_idx := i.getD 1 }, ?_, rfl, rfl, rfl,
    fun s hs => by cases s <;> first | rfl | simp at hs⟩
  have h1 : 0 ≤ L.getD 2 := by cases L <;> simp; exact hL _ rfl
  have h2 : 1 ≤ i.getD 1 := by cases i <;> simp; exact hi _ rfl
  unfold ACM_set_eig_fit
  rw [require_nonnegint_ok h1, st_lift_ok, require_posint_ok h2, st_lift_ok]
  rfl

/-- C98: `ACM_set_rat_fit` sets the value, the two angular momenta and the two indices of the reference
transition. -/
theorem C98_rat_fit (fmt : String → Py Unit) (g : Glb) (x : Option ℝ) (L1 L2 i1 i2 : Option Int) (s : Int)
    (h1 : IfGiven L1 (0 ≤ ·)) (h2 : IfGiven L2 (0 ≤ ·)) (h3 : IfGiven i1 (1 ≤ ·)) (h4 : IfGiven i2 (1 ≤ ·))
    (hf : s ≤ 0 ∨ fmt g.rat_format = .ok ()) :
    ∃ g', ACM_set_rat_fit fmt x L1 L2 i1 i2 s g =
        (.ok (g'.rat_fit, g'.rat_L1, g'.rat_L2, g'.rat_1dx, g'.rat_2dx), g') ∧
      g'.rat_fit = x.getD 100 ∧ g'.rat_L1 = L1.getD 2 ∧ g'.rat_L2 = L2.getD 0 ∧ g'.rat_1dx = i1.getD 1 ∧
      g'.rat_2dx = i2.getD 1 ∧ ChangesOnly [.rat_fit, .rat_L1, .rat_L2, .rat_1dx, .rat_2dx] g g' := by
  refine ⟨{ g with rat_fit := x.getD 100, rat_L1 := L1.getD 2, rat_L2 := L2.getD 0, rat_1dx := i1.getD 1,
                   rat_2dx := i2.getD 1 }, ?_, rfl, rfl, rfl, rfl, rfl, fun s hs => by cases s <;> first | rfl | simp at hs⟩
  have k1 : 0 ≤ L1.getD 2 := by cases L1 <;> simp; exact h1 _ rfl
  have k2 : 0 ≤ L2.getD 0 := by cases L2 <;> simp; exact h2 _ rfl
  have k3 : 1 ≤ i1.getD 1 := by cases i1 <;> simp; exact h3 _ rfl
  have k4 : 1 ≤ i2.getD 1 := by cases i2 <;> simp; exact h4 _ rfl
  unfold ACM_set_rat_fit
  rw [require_nonnegint_ok k1, st_lift_ok, require_nonnegint_ok k2, st_lift_ok, require_posint_ok k3, st_lift_ok,
    require_posint_ok k4, st_lift_ok, gm_modify_bind, gm_get_bind]
  have : (if s > 0 then fmt g.rat_format else pure () : Py Unit) = .ok () := by
    rcases hf with hf | hf
    · rw [if_neg (by omega)]; rfl
    · split
      · exact hf
      · rfl
  rw [this, st_lift_ok]
  rfl

/-- C98: `ACM_set_transition` sets the operator, and its angular momentum with it. -/
theorem C98_transition (g : Glb) (op : Option OperatorSum) (s : Int) :
    ∃ g', ACM_set_transition op s g = (.ok (g'.rat_TRop, g'.rat_TRopAM), g') ∧
      g'.rat_TRop = op.getD quad_op ∧ g'.rat_TRopAM = |Op_AM g'.rat_TRop| ∧
      ChangesOnly [.rat_TRop, .rat_TRopAM] g g' :=
  ⟨{ g with rat_TRop := op.getD quad_op, rat_TRopAM := |Op_AM (op.getD quad_op)| }, rfl, rfl, rfl,
    fun s hs => by cases s <;> first | rfl | simp at hs⟩

/-- C98: `ACM_set_rat_form`, `ACM_set_amp_form`, `ACM_set_sft_fun` and `ACM_set_lambda_fun` set the given functions
and strings. -/
theorem C98_forms (g : Glb) (f : Option MelFun) (a b : Option String) (t : Option (ℝ → Py ℝ)) (k : LambdaFunction)
    (s : Int) :
    (∃ g', ACM_set_rat_form f a b s g = (.ok (g'.rat_fun, g'.rat_format, g'.rat_desg), g') ∧
      g'.rat_fun = f.getD quad_rat_fun ∧ g'.rat_format = a.getD "  B(E2: {}) = {}" ∧
      g'.rat_desg = b.getD "transition rates" ∧ ChangesOnly [.rat_fun, .rat_format, .rat_desg] g g') ∧
    (∃ g', ACM_set_amp_form f a b s g = (.ok (g'.amp_fun, g'.amp_format, g'.amp_desg), g') ∧
      g'.amp_fun = f.getD quad_amp_fun ∧ g'.amp_format = a.getD "  Amp( {} ) = {}" ∧
      g'.amp_desg = b.getD "transition amplitudes" ∧ ChangesOnly [.amp_fun, .amp_format, .amp_desg] g g') ∧
    (∃ g', ACM_set_sft_fun t s g = (.ok g'.amp_sft_fun, g') ∧ g'.amp_sft_fun = t.getD pySqrt ∧
      ChangesOnly [.amp_sft_fun] g g') ∧
    (∃ g', ACM_set_lambda_fun k s g = (.ok g'.lam_fun, g') ∧ g'.lam_fun = k ∧ ChangesOnly [.lam_fun] g g') :=
  ⟨⟨{ g with rat_fun := f.getD quad_rat_fun, rat_format := a.getD "  B(E2: {}) = {}",
             rat_desg := b.getD "transition rates" }, rfl, rfl, rfl, rfl,
      fun s hs => by cases s <;> first | rfl | simp at hs⟩,
    ⟨{ g with amp_fun := f.getD quad_amp_fun, amp_format := a.getD "  Amp( {} ) = {}",
              amp_desg := b.getD "transition amplitudes" }, rfl, rfl, rfl, rfl,
      fun s hs => by cases s <;> first | rfl | simp at hs⟩,
    ⟨{ g with amp_sft_fun := t.getD pySqrt }, rfl, rfl, fun s hs => by cases s <;> first | rfl | simp at hs⟩,
    ⟨{ g with lam_fun := k }, rfl, rfl, fun s hs => by cases s <;> first | rfl | simp at hs⟩⟩

/-- C98: the four basis types choose the constant, the harmonic, the parity and the Davidson function (the last
with `C = abeta0^4`); any other number is rejected and changes nothing. -/
theorem C98_basis (g : Glb) (a : ℝ) (s : Int) :
    (∀ c f, (c = 0 ∧ f = lambda_fix_fun) ∨ (c = 1 ∧ f = lambda_sho_fun) ∨ (c = 2 ∧ f = lambda_acm_fun) ∨
        (c = 3 ∧ f = lambda_davi_fun (a ^ 4)) →
      ∃ g', ACM_set_basis_type c a s g = (.ok f, g') ∧ g'.lam_fun = f ∧ ChangesOnly [.lam_fun] g g') ∧
    ∀ c, c < 0 ∨ 3 < c → ACM_set_basis_type c a s g = (.error .valueError, g) := by
  constructor
  · intro c f h
    refine ⟨{ g with lam_fun := f }, ?_, rfl, fun s hs => by cases s <;> first | rfl | simp at hs⟩
    rw [ACM_set_basis_type_eq]
    rcases h with ⟨rfl, rfl⟩ | ⟨rfl, rfl⟩ | ⟨rfl, rfl⟩ | ⟨rfl, rfl⟩ <;> rfl
  · intro c h
    rw [ACM_set_basis_type_eq, if_neg (by omega), if_neg (by omega), if_neg (by omega), if_neg (by omega)]

/-- C98: `ACM_set_scales` sets the given factors and the amplitude factor that belongs to the rate factor; the
factors are shown without an error if none is zero. -/
theorem C98_scales (g : Glb) (e r : Option ℝ) (s : Int) (a : ℝ) (ha : g.amp_sft_fun (r.getD g.rat_sft) = .ok a)
    (hs : s ≤ 0 ∨ (e.getD g.eig_sft ≠ 0 ∧ r.getD g.rat_sft ≠ 0 ∧ a ≠ 0)) :
    ∃ g', ACM_set_scales e r s g = (.ok (), g') ∧ g'.eig_sft = e.getD g.eig_sft ∧ g'.rat_sft = r.getD g.rat_sft ∧
      g'.amp_sft = a ∧ ChangesOnly [.eig_sft, .rat_sft, .amp_sft] g g' ∧
      ACM_show_scales s g' = (.ok (g'.eig_sft, g'.rat_sft, g'.amp_sft), g') := by
  have hn : scalesShown s { g with eig_sft := e.getD g.eig_sft, rat_sft := r.getD g.rat_sft, amp_sft := a } = .ok () := by
    unfold scalesShown
    rw [if_neg]
    rintro ⟨h1, h2⟩
    rcases hs with hs | ⟨k1, k2, k3⟩
    · omega
    · rcases h2 with h2 | h2 | h2
      · exact k1 h2
      · exact k2 h2
      · exact k3 h2
  refine ⟨{ g with eig_sft := e.getD g.eig_sft, rat_sft := r.getD g.rat_sft, amp_sft := a }, ?_, rfl, rfl, rfl,
    fun s hs => by cases s <;> first | rfl | simp at hs, ?_⟩
  · rw [ACM_set_scales_eq]
    simp only [ha, hn]
  · rw [ACM_show_scales_eq, hn]; rfl

/-- C98: the procedures that replace or extend a list of designators change that list only. -/
theorem C98_lists (g : Glb) (es : List (List Int)) :
    ChangesOnly [.rat_lst] g (ACM_set_rat_lst es g).2 ∧ ChangesOnly [.rat_lst] g (ACM_add_rat_lst es g).2 ∧
    ChangesOnly [.amp_lst] g (ACM_set_amp_lst es g).2 ∧ ChangesOnly [.amp_lst] g (ACM_add_amp_lst es g).2 :=
  ⟨fun s hs => by cases s <;> first | rfl | simp at hs, fun s hs => by cases s <;> first | rfl | simp at hs,
    fun s hs => by cases s <;> first | rfl | simp at hs, fun s hs => by cases s <;> first | rfl | simp at hs⟩

/-- C98: a negative number, and an index below 1, is rejected with `ValueError`. -/
theorem C98_rejects (fmt : String → Py Unit) (g : Glb) (x : Option ℝ) (a b c : Option Int) (d s n : Int) (hn : n < 0) :
    (ACM_set_output (some n) b c s g).1 = .error .valueError ∧
    (ACM_set_output none (some n) c s g).1 = .error .valueError ∧
    (ACM_set_output none none (some n) s g).1 = .error .valueError ∧
    (ACM_set_listln (some n) b s g).1 = .error .valueError ∧
    (ACM_set_listln none (some n) s g).1 = .error .valueError ∧
    (ACM_set_datum n s g).1 = .error .valueError ∧
    (ACM_set_eig_fit x (some n) b s g).1 = .error .valueError ∧
    (ACM_set_eig_fit x none (some (n + 1)) s g).1 = .error .valueError ∧
    (ACM_set_rat_fit fmt x (some n) a b c s g).1 = .error .valueError ∧
    (ACM_set_rat_fit fmt x none (some n) b c s g).1 = .error .valueError ∧
    (ACM_set_rat_fit fmt x none none (some (n + 1)) c s g).1 = .error .valueError ∧
    (ACM_set_rat_fit fmt x none none none (some (n + 1)) s g).1 = .error .valueError ∧
    (ACM_show_lambda_fun n d g).1 = .error .valueError ∧
    (ACM_test_lambda_fun n d g).1 = .error .valueError := by
  have e := require_nonnegint_err hn
  have e1 : require_posint (n + 1) = .error .valueError := require_posint_err (by omega)
  refine ⟨?_, ?_, ?_, ?_, ?_, ?_, ?_, ?_, ?_, ?_, ?_, ?_, ?_, ?_⟩
  · unfold ACM_set_output setIf; simp only [e]; rfl
  · unfold ACM_set_output setIf; simp only [e]; rfl
  · unfold ACM_set_output setIf; simp only [e]; rfl
  · unfold ACM_set_listln setIf; simp only [e]; rfl
  · unfold ACM_set_listln setIf; simp only [e]; rfl
  · unfold ACM_set_datum; rw [e]; rfl
  · unfold ACM_set_eig_fit; rw [Option.getD_some, e]; rfl
  · unfold ACM_set_eig_fit
    rw [Option.getD_none, require_nonnegint_ok (by norm_num), st_lift_ok, Option.getD_some, e1]; rfl
  · unfold ACM_set_rat_fit; rw [Option.getD_some, e]; rfl
  · unfold ACM_set_rat_fit
    rw [Option.getD_none, require_nonnegint_ok (by norm_num), st_lift_ok, Option.getD_some, e]; rfl
  · unfold ACM_set_rat_fit
    simp only [Option.getD_none, Option.getD_some]
    rw [require_nonnegint_ok (by norm_num), st_lift_ok, require_nonnegint_ok (by norm_num), st_lift_ok, e1]; rfl
  · unfold ACM_set_rat_fit
    simp only [Option.getD_none, Option.getD_some]
    rw [require_nonnegint_ok (by norm_num), st_lift_ok, require_nonnegint_ok (by norm_num), st_lift_ok,
      require_posint_ok (by norm_num), st_lift_ok, e1]; rfl
  · unfold ACM_show_lambda_fun; rw [e]; rfl
  · unfold ACM_test_lambda_fun; rw [e]; rfl

/-- C98: `ACM_show_lambda_fun` lists the values of the current function on `vmin..vmax`. -/
theorem C98_show_lambda (g : Glb) (a b : ℕ) (F : Int → Int)
    (hf : ∀ v : ℕ, a ≤ v → v ≤ b → g.lam_fun v = .ok (F v)) :
    ∃ l : List Int, ACM_show_lambda_fun a b g = (.ok l, g) ∧ l.length = b + 1 - a ∧
      ∀ i (hi : i < l.length), l[i] = F (a + i : ℕ) := by
  have hm : (pyRange (a : Int) ((b : Int) + 1)).mapM g.lam_fun = .ok ((pyRange (a : Int) ((b : Int) + 1)).map F) := by
    refine mapM_ok fun x hx => ?_
    have := mem_pyRange.1 hx
    have := hf x.toNat (by omega) (by omega)
    rwa [Int.toNat_of_nonneg (by omega)] at this
  refine ⟨(pyRange (a : Int) ((b : Int) + 1)).map F, ?_, ?_, ?_⟩
  · unfold ACM_show_lambda_fun
    rw [require_nonnegint_ok (by omega), py_bind_ok, require_nonnegint_ok (by omega), py_bind_ok, hm]
  · simp [pyRange]
  · intro i hi
    simp [pyRange]

/-- The hypotheses are met by the settings at import, for instance. -/
example : ∃ g', ACM_set_output (some 3) none (some 0) 1 Glb.init = (.ok (3, 7, 0), g') := by
  obtain ⟨g', h, h1, h2, h3, _⟩ := C98_output Glb.init (some 3) none (some 0) 1 (by simp [IfGiven]) (by simp [IfGiven])
    (by simp [IfGiven])
  rw [h1, h2, h3] at h
  exact ⟨g', h⟩

example : Glb.init.amp_sft_fun ((some 4 : Option ℝ).getD Glb.init.rat_sft) = .ok (Real.sqrt 4) := by
  show pySqrt 4 = _
  unfold pySqrt
  rw [if_neg (by norm_num)]; rfl

example (fmt : String → Py Unit) : ∃ g', ACM_set_rat_fit fmt (some 50) (some 4) none none (some 3) 0 Glb.init =
    (.ok (50, 4, 0, 1, 3), g') ∧ g'.eig_fit = Glb.init.eig_fit := by
  obtain ⟨g', h, h1, h2, h3, h4, h5, h6⟩ := C98_rat_fit fmt Glb.init (some 50) (some 4) none none (some 3) 0
    (by simp [IfGiven]) (by simp [IfGiven]) (by simp [IfGiven]) (by simp [IfGiven]) (.inl le_rfl)
  rw [h1, h2, h3, h4, h5] at h
  exact ⟨g', h, (h6 .eig_fit (by simp)).symm⟩

example : ∃ g', ACM_set_eig_fit none (some 0) (some 2) 1 Glb.init = (.ok (6, 0, 2), g') := by
  obtain ⟨g', h, h1, h2, h3, _⟩ := C98_eig_fit Glb.init none (some 0) (some 2) 1 (by simp [IfGiven]) (by simp [IfGiven])
  rw [h1, h2, h3] at h
  exact ⟨g', h⟩

/-- The parity function at 3, 4, 5. -/
example : (ACM_show_lambda_fun 3 5 (ACM_set_basis_type 2 0 0 Glb.init).2).1 = .ok [1, 0, 1] := by
  rw [ACM_set_basis_type_eq]
  rfl

example : ∀ v : ℕ, 3 ≤ v → v ≤ 5 →
    (ACM_set_basis_type 2 0 0 Glb.init).2.lam_fun v = .ok ((fun x : Int => x % 2) v) := by
  intro v h1 h2
  rw [ACM_set_basis_type_eq]
  interval_cases v <;> rfl

end Acm.Props
