import Verif.Model.Globals
import Verif.Lemmas.Py
import Verif.Lemmas.Radial

/-! Lemmas about the setting procedures. -/

namespace Acm

theorem gm_modify_bind {β : Type} (u : Glb → Glb) (f : Unit → GM β) (g : Glb) :
    (GM.modify u >>= f) g = f () (u g) := rfl

theorem gm_get_bind {β : Type} (f : Glb → GM β) (g : Glb) : (GM.get >>= f) g = f g g := rfl

theorem setIf_none_bind {α β : Type} (c : α → Py Unit) (u : α → Glb → Glb) (f : Unit → GM β)
    (g : Glb) : (setIf none c u >>= f) g = f () g := rfl

theorem setIf_some_bind {α β : Type} {x : α} {c : α → Py Unit} (u : α → Glb → Glb)
    (f : Unit → GM β) (g : Glb) (h : c x = .ok ()) :
    (setIf (some x) c u >>= f) g = f () (u x g) := by
  show StPy.bind (StPy.bind (StPy.lift (c x)) _) f g = _
  rw [h]; rfl

theorem setIf_error_bind {α β : Type} {x : α} {c : α → Py Unit} {e : PyErr} (u : α → Glb → Glb)
    (f : Unit → GM β) (g : Glb) (h : c x = .error e) :
    (setIf (some x) c u >>= f) g = (.error e, g) := by
  show StPy.bind (StPy.bind (StPy.lift (c x)) _) f g = _
  rw [h]; rfl

/-- The procedure keeps the invariant `P`, whether or not it raises. -/
def Preserves (P : Glb → Prop) {α : Type} (x : GM α) : Prop := ∀ g, P g → P (x g).2

section
variable {P : Glb → Prop} {α β : Type}

theorem Preserves.bind {x : GM α} {f : α → GM β} (hx : Preserves P x)
    (hf : ∀ a, Preserves P (f a)) : Preserves P (x >>= f) := by
  intro g hg
  have h := hx g hg
  rw [st_bind]
  rcases hxg : x g with ⟨r, g'⟩
  rw [hxg] at h
  cases r with
  | ok a => exact hf a g' h
  | error e => exact h

theorem Preserves.lift_bind {x : Py α} {f : α → GM β}
    (hf : ∀ a, x = .ok a → Preserves P (f a)) : Preserves P (StPy.lift x >>= f) := by
  intro g hg
  cases x with
  | ok a => exact hf a rfl g hg
  | error e => exact hg

theorem Preserves.pure (a : α) : Preserves P (pure a : GM α) := fun _ h => h

theorem Preserves.lift (x : Py α) : Preserves P (StPy.lift x : GM α) := fun _ h => h

theorem Preserves.get_bind {f : Glb → GM β} (hf : ∀ a, Preserves P (f a)) :
    Preserves P (GM.get >>= f) := fun g hg => hf g g hg

theorem Preserves.modify_bind {u : Glb → Glb} {f : Unit → GM β} (hu : ∀ g, P g → P (u g))
    (hf : Preserves P (f ())) : Preserves P (GM.modify u >>= f) :=
  fun g hg => hf (u g) (hu g hg)

theorem Preserves.setIf {x : Option α} {c : α → Py Unit} {u : α → Glb → Glb}
    (h : ∀ a g, x = some a → c a = .ok () → P g → P (u a g)) : Preserves P (setIf x c u) := by
  intro g hg
  cases x with
  | none => exact hg
  | some a =>
    show P (StPy.bind (StPy.lift (c a)) (fun _ => GM.modify (u a)) g).2
    cases hc : c a with
    | ok y => exact h a g rfl hc hg
    | error e => exact hg

theorem Preserves.void {x : GM α} (hx : Preserves P x) : Preserves P x.void :=
  hx.bind fun _ => Preserves.pure _

theorem Preserves.run {fmt : String → Py Unit} (cs : List GCall)
    (h : ∀ c ∈ cs, Preserves P (c.exec fmt)) {g : Glb} (hg : P g) : P (runGCalls fmt cs g) := by
  unfold runGCalls
  induction cs generalizing g with
  | nil => exact hg
  | cons c cs ih =>
    exact ih (fun d hd => h d (List.mem_cons_of_mem _ hd)) (h c List.mem_cons_self g hg)

end

/-! ### what each procedure does -/

/-- Does showing the scales raise? -/
noncomputable def scalesShown (show_ : Int) (g : Glb) : Py Unit :=
  if show_ > 0 ∧ (g.eig_sft = 0 ∨ g.rat_sft = 0 ∨ g.amp_sft = 0) then .error .zeroDivisionError
  else .ok ()

theorem pyRecip_zero {x : ℝ} (h : x = 0) : pyRecip x = .error .zeroDivisionError := by
  unfold pyRecip; rw [if_pos h]; rfl

theorem pyRecip_ne {x : ℝ} (h : x ≠ 0) : pyRecip x = .ok (1 / x) := by
  unfold pyRecip; rw [if_neg h]; rfl

theorem ACM_show_scales_eq (s : Int) (g : Glb) :
    ACM_show_scales s g =
      ((scalesShown s g).map fun _ => (g.eig_sft, g.rat_sft, g.amp_sft), g) := by
  unfold ACM_show_scales
  rw [gm_get_bind]
  by_cases hs : s > 0
  · rw [if_pos hs]
    by_cases h1 : g.eig_sft = 0
    · rw [scalesShown, if_pos ⟨hs, .inl h1⟩, pyRecip_zero h1]; rfl
    · rw [pyRecip_ne h1, st_lift_ok]
      by_cases h2 : g.rat_sft = 0
      · rw [scalesShown, if_pos ⟨hs, .inr (.inl h2)⟩, pyRecip_zero h2]; rfl
      · rw [pyRecip_ne h2, st_lift_ok]
        by_cases h3 : g.amp_sft = 0
        · rw [scalesShown, if_pos ⟨hs, .inr (.inr h3)⟩, pyRecip_zero h3]; rfl
        · rw [scalesShown, if_neg (by tauto), pyRecip_ne h3]; rfl
  · rw [if_neg hs, scalesShown, if_neg (by tauto)]; rfl

theorem ACM_set_scales_eq (e r : Option ℝ) (s : Int) (g : Glb) :
    ACM_set_scales e r s g =
      let g1 : Glb := { g with eig_sft := e.getD g.eig_sft, rat_sft := r.getD g.rat_sft }
      match g.amp_sft_fun g1.rat_sft with
      | .error x => (.error x, g1)
      | .ok a => (scalesShown s { g1 with amp_sft := a }, { g1 with amp_sft := a }) := by
  have key : ∀ g1 : Glb, (do
      let g ← GM.get
      let a ← StPy.lift (g.amp_sft_fun g.rat_sft)
      GM.modify fun g => { g with amp_sft := a }
      let _ ← ACM_show_scales s
      pure () : GM Unit) g1 = match g1.amp_sft_fun g1.rat_sft with
      | .error x => (.error x, g1)
      | .ok a => (scalesShown s { g1 with amp_sft := a }, { g1 with amp_sft := a }) := by
    intro g1
    rw [gm_get_bind]
    cases g1.amp_sft_fun g1.rat_sft with
    | error x => rfl
    | ok a =>
      rw [st_lift_ok, gm_modify_bind, st_bind, ACM_show_scales_eq]
      show _ = (scalesShown s { g1 with amp_sft := a }, _)
      cases scalesShown s { g1 with amp_sft := a } <;> rfl
  unfold ACM_set_scales
  cases e with
  | none =>
    cases r with
    | none => exact key g
    | some r => exact key { g with rat_sft := r }
  | some e =>
    cases r with
    | none => exact key { g with eig_sft := e }
    | some r => exact key { g with eig_sft := e, rat_sft := r }

theorem ACM_set_basis_type_eq (c : Int) (a : ℝ) (s : Int) (g : Glb) :
    ACM_set_basis_type c a s g =
      if c = 0 then (.ok lambda_fix_fun, { g with lam_fun := lambda_fix_fun })
      else if c = 1 then (.ok lambda_sho_fun, { g with lam_fun := lambda_sho_fun })
      else if c = 2 then (.ok lambda_acm_fun, { g with lam_fun := lambda_acm_fun })
      else if c = 3 then
        (.ok (lambda_davi_fun (a ^ 4)), { g with lam_fun := lambda_davi_fun (a ^ 4) })
      else (.error .valueError, g) := by
  unfold ACM_set_basis_type
  by_cases hc : c < 0
  · rw [require_nonnegint_err hc, st_lift_error, if_neg (by omega), if_neg (by omega),
      if_neg (by omega), if_neg (by omega)]
  · rw [require_nonnegint_ok (by omega), st_lift_ok]
    split_ifs <;> rfl

theorem addDesignators_eq (l es : List (List Int)) :
    addDesignators l es = l ++ es.filter (fun e => decide (e.length ≤ 5)) := by
  induction es generalizing l with
  | nil => simp [addDesignators]
  | cons e es ih =>
    rw [addDesignators]
    by_cases h : e.length > 5
    · rw [if_pos h, ih, List.filter_cons_of_neg (by simpa using h)]
    · rw [if_neg h, ih, List.filter_cons_of_pos (by simpa using h)]; simp

end Acm
