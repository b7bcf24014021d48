import Verif.Lemmas.Examples
import Verif.Props.Scale

/-!
# Lemmas on runs of the examples
-/

namespace Acm

open Acm.Spec Acm.Props

theorem G12_congr {k k' : Glb} (h : SameConstants k k') : G12 k = G12 k' := by
  obtain ⟨h1, h2, h3⟩ := h
  unfold G12
  rw [h1, h2, h3]

theorem G23a_congr {k k' : Glb} (h : SameConstants k k') : G23a k = G23a k' := by unfold G23a; rw [G12_congr h]
theorem G23b_congr {k k' : Glb} (h : SameConstants k k') : G23b k = G23b k' := by unfold G23b; rw [G12_congr h]
theorem G23c_congr {k k' : Glb} (h : SameConstants k k') : G23c k = G23c k' := by unfold G23c; rw [G12_congr h]
theorem G24a_congr {k k' : Glb} (h : SameConstants k k') : G24a k = G24a k' := by unfold G24a; rw [G12_congr h]
theorem G24c_congr {k k' : Glb} (h : SameConstants k k') : G24c k = G24c k' := by unfold G24c; rw [G24a_congr h]
theorem G24d_congr {k k' : Glb} (h : SameConstants k k') : G24d k = G24d k' := by unfold G24d; rw [G24a_congr h]
theorem G25a_congr {k k' : Glb} (h : SameConstants k k') : G25a k = G25a k' := by unfold G25a; rw [G24d_congr h]
theorem G25b_congr {k k' : Glb} (h : SameConstants k k') : G25b k = G25b k' := by unfold G25b; rw [G25a_congr h]
theorem G25c_congr {k k' : Glb} (h : SameConstants k k') : G25c k = G25c k' := by unfold G25c; rw [G25b_congr h]
theorem G32a_congr {k k' : Glb} (h : SameConstants k k') : G32a k = G32a k' := by unfold G32a; rw [G12_congr h]
theorem G33a_congr {k k' : Glb} (h : SameConstants k k') : G33a k = G33a k' := by unfold G33a; rw [G32a_congr h]
theorem G42a_congr {k k' : Glb} (h : SameConstants k k') : G42a k = G42a k' := by unfold G42a; rw [G12_congr h]
theorem G45b_congr {k k' : Glb} (h : SameConstants k k') : G45b k = G45b k' := by unfold G45b; rw [G42a_congr h]
theorem G45c_congr {k k' : Glb} (h : SameConstants k k') : G45c k = G45c k' := by unfold G45c; rw [G45b_congr h]

theorem calm_exec (env : FEnv) (o o' : List Shown) {ham : OperatorSum} (h : Calm ham) (a : XArgs) :
    Twin (CalmLoose o o') (execAdapt ham a env) :=
  twin_bind (calm_ScaleOrAdapt o o' env 1 1 ham h a) fun _ => twin_pure _

theorem calm_execS (env : FEnv) (o o' : List Shown) {ham : OperatorSum} (h : Calm ham) (a : XArgs) :
    Twin (CalmLoose o o') (execScale ham a env) :=
  twin_bind (calm_ScaleOrAdapt o o' env 0 0 ham h a) fun _ => twin_pure _

theorem calm_execLambda (env : FEnv) (o o' : List Shown) : Twin (CalmLoose o o') (execLambda env) :=
  twin_bind (calm_read o o' _ fun _ => rfl) fun _ => twin_pure _

theorem show_scales_keeps (n : Int) (g : Glb) : (ACM_show_scales n g).2 = g := by
  unfold ACM_show_scales
  rw [gm_get_bind]
  split_ifs
  · rcases pyRecip g.eig_sft with e | x
    · rfl
    rcases pyRecip g.rat_sft with e | x
    · rfl
    rcases pyRecip g.amp_sft with e | x <;> rfl
  · rfl

theorem calm_2_4_b (env : FEnv) (o o' : List Shown) : Twin (CalmLoose o o') (execOf Example_2_4_b env) :=
  twin_bind (calm_ScaleOrAdapt o o' env 1 1 _ (calm_make _ _ _ _ _) _) fun _ =>
    twin_bind (calm_read o o' _ (show_scales_keeps 1)) fun _ => twin_pure _

theorem calm_3_3_a (env : FEnv) (o o' : List Shown) : Twin (CalmLoose o o') (execOf Example_3_3_a env) :=
  twin_bind (calm_ScaleOrAdapt o o' env 1 1 _ (calm_make _ _ _ _ _) _) fun _ =>
    twin_bind (calm_Eigs o o' _ _ _ _ _ _) fun _ => twin_bind (calm_Eigs o o' _ _ _ _ _ _) fun _ =>
    twin_bind (calm_Rats o o' _ _ _ _) fun _ => twin_bind (calm_Rats o o' _ _ _ _) fun _ =>
    twin_bind (calm_Rats o o' _ _ _ _) fun _ => twin_bind (calm_Rats o o' _ _ _ _) fun _ =>
    twin_bind (calm_Amps o o' _ _ _ _) fun _ => twin_pure _

/-- What is needed of an example. -/
def Fine (fmt : String → Py Unit) (e : Example) : Prop := ∃ G, Starts fmt e G ∧
  (∀ k k', SameConstants k k' → G k = G k') ∧ (∀ k, (G k).rat_TRop = quad_op) ∧
  ∀ env o o', Twin (CalmLoose o o') (execOf e env)

theorem all_fine (fmt : String → Py Unit) (hf : fmt def_rat_format = .ok ()) (alam : ℝ × ℝ) : ∀ e ∈ allExamples alam, Fine fmt e := by
  simp only [allExamples, List.forall_mem_cons]
  refine ⟨⟨G12, starts_1_2 hf, fun _ _ => G12_congr, fun _ => rfl, fun env o o' => twin_pure _⟩,
    ⟨G12, starts_2_2_a hf, fun _ _ => G12_congr, fun _ => rfl, fun env o o' => calm_execS env o o' (calm_make _ _ _ _ _) _⟩,
    ⟨G12, starts_2_2_b hf, fun _ _ => G12_congr, fun _ => rfl, fun env o o' => calm_execS env o o' (calm_make _ _ _ _ _) _⟩,
    ⟨G12, starts_2_2_c hf, fun _ _ => G12_congr, fun _ => rfl, fun env o o' => calm_execS env o o' (calm_make _ _ _ _ _) _⟩,
    ⟨G12, starts_2_2_d hf, fun _ _ => G12_congr, fun _ => rfl, fun env o o' => calm_execS env o o' (calm_make _ _ _ _ _) _⟩,
    ⟨G23a, starts_2_3_a hf, fun _ _ => G23a_congr, fun _ => rfl, fun env o o' => calm_execS env o o' (calm_make _ _ _ _ _) _⟩,
    ⟨G23b, starts_2_3_b hf, fun _ _ => G23b_congr, fun _ => rfl, fun env o o' => calm_execS env o o' (calm_make _ _ _ _ _) _⟩,
    ⟨G23c, starts_2_3_c hf, fun _ _ => G23c_congr, fun _ => rfl, fun env o o' => calm_execS env o o' (calm_make _ _ _ _ _) _⟩,
    ⟨G24a, starts_2_4_a hf, fun _ _ => G24a_congr, fun _ => rfl, fun env o o' => calm_execS env o o' (calm_make _ _ _ _ _) _⟩,
    ⟨G24a, starts_2_4_b hf, fun _ _ => G24a_congr, fun _ => rfl, fun env o o' => calm_2_4_b env o o'⟩,
    ⟨G24c, starts_2_4_c hf, fun _ _ => G24c_congr, fun _ => rfl, fun env o o' => calm_exec env o o' (calm_make _ _ _ _ _) _⟩,
    ⟨G24d, starts_2_4_d hf, fun _ _ => G24d_congr, fun _ => rfl, fun env o o' => calm_exec env o o' (calm_make _ _ _ _ _) _⟩,
    ⟨G25a, starts_2_5_a hf, fun _ _ => G25a_congr, fun _ => rfl, fun env o o' => calm_exec env o o' (calm_make _ _ _ _ _) _⟩,
    ⟨G25b, starts_2_5_b hf, fun _ _ => G25b_congr, fun _ => rfl, fun env o o' => calm_exec env o o' (calm_make _ _ _ _ _) _⟩,
    ⟨G25c, starts_2_5_c hf, fun _ _ => G25c_congr, fun _ => rfl, fun env o o' => calm_exec env o o' (calm_make _ _ _ _ _) _⟩,
    ⟨G32a, starts_3_2_a hf, fun _ _ => G32a_congr, fun _ => rfl, fun env o o' => calm_exec env o o' (calm_make _ _ _ _ _) _⟩,
    ⟨G32a, starts_3_2_b hf, fun _ _ => G32a_congr, fun _ => rfl, fun env o o' => calm_exec env o o' (calm_make _ _ _ _ _) _⟩,
    ⟨G32a, starts_3_2_c hf, fun _ _ => G32a_congr, fun _ => rfl, fun env o o' => calm_exec env o o' (calm_make _ _ _ _ _) _⟩,
    ⟨G33a, starts_3_3_a hf, fun _ _ => G33a_congr, fun _ => rfl, fun env o o' => calm_3_3_a env o o'⟩,
    ⟨G33a, starts_3_4_a hf, fun _ _ => G33a_congr, fun _ => rfl, fun env o o' => twin_bind (twin_lift _) fun _ => twin_pure _⟩,
    ⟨G33a, starts_3_4_b hf, fun _ _ => G33a_congr, fun _ => rfl, fun env o o' => twin_bind (twin_lift _) fun _ => twin_pure _⟩,
    ⟨G33a, starts_3_4_c hf, fun _ _ => G33a_congr, fun _ => rfl, fun env o o' => twin_bind (twin_lift _) fun _ => twin_pure _⟩,
    ⟨G33a, starts_3_4_d hf, fun _ _ => G33a_congr, fun _ => rfl, fun env o o' => twin_bind (twin_lift _) fun _ => twin_pure _⟩,
    ⟨G12, starts_4_1_a hf, fun _ _ => G12_congr, fun _ => rfl, fun env o o' => twin_pure _⟩,
    ⟨G42a, starts_4_2_a hf, fun _ _ => G42a_congr, fun _ => rfl, fun env o o' => twin_pure _⟩,
    ⟨G42a, starts_4_3_a hf, fun _ _ => G42a_congr, fun _ => rfl, fun env o o' => calm_exec env o o' (calm_make _ _ _ _ _) _⟩,
    ⟨G42a, starts_4_3_b hf, fun _ _ => G42a_congr, fun _ => rfl, fun env o o' => calm_exec env o o' (calm_make _ _ _ _ _) _⟩,
    ⟨G42a, starts_4_3_c hf, fun _ _ => G42a_congr, fun _ => rfl, fun env o o' => calm_exec env o o' (calm_make _ _ _ _ _) _⟩,
    ⟨G42a, starts_4_3_d hf, fun _ _ => G42a_congr, fun _ => rfl, fun env o o' => calm_exec env o o' (calm_make _ _ _ _ _) _⟩,
    ⟨G42a, starts_4_3_e hf, fun _ _ => G42a_congr, fun _ => rfl, fun env o o' => calm_exec env o o' (calm_make _ _ _ _ _) _⟩,
    ⟨G42a, starts_4_3_f hf, fun _ _ => G42a_congr, fun _ => rfl, fun env o o' => calm_exec env o o' (calm_make _ _ _ _ _) _⟩,
    ⟨G42a, starts_4_4_a alam hf, fun _ _ => G42a_congr, fun _ => rfl, fun env o o' => calm_exec env o o' (calm_make _ _ _ _ _) _⟩,
    ⟨G42a, starts_4_4_b alam hf, fun _ _ => G42a_congr, fun _ => rfl, fun env o o' => calm_exec env o o' (calm_make _ _ _ _ _) _⟩,
    ⟨G42a, starts_4_4_c alam hf, fun _ _ => G42a_congr, fun _ => rfl, fun env o o' => calm_exec env o o' (calm_make _ _ _ _ _) _⟩,
    ⟨G42a, starts_4_4_d alam hf, fun _ _ => G42a_congr, fun _ => rfl, fun env o o' => calm_exec env o o' (calm_make _ _ _ _ _) _⟩,
    ⟨G42a, starts_4_4_e alam hf, fun _ _ => G42a_congr, fun _ => rfl, fun env o o' => calm_exec env o o' (calm_make _ _ _ _ _) _⟩,
    ⟨G42a, starts_4_4_f alam hf, fun _ _ => G42a_congr, fun _ => rfl, fun env o o' => calm_exec env o o' (calm_make _ _ _ _ _) _⟩,
    ⟨G42a, starts_4_5_a alam hf, fun _ _ => G42a_congr, fun _ => rfl, fun env o o' => calm_execLambda env o o'⟩,
    ⟨G45b, starts_4_5_b alam hf, fun _ _ => G45b_congr, fun _ => rfl, fun env o o' => calm_execLambda env o o'⟩,
    ⟨G45c, starts_4_5_c alam hf, fun _ _ => G45c_congr, fun _ => rfl, fun env o o' => twin_pure _⟩,
    ⟨G45c, starts_4_5_d_050508 alam hf, fun _ _ => G45c_congr, fun _ => rfl, fun env o o' => calm_exec env o o' (calm_make _ _ _ _ _) _⟩,
    ⟨G45c, starts_4_5_d alam hf, fun _ _ => G45c_congr, fun _ => rfl, fun env o o' => calm_exec env o o' (calm_make _ _ _ _ _) _⟩,
    fun _ h => absurd h (List.not_mem_nil)⟩

/-- `prepare`, `run`: from two states with the same constants. -/
theorem run_twin {fmt : String → Py Unit} {e : Example} (he : Fine fmt e) (env : FEnv) (s t : FState)
    (h : SameConstants s.glb t.glb) : (e.run fmt env s).1 = (e.run fmt env t).1 ∧
      Loose s.out t.out (e.run fmt env s).2 (e.run fmt env t).2 := by
  obtain ⟨G, h1, h2, h3, h4⟩ := he
  rw [run_eq, run_eq, st_bind_ok (h1 s), st_bind_ok (h1 t), h2 _ _ h]
  have k : CalmLoose s.out t.out (s.at (G t.glb)) (t.at (G t.glb)) :=
    ⟨⟨rfl, [], (List.append_nil _).symm, (List.append_nil _).symm⟩, by
      show Calm (G t.glb).rat_TRop
      rw [h3]
      exact calm_quad⟩
  have w : Twin (Loose s.out t.out) (endOf fmt e) := by
    cases e with
    | root => exact loose_liftG _ _ _
    | next => exact loose_liftG _ _ _
  obtain ⟨k1, k2⟩ := h4 env s.out t.out _ _ k
  rcases hu : execOf e env (s.at (G t.glb)) with ⟨x | x, u⟩ <;> rcases hv : execOf e env (t.at (G t.glb)) with ⟨y | y, v⟩ <;>
    rw [hu, hv] at k1 k2 <;> cases k1
  · rw [st_bind_error hu, st_bind_error hv]
    exact ⟨rfl, k2.1⟩
  · rw [st_bind_ok hu, st_bind_ok hv]
    exact (twin_bind w fun _ => twin_pure _) u v k2.1

/-- The three globals have their initial values. -/
def Initial (g : Glb) : Prop := g.tran_format = "{}({}) -> {}({})" ∧ g.tran_fill = "#" ∧ g.nu_lap = 0

theorem initial_call (fmt : String → Py Unit) (c : GCall) (g : Glb) (h : Initial g) : Initial (c.exec fmt g).2 := by
  refine exec_keeps' (P := Initial) fmt ?_ (fun _ _ _ h => h) (fun _ _ h => h) (fun _ _ h => h) c g h
  constructor <;> intros <;> assumption

theorem initial_callAll (fmt : String → Py Unit) : ∀ (cs : List GCall) (g : Glb), Initial g → Initial (callAll fmt cs g).2
  | [], _, h => h
  | c :: cs, g, h => by
    have k := initial_call fmt c g h
    show Initial ((c.exec fmt >>= fun _ => callAll fmt cs : GM Unit) g).2
    rcases hc : c.exec fmt g with ⟨e | x, g'⟩ <;> rw [hc] at k
    · rw [st_bind_error hc]; exact k
    · rw [st_bind_ok hc]; exact initial_callAll fmt cs g' k

/-- `Initial` is kept. -/
def KeepsInitial {α : Type} (m : FM α) : Prop := ∀ s, Initial s.glb → Initial (m s).2.glb

theorem initial_frame : Frame fun s s' : FState => Initial s.glb → Initial s'.glb :=
  frame_glb (P := fun g g' => Initial g → Initial g') (fun _ h => h) fun _ _ _ h h' k => h' (h k)

theorem initial_calc (env : FEnv) (fe fr : Int) (ham : OperatorSum) (a : XArgs) : KeepsInitial (ACM_ScaleOrAdapt env fe fr ham a) :=
  keeps_ScaleOrAdapt (R := fun s s' => Initial s.glb → Initial s'.glb) initial_frame (fun _ _ h => ⟨h.1, h.2.1, rfl⟩) env fe fr ham a
    (fun _ => keeps_fitEig initial_frame fun _ _ h => h) fun _ => keeps_fitRat initial_frame (fun _ _ h => h) fun _ _ h => h

theorem initial_liftG (fmt : String → Py Unit) (cs : List GCall) : KeepsInitial (FM.liftG (callAll fmt cs)) :=
  fun s h => initial_callAll fmt cs s.glb h

theorem initial_read {α : Type} (m : GM α) (h : ∀ g, (m g).2 = g) : KeepsInitial (FM.liftG m) := fun s k => by
  show Initial (m s.glb).2
  rw [h]
  exact k

theorem initial_prepare (fmt : String → Py Unit) : ∀ e : Example, KeepsInitial (e.prepare fmt)
  | .root set unset _ => keeps_bind initial_frame (initial_liftG fmt set) fun _ => initial_liftG fmt unset
  | .next p set unset _ => keeps_bind initial_frame (initial_prepare fmt p) fun _ =>
      keeps_bind initial_frame (initial_liftG fmt set) fun _ => initial_liftG fmt unset

theorem initial_start (fmt : String → Py Unit) : ∀ e : Example, KeepsInitial (startOf fmt e)
  | .root set _ _ => initial_liftG fmt set
  | .next p set _ _ => keeps_bind initial_frame (initial_prepare fmt p) fun _ => initial_liftG fmt set

theorem initial_end (fmt : String → Py Unit) : ∀ e : Example, KeepsInitial (endOf fmt e)
  | .root _ unset _ => initial_liftG fmt unset
  | .next _ _ unset _ => initial_liftG fmt unset

theorem initial_opt (A : Option LBlockArray) (l : List (List Int)) (t : Int) (f : MelFun) (sc : ℝ) :
    KeepsInitial (Show_Mels_opt A l t f sc) := by
  have F := initial_frame
  cases A with
  | none => exact keeps_ite (R := fun s s' => Initial s.glb → Initial s'.glb) (keeps_pure F _) (keeps_lift F _)
  | some A => exact keeps_Show_Mels F A l t f sc

theorem initial_3_3_a (env : FEnv) : KeepsInitial (execOf Example_3_3_a env) := by
  have F := initial_frame
  have k : ∀ A l t, KeepsInitial (Show_Rats_call Glb.init A l t) := fun A l t =>
    keeps_bind F (keeps_glb F) fun _ => initial_opt _ _ _ _ _
  have k' : ∀ A l t, KeepsInitial (Show_Amps_call Glb.init A l t) := fun A l t =>
    keeps_bind F (keeps_glb F) fun _ => initial_opt _ _ _ _ _
  exact keeps_bind F (initial_calc env 1 1 _ _) fun _ =>
    keeps_bind F (keeps_Show_Eigs F _ _ _ _ _) fun _ => keeps_bind F (keeps_Show_Eigs F _ _ _ _ _) fun _ =>
    keeps_bind F (k _ _ _) fun _ => keeps_bind F (k _ _ _) fun _ => keeps_bind F (k _ _ _) fun _ => keeps_bind F (k _ _ _) fun _ =>
    keeps_bind F (k' _ _ _) fun _ => keeps_pure F _

theorem initial_exec (env : FEnv) (alam : ℝ × ℝ) : ∀ e ∈ allExamples alam, KeepsInitial (execOf e env) := by
  have F := initial_frame
  simp only [allExamples, List.forall_mem_cons]
  exact ⟨keeps_pure F _,
    keeps_bind F (initial_calc env _ _ _ _) fun _ => keeps_pure F _,
    keeps_bind F (initial_calc env _ _ _ _) fun _ => keeps_pure F _,
    keeps_bind F (initial_calc env _ _ _ _) fun _ => keeps_pure F _,
    keeps_bind F (initial_calc env _ _ _ _) fun _ => keeps_pure F _,
    keeps_bind F (initial_calc env _ _ _ _) fun _ => keeps_pure F _,
    keeps_bind F (initial_calc env _ _ _ _) fun _ => keeps_pure F _,
    keeps_bind F (initial_calc env _ _ _ _) fun _ => keeps_pure F _,
    keeps_bind F (initial_calc env _ _ _ _) fun _ => keeps_pure F _,
    keeps_bind F (initial_calc env 1 1 _ _) fun _ =>
      keeps_bind F (initial_read _ (show_scales_keeps 1)) fun _ => keeps_pure F _,
    keeps_bind F (initial_calc env _ _ _ _) fun _ => keeps_pure F _,
    keeps_bind F (initial_calc env _ _ _ _) fun _ => keeps_pure F _,
    keeps_bind F (initial_calc env _ _ _ _) fun _ => keeps_pure F _,
    keeps_bind F (initial_calc env _ _ _ _) fun _ => keeps_pure F _,
    keeps_bind F (initial_calc env _ _ _ _) fun _ => keeps_pure F _,
    keeps_bind F (initial_calc env _ _ _ _) fun _ => keeps_pure F _,
    keeps_bind F (initial_calc env _ _ _ _) fun _ => keeps_pure F _,
    keeps_bind F (initial_calc env _ _ _ _) fun _ => keeps_pure F _,
    initial_3_3_a env,
    keeps_bind F (keeps_lift F _) fun _ => keeps_pure F _,
    keeps_bind F (keeps_lift F _) fun _ => keeps_pure F _,
    keeps_bind F (keeps_lift F _) fun _ => keeps_pure F _,
    keeps_bind F (keeps_lift F _) fun _ => keeps_pure F _,
    keeps_pure F _,
    keeps_pure F _,
    keeps_bind F (initial_calc env _ _ _ _) fun _ => keeps_pure F _,
    keeps_bind F (initial_calc env _ _ _ _) fun _ => keeps_pure F _,
    keeps_bind F (initial_calc env _ _ _ _) fun _ => keeps_pure F _,
    keeps_bind F (initial_calc env _ _ _ _) fun _ => keeps_pure F _,
    keeps_bind F (initial_calc env _ _ _ _) fun _ => keeps_pure F _,
    keeps_bind F (initial_calc env _ _ _ _) fun _ => keeps_pure F _,
    keeps_bind F (initial_calc env _ _ _ _) fun _ => keeps_pure F _,
    keeps_bind F (initial_calc env _ _ _ _) fun _ => keeps_pure F _,
    keeps_bind F (initial_calc env _ _ _ _) fun _ => keeps_pure F _,
    keeps_bind F (initial_calc env _ _ _ _) fun _ => keeps_pure F _,
    keeps_bind F (initial_calc env _ _ _ _) fun _ => keeps_pure F _,
    keeps_bind F (initial_calc env _ _ _ _) fun _ => keeps_pure F _,
    keeps_bind F (initial_read _ fun _ => rfl) fun _ => keeps_pure F _,
    keeps_bind F (initial_read _ fun _ => rfl) fun _ => keeps_pure F _,
    keeps_pure F _,
    keeps_bind F (initial_calc env _ _ _ _) fun _ => keeps_pure F _,
    keeps_bind F (initial_calc env _ _ _ _) fun _ => keeps_pure F _,
    fun _ h => absurd h (List.not_mem_nil)⟩

theorem initial_run (fmt : String → Py Unit) (env : FEnv) {alam : ℝ × ℝ} {e : Example} (he : e ∈ allExamples alam) :
    KeepsInitial (e.run fmt env) := by
  have F := initial_frame
  intro s
  rw [run_eq]
  exact keeps_bind F (initial_start fmt e) (fun _ => keeps_bind F (initial_exec env alam e he) fun _ =>
    keeps_bind F (initial_end fmt e) fun _ => keeps_pure F _) s

end Acm
