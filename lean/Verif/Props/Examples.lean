import Verif.Lemmas.ExampleRuns

/-!
# C117: the examples
-/

namespace Acm.Props

open Acm.Spec

/-- The examples that are run in the session are those of the worksheet. -/
def Worksheet (l : List Step) : Prop := ∀ e, .run e ∈ l → ∃ alam, e ∈ allExamples alam

theorem session_initial (fmt : String → Py Unit) (env : FEnv) : ∀ (l : List Step) (s : FState), Worksheet l →
    Initial s.glb → Initial (session fmt env l s).glb
  | [], _, _, h => h
  | x :: l, s, hl, h => by
    refine session_initial fmt env l (x.exec fmt env s) (fun e he => hl e (List.mem_cons_of_mem _ he)) ?_
    cases x with
    | set c => exact initial_call fmt c s.glb h
    | calculate fe fr ham a => exact initial_calc env fe fr ham a s h
    | run e =>
      obtain ⟨alam, he⟩ := hl e List.mem_cons_self
      exact initial_run fmt env he s h

/-- C117.  An example of the worksheet gives the same in every session: whatever settings were made before, whatever was
calculated, whichever examples were run and whatever raised, it returns the same (or raises the same), prints the
same lines and leaves the same settings as it does when it is run first. -/
theorem C117_any_session (fmt : String → Py Unit) (hf : fmt "  B(E2: {}) = {}" = .ok ()) (env : FEnv) (alam : ℝ × ℝ)
    (e : Example) (he : e ∈ allExamples alam) (l : List Step) (hl : Worksheet l) :
    (e.run fmt env (session fmt env l fresh)).1 = (e.run fmt env fresh).1 ∧
    (e.run fmt env (session fmt env l fresh)).2.glb = (e.run fmt env fresh).2.glb ∧
    (e.run fmt env (session fmt env l fresh)).2.out = (session fmt env l fresh).out ++ (e.run fmt env fresh).2.out := by
  obtain ⟨h1, h2, h3⟩ := session_initial fmt env l fresh hl ⟨rfl, rfl, rfl⟩
  obtain ⟨k1, k2, ls, k3, k4⟩ := run_twin (all_fine fmt hf alam e he) env (session fmt env l fresh) fresh ⟨h1, h2, h3⟩
  refine ⟨k1, k2, ?_⟩
  rw [k3, k4]
  rfl

/-- A session with a setting, a calculation with momenta that raises, and an example; and the format is accepted. -/
example : Worksheet [.set (.listln (some 2) (some 1) 0), .calculate 1 1 [(1, [.Pi])] ⟨1, 5 / 2, 3, 2, 0, 1, 0, 1⟩, .run Example_4_2_a,
      .set (.transition (some [(1, [.Pi])]) 0)] ∧
    Example_3_3_a ∈ allExamples (1, 2) ∧ (fun _ => .ok () : String → Py Unit) "  B(E2: {}) = {}" = .ok () := by
  refine ⟨fun e he => ⟨(1, 2), ?_⟩, ?_, rfl⟩
  · simp only [List.mem_cons, List.not_mem_nil, or_false, reduceCtorEq, false_or, Step.run.injEq] at he
    rw [he]
    unfold allExamples
    iterate 24 refine List.mem_cons_of_mem _ ?_
    exact List.mem_cons_self
  · unfold allExamples
    iterate 18 refine List.mem_cons_of_mem _ ?_
    exact List.mem_cons_self

/-- C117.  The same for any two states with the same values of the three globals that have no procedure to set them. -/
theorem C117_any_state (fmt : String → Py Unit) (hf : fmt "  B(E2: {}) = {}" = .ok ()) (env : FEnv) (alam : ℝ × ℝ)
    (e : Example) (he : e ∈ allExamples alam) (s t : FState) (h : SameConstants s.glb t.glb) :
    (e.run fmt env s).1 = (e.run fmt env t).1 ∧ (e.run fmt env s).2.glb = (e.run fmt env t).2.glb ∧
      ∃ ls, (e.run fmt env s).2.out = s.out ++ ls ∧ (e.run fmt env t).2.out = t.out ++ ls :=
  run_twin (all_fine fmt hf alam e he) env s t h

theorem dim_3_21_0 : dimXspace 0 3 0 21 0 none = .ok 32 := by decide +kernel
theorem dim_3_21_2 : dimXspace 0 3 0 21 2 none = .ok 56 := by decide +kernel
theorem dim_5_5_0 : dimXspace 0 5 0 5 0 none = .ok 12 := by decide +kernel
theorem dim_5_5_2 : dimXspace 0 5 0 5 2 none = .ok 24 := by decide +kernel
theorem dim_5_12_0 : dimXspace 0 5 0 12 0 none = .ok 30 := by decide +kernel
theorem dim_5_12_2 : dimXspace 0 5 0 12 2 none = .ok 48 := by decide +kernel
theorem dim_5_21_0 : dimXspace 0 5 0 21 0 none = .ok 48 := by decide +kernel
theorem dim_5_21_2 : dimXspace 0 5 0 21 2 none = .ok 84 := by decide +kernel
theorem dim_7_21_0 : dimXspace 0 7 0 21 0 none = .ok 64 := by decide +kernel
theorem dim_7_21_2 : dimXspace 0 7 0 21 2 none = .ok 112 := by decide +kernel
theorem dim_9_21_0 : dimXspace 0 9 0 21 0 none = .ok 80 := by decide +kernel
theorem dim_9_21_2 : dimXspace 0 9 0 21 2 none = .ok 140 := by decide +kernel
theorem dim_10_12_0 : dimXspace 0 10 0 12 0 none = .ok 55 := by decide +kernel
theorem dim_10_12_2 : dimXspace 0 10 0 12 2 none = .ok 88 := by decide +kernel
theorem dim_10_18_0 : dimXspace 0 10 0 18 0 none = .ok 77 := by decide +kernel
theorem dim_10_18_2 : dimXspace 0 10 0 18 2 none = .ok 132 := by decide +kernel
theorem dim_11_21_0 : dimXspace 0 11 0 21 0 none = .ok 96 := by decide +kernel
theorem dim_11_21_2 : dimXspace 0 11 0 21 2 none = .ok 168 := by decide +kernel
theorem dim_13_21_0 : dimXspace 0 13 0 21 0 none = .ok 112 := by decide +kernel
theorem dim_13_21_2 : dimXspace 0 13 0 21 2 none = .ok 196 := by decide +kernel
theorem dim_15_12_0 : dimXspace 0 15 0 12 0 none = .ok 80 := by decide +kernel
theorem dim_15_12_2 : dimXspace 0 15 0 12 2 none = .ok 128 := by decide +kernel
theorem dim_15_21_0 : dimXspace 0 15 0 21 0 none = .ok 128 := by decide +kernel
theorem dim_15_21_2 : dimXspace 0 15 0 21 2 none = .ok 224 := by decide +kernel
theorem dim_17_21_0 : dimXspace 0 17 0 21 0 none = .ok 144 := by decide +kernel
theorem dim_17_21_2 : dimXspace 0 17 0 21 2 none = .ok 252 := by decide +kernel
theorem dim_19_21_0 : dimXspace 0 19 0 21 0 none = .ok 160 := by decide +kernel
theorem dim_19_21_2 : dimXspace 0 19 0 21 2 none = .ok 280 := by decide +kernel
theorem dim_21_21_0 : dimXspace 0 21 0 21 0 none = .ok 176 := by decide +kernel
theorem dim_21_21_2 : dimXspace 0 21 0 21 2 none = .ok 308 := by decide +kernel

/-- The calculation has its reference levels. -/
def Meets (fmt : String → Py Unit) (env : FEnv) (p : Example × OperatorSum × XArgs) : Prop :=
  (∃ f, execOf p.1 env = ACM_Adapt env p.2.1 p.2.2 >>= f) ∧ p.2.2.check = .ok () ∧ ∀ s, ∃ u, startOf fmt p.1 s = (.ok (), u) ∧
    LevelExists p.2.2 u.glb.eig_L u.glb.eig_idx ∧ LevelExists p.2.2 u.glb.rat_L1 u.glb.rat_1dx ∧
    LevelExists p.2.2 u.glb.rat_L2 u.glb.rat_2dx ∧ u.out = s.out

theorem meets {fmt : String → Py Unit} {env : FEnv} {e : Example} {ham : OperatorSum} {a : XArgs} {G : Glb → Glb}
    {f : List LEig × Option LBlockArray → FM Printed} (h : Starts fmt e G) (h2 : a.check = .ok ())
    (h3 : execOf e env = ACM_Adapt env ham a >>= f) (h1 : ∀ k, LevelExists a (G k).eig_L (G k).eig_idx)
    (h4 : ∀ k, LevelExists a (G k).rat_L1 (G k).rat_1dx) (h5 : ∀ k, LevelExists a (G k).rat_L2 (G k).rat_2dx) :
    Meets fmt env (e, ham, a) :=
  ⟨⟨f, h3⟩, h2, fun s => ⟨_, h s, h1 s.glb, h4 s.glb, h5 s.glb, rfl⟩⟩

theorem all_meet (fmt : String → Py Unit) (hf : fmt def_rat_format = .ok ()) (env : FEnv) (alam : ℝ × ℝ) :
    ∀ p ∈ adapted alam, Meets fmt env p := by
  simp only [adapted, List.forall_mem_cons]
  exact ⟨meets (starts_2_4_b hf) rfl rfl (fun _ => ⟨(by decide : (0 : Int) ≤ 2), (by decide : (2 : Int) ≤ 6), (by decide : (1 : Int) ≤ 1), 132, dim_10_18_2, (by decide : (1 : Int) ≤ 132)⟩)
      (fun _ => ⟨(by decide : (0 : Int) ≤ 2), (by decide : (2 : Int) ≤ 6), (by decide : (1 : Int) ≤ 1), 132, dim_10_18_2, (by decide : (1 : Int) ≤ 132)⟩)
      fun _ => ⟨(by decide : (0 : Int) ≤ 0), (by decide : (0 : Int) ≤ 6), (by decide : (1 : Int) ≤ 1), 77, dim_10_18_0, (by decide : (1 : Int) ≤ 77)⟩,
    meets (starts_2_4_c hf) rfl rfl (fun _ => ⟨(by decide : (0 : Int) ≤ 0), (by decide : (0 : Int) ≤ 6), (by decide : (1 : Int) ≤ 2), 77, dim_10_18_0, (by decide : (2 : Int) ≤ 77)⟩)
      (fun _ => ⟨(by decide : (0 : Int) ≤ 2), (by decide : (2 : Int) ≤ 6), (by decide : (1 : Int) ≤ 2), 132, dim_10_18_2, (by decide : (2 : Int) ≤ 132)⟩)
      fun _ => ⟨(by decide : (0 : Int) ≤ 2), (by decide : (2 : Int) ≤ 6), (by decide : (1 : Int) ≤ 1), 132, dim_10_18_2, (by decide : (1 : Int) ≤ 132)⟩,
    meets (starts_2_4_d hf) rfl rfl (fun _ => ⟨(by decide : (0 : Int) ≤ 2), (by decide : (2 : Int) ≤ 12), (by decide : (1 : Int) ≤ 1), 88, dim_10_12_2, (by decide : (1 : Int) ≤ 88)⟩)
      (fun _ => ⟨(by decide : (0 : Int) ≤ 2), (by decide : (2 : Int) ≤ 12), (by decide : (1 : Int) ≤ 1), 88, dim_10_12_2, (by decide : (1 : Int) ≤ 88)⟩)
      fun _ => ⟨(by decide : (0 : Int) ≤ 0), (by decide : (0 : Int) ≤ 12), (by decide : (1 : Int) ≤ 1), 55, dim_10_12_0, (by decide : (1 : Int) ≤ 55)⟩,
    meets (starts_2_5_a hf) rfl rfl (fun _ => ⟨(by decide : (0 : Int) ≤ 2), (by decide : (2 : Int) ≤ 6), (by decide : (1 : Int) ≤ 1), 132, dim_10_18_2, (by decide : (1 : Int) ≤ 132)⟩)
      (fun _ => ⟨(by decide : (0 : Int) ≤ 2), (by decide : (2 : Int) ≤ 6), (by decide : (1 : Int) ≤ 1), 132, dim_10_18_2, (by decide : (1 : Int) ≤ 132)⟩)
      fun _ => ⟨(by decide : (0 : Int) ≤ 0), (by decide : (0 : Int) ≤ 6), (by decide : (1 : Int) ≤ 1), 77, dim_10_18_0, (by decide : (1 : Int) ≤ 77)⟩,
    meets (starts_2_5_b hf) rfl rfl (fun _ => ⟨(by decide : (0 : Int) ≤ 2), (by decide : (2 : Int) ≤ 6), (by decide : (1 : Int) ≤ 1), 132, dim_10_18_2, (by decide : (1 : Int) ≤ 132)⟩)
      (fun _ => ⟨(by decide : (0 : Int) ≤ 2), (by decide : (2 : Int) ≤ 6), (by decide : (1 : Int) ≤ 1), 132, dim_10_18_2, (by decide : (1 : Int) ≤ 132)⟩)
      fun _ => ⟨(by decide : (0 : Int) ≤ 0), (by decide : (0 : Int) ≤ 6), (by decide : (1 : Int) ≤ 1), 77, dim_10_18_0, (by decide : (1 : Int) ≤ 77)⟩,
    meets (starts_2_5_c hf) rfl rfl (fun _ => ⟨(by decide : (0 : Int) ≤ 2), (by decide : (2 : Int) ≤ 6), (by decide : (1 : Int) ≤ 1), 132, dim_10_18_2, (by decide : (1 : Int) ≤ 132)⟩)
      (fun _ => ⟨(by decide : (0 : Int) ≤ 2), (by decide : (2 : Int) ≤ 6), (by decide : (1 : Int) ≤ 1), 132, dim_10_18_2, (by decide : (1 : Int) ≤ 132)⟩)
      fun _ => ⟨(by decide : (0 : Int) ≤ 0), (by decide : (0 : Int) ≤ 6), (by decide : (1 : Int) ≤ 1), 77, dim_10_18_0, (by decide : (1 : Int) ≤ 77)⟩,
    meets (starts_3_2_a hf) rfl rfl (fun _ => ⟨(by decide : (0 : Int) ≤ 2), (by decide : (2 : Int) ≤ 7), (by decide : (1 : Int) ≤ 1), 48, dim_5_12_2, (by decide : (1 : Int) ≤ 48)⟩)
      (fun _ => ⟨(by decide : (0 : Int) ≤ 2), (by decide : (2 : Int) ≤ 7), (by decide : (1 : Int) ≤ 1), 48, dim_5_12_2, (by decide : (1 : Int) ≤ 48)⟩)
      fun _ => ⟨(by decide : (0 : Int) ≤ 0), (by decide : (0 : Int) ≤ 7), (by decide : (1 : Int) ≤ 1), 30, dim_5_12_0, (by decide : (1 : Int) ≤ 30)⟩,
    meets (starts_3_2_b hf) rfl rfl (fun _ => ⟨(by decide : (0 : Int) ≤ 2), (by decide : (2 : Int) ≤ 7), (by decide : (1 : Int) ≤ 1), 88, dim_10_12_2, (by decide : (1 : Int) ≤ 88)⟩)
      (fun _ => ⟨(by decide : (0 : Int) ≤ 2), (by decide : (2 : Int) ≤ 7), (by decide : (1 : Int) ≤ 1), 88, dim_10_12_2, (by decide : (1 : Int) ≤ 88)⟩)
      fun _ => ⟨(by decide : (0 : Int) ≤ 0), (by decide : (0 : Int) ≤ 7), (by decide : (1 : Int) ≤ 1), 55, dim_10_12_0, (by decide : (1 : Int) ≤ 55)⟩,
    meets (starts_3_2_c hf) rfl rfl (fun _ => ⟨(by decide : (0 : Int) ≤ 2), (by decide : (2 : Int) ≤ 7), (by decide : (1 : Int) ≤ 1), 128, dim_15_12_2, (by decide : (1 : Int) ≤ 128)⟩)
      (fun _ => ⟨(by decide : (0 : Int) ≤ 2), (by decide : (2 : Int) ≤ 7), (by decide : (1 : Int) ≤ 1), 128, dim_15_12_2, (by decide : (1 : Int) ≤ 128)⟩)
      fun _ => ⟨(by decide : (0 : Int) ≤ 0), (by decide : (0 : Int) ≤ 7), (by decide : (1 : Int) ≤ 1), 80, dim_15_12_0, (by decide : (1 : Int) ≤ 80)⟩,
    meets (starts_3_3_a hf) rfl rfl (fun _ => ⟨(by decide : (0 : Int) ≤ 2), (by decide : (2 : Int) ≤ 12), (by decide : (1 : Int) ≤ 1), 128, dim_15_12_2, (by decide : (1 : Int) ≤ 128)⟩)
      (fun _ => ⟨(by decide : (0 : Int) ≤ 2), (by decide : (2 : Int) ≤ 12), (by decide : (1 : Int) ≤ 1), 128, dim_15_12_2, (by decide : (1 : Int) ≤ 128)⟩)
      fun _ => ⟨(by decide : (0 : Int) ≤ 0), (by decide : (0 : Int) ≤ 12), (by decide : (1 : Int) ≤ 1), 80, dim_15_12_0, (by decide : (1 : Int) ≤ 80)⟩,
    meets (starts_4_3_a hf) rfl rfl (fun _ => ⟨(by decide : (0 : Int) ≤ 2), (by decide : (2 : Int) ≤ 8), (by decide : (1 : Int) ≤ 1), 168, dim_11_21_2, (by decide : (1 : Int) ≤ 168)⟩)
      (fun _ => ⟨(by decide : (0 : Int) ≤ 2), (by decide : (2 : Int) ≤ 8), (by decide : (1 : Int) ≤ 1), 168, dim_11_21_2, (by decide : (1 : Int) ≤ 168)⟩)
      fun _ => ⟨(by decide : (0 : Int) ≤ 0), (by decide : (0 : Int) ≤ 8), (by decide : (1 : Int) ≤ 1), 96, dim_11_21_0, (by decide : (1 : Int) ≤ 96)⟩,
    meets (starts_4_3_b hf) rfl rfl (fun _ => ⟨(by decide : (0 : Int) ≤ 2), (by decide : (2 : Int) ≤ 8), (by decide : (1 : Int) ≤ 1), 196, dim_13_21_2, (by decide : (1 : Int) ≤ 196)⟩)
      (fun _ => ⟨(by decide : (0 : Int) ≤ 2), (by decide : (2 : Int) ≤ 8), (by decide : (1 : Int) ≤ 1), 196, dim_13_21_2, (by decide : (1 : Int) ≤ 196)⟩)
      fun _ => ⟨(by decide : (0 : Int) ≤ 0), (by decide : (0 : Int) ≤ 8), (by decide : (1 : Int) ≤ 1), 112, dim_13_21_0, (by decide : (1 : Int) ≤ 112)⟩,
    meets (starts_4_3_c hf) rfl rfl (fun _ => ⟨(by decide : (0 : Int) ≤ 2), (by decide : (2 : Int) ≤ 8), (by decide : (1 : Int) ≤ 1), 224, dim_15_21_2, (by decide : (1 : Int) ≤ 224)⟩)
      (fun _ => ⟨(by decide : (0 : Int) ≤ 2), (by decide : (2 : Int) ≤ 8), (by decide : (1 : Int) ≤ 1), 224, dim_15_21_2, (by decide : (1 : Int) ≤ 224)⟩)
      fun _ => ⟨(by decide : (0 : Int) ≤ 0), (by decide : (0 : Int) ≤ 8), (by decide : (1 : Int) ≤ 1), 128, dim_15_21_0, (by decide : (1 : Int) ≤ 128)⟩,
    meets (starts_4_3_d hf) rfl rfl (fun _ => ⟨(by decide : (0 : Int) ≤ 2), (by decide : (2 : Int) ≤ 8), (by decide : (1 : Int) ≤ 1), 252, dim_17_21_2, (by decide : (1 : Int) ≤ 252)⟩)
      (fun _ => ⟨(by decide : (0 : Int) ≤ 2), (by decide : (2 : Int) ≤ 8), (by decide : (1 : Int) ≤ 1), 252, dim_17_21_2, (by decide : (1 : Int) ≤ 252)⟩)
      fun _ => ⟨(by decide : (0 : Int) ≤ 0), (by decide : (0 : Int) ≤ 8), (by decide : (1 : Int) ≤ 1), 144, dim_17_21_0, (by decide : (1 : Int) ≤ 144)⟩,
    meets (starts_4_3_e hf) rfl rfl (fun _ => ⟨(by decide : (0 : Int) ≤ 2), (by decide : (2 : Int) ≤ 8), (by decide : (1 : Int) ≤ 1), 280, dim_19_21_2, (by decide : (1 : Int) ≤ 280)⟩)
      (fun _ => ⟨(by decide : (0 : Int) ≤ 2), (by decide : (2 : Int) ≤ 8), (by decide : (1 : Int) ≤ 1), 280, dim_19_21_2, (by decide : (1 : Int) ≤ 280)⟩)
      fun _ => ⟨(by decide : (0 : Int) ≤ 0), (by decide : (0 : Int) ≤ 8), (by decide : (1 : Int) ≤ 1), 160, dim_19_21_0, (by decide : (1 : Int) ≤ 160)⟩,
    meets (starts_4_3_f hf) rfl rfl (fun _ => ⟨(by decide : (0 : Int) ≤ 2), (by decide : (2 : Int) ≤ 8), (by decide : (1 : Int) ≤ 1), 308, dim_21_21_2, (by decide : (1 : Int) ≤ 308)⟩)
      (fun _ => ⟨(by decide : (0 : Int) ≤ 2), (by decide : (2 : Int) ≤ 8), (by decide : (1 : Int) ≤ 1), 308, dim_21_21_2, (by decide : (1 : Int) ≤ 308)⟩)
      fun _ => ⟨(by decide : (0 : Int) ≤ 0), (by decide : (0 : Int) ≤ 8), (by decide : (1 : Int) ≤ 1), 176, dim_21_21_0, (by decide : (1 : Int) ≤ 176)⟩,
    meets (starts_4_4_a alam hf) rfl rfl (fun _ => ⟨(by decide : (0 : Int) ≤ 2), (by decide : (2 : Int) ≤ 8), (by decide : (1 : Int) ≤ 1), 56, dim_3_21_2, (by decide : (1 : Int) ≤ 56)⟩)
      (fun _ => ⟨(by decide : (0 : Int) ≤ 2), (by decide : (2 : Int) ≤ 8), (by decide : (1 : Int) ≤ 1), 56, dim_3_21_2, (by decide : (1 : Int) ≤ 56)⟩)
      fun _ => ⟨(by decide : (0 : Int) ≤ 0), (by decide : (0 : Int) ≤ 8), (by decide : (1 : Int) ≤ 1), 32, dim_3_21_0, (by decide : (1 : Int) ≤ 32)⟩,
    meets (starts_4_4_b alam hf) rfl rfl (fun _ => ⟨(by decide : (0 : Int) ≤ 2), (by decide : (2 : Int) ≤ 8), (by decide : (1 : Int) ≤ 1), 84, dim_5_21_2, (by decide : (1 : Int) ≤ 84)⟩)
      (fun _ => ⟨(by decide : (0 : Int) ≤ 2), (by decide : (2 : Int) ≤ 8), (by decide : (1 : Int) ≤ 1), 84, dim_5_21_2, (by decide : (1 : Int) ≤ 84)⟩)
      fun _ => ⟨(by decide : (0 : Int) ≤ 0), (by decide : (0 : Int) ≤ 8), (by decide : (1 : Int) ≤ 1), 48, dim_5_21_0, (by decide : (1 : Int) ≤ 48)⟩,
    meets (starts_4_4_c alam hf) rfl rfl (fun _ => ⟨(by decide : (0 : Int) ≤ 2), (by decide : (2 : Int) ≤ 8), (by decide : (1 : Int) ≤ 1), 112, dim_7_21_2, (by decide : (1 : Int) ≤ 112)⟩)
      (fun _ => ⟨(by decide : (0 : Int) ≤ 2), (by decide : (2 : Int) ≤ 8), (by decide : (1 : Int) ≤ 1), 112, dim_7_21_2, (by decide : (1 : Int) ≤ 112)⟩)
      fun _ => ⟨(by decide : (0 : Int) ≤ 0), (by decide : (0 : Int) ≤ 8), (by decide : (1 : Int) ≤ 1), 64, dim_7_21_0, (by decide : (1 : Int) ≤ 64)⟩,
    meets (starts_4_4_d alam hf) rfl rfl (fun _ => ⟨(by decide : (0 : Int) ≤ 2), (by decide : (2 : Int) ≤ 8), (by decide : (1 : Int) ≤ 1), 140, dim_9_21_2, (by decide : (1 : Int) ≤ 140)⟩)
      (fun _ => ⟨(by decide : (0 : Int) ≤ 2), (by decide : (2 : Int) ≤ 8), (by decide : (1 : Int) ≤ 1), 140, dim_9_21_2, (by decide : (1 : Int) ≤ 140)⟩)
      fun _ => ⟨(by decide : (0 : Int) ≤ 0), (by decide : (0 : Int) ≤ 8), (by decide : (1 : Int) ≤ 1), 80, dim_9_21_0, (by decide : (1 : Int) ≤ 80)⟩,
    meets (starts_4_4_e alam hf) rfl rfl (fun _ => ⟨(by decide : (0 : Int) ≤ 2), (by decide : (2 : Int) ≤ 8), (by decide : (1 : Int) ≤ 1), 168, dim_11_21_2, (by decide : (1 : Int) ≤ 168)⟩)
      (fun _ => ⟨(by decide : (0 : Int) ≤ 2), (by decide : (2 : Int) ≤ 8), (by decide : (1 : Int) ≤ 1), 168, dim_11_21_2, (by decide : (1 : Int) ≤ 168)⟩)
      fun _ => ⟨(by decide : (0 : Int) ≤ 0), (by decide : (0 : Int) ≤ 8), (by decide : (1 : Int) ≤ 1), 96, dim_11_21_0, (by decide : (1 : Int) ≤ 96)⟩,
    meets (starts_4_4_f alam hf) rfl rfl (fun _ => ⟨(by decide : (0 : Int) ≤ 2), (by decide : (2 : Int) ≤ 8), (by decide : (1 : Int) ≤ 1), 196, dim_13_21_2, (by decide : (1 : Int) ≤ 196)⟩)
      (fun _ => ⟨(by decide : (0 : Int) ≤ 2), (by decide : (2 : Int) ≤ 8), (by decide : (1 : Int) ≤ 1), 196, dim_13_21_2, (by decide : (1 : Int) ≤ 196)⟩)
      fun _ => ⟨(by decide : (0 : Int) ≤ 0), (by decide : (0 : Int) ≤ 8), (by decide : (1 : Int) ≤ 1), 112, dim_13_21_0, (by decide : (1 : Int) ≤ 112)⟩,
    meets (starts_4_5_d_050508 alam hf) rfl rfl (fun _ => ⟨(by decide : (0 : Int) ≤ 2), (by decide : (2 : Int) ≤ 8), (by decide : (1 : Int) ≤ 1), 24, dim_5_5_2, (by decide : (1 : Int) ≤ 24)⟩)
      (fun _ => ⟨(by decide : (0 : Int) ≤ 2), (by decide : (2 : Int) ≤ 8), (by decide : (1 : Int) ≤ 1), 24, dim_5_5_2, (by decide : (1 : Int) ≤ 24)⟩)
      fun _ => ⟨(by decide : (0 : Int) ≤ 0), (by decide : (0 : Int) ≤ 8), (by decide : (1 : Int) ≤ 1), 12, dim_5_5_0, (by decide : (1 : Int) ≤ 12)⟩,
    meets (starts_4_5_d alam hf) rfl rfl (fun _ => ⟨(by decide : (0 : Int) ≤ 2), (by decide : (2 : Int) ≤ 8), (by decide : (1 : Int) ≤ 1), 24, dim_5_5_2, (by decide : (1 : Int) ≤ 24)⟩)
      (fun _ => ⟨(by decide : (0 : Int) ≤ 2), (by decide : (2 : Int) ≤ 8), (by decide : (1 : Int) ≤ 1), 24, dim_5_5_2, (by decide : (1 : Int) ≤ 24)⟩)
      fun _ => ⟨(by decide : (0 : Int) ≤ 0), (by decide : (0 : Int) ≤ 8), (by decide : (1 : Int) ≤ 1), 12, dim_5_5_0, (by decide : (1 : Int) ≤ 12)⟩,
    fun _ h => absurd h (List.not_mem_nil)⟩

theorem ref_of_level {a : XArgs} {L i : Int} (h : LevelExists a L i) : refCheck a L i = .ok () := by
  obtain ⟨h1, h2, h3, d, h4, h5⟩ := h
  unfold refCheck
  rw [if_neg (by omega), h4, py_bind_ok, if_neg (by omega)]
  rfl

/-- C117.  Every example that calls `ACM_Adapt` does so with admissible bounds and with reference levels that exist
within the bounds, so that the checks of `ACM_Adapt` are passed, in whatever state the example is run; and the
preparations print nothing. -/
theorem C117_reference (fmt : String → Py Unit) (hf : fmt "  B(E2: {}) = {}" = .ok ()) (env : FEnv) (alam : ℝ × ℝ)
    (e : Example) (ham : OperatorSum) (a : XArgs) (he : (e, ham, a) ∈ adapted alam) (s : FState) :
    (∃ f, execOf e env = ACM_Adapt env ham a >>= f) ∧ ∃ u, startOf fmt e s = (.ok (), u) ∧
      LevelExists a u.glb.eig_L u.glb.eig_idx ∧ LevelExists a u.glb.rat_L1 u.glb.rat_1dx ∧
      LevelExists a u.glb.rat_L2 u.glb.rat_2dx ∧ a.check = .ok () ∧ refChecks 1 1 a u.glb = .ok () ∧ u.out = s.out := by
  obtain ⟨h1, h2, h3⟩ := all_meet fmt hf env alam _ he
  obtain ⟨u, k1, k2, k3, k4, k5⟩ := h3 s
  refine ⟨h1, u, k1, k2, k3, k4, h2, ?_, k5⟩
  unfold refChecks
  rw [ref_of_level k2, ref_of_level k3, ref_of_level k4]
  split_ifs <;> rfl

/-- One of them. -/
example : (Example_2_4_c, ham_fig5a, exArgs 20 10 18 6) ∈ adapted (1, 2) := List.mem_cons_of_mem _ List.mem_cons_self

/-- C117.  What is in force when the calculation of an example starts, in whatever state the example is run. -/
theorem C117_settings (fmt : String → Py Unit) (hf : fmt "  B(E2: {}) = {}" = .ok ()) (alam : ℝ × ℝ) (s : FState) :
    (∃ u, startOf fmt Example_2_3_b s = (.ok (), u) ∧
      u.glb.rat_lst = [[2, 0, 1, 1], [4, 2, 1, 1], [6, 4, 1, 1], [8, 6, 1, 1], [2, 2, 1, 1], [4, 4, 1, 1], [6, 6, 1, 1], [8, 8, 1, 1]] ∧
      u.glb.amp_lst = [[2, 2, 1, 1], [2, 2, 2, 2]] ∧ u.glb.eig_sft = 1 ∧ u.glb.rat_sft = 1 ∧ u.glb.eig_num = 6) ∧
    (∃ u, startOf fmt Example_2_4_a s = (.ok (), u) ∧ u.glb.eig_sft = 0.018 ∧ u.glb.rat_sft = 0.0015 ∧
      u.glb.amp_sft = Real.sqrt 0.0015 ∧ u.glb.rat_lst = [[2, 0, 1, 1, 2], [3, 2, 1, 2, 2], [4, 3, 2, 1, 2]] ∧
      u.glb.amp_lst = [[2, 2, 1, 1], [2, 2, 2, 2]]) ∧
    (∃ u, startOf fmt Example_2_4_c s = (.ok (), u) ∧ u.glb.eig_fit = 100 ∧ u.glb.eig_L = 0 ∧ u.glb.eig_idx = 2 ∧
      u.glb.rat_fit = 100 ∧ u.glb.rat_L1 = 2 ∧ u.glb.rat_L2 = 2 ∧ u.glb.rat_1dx = 2 ∧ u.glb.rat_2dx = 1) ∧
    (∃ u, startOf fmt Example_2_4_d s = (.ok (), u) ∧ u.glb.eig_fit = 6 ∧ u.glb.eig_L = 2 ∧ u.glb.eig_idx = 1 ∧
      u.glb.rat_lst.length = 19 ∧ u.glb.amp_lst.length = 2) ∧
    (∃ u, startOf fmt Example_2_5_c s = (.ok (), u) ∧ u.glb.eig_num = 3 ∧ u.glb.rat_num = 6 ∧ u.glb.amp_num = 6 ∧
      u.glb.rat_lst = [[2], [2, 0, 1]] ∧ u.glb.amp_lst = []) ∧
    (∃ u, startOf fmt Example_3_2_a s = (.ok (), u) ∧ u.glb.eig_num = 4 ∧ u.glb.rat_num = 4 ∧ u.glb.rat_lst = [] ∧ u.glb.amp_lst = []) ∧
    (∃ u, startOf fmt Example_4_3_a s = (.ok (), u) ∧ u.glb.lam_fun = lambda_acm_fun ∧ u.glb.rat_lst.length = 7 ∧ u.glb.rat_num = 3) ∧
    (∃ u, startOf fmt (Example_4_5_d alam) s = (.ok (), u) ∧ u.glb.lam_fun = lambda_sho_fun ∧ u.glb.rat_lst.length = 8 ∧
      u.glb.eig_num = 4 ∧ u.glb.rat_num = 3) :=
  ⟨⟨_, starts_2_3_b hf s, rfl, rfl, rfl, rfl, rfl⟩, ⟨_, starts_2_4_a hf s, rfl, rfl, rfl, rfl, rfl⟩,
    ⟨_, starts_2_4_c hf s, rfl, rfl, rfl, rfl, rfl, rfl, rfl, rfl⟩, ⟨_, starts_2_4_d hf s, rfl, rfl, rfl, rfl, rfl⟩,
    ⟨_, starts_2_5_c hf s, rfl, rfl, rfl, rfl, rfl⟩, ⟨_, starts_3_2_a hf s, rfl, rfl, rfl, rfl⟩,
    ⟨_, starts_4_3_a hf s, rfl, rfl, rfl⟩, ⟨_, starts_4_5_d alam hf s, rfl, rfl, rfl, rfl⟩⟩

/-- C117.  `Example_2_5_c`, the one example with an `unset`: whether its calculation is run or only prepared for, the
numbers of items per line are 6 and 4 again afterwards, if the calculation returns. -/
theorem C117_unset (fmt : String → Py Unit) (hf : fmt "  B(E2: {}) = {}" = .ok ()) (env : FEnv) (s u : FState) (x : Printed)
    (h : Example_2_5_c.run fmt env s = (.ok x, u)) : u.glb.eig_num = 6 ∧ u.glb.rat_num = 4 ∧ u.glb.amp_num = 4 := by
  rw [run_eq, st_bind_ok (starts_2_5_c hf s)] at h
  obtain ⟨y, v, h1, h2⟩ := st_bind_eq_ok h
  have : endOf fmt Example_2_5_c v = (.ok (), v.at { v.glb with eig_num := 6, rat_num := 4, amp_num := 4 }) := rfl
  rw [st_bind_ok this] at h2
  cases h2
  exact ⟨rfl, rfl, rfl⟩

/-- C117.  If the calculation of `Example_2_5_c` raises, its settings stay in force. -/
theorem C117_not_restored (fmt : String → Py Unit) (hf : fmt "  B(E2: {}) = {}" = .ok ()) (env : FEnv) (s u : FState) (e : PyErr)
    (h : Example_2_5_c.run fmt env s = (.error e, u)) : u.glb.eig_num = 3 ∧ u.glb.rat_num = 6 ∧ u.glb.amp_num = 6 := by
  rw [run_eq, st_bind_ok (starts_2_5_c hf s)] at h
  rcases hx : ACM_Adapt env ham_fig5a (exArgs 20 10 18 6) (s.at (G25c s.glb)) with ⟨e' | x, v⟩
  · have hy : execOf Example_2_5_c env (s.at (G25c s.glb)) = (.error e', v) := st_bind_error hx
    rw [st_bind_error hy] at h
    cases h
    have k := C39_frame_partial env ham_fig5a (exArgs 20 10 18 6) (s.at (G25c s.glb))
    rw [hx] at k
    exact ⟨congrArg Glb.eig_num k, congrArg Glb.rat_num k, congrArg Glb.amp_num k⟩
  · have hy : execOf Example_2_5_c env (s.at (G25c s.glb)) = (.ok .nothing, v) := st_bind_ok hx
    rw [st_bind_ok hy] at h
    have : endOf fmt Example_2_5_c v = (.ok (), v.at { v.glb with eig_num := 6, rat_num := 4, amp_num := 4 }) := rfl
    rw [st_bind_ok this] at h
    cases h

/-- C117.  What the examples without a calculation print, in whatever state they are run. -/
theorem C117_printed (fmt : String → Py Unit) (hf : fmt "  B(E2: {}) = {}" = .ok ()) (env : FEnv) (alam : ℝ × ℝ) (s : FState) :
    (Example_3_4_b.run fmt env s).1 = .ok (.number 55) ∧ (Example_3_4_d.run fmt env s).1 = .ok (.number 220) ∧
    ((Example_4_5_a alam).run fmt env s).1 = .ok (.lambdas [0, 1, 0, 1, 0, 1, 0, 1, 0, 1, 0]) ∧
    ((Example_4_5_b alam).run fmt env s).1 = .ok (.lambdas [0, 1, 2, 3, 4, 5, 6, 7, 8, 9, 10]) := by
  refine ⟨?_, ?_, ?_, ?_⟩
  · rw [run_eq, st_bind_ok (starts_3_4_b hf s)]
    have : execOf Example_3_4_b env = (pure (.number 55) : FM Printed) := by
      show (StPy.lift (dimSO5r3_rngVvarL 0 12 0 (some 7)) >>= fun n => pure (.number n) : FM Printed) = _
      have h : dimSO5r3_rngVvarL 0 12 0 (some 7) = .ok 55 := by decide +kernel
      rw [h]; rfl
    rw [this]; rfl
  · rw [run_eq, st_bind_ok (starts_3_4_d hf s)]
    have : execOf Example_3_4_d env = (pure (.number 220) : FM Printed) := by
      show (StPy.lift (dimXspace 0 3 0 12 0 (some 7)) >>= fun n => pure (.number n) : FM Printed) = _
      have h : dimXspace 0 3 0 12 0 (some 7) = .ok 220 := by decide +kernel
      rw [h]; rfl
    rw [this]; rfl
  · rw [run_eq, st_bind_ok (starts_4_5_a alam hf s)]
    rfl
  · rw [run_eq, st_bind_ok (starts_4_5_b alam hf s)]
    rfl

/-- C117.  The Hamiltonians of the examples are those of `RWC_Ham`. -/
theorem C117_hamiltonian (B c1 c2 chi kappa : Coeff) : make_RWC_ham B c1 c2 chi kappa = RWC_Ham B c1 c2 chi kappa := by
  unfold make_RWC_ham RWC_Ham
  have : (-(1 / 2) / B : Coeff) = -1 / (2 * B) := by
    funext x
    show -(1 / 2) / B x = -1 / (2 * B x)
    rw [neg_div, neg_div, div_div]
  rw [this]

end Acm.Props
