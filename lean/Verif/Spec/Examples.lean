import Verif.Model.Examples

/-!
# Specification: what an example is run with
-/

namespace Acm.Spec

/-- The calls an example makes before its calculation. -/
noncomputable def startOf (fmt : String → Py Unit) : Example → FM Unit
  | .root set _ _ => FM.liftG (callAll fmt set)
  | .next p set _ _ => do
    p.prepare fmt
    FM.liftG (callAll fmt set)

/-- The calls an example makes after its calculation. -/
noncomputable def endOf (fmt : String → Py Unit) : Example → FM Unit
  | .root _ unset _ => FM.liftG (callAll fmt unset)
  | .next _ _ unset _ => FM.liftG (callAll fmt unset)

/-- The calculation of an example. -/
noncomputable def execOf : Example → FEnv → FM Printed
  | .root _ _ exec => exec
  | .next _ _ _ exec => exec

/-- The three globals that no procedure sets to anything else than their initial value. -/
def SameConstants (g g' : Glb) : Prop :=
  g.tran_format = g'.tran_format ∧ g.tran_fill = g'.tran_fill ∧ g.nu_lap = g'.nu_lap

/-- One thing a user does in a session: change a setting, calculate, or run an example.  It may raise. -/
inductive Step where
  | set (c : GCall)
  | calculate (fit_eig fit_rat : Int) (ham : OperatorSum) (a : XArgs)
  | run (e : Example)

/-- Perform one step, with the result dropped. -/
noncomputable def Step.exec (fmt : String → Py Unit) (env : FEnv) : Step → FState → FState
  | .set c, s => (FM.liftG (c.exec fmt) s).2
  | .calculate fe fr ham a, s => (ACM_ScaleOrAdapt env fe fr ham a s).2
  | .run e, s => (e.run fmt env s).2

/-- A session. -/
noncomputable def session (fmt : String → Py Unit) (env : FEnv) (l : List Step) (s : FState) : FState :=
  l.foldl (fun s x => x.exec fmt env s) s

/-- The state after import. -/
noncomputable def fresh : FState := ⟨Glb.init, fun _ => none, fun _ _ => none, fun _ => none, []⟩

/-- The examples that call `ACM_Adapt`, with the Hamiltonian and the bounds. -/
noncomputable def adapted (alam : ℝ × ℝ) : List (Example × OperatorSum × XArgs) :=
  [(Example_2_4_b, ham_fig5a, exArgs 20 10 18 6), (Example_2_4_c, ham_fig5a, exArgs 20 10 18 6),
    (Example_2_4_d, ham_fig5a, exArgs 20 10 12 12), (Example_2_5_a, ham_fig5a, exArgs 20 10 18 6),
    (Example_2_5_b, ham_fig5a, exArgs 20 10 18 6), (Example_2_5_c, ham_fig5a, exArgs 20 10 18 6),
    (Example_3_2_a, ham_fig4c, exArgs 40 5 12 7), (Example_3_2_b, ham_fig4c, exArgs 40 10 12 7),
    (Example_3_2_c, ham_fig4c, exArgs 40 15 12 7), (Example_3_3_a, ham_fig4c, exArgs 40 15 12 12),
    (Example_4_3_a, ham_4_1, exArgs 50 11 21 8), (Example_4_3_b, ham_4_1, exArgs 50 13 21 8),
    (Example_4_3_c, ham_4_1, exArgs 50 15 21 8), (Example_4_3_d, ham_4_1, exArgs 50 17 21 8),
    (Example_4_3_e, ham_4_1, exArgs 50 19 21 8), (Example_4_3_f, ham_4_1, exArgs 50 21 21 8),
    (Example_4_4_a alam, ham_4_1, alamArgs alam 3), (Example_4_4_b alam, ham_4_1, alamArgs alam 5),
    (Example_4_4_c alam, ham_4_1, alamArgs alam 7), (Example_4_4_d alam, ham_4_1, alamArgs alam 9),
    (Example_4_4_e alam, ham_4_1, alamArgs alam 11), (Example_4_4_f alam, ham_4_1, alamArgs alam 13),
    (Example_4_5_d_050508 alam, ham_4_1, exArgs 50 5 5 8), (Example_4_5_d alam, ham_4_1, exArgs 50 5 5 8)]

/-- The level `(L, i)` is among those calculated within the bounds. -/
def LevelExists (a : XArgs) (L i : Int) : Prop :=
  a.L_min ≤ L ∧ L ≤ a.L_max ∧ 1 ≤ i ∧ ∃ d, dimXspace a.nu_min a.nu_max a.v_min a.v_max L none = .ok d ∧ i ≤ d

end Acm.Spec
