import Verif.Model.FullOps

/-!
# Specification vocabulary for operators on the full space
-/

namespace Acm.Spec

/-- Legal ranges of labels. -/
def LegalRanges (a : XArgs) : Prop :=
  (0 ≤ a.nu_min ∧ a.nu_min ≤ a.nu_max) ∧ (0 ≤ a.v_min ∧ a.v_min ≤ a.v_max) ∧
    (0 ≤ a.L_min ∧ a.L_min ≤ a.L_max)

/-- The number of harmonics in a product of spherical symbols. -/
def harmonics : List OpSym → ℕ
  | [] => 0
  | .harm _ :: ss => harmonics ss + 1
  | _ :: ss => harmonics ss

/-- A segment of a product: a product of radial operators next to a product of spherical
operators, or an operator of the whole space. -/
inductive Seg where
  | twin (rs : List RadSym) (ss : List OpSym)
  | whole (op : OpSym)

/-- The operator names that a product may contain. -/
def Known : OpSym → Prop
  | .rad .other => False
  | .unknown _ => False
  | _ => True

/-- The operator that a symbol stands for, in an algebra where radial symbols mean `R` and all
others `S`. -/
def xWord {W : Type} (R : RadSym → W) (S : OpSym → W) : OpSym → W
  | .rad r => R r
  | s => S s

/-- The operator that a segment stands for. -/
def Seg.word {W : Type} [Monoid W] (R : RadSym → W) (S : OpSym → W) : Seg → W
  | .twin rs ss => (rs.map R).prod * (ss.map S).prod
  | .whole op => S op

/-- The representation of a segment. -/
def Seg.eval {σ M : Type} (A : XAlg σ M) : Seg → StPy σ M
  | .twin rs ss => A.twin rs ss
  | .whole .Pi => A.pi
  | .whole .PiPi2 => A.pipi 2
  | .whole .PiPi4 => A.pipi 4
  | .whole .PiqPi => A.piqpi
  | .whole _ => StPy.lift (throw .valueError)

/-- The representations of segments from left to right, multiplied. -/
def evalSegs {σ M : Type} (A : XAlg σ M) (x : M) : List Seg → StPy σ M
  | [] => pure x
  | g :: gs => do
    let y ← g.eval A
    evalSegs A (A.mul x y) gs

/-! ## order of the blocks -/

open Classical in
/-- How many of the pairs of `n` states with a block (`w i j`: final state `i`, initial state `j`) come
at or after the pair `(i, j)`, when the initial state is the slow index. -/
noncomputable def lateBlocks (n : ℕ) (w : ℕ → ℕ → Prop) (i j : ℕ) : ℕ :=
  ((Finset.range n ×ˢ Finset.range n).filter fun d =>
    w d.1 d.2 ∧ (j < d.2 ∨ (d.2 = j ∧ i ≤ d.1))).card

/-! ## memo tables and histories -/

/-- Every stored result is what the function would return now. -/
structure MemoOk (env : XEnv) (s : XState) : Prop where
  pi : ∀ a x, s.piMemo a = some x → RepXspace_Pi env s.lam_fun a = .ok x
  pipi : ∀ L a x, s.pipiMemo L a = some x → RepXspace_PiPi env s.lam_fun L a = .ok x
  piqpi : ∀ a x, s.piqpiMemo a = some x → RepXspace_PiqPi env s.lam_fun a = .ok x

/-- What can happen before a call: calls of `RepXspace` and of `RepXspace_Prod`, whether they
succeed or fail, and changes of the setting that representations depend on. -/
inductive XEvent where
  | sum (terms : OperatorSum) (a : XArgs)
  | prod (ops : List OpSym) (a : XArgs)
  | setLam (lam : LambdaFunction)

/-- The state after an event. -/
noncomputable def XEvent.run (env : XEnv) (s : XState) : XEvent → XState
  | .sum terms a => (RepXspace env terms a s).2
  | .prod ops a => (RepXspace_Prod env ops a s).2
  | .setLam lam => ⟨lam, s.piMemo, s.pipiMemo, s.piqpiMemo⟩

/-- The state after a history. -/
noncomputable def history (env : XEnv) (s : XState) (es : List XEvent) : XState :=
  es.foldl (XEvent.run env) s

/-- A change of the setting. -/
def XEvent.isSet : XEvent → Prop
  | .setLam _ => True
  | _ => False

/-- A change of the setting, or a call of `RepXspace` that succeeds in the state `s`. -/
def XEvent.Clean (env : XEnv) (s : XState) : XEvent → Prop
  | .setLam _ => True
  | .sum terms a => ∃ M, (RepXspace env terms a s).1 = .ok M
  | .prod _ _ => False

/-- Each event of the history is clean when it happens. -/
def CleanHistory (env : XEnv) : XState → List XEvent → Prop
  | _, [] => True
  | s, e :: es => e.Clean env s ∧ CleanHistory env (e.run env s) es

end Acm.Spec
