/-!
# Python basics

Shallow model of the Python features used by `acmpy`: exceptions as values,
`range`, generator sums, list indexing and slicing.
-/

namespace Acm

/-- The exception classes raised by the modelled code (messages are not modelled). -/
inductive PyErr where
  | valueError
  | typeError
  | assertionError
  | indexError
  | keyError
  | attributeError
  | zeroDivisionError
  | fileNotFoundError
  | nameError
  deriving DecidableEq, Repr

/-- A Python computation that may raise: exceptions as values. -/
abbrev Py := Except PyErr

/-- `range(a, b)` on Python integers. -/
def pyRange (a b : Int) : List Int :=
  (List.range (b - a).toNat).map fun (i : Nat) => a + (i : Int)

/-- `sum(f(x) for x in xs)`, where `f` may raise. -/
def pySum (xs : List Int) (f : Int → Py Int) : Py Int :=
  xs.foldlM (fun acc x => do let y ← f x; pure (acc + y)) 0

/-- `[y for x in xs for y in f(x)]`, where `f` may raise. -/
def pyFlat {α β : Type} (xs : List α) (f : α → Py (List β)) : Py (List β) :=
  match xs with
  | [] => pure []
  | x :: xs => do
    let y ← f x
    let ys ← pyFlat xs f
    pure (y ++ ys)

/-- `xs[i]` with Python's negative indices and `IndexError`. -/
def pyGet {α : Type} (xs : List α) (i : Int) : Py α :=
  let j := if i < 0 then i + xs.length else i
  if 0 ≤ j then
    match xs[j.toNat]? with
    | some x => pure x
    | none => throw .indexError
  else throw .indexError

/-- `xs[i] = x` with Python's negative indices and `IndexError`. -/
def pySet {α : Type} (xs : List α) (i : Int) (x : α) : Py (List α) :=
  let j := if i < 0 then i + xs.length else i
  if 0 ≤ j ∧ j < xs.length then pure (xs.set j.toNat x) else throw .indexError

/-- `assert b`. -/
def pyAssert (b : Bool) : Py Unit :=
  if b then pure () else throw .assertionError

/-- `[x] * n` (empty for a negative `n`). -/
def pyRep {α : Type} (x : α) (n : Int) : List α := List.replicate n.toNat x

/-- Computations on a mutable state `σ` (module globals): the result or exception together with
the new state, so a state change made before an exception stays visible. -/
abbrev StPy (σ α : Type) := σ → Py α × σ

/-- Sequencing: an exception keeps the state reached. -/
def StPy.bind {σ α β : Type} (x : StPy σ α) (f : α → StPy σ β) : StPy σ β := fun s =>
  match x s with
  | (.ok a, s') => f a s'
  | (.error e, s') => (.error e, s')

instance {σ : Type} : Monad (StPy σ) where
  pure x := fun s => (.ok x, s)
  bind := StPy.bind

/-- A computation that does not touch the state. -/
def StPy.lift {σ α : Type} (x : Py α) : StPy σ α := fun s => (x, s)

end Acm
