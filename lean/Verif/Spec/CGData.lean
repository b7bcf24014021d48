import Mathlib.Data.Real.Basic

/-!
# Independent specification: the text of the SO5CG data files
-/

namespace Acm.Spec

/-- The ASCII white space characters. -/
def Blank (c : Char) : Prop := c.toNat ∈ [9, 10, 11, 12, 13, 28, 29, 30, 31, 32]

/-- A field: some characters, none of them white space. -/
def IsField (f : List Char) : Prop := f ≠ [] ∧ ∀ c ∈ f, ¬ Blank c

/-- `core` is made of the fields `fs`, in that order, separated by white space. -/
inductive Written : List (List Char) → List Char → Prop
  | one (f) : IsField f → Written [f] f
  | cons (f w fs rest) : IsField f → w ≠ [] → (∀ c ∈ w, Blank c) → Written fs rest →
      Written (f :: fs) (f ++ w ++ rest)

/-- The line `line` consists of the fields `fs`, possibly preceded and followed by white space. -/
def LineOf (fs : List (List Char)) (line : List Char) : Prop :=
  ∃ lead core trail, (∀ c ∈ lead, Blank c) ∧ (∀ c ∈ trail, Blank c) ∧ Written fs core ∧
    line = lead ++ core ++ trail

/-- Decimal digits, with single underscores allowed between two of them. -/
inductive Digits : List Char → Prop
  | one (c) : c.isDigit = true → Digits [c]
  | more (c s) : c.isDigit = true → Digits s → Digits (c :: s)
  | sep (c s) : c.isDigit = true → Digits s → Digits (c :: '_' :: s)

/-- `s` writes the natural number `n` in decimal. -/
def NatText (s : List Char) (n : ℕ) : Prop :=
  Digits s ∧ n = (s.filter (· ≠ '_')).foldl (fun m c => 10 * m + (c.toNat - 48)) 0

/-- `s` writes the integer `n`: an optional sign, then a natural number. -/
def IntText (s : List Char) (n : Int) : Prop :=
  (∃ m, NatText s m ∧ n = m) ∨ (∃ t m, s = '+' :: t ∧ NatText t m ∧ n = m) ∨
    (∃ t m, s = '-' :: t ∧ NatText t m ∧ n = -(m : Int))

/-- The last element of `l` with first component `k` has second component `v`. -/
def LastFor {K V : Type} (l : List (K × V)) (k : K) (v : V) : Prop :=
  ∃ pre post, l = pre ++ (k, v) :: post ∧ ∀ x ∈ post, x.1 ≠ k

end Acm.Spec
