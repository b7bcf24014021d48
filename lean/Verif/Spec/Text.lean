import Mathlib.Data.Real.Basic
import Verif.Spec.Globals

/-!
# Specification vocabulary for printed numbers and lines
-/

namespace Acm.Spec

/-- The text `t` writes the number `q` with `p` decimals: blanks, perhaps a minus sign, at least one digit, and, unless
`p = 0`, a point and `p` digits. -/
def DecText (t : List Char) (p : ℕ) (q : ℝ) : Prop :=
  ∃ (k : ℕ) (neg : Bool) (whole frac : List Char),
    t = List.replicate k ' ' ++ ((if neg then ['-'] else []) ++ (whole ++ if p = 0 then [] else '.' :: frac)) ∧
    whole ≠ [] ∧ frac.length = p ∧ (∀ c ∈ whole ++ frac, c.isDigit = true) ∧
    q = (if neg then -1 else 1) * (((whole ++ frac).foldl (fun m c => 10 * m + (c.toNat - 48)) 0 : ℕ) : ℝ) / 10 ^ p

/-- The text `t` writes `x` correctly rounded to `p` decimals: the number written is at most half a unit of the last place
away, and if it is exactly half a unit away then its last digit is even. -/
def Rounded (t : List Char) (p : ℕ) (x : ℝ) : Prop :=
  ∃ q, DecText t p q ∧ |q - x| ≤ 1 / 2 / 10 ^ p ∧ (|q - x| = 1 / 2 / 10 ^ p → ∃ m : ℤ, q = 2 * m / 10 ^ p)

/-- Texts, separated by commas. -/
def commaLine : List (List Char) → List Char
  | [] => []
  | [t] => t
  | t :: ts => t ++ ',' :: commaLine ts

/-- Text without braces. -/
def Plain (s : List Char) : Prop := '{' ∉ s ∧ '}' ∉ s

/-- The text `t` is filled with blanks on the left up to `w` characters, and not beyond. -/
def Filled (t : List Char) (w : ℕ) : Prop := w ≤ t.length ∧ (t.head? = some ' ' → t.length = w)

/-- The template `m0{}m1{}m2`. -/
def template2 (m0 m1 m2 : List Char) : List Char := m0 ++ "{}".toList ++ m1 ++ "{}".toList ++ m2

/-- The template `l0{}l1{}l2{}l3{}l4`. -/
def template4 (l0 l1 l2 l3 l4 : List Char) : List Char :=
  l0 ++ "{}".toList ++ l1 ++ "{}".toList ++ l2 ++ "{}".toList ++ l3 ++ "{}".toList ++ l4

/-- The texts `ts` write the numbers `xs`, each correctly rounded to `p` decimals and filled to `w` characters. -/
def Items (w p : ℕ) (ts : List (List Char)) (xs : List ℝ) : Prop :=
  List.Forall₂ (fun t x => Rounded t p x ∧ Filled t w) ts xs

/-- The line of a table of eigenvalues. -/
def eigLine (L : Int) (ts : List (List Char)) : List Char :=
  "  At L=".toList ++ (List.replicate (2 - (dec L).length) ' ' ++ dec L) ++ ": [".toList ++ commaLine ts ++ "]".toList

/-- As many opening as closing brackets. -/
def Bracketed (t : List Char) : Prop := t.count '(' = t.count ')'

/-- The number of times a character occurs in what a line prints. -/
def occurs (c : Char) (r : Py (List Char)) : Option ℕ := r.toOption.map (List.count c)

end Acm.Spec
