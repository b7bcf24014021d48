import Verif.Model.CGSO5

/-!
# Model of the file and directory name parsers of `src/acmpy/so5cg.py` (lines 181-284)

Names are lists of characters.  The regular expressions consist of literals and of groups `(\d+)`
each followed by a literal that starts with a non-digit, or by `$`; so a greedy match of a
group needs no backtracking.  `$` also matches before a final newline.

Simplification: `\d` matches the ASCII digits only (Python: all Unicode decimal digits).
-/

namespace Acm

/-- Match a literal. -/
def matchLit (lit s : List Char) : Option (List Char) :=
  if lit.isPrefixOf s then some (s.drop lit.length) else none

/-- Match `(\d+)` and convert the group with `int`. -/
def matchNat (s : List Char) : Option (Int × List Char) :=
  match s.span Char.isDigit with
  | ([], _) => none
  | (c :: ds, rest) => some ((Nat.ofDigitChars 10 (c :: ds) 0 : Int), rest)

/-- Match `$`. -/
def matchEnd (s : List Char) : Option Unit :=
  if s = [] ∨ s = ['\n'] then some () else none

/-- so5cg.py lines 181 and 195-205 `parse_datafile_name`. -/
def parse_datafile_name (name : List Char) : Option Quintet := do
  let s ← matchLit litSO5CG name
  let (v1, s) ← matchNat s
  let s ← matchLit ['_'] s
  let (v2, s) ← matchNat s
  let s ← matchLit ['-'] s
  let (a2, s) ← matchNat s
  let s ← matchLit ['-'] s
  let (L2, s) ← matchNat s
  let s ← matchLit ['_'] s
  let (v3, s) ← matchNat s
  let _ ← matchEnd s
  pure (v1, v2, a2, L2, v3)

/-- so5cg.py lines 222 and 235-240 `parse_dir2_name`. -/
def parse_dir2_name (name : List Char) : Option (Int × Int × Int) := do
  let s ← matchLit litSO5CG name
  let (v1, s) ← matchNat s
  let s ← matchLit ['_'] s
  let (v2, s) ← matchNat s
  let s ← matchLit ['_'] s
  let (v3, s) ← matchNat s
  let _ ← matchEnd s
  pure (v1, v2, v3)

/-- so5cg.py lines 253 and 266-284 `parse_dir1_name`. -/
def parse_dir1_name (name : List Char) : Option Int := do
  let s ← matchLit ['v', '2', '='] name
  let (v2, s) ← matchNat s
  let _ ← matchEnd s
  pure v2

end Acm
