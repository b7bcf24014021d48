import Verif.Model.CGFiles

/-!
# Model of the text of the SO5CG data files and of the directory dictionaries

`src/acmpy/so5cg.py` (lines 124-175, 187-192, 227-232, 243-248, 258-263, 287-297), `parse_line_float` and
`readdata_float` of `src/acmpy/compat.py` (lines 93-107) and `show_CG_file` of
`src/acmpy/so5_so3_cg.py` (lines 228-241).

A line is a list of characters (with its line terminator), a file is a list of lines.  Python's
`float` of a field is a parameter: `float s = none` where Python raises `ValueError`.

Simplifications: whitespace and digits are those of ASCII; `int` accepts any number of digits; the check `type(line) is str` of `parse_line` is
not modelled (every line is a string); a directory is the list of its entries in the (arbitrary)
order of `iterdir`, so calling it on something that is not a directory is not modelled.
-/

namespace Acm

/-- `str.isspace` of an ASCII character, the class `\s`. -/
def isPySpace (c : Char) : Bool :=
  c.toNat = 32 ∨ (9 ≤ c.toNat ∧ c.toNat ≤ 13) ∨ (28 ≤ c.toNat ∧ c.toNat ≤ 31)

/-- `str.strip()`. -/
def pyStrip (s : List Char) : List Char :=
  ((s.dropWhile isPySpace).reverse.dropWhile isPySpace).reverse

/-- `re.split(r'\s+', s)`, run on the rest of the string; `inSpace` says whether the previous
character belongs to the separator being matched, `cur` is the field read so far. -/
def pySplitAux : Bool → List Char → List Char → List (List Char)
  | _, cur, [] => [cur]
  | inSpace, cur, c :: s =>
    if isPySpace c then
      if inSpace then pySplitAux true cur s else cur :: pySplitAux true [] s
    else pySplitAux false (cur ++ [c]) s

/-- `re.split(r'\s+', s)`. -/
def pySplit (s : List Char) : List (List Char) := pySplitAux false [] s

/-- Digits, with single underscores allowed between two of them; `prev` says whether the previous
character is a digit. -/
def digitsOk : Bool → List Char → Bool
  | prev, [] => prev
  | prev, c :: s => if c = '_' then prev && digitsOk false s else c.isDigit && digitsOk true s

/-- The digits of an integer literal. -/
def pyDigits (s : List Char) : Py Int :=
  if digitsOk false s then pure (Nat.ofDigitChars 10 (s.filter (· ≠ '_')) 0 : Int)
  else throw .valueError

/-- `int(s)` of a string without whitespace. -/
def pyInt (s : List Char) : Py Int :=
  match s with
  | '-' :: t => do let n ← pyDigits t; pure (-n)
  | '+' :: t => pyDigits t
  | t => pyDigits t

/-- The parameter for `float`. -/
abbrev FloatSyntax := List Char → Option ℝ

/-- `float(s)`. -/
def pyFloat (float : FloatSyntax) (s : List Char) : Py ℝ :=
  match float s with
  | some x => pure x
  | none => throw .valueError

/-- so5cg.py lines 112-119: the label of a coefficient. -/
abbrev CoeffLabel := Label × Label × Label

/-- so5cg.py lines 124-148 `parse_line`. -/
def parse_line (float : FloatSyntax) (line : List Char) : Py (ℝ × CoeffLabel) := do
  let fields := pySplit (pyStrip line)
  if fields.length ≠ 10 then throw .valueError
  else do
    let f0 ← pyGet fields 0
    let coeff ← pyFloat float f0
    let labels ← (fields.drop 1).mapM pyInt
    let x0 ← pyGet labels 0
    let x1 ← pyGet labels 1
    let x2 ← pyGet labels 2
    let x3 ← pyGet labels 3
    let x4 ← pyGet labels 4
    let x5 ← pyGet labels 5
    let x6 ← pyGet labels 6
    let x7 ← pyGet labels 7
    let x8 ← pyGet labels 8
    pure (coeff, (x0, x1, x2), (x3, x4, x5), (x6, x7, x8))

/-- so5cg.py lines 150-160 `load_datafile`, on the lines of the file. -/
def load_datafile (float : FloatSyntax) (lines : List (List Char)) : Py (List (ℝ × CoeffLabel)) :=
  lines.mapM (parse_line float)

/-- so5cg.py lines 163-175 `datafile_dict`. -/
def datafile_dict (float : FloatSyntax) (lines : List (List Char)) : Py (PyDict CoeffLabel ℝ) := do
  let ls ← load_datafile float lines
  pure (dictOf (ls.map fun line => (line.2, line.1)))

/-- compat.py lines 93-98 `parse_line_float`. -/
def parse_line_float (float : FloatSyntax) (line : List Char) : Py ℝ := do
  let fields := pySplit (pyStrip line)
  let f0 ← pyGet fields 0
  pyFloat float f0

/-- compat.py lines 101-107 `readdata_float`, on the lines of the file. -/
def readdata_lines (float : FloatSyntax) (lines : List (List Char)) : Py (List ℝ) :=
  lines.mapM (parse_line_float float)

/-- The file system of `Verif/Model/CGSO5.lean` for text files: a file that is missing or that
`readdata_float` cannot read gives `none` (one exception class for both). -/
def FileSys.ofText (float : FloatSyntax) (text : List Char → Option (List (List Char))) (home : List Char) : FileSys where
  readdata path := (text path).bind fun lines => (readdata_lines float lines).toOption
  home := home

/-! ## Directories -/

/-- An entry of a directory: a file (its lines) or a directory. -/
inductive Node where
  | file (lines : List (List Char))
  | dir (entries : List (List Char × Node))

/-- `path.is_file()`. -/
def Node.isFile : Node → Bool
  | .file _ => true
  | .dir _ => false

/-- `path.iterdir()`: the entries. -/
def Node.entries : Node → List (List Char × Node)
  | .file _ => []
  | .dir es => es

/-- so5cg.py lines 187-192 `is_datafile_path`. -/
def is_datafile_path (p : List Char × Node) : Bool := p.2.isFile && (parse_datafile_name p.1).isSome

/-- so5cg.py lines 227-232 `is_dir2_path`. -/
def is_dir2_path (p : List Char × Node) : Bool := !p.2.isFile && (parse_dir2_name p.1).isSome

/-- so5cg.py lines 258-263 `is_dir1_path`. -/
def is_dir1_path (p : List Char × Node) : Bool := !p.2.isFile && (parse_dir1_name p.1).isSome

/-- so5cg.py lines 243-248 `dir2_dict`. -/
def dir2_dict (path : Node) : PyDict (Option Quintet) Node :=
  dictOf ((path.entries.filter is_datafile_path).map fun p => (parse_datafile_name p.1, p.2))

/-- so5cg.py lines 287-288 `dir1_dict`. -/
def dir1_dict (path : Node) : PyDict (Option (Int × Int × Int)) (PyDict (Option Quintet) Node) :=
  dictOf ((path.entries.filter is_dir2_path).map fun p => (parse_dir2_name p.1, dir2_dict p.2))

/-- so5cg.py lines 296-297 `base_dict`. -/
def base_dict (base_path : Node) :
    PyDict (Option Int) (PyDict (Option (Int × Int × Int)) (PyDict (Option Quintet) Node)) :=
  dictOf ((base_path.entries.filter is_dir1_path).map fun p => (parse_dir1_name p.1, dir1_dict p.2))

/-! ## Display -/

/-- What `show_CG_file` prints: the number of coefficients, then one line per label and coefficient. -/
inductive CGPrint where
  | count (n : ℕ) (plural : Bool)
  | entry (label : Quartet) (coeff : ℝ)

/-- so5_so3_cg.py lines 228-241 `show_CG_file`: the lines printed. -/
def show_CG_file (fs : FileSys) (q : Quintet) : CGM (List CGPrint) := do
  StPy.lift (require_SO5Quintet q)
  let cg_table ← get_CG_file fs q
  let count := cg_table.1.length
  let head := if count = 1 then CGPrint.count count false else CGPrint.count count true
  pure (head :: (cg_table.1.zip cg_table.2).map fun x => CGPrint.entry x.2 x.1)

end Acm
