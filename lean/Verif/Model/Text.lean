import Verif.Model.FullSpace

/-!
# Model of the texts that are printed

`str.format`, and the lines printed by `Show_Eigs`, `Show_Mels` (full_space.py) and `ACM_show_lst`,
`ACM_set_rat_fit` (globals.py).

Simplifications.  A float is a real number; its conversion with the format `f` is rounded to nearest,
ties to even, as CPython does with the exact value of the float; `-0.0`, `inf` and `nan` do not occur.
Of the format specifications, sign `+`, zero padding, width, precision and the types `d`, `f`, `s` are
modelled; fill characters, alignments, other types, attributes, items, nested fields, the conversions
`!r` and `!a` and the default text of a float raise `ValueError` in the model.
-/

namespace Acm

/-! ## numbers -/

/-- Rounding of a number that is not negative to the nearest integer, ties to even. -/
noncomputable def roundEven (x : ℝ) : ℕ :=
  if x - ⌊x⌋₊ < 1 / 2 then ⌊x⌋₊
  else if 1 / 2 < x - ⌊x⌋₊ then ⌊x⌋₊ + 1
  else if ⌊x⌋₊ % 2 = 0 then ⌊x⌋₊ else ⌊x⌋₊ + 1

/-- At least `w` characters, with zeros added on the left. -/
def zfill (w : ℕ) (s : List Char) : List Char := List.replicate (w - s.length) '0' ++ s

/-- The digits of `format(|x|, '.pf')`. -/
noncomputable def fixedBody (p : ℕ) (x : ℝ) : List Char :=
  Nat.toDigits 10 (roundEven (|x| * 10 ^ p) / 10 ^ p) ++
    if p = 0 then [] else '.' :: zfill p (Nat.toDigits 10 (roundEven (|x| * 10 ^ p) % 10 ^ p))

/-! ## `str.format` -/

/-- An argument of `format`. -/
inductive FArg where
  | int (n : Int)
  | flt (x : ℝ)
  | str (s : List Char)

/-- A format specification `[+][0][width][.precision][type]`. -/
structure FSpec where
  plus : Bool
  zero : Bool
  width : ℕ
  prec : Option ℕ
  ty : Option Char

/-- The number written by decimal digits. -/
def digitsNat (s : List Char) : ℕ := s.foldl (fun m c => 10 * m + (c.toNat - 48)) 0

/-- The type at the end of a specification. -/
def parseType : List Char → Py (Option Char)
  | [] => pure none
  | [c] => pure (some c)
  | _ => throw .valueError

/-- The text without a leading `c`, and whether it was there. -/
def dropFlag (c : Char) : List Char → Bool × List Char
  | [] => (false, [])
  | d :: t => if d = c then (true, t) else (false, d :: t)

/-- The format specification mini-language (Python documentation, "Format String Syntax"). -/
def parseSpec (s : List Char) : Py FSpec :=
  let a := dropFlag '+' s
  let b := dropFlag '0' a.2
  let w := digitsNat (b.2.takeWhile Char.isDigit)
  let r := dropFlag '.' (b.2.dropWhile Char.isDigit)
  if r.1 then
    if r.2.takeWhile Char.isDigit = [] then throw .valueError
    else do
      let ty ← parseType (r.2.dropWhile Char.isDigit)
      pure ⟨a.1, b.1, w, some (digitsNat (r.2.takeWhile Char.isDigit)), ty⟩
  else do
    let ty ← parseType r.2
    pure ⟨a.1, b.1, w, none, ty⟩

/-- Sign and digits of a number, padded on the left. -/
def numText (f : FSpec) (neg : Bool) (body : List Char) : List Char :=
  let sign := if neg then ['-'] else if f.plus then ['+'] else []
  if f.zero then sign ++ zfill (f.width - sign.length) body
  else List.replicate (f.width - (sign ++ body).length) ' ' ++ (sign ++ body)

open Classical in
/-- `format(x, spec)` for a float and the type `f`; the default precision is 6. -/
noncomputable def fltText (f : FSpec) (x : ℝ) : List Char := numText f (decide (x < 0)) (fixedBody (f.prec.getD 6) x)

/-- `format(value, spec)`. -/
noncomputable def formatArg (f : FSpec) : FArg → Py (List Char)
  | .int n =>
    if f.ty = some 'f' then pure (fltText f n)
    else if (f.ty = none ∨ f.ty = some 'd') ∧ f.prec = none then
      pure (numText f (decide (n < 0)) (Nat.toDigits 10 n.natAbs))
    else throw .valueError
  | .flt x => if f.ty = some 'f' then pure (fltText f x) else throw .valueError
  | .str s =>
    if (f.ty = none ∨ f.ty = some 's') ∧ f.plus = false ∧ f.zero = false then
      let t := match f.prec with
        | none => s
        | some p => s.take p
      pure (t ++ List.replicate (f.width - t.length) ' ')
    else throw .valueError

/-- `str(value)`. -/
def FArg.text : FArg → Py (List Char)
  | .int n => pure (pyStr n)
  | .flt _ => throw .valueError
  | .str s => pure s

/-- The numbering of the fields: not yet determined, automatic (with the next number), or by hand. -/
inductive FNum where
  | start
  | auto (k : ℕ)
  | manual

/-- The number of the argument that a field with the given name stands for. -/
def fieldIndex (name : List Char) (st : FNum) : Py (ℕ × FNum) :=
  if name = [] then
    match st with
    | .start => pure (0, .auto 1)
    | .auto k => pure (k, .auto (k + 1))
    | .manual => throw .valueError
  else if name.all Char.isDigit then
    match st with
    | .auto _ => throw .valueError
    | _ => pure (digitsNat name, .manual)
  else throw .keyError

/-- The text that replaces the field `{f}`. -/
noncomputable def fmtField (args : List FArg) (f : List Char) (st : FNum) : Py (List Char × FNum) := do
  let head := f.takeWhile (· ≠ ':')
  let conv := head.dropWhile (· ≠ '!')
  let r ← fieldIndex (head.takeWhile (· ≠ '!')) st
  match args[r.1]? with
  | none => throw .indexError
  | some arg => do
    let arg ← if conv = [] then pure arg else if conv = ['!', 's'] then do
        let s ← arg.text
        pure (.str s)
      else throw .valueError
    let spec ← parseSpec ((f.dropWhile (· ≠ ':')).drop 1)
    let s ← formatArg spec arg
    pure (s, r.2)

/-- Where the scan of a template is: in plain text, after an opening or a closing brace, in a field. -/
inductive FScan where
  | lit
  | opened
  | closed
  | field (f : List Char)

/-- The scan of a template. -/
noncomputable def fmtGo (args : List FArg) : List Char → FScan → FNum → Py (List Char)
  | [], .lit, _ => pure []
  | [], _, _ => throw .valueError
  | c :: t, .lit, st =>
    if c = '{' then fmtGo args t .opened st
    else if c = '}' then fmtGo args t .closed st
    else do
      let r ← fmtGo args t .lit st
      pure (c :: r)
  | c :: t, .opened, st =>
    if c = '{' then do
      let r ← fmtGo args t .lit st
      pure ('{' :: r)
    else if c = '}' then do
      let s ← fmtField args [] st
      let r ← fmtGo args t .lit s.2
      pure (s.1 ++ r)
    else fmtGo args t (.field [c]) st
  | c :: t, .closed, st =>
    if c = '}' then do
      let r ← fmtGo args t .lit st
      pure ('}' :: r)
    else throw .valueError
  | c :: t, .field f, st =>
    if c = '{' then throw .valueError
    else if c = '}' then do
      let s ← fmtField args f st
      let r ← fmtGo args t .lit s.2
      pure (s.1 ++ r)
    else fmtGo args t (.field (f ++ [c])) st

/-- `template.format(*args)`. -/
noncomputable def pyFormat (template : List Char) (args : List FArg) : Py (List Char) := fmtGo args template .lit .start

/-- `f'{x:{spec}}'` for a float. -/
noncomputable def pyFormatFlt (spec : List Char) (x : ℝ) : Py (List Char) := do
  let f ← parseSpec spec
  formatArg f (.flt x)

/-- `','.join(ts)`. -/
def joinComma : List (List Char) → List Char
  | [] => []
  | [t] => t
  | t :: ts => t ++ ',' :: joinComma ts

/-! ## the lines -/

/-- `f'{rel_wid}.{rel_pre}f'`. -/
def itemSpec (g : Glb) : List Char := pyStr g.rel_wid ++ '.' :: (pyStr g.rel_pre ++ ['f'])

/-- `f'.{low_pre}f'`. -/
def lowSpec (g : Glb) : List Char := '.' :: (pyStr g.low_pre ++ ['f'])

/-- full_space.py lines 499-504. -/
noncomputable def eigHeadText (g : Glb) (low : Option ℝ) (sft : ℝ) : Py (List Char) :=
  match low with
  | some low => do
    let a ← pyFormatFlt (lowSpec g) low
    let b ← pyFormatFlt (lowSpec g) sft
    pure ("Lowest eigenvalue is ".toList ++ a ++ ". Relative eigenvalues follow".toList ++
      " (each divided by ".toList ++ b ++ "):".toList)
  | none => do
    let b ← pyFormatFlt (lowSpec g) sft
    pure ("Scaled eigenvalues follow (each divided by ".toList ++ b ++ ":".toList)

/-- full_space.py lines 509-512. -/
noncomputable def eigsText (g : Glb) (L : Int) (vals : List ℝ) : Py (List Char) := do
  let f ← parseSpec "2d".toList
  let l ← formatArg f (.int L)
  let ts ← vals.mapM fun x => pyFormatFlt (itemSpec g) x
  pure ("  At L=".toList ++ l ++ ": [".toList ++ joinComma ts ++ "]".toList)

/-- full_space.py lines 788-789. -/
noncomputable def melHeadText (g : Glb) (mel_desg : List Char) (scale : ℝ) : Py (List Char) := do
  let b ← pyFormatFlt (lowSpec g) scale
  pure ("Selected ".toList ++ mel_desg ++ " follow".toList ++ " (each divided by ".toList ++ b ++ "):".toList)

/-- full_space.py line 806, for a list of integers. -/
def badText (ent : List Int) : List Char :=
  "  Bad matrix element specification: ".toList ++ '[' :: (", ".toList.intercalate (ent.map pyStr) ++ [']'])

/-- full_space.py line 793 `glb_item_format`. -/
def item_format (g : Glb) : List Char := "{:".toList ++ itemSpec g ++ "}".toList

/-- full_space.py line 795 `num`. -/
def numFormat : List Char := "{:d}".toList

/-- full_space.py lines 796-797 `glb_mel_f1`. -/
noncomputable def mel_f1 (g : Glb) (mel_format : List Char) : Py (List Char) := do
  let t ← pyFormat g.tran_format.toList [.str numFormat, .str numFormat, .str numFormat, .str numFormat]
  pyFormat mel_format [.str t, .str (item_format g)]

/-- full_space.py lines 799-801 `glb_mel_f2`. -/
noncomputable def mel_f2 (g : Glb) (mel_format : List Char) : Py (List Char) := do
  let t ← pyFormat g.tran_format.toList [.str numFormat, .str g.tran_fill.toList, .str numFormat, .str numFormat]
  pyFormat mel_format [.str t, .str "{:s}".toList]

/-- full_space.py lines 841, 872. -/
noncomputable def melText (g : Glb) (mel_format : List Char) (L1 n1 L2 n2 : Int) (x : ℝ) : Py (List Char) := do
  let f1 ← mel_f1 g mel_format
  pyFormat f1 [.int L1, .int n1, .int L2, .int n2, .flt x]

/-- full_space.py lines 975-977. -/
noncomputable def rowText (g : Glb) (mel_format : List Char) (L1 L2 n2 : Int) (xs : List ℝ) : Py (List Char) := do
  let f2 ← mel_f2 g mel_format
  let ts ← xs.mapM fun x => pyFormat (item_format g) [.flt x]
  pyFormat f2 [.int L1, .int L2, .int n2, .str ('[' :: (joinComma ts ++ [']']))]

/-- The text of a printed line, with the settings and the arguments `mel_format`, `mel_desg` of `Show_Mels`. -/
noncomputable def Shown.text (g : Glb) (mel_format mel_desg : List Char) : Shown → Py (List Char)
  | .eigHead low sft => eigHeadText g low sft
  | .eigs L vals => eigsText g L vals
  | .melHead scale => melHeadText g mel_desg scale
  | .bad ent => pure (badText ent)
  | .mel L1 n1 L2 n2 x => melText g mel_format L1 n1 L2 n2 x
  | .row L1 L2 n2 xs => rowText g mel_format L1 L2 n2 xs

/-- globals.py line 227 `def_mel_format`. -/
def def_mel_format : List Char := "  ME( %{0!s} ) = {1!s}".toList

/-- globals.py lines 736-739: the transition named by `ACM_set_rat_fit`. -/
noncomputable def ratFitText (g : Glb) : Py (List Char) := do
  let t ← pyFormat g.tran_format.toList [.str numFormat, .str numFormat, .str numFormat, .str numFormat]
  let f ← pyFormat g.rat_format.toList [.str t, .str "{:f}".toList]
  pyFormat f [.int g.rat_L1, .int g.rat_1dx, .int g.rat_L2, .int g.rat_2dx, .flt g.rat_fit]

/-- globals.py lines 847-872: the line of `ACM_show_lst` for one designator, with the two nested calls of `format`;
`none` if it is skipped. -/
noncomputable def showLstText (g : Glb) (ent : List Int) : Py (Option (List Char)) :=
  let d := FArg.str numFormat
  let n := fun s : String => FArg.str s.toList
  let two := fun (fs : List FArg) (args : List Int) => (do
    let f ← pyFormat g.tran_format.toList fs
    let s ← pyFormat f (args.map FArg.int)
    pure (some s) : Py (Option (List Char)))
  match ent with
  | [] => do
    let f ← pyFormat g.tran_format.toList [n "L_i", n "j_i", n "L_f", n "j_f"]
    pure (some f)
  | [a] => two [n "L_i", n "j_i", d, n "j_f"] [a]
  | [a, b] => two [d, n "j_i", d, n "j_f"] [a, b]
  | [a, b, c] => two [d, n "j_i", d, d] [a, b, c]
  | [a, b, c, e] => two [d, d, d, d] [a, b, c, e]
  | [a, b, c, e, k] =>
    if k ≠ 0 then two [n "{:d}{:+d}k", d, n "{:d}{:+d}k", d] [a, k, c, b, k, e]
    else two [d, d, d, d] [a, b, c, e]
  | _ => pure none

end Acm
