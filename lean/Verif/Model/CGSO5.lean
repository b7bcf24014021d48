import Verif.Model.Spherical
import Mathlib.Analysis.Real.Sqrt
import Mathlib.Logic.Function.Basic

/-!
# Model of the SO(5) > SO(3) Clebsch-Gordan tables of `src/acmpy/so5_so3_cg.py` (lines 33-367)

The module's mutable state (the table `CG_coeffs` and the configured base directory) is passed
explicitly (`StPy`).  The state also records the names of the
files read (`reads`), which the code does not store.

The file system is a parameter: for every path the first column of the file as numbers, or
`none` if there is no such file (`readdata_float`, compat.py lines 93-107; parsing of the
first column is not modelled, floats are real numbers).
-/

namespace Acm

/-- so5_so3_cg.py line 29 `SO5Quintet` (v1, v2, a2, L2, v3). -/
abbrev Quintet := Int × Int × Int × Int × Int

/-- so5_so3_cg.py line 140 `SO5Quartet` (a1, L1, a3, L3). -/
abbrev Quartet := Int × Int × Int × Int

/-- A Python dictionary, as the function that looks up a key. -/
abbrev PyDict (K V : Type) := K → Option V

/-- `{k: v for k, v in kvs}`: later pairs overwrite earlier ones. -/
def dictOf {K V : Type} [DecidableEq K] (kvs : List (K × V)) : PyDict K V :=
  kvs.foldl (fun d kv => Function.update d kv.1 (some kv.2)) fun _ => none

/-- `d[k]`. -/
def dictGet {K V : Type} (d : PyDict K V) (k : K) : Py V :=
  match d k with
  | some v => pure v
  | none => throw .keyError

/-- What the code reads from the file system: the first column of each file, and the expansion
of `~` (`expanduser`). -/
structure FileSys where
  readdata : List Char → Option (List ℝ)
  home : List Char

/-- The mutable state of so5_so3_cg.py: `SO5CGConfig.base_directory` (line 68), `CG_coeffs`
(line 252); `reads` is a ghost log of the files read. -/
structure CGState where
  base_directory : Option (List Char)
  CG_coeffs : PyDict Quintet (PyDict Quartet ℝ)
  reads : List (List Char)

/-- Computations on that state. -/
abbrev CGM (α : Type) := StPy CGState α

/-- so5_so3_cg.py lines 41-44 `require_SO5Triple`. -/
def require_SO5Triple (v a L : Int) : Py Unit := do
  require_nonnegint v
  require_posint a
  require_nonnegint L

/-- so5_so3_cg.py lines 33-38 `require_SO5Quintet`. -/
def require_SO5Quintet (q : Quintet) : Py Unit := do
  let (v1, v2, a2, L2, v3) := q
  require_nonnegint v1
  require_SO5Triple v2 a2 L2
  require_nonnegint v3

/-- The characters of `f'{n}'` for an integer (`str(n)`). -/
def pyStr (n : Int) : List Char :=
  if n < 0 then '-' :: Nat.toDigits 10 (-n).toNat else Nat.toDigits 10 n.toNat

/-- so5_so3_cg.py lines 80-84 `get_base_directory`, line 71 `default_base_directory`. -/
def get_base_directory (fs : FileSys) (s : CGState) : List Char :=
  match s.base_directory with
  | some d => d
  | none => fs.home ++ "/so5cg-data/".toList

/-- so5_so3_cg.py lines 75-77 `set_base_directory`. -/
def set_base_directory (directory : List Char) : CGM Unit := fun s =>
  (.ok (), { s with base_directory := some directory })

/-- The prefix `SO5CG_` of file and directory names. -/
def litSO5CG : List Char := ['S', 'O', '5', 'C', 'G', '_']

/-- so5_so3_cg.py line 103: `v2={v2}`. -/
def dir1_name (v2 : Int) : List Char := ['v', '2', '='] ++ pyStr v2

/-- so5_so3_cg.py line 103: `SO5CG_{v1}_{v2}_{v3}`. -/
def dir2_name (v1 v2 v3 : Int) : List Char :=
  litSO5CG ++ pyStr v1 ++ ['_'] ++ pyStr v2 ++ ['_'] ++ pyStr v3

/-- so5_so3_cg.py line 103: `SO5CG_{v1}_{v2}-{a2}-{L2}_{v3}`. -/
def datafile_name (q : Quintet) : List Char :=
  let (v1, v2, a2, L2, v3) := q
  litSO5CG ++ pyStr v1 ++ ['_'] ++ pyStr v2 ++ ['-'] ++ pyStr a2 ++ ['-'] ++ pyStr L2 ++ ['_'] ++
    pyStr v3

/-- so5_so3_cg.py line 103: the name of the file below the base directory. -/
def SO5CG_relname (q : Quintet) : List Char :=
  let (v1, v2, _, _, v3) := q
  dir1_name v2 ++ ['/'] ++ dir2_name v1 v2 v3 ++ ['/'] ++ datafile_name q

/-- so5_so3_cg.py lines 97-103 `SO5CG_filename`. -/
def SO5CG_filename (fs : FileSys) (s : CGState) (q : Quintet) : Py (List Char) := do
  require_SO5Quintet q
  pure (get_base_directory fs s ++ SO5CG_relname q)

/-- so5_so3_cg.py lines 145-157 `CG_labels`. -/
def CG_labels (v1 L2 v3 : Int) : Py (List Quartet) := do
  require_nonnegint v1
  require_nonnegint L2
  require_nonnegint v3
  pyFlat (pyRange 0 (2 * v1 + 1)) fun L1 => do
    let d1 ← dimSO5r3 v1 L1
    pyFlat (pyRange 1 (d1 + 1)) fun a1 =>
      pyFlat (pyRange |L1 - L2| (min (L1 + L2) (2 * v3) + 1)) fun L3 => do
        let d3 ← dimSO5r3 v3 L3
        pure ((pyRange 1 (d3 + 1)).map fun a3 => (a1, L1, a3, L3))

/-- compat.py lines 101-107 `readdata_float`. -/
def readdata_float (fs : FileSys) (filename : List Char) : CGM (List ℝ) := fun s =>
  match fs.readdata filename with
  | some xs => (.ok xs, { s with reads := s.reads ++ [filename] })
  | none => (.error .fileNotFoundError, s)

/-- so5_so3_cg.py lines 183-201 `get_CG_file`. -/
def get_CG_file (fs : FileSys) (q : Quintet) : CGM (List ℝ × List Quartet) := fun s =>
  let (v1, v2, a2, L2, v3) := q
  let run : CGM (List ℝ × List Quartet) := do
    StPy.lift (require_SO5Quintet q)
    let d ← StPy.lift (dimSO5r3 v2 L2)
    if v1 > v2 + v3 ∨ v2 > v3 + v1 ∨ v3 > v1 + v2 ∨ is_odd (v1 + v2 + v3) ∨ v3 < v1 ∨ a2 > d then
      StPy.lift (throw .valueError)
    else do
      let filename ← StPy.lift (SO5CG_filename fs s q)
      let CG_data ← readdata_float fs filename
      let CG_list ← StPy.lift (CG_labels v1 L2 v3)
      pure (CG_data, CG_list)
  run s

/-- so5_so3_cg.py lines 306-309: the key of the table. -/
def CG_key (q : Quintet) : Quintet :=
  let (v1, v2, a2, L2, v3) := q
  if v1 > v3 then (v3, v2, a2, L2, v1) else q

/-- so5_so3_cg.py line 316: `CG_coeffs[key] = {...}`. -/
def store_key (key : Quintet) (d : PyDict Quartet ℝ) : CGM Unit := fun s =>
  (.ok (), ⟨s.base_directory, Function.update s.CG_coeffs key (some d), s.reads⟩)

/-- so5_so3_cg.py lines 313-316: fill the table entry of a key that is not present. -/
noncomputable def load_key (fs : FileSys) (key : Quintet) : CGM Unit := fun s =>
  let (v1, v2, _, L2, v3) := key
  let run : CGM Unit := do
    let CG_list ← StPy.lift (CG_labels v1 L2 v3)
    let CG_data ← (if v2 > 0 then do
        let filename ← StPy.lift (SO5CG_filename fs s key)
        readdata_float fs filename
      else pure (List.replicate CG_list.length 1) : CGM (List ℝ))
    store_key key (dictOf (CG_list.zip CG_data))
  run s

/-- so5_so3_cg.py lines 301-316 `load_CG_table`. -/
noncomputable def load_CG_table (fs : FileSys) (q : Quintet) : CGM Unit := do
  StPy.lift (require_SO5Quintet q)
  fun s => if (s.CG_coeffs (CG_key q)).isSome then (.ok (), s) else load_key fs (CG_key q) s

/-- `CG_coeffs[key][label]`. -/
def CG_lookup (key : Quintet) (label : Quartet) : CGM ℝ := fun s =>
  (do let d ← dictGet s.CG_coeffs key; dictGet d label, s)

/-- so5_so3_cg.py lines 366-367: the exchange factor.  `(-1) ** n` of a negative `n` is the float
`±1.0`; the quotients are float divisions. -/
noncomputable def CG_exchange (v1 L1 L2 v3 L3 : Int) : Py ℝ := do
  let d5 ← dimSO5 v3
  let d3 ← dimSO3 L1
  let e5 ← dimSO5 v1
  let e3 ← dimSO3 L3
  if e5 = 0 ∨ e3 = 0 then throw .zeroDivisionError
  pure ((-1 : ℝ) ^ (L3 + L2 - L1) * Real.sqrt ((d5 : ℝ) * d3 / e5 / e3))

/-- so5_so3_cg.py lines 348-367 `CG_SO5r3`.  (`or` evaluates `dimSO5r3` lazily; it does not raise
or change the state, so evaluating it first makes no difference.) -/
noncomputable def CG_SO5r3 (fs : FileSys) (x1 x2 x3 : Label) : CGM ℝ := do
  let (v1, a1, L1) := x1
  let (v2, a2, L2) := x2
  let (v3, a3, L3) := x3
  StPy.lift (require_SO5Triple v1 a1 L1)
  StPy.lift (require_SO5Triple v2 a2 L2)
  StPy.lift (require_SO5Triple v3 a3 L3)
  let d1 ← StPy.lift (dimSO5r3 v1 L1)
  let d2 ← StPy.lift (dimSO5r3 v2 L2)
  let d3 ← StPy.lift (dimSO5r3 v3 L3)
  if v1 + v2 < v3 ∨ v1 + v3 < v2 ∨ v2 + v3 < v1 ∨ L1 + L2 < L3 ∨ L1 + L3 < L2 ∨ L2 + L3 < L1 ∨
      a1 > d1 ∨ a2 > d2 ∨ a3 > d3 ∨ is_odd (v1 + v2 + v3) then pure 0
  else do
    load_CG_table fs (v1, v2, a2, L2, v3)
    if v1 ≤ v3 then CG_lookup (v1, v2, a2, L2, v3) (a1, L1, a3, L3)
    else do
      let c ← CG_lookup (v3, v2, a2, L2, v1) (a3, L3, a1, L1)
      let f ← StPy.lift (CG_exchange v1 L1 L2 v3 L3)
      pure (c * f)

/-- The calls of a program that use the coefficient tables. -/
inductive CGCall where
  | cg (x1 x2 x3 : Label)
  | load (q : Quintet)
  | getFile (q : Quintet)

/-- The state after one call (which may have raised). -/
noncomputable def CGCall.run (fs : FileSys) (c : CGCall) (s : CGState) : CGState :=
  match c with
  | .cg x1 x2 x3 => (CG_SO5r3 fs x1 x2 x3 s).2
  | .load q => (load_CG_table fs q s).2
  | .getFile q => (get_CG_file fs q s).2

/-- The state after a history of calls. -/
noncomputable def runCGCalls (fs : FileSys) (cs : List CGCall) (s : CGState) : CGState :=
  cs.foldl (fun s c => c.run fs s) s

/-- The state after importing the module (lines 68 and 252) and choosing the base directory
(`none` if it was not set). -/
def CGState.start (dir : Option (List Char)) : CGState := ⟨dir, fun _ => none, []⟩

end Acm
