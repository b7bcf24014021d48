import Verif.Model.RadialWords
import Verif.Model.Spherical
import Mathlib.Analysis.Real.Sqrt
import Mathlib.Analysis.Real.Pi.Bounds

/-!
# Model of the internal representation of operators

`src/acmpy/internal_operators.py` (symbols, operator sums, Hamiltonians, `Op_...`),
`src/acmpy/spherical_space.py` lines 22-125 (spherical symbols) and
`src/acmpy/hamiltonian_data.py` lines 27-35 (`RWC_Ham`).

Simplifications: a coefficient (a SymPy expression in `NUMBER`, `SENIORITY`, `ALFA`, `ANGMOM`)
is the function of the labels that it denotes; the test `c == 0` of SymPy is structural, here
it is the test whether that function vanishes identically (an expression that vanishes but
that SymPy does not simplify would add a term with a zero coefficient).
-/

namespace Acm

/-- spherical_space.py lines 42-71: the names of the spherical harmonics. -/
inductive SpHarm where
  | y010 | y112 | y212 | y214 | y310 | y313 | y314 | y316
  | y412 | y414 | y415 | y416 | y418
  | y512 | y514 | y515 | y516 | y517 | y518 | y51A
  | y610 | y613 | y614 | y616 | y626 | y617 | y618 | y619 | y61A | y61C
  deriving DecidableEq, Repr

/-- spherical_space.py lines 73-104 `SpHarm_Table`. -/
def SpHarm.table : SpHarm → Label
  | .y010 => (0, 1, 0)
  | .y112 => (1, 1, 2)
  | .y212 => (2, 1, 2)
  | .y214 => (2, 1, 4)
  | .y310 => (3, 1, 0)
  | .y313 => (3, 1, 3)
  | .y314 => (3, 1, 4)
  | .y316 => (3, 1, 6)
  | .y412 => (4, 1, 2)
  | .y414 => (4, 1, 4)
  | .y415 => (4, 1, 5)
  | .y416 => (4, 1, 6)
  | .y418 => (4, 1, 8)
  | .y512 => (5, 1, 2)
  | .y514 => (5, 1, 4)
  | .y515 => (5, 1, 5)
  | .y516 => (5, 1, 6)
  | .y517 => (5, 1, 7)
  | .y518 => (5, 1, 8)
  | .y51A => (5, 1, 10)
  | .y610 => (6, 1, 0)
  | .y613 => (6, 1, 3)
  | .y614 => (6, 1, 4)
  | .y616 => (6, 1, 6)
  | .y626 => (6, 2, 6)
  | .y617 => (6, 1, 7)
  | .y618 => (6, 1, 8)
  | .y619 => (6, 1, 9)
  | .y61A => (6, 1, 10)
  | .y61C => (6, 1, 12)

/-- The symbols that occur in operator products: radial_space.py lines 32-41 (`rad .other`
stands for no radial symbol), spherical_space.py lines 42-71 and 123-124,
internal_operators.py lines 33-36, and any other symbol. -/
inductive OpSym where
  | rad (r : RadSym)
  | harm (h : SpHarm)
  | sqLdim | sqLdiv
  | Pi | PiPi2 | PiPi4 | PiqPi
  | unknown (n : ℕ)
  deriving DecidableEq, Repr

/-- A coefficient: a function of the labels `(nu, v, alpha, L)`. -/
abbrev Coeff := Int × Int × Int × Int → ℝ

/-- internal_operators.py line 24 `OperatorProduct`. -/
abbrev OperatorProduct := List OpSym

/-- internal_operators.py line 26 `OperatorSum`. -/
abbrev OperatorSum := List (Coeff × OperatorProduct)

/-- internal_operators.py line 581 `SENIORITY`. -/
def SENIORITY : Coeff := fun x => x.2.1
/-- internal_operators.py line 582 `ANGMOM`. -/
def ANGMOM : Coeff := fun x => x.2.2.2
/-- internal_operators.py line 583 `NUMBER`. -/
def NUMBER : Coeff := fun x => x.1
/-- internal_operators.py line 584 `ALFA`. -/
def ALFA : Coeff := fun x => x.2.2.1

/-- internal_operators.py line 50 `FourPi`. -/
noncomputable def FourPi : ℝ := 4 * Real.pi
/-- internal_operators.py line 58 `Convert_112`. -/
noncomputable def Convert_112 : ℝ := FourPi / Real.sqrt 15
/-- internal_operators.py line 59 `Convert_212`. -/
noncomputable def Convert_212 : ℝ := -FourPi * Real.sqrt (2 / 105)
/-- internal_operators.py line 60 `Convert_310`. -/
noncomputable def Convert_310 : ℝ := FourPi / 3
/-- internal_operators.py line 61 `Convert_316`. -/
noncomputable def Convert_316 : ℝ := FourPi / 3 * Real.sqrt (2 / 35)
/-- internal_operators.py line 62 `Convert_610`. -/
noncomputable def Convert_610 : ℝ := 2 * FourPi / Real.sqrt 15
/-- internal_operators.py line 63 `Convert_red`. -/
noncomputable def Convert_red : ℝ := 1 / FourPi

/-- A constant coefficient. -/
def kC (x : ℝ) : Coeff := fun _ => x

/-- internal_operators.py line 71 `quad_op`. -/
noncomputable def quad_op : OperatorSum := [(kC Convert_112, [.rad .b, .harm .y112])]
/-- internal_operators.py line 72 `quadRigid_op`. -/
noncomputable def quadRigid_op : OperatorSum := [(kC Convert_112, [.harm .y112])]

/-- `if c != 0: our_op += ((c2, prod),)`. -/
noncomputable def addTerm (our_op : OperatorSum) (c c2 : Coeff) (prod : OperatorProduct) :
    OperatorSum :=
  open Classical in if c ≠ 0 then our_op ++ [(c2, prod)] else our_op

/-- internal_operators.py lines 645-704 `ACM_Hamiltonian` (the default of every argument is
0). -/
noncomputable def ACM_Hamiltonian (c11 : Coeff := 0) (c20 : Coeff := 0) (c21 : Coeff := 0)
    (c22 : Coeff := 0) (c23 : Coeff := 0) (c30 : Coeff := 0) (c31 : Coeff := 0) (c32 : Coeff := 0)
    (c33 : Coeff := 0) (c40 : Coeff := 0) (c41 : Coeff := 0) (c42 : Coeff := 0) (c43 : Coeff := 0)
    (c50 : Coeff := 0) : OperatorSum :=
  let our_op : OperatorSum := open Classical in
    if c11 = 0 then []
    else [(c11, [.rad .D2b]), (-c11 * (2 + SENIORITY * (SENIORITY + 3)), [.rad .bm2])]
  let our_op := addTerm our_op c20 c20 []
  let our_op := addTerm our_op c21 c21 [.rad .b2]
  let our_op := addTerm our_op c22 c22 [.rad .b2, .rad .b2]
  let our_op := addTerm our_op c23 c23 [.rad .bm2]
  let our_op := addTerm our_op c30 (c30 * kC Convert_310) [.rad .b, .harm .y310]
  let our_op := addTerm our_op c31 (c31 * kC Convert_310) [.rad .b2, .rad .b, .harm .y310]
  let our_op := addTerm our_op c32 (c32 * kC Convert_310)
    [.rad .b2, .rad .b2, .rad .b, .harm .y310]
  let our_op := addTerm our_op c33 (c33 * kC Convert_310) [.rad .bm, .harm .y310]
  let our_op := addTerm our_op c40 (c40 * kC Convert_310 ^ 2) [.harm .y310, .harm .y310]
  let our_op := addTerm our_op c41 (c41 * kC Convert_310 ^ 2) [.rad .b2, .harm .y310, .harm .y310]
  let our_op := addTerm our_op c42 (c42 * kC Convert_310 ^ 2)
    [.rad .b2, .rad .b2, .harm .y310, .harm .y310]
  let our_op := addTerm our_op c43 (c43 * kC Convert_310 ^ 2)
    [.rad .bm2, .harm .y310, .harm .y310]
  addTerm our_op c50 c50 [.PiqPi]

/-- internal_operators.py lines 820-822: the loop of `ACM_HamSH3` over `n` and `c`. -/
noncomputable def ACM_HamSH3_loop : List (ℕ × Coeff) → OperatorSum → OperatorSum
  | [], our_op => our_op
  | (n, c) :: rest, our_op =>
    ACM_HamSH3_loop rest
      (addTerm our_op c (c * kC Convert_310 ^ n) (List.replicate n (.harm .y310)))

/-- internal_operators.py lines 809-824 `ACM_HamSH3`. -/
noncomputable def ACM_HamSH3 (c0 : Coeff := 0) (c1 : Coeff := 0) (c2 : Coeff := 0)
    (c3 : Coeff := 0) (c4 : Coeff := 0) (c5 : Coeff := 0) (c6 : Coeff := 0) (c7 : Coeff := 0)
    (c8 : Coeff := 0) : OperatorSum :=
  ACM_HamSH3_loop [(1, c1), (2, c2), (3, c3), (4, c4), (5, c5), (6, c6), (7, c7), (8, c8)]
    (addTerm [] c0 c0 [])

/-- internal_operators.py lines 882-922 `ACM_HamSH6`. -/
noncomputable def ACM_HamSH6 (c0 : Coeff := 0) (c1 : Coeff := 0) (c2 : Coeff := 0)
    (c3 : Coeff := 0) (c4 : Coeff := 0) (c5 : Coeff := 0) (c6 : Coeff := 0) (c7 : Coeff := 0)
    (c8 : Coeff := 0) : OperatorSum :=
  let d0 : Coeff := c0 + c2 / 3 + c4 / 9 + c6 / 27 + c8 / 81
  let d1 : Coeff := c1 + c3 / 3 + c5 / 9 + c7 / 27
  let d2 : Coeff := c2 / 3 + c4 * 2 / 9 + c6 / 9 + c8 * 4 / 81
  let d3 : Coeff := c3 / 3 + c5 * 2 / 9 + c7 / 9
  let d4 : Coeff := c4 / 9 + c6 / 9 + c8 * 2 / 27
  let d5 : Coeff := c5 / 9 + c7 / 9
  let d6 : Coeff := c6 / 27 + c8 * 4 / 81
  let d7 : Coeff := c7 / 27
  let d8 : Coeff := c8 / 81
  let our_op := addTerm [] d0 d0 []
  let our_op := addTerm our_op d1 (d1 * kC Convert_310) [.harm .y310]
  let our_op := addTerm our_op d2 (d2 * kC Convert_610) [.harm .y610]
  let our_op := addTerm our_op d3 (d3 * kC Convert_610 * kC Convert_310)
    [.harm .y610, .harm .y310]
  let our_op := addTerm our_op d4 (d4 * kC Convert_610 ^ 2) [.harm .y610, .harm .y610]
  let our_op := addTerm our_op d5 (d5 * kC Convert_610 ^ 2 * kC Convert_310)
    (List.replicate 2 (.harm .y610) ++ [.harm .y310])
  let our_op := addTerm our_op d6 (d6 * kC Convert_610 ^ 3) (List.replicate 3 (.harm .y610))
  let our_op := addTerm our_op d7 (d7 * kC Convert_610 ^ 3 * kC Convert_310)
    (List.replicate 3 (.harm .y610) ++ [.harm .y310])
  addTerm our_op d8 (d8 * kC Convert_610 ^ 4) (List.replicate 4 (.harm .y610))

/-- internal_operators.py lines 740-763 `ACM_HamRigidBeta`. -/
noncomputable def ACM_HamRigidBeta (cas : Coeff := 0) (con : Coeff := 0) (c1 : Coeff := 0)
    (c2 : Coeff := 0) (c3 : Coeff := 0) (c4 : Coeff := 0) (c5 : Coeff := 0) (c6 : Coeff := 0)
    (flag : Int := 0) : Py OperatorSum :=
  if ¬ (flag = 0 ∨ flag = 1) then throw .valueError
  else
    let our_op := if flag = 0 then ACM_HamSH3 con c1 c2 c3 c4 c5 c6
      else ACM_HamSH6 con c1 c2 c3 c4 c5 c6
    open Classical in
    if cas ≠ 0 then
      let cas_op : Coeff × OperatorProduct := (cas * SENIORITY * (SENIORITY + 3), [])
      if our_op.length > 0 then pure ([cas_op] ++ our_op) else pure [cas_op]
    else pure our_op

/-- hamiltonian_data.py lines 27-35 `RWC_Ham` (`B`, `c1`, ... may depend on the labels). -/
noncomputable def RWC_Ham (B c1 c2 chi kappa : Coeff) : OperatorSum :=
  ACM_Hamiltonian (-1 / (2 * B)) 0 (B * c1 / 2) (B * c2 / 2) 0 (-chi) 0 0 0 kappa

/-- internal_operators.py lines 1095-1096 `laplacian_op`. -/
noncomputable def laplacian_op : OperatorSum :=
  [(1, [.rad .D2b]), (-(2 + SENIORITY * (SENIORITY + 3)), [.rad .bm2])]

/-- internal_operators.py lines 1101-1103 `comm_su11_op`. -/
noncomputable def comm_su11_op : OperatorSum :=
  [(1, [.rad .Sm, .rad .Sp]), (-1, [.rad .Sp, .rad .Sm]), (-2, [.rad .S0])]

/-- internal_operators.py lines 1107-1109 `comm_bdb_op`. -/
noncomputable def comm_bdb_op : OperatorSum :=
  [(-1, [.rad .b, .rad .Db]), (1, [.rad .Db, .rad .b]), (-1, [])]

/-! ## Properties of operators -/

/-- internal_operators.py lines 970-976: the loop of `Op_AM` over the factors of a term. -/
def Op_AM_term : List OpSym → Int → Int
  | [], am => am
  | t :: Wterm, am =>
    Op_AM_term Wterm (match t with
      | .harm h => am + h.table.2.2
      | .Pi => am + 2
      | .PiPi2 => am + 2
      | .PiPi4 => am + 4
      | _ => am)

/-- internal_operators.py lines 967-983: the loop of `Op_AM` over the terms, with counter
`i`. -/
def Op_AM_loop : List OperatorProduct → Nat → Int → Int
  | [], _, first => first
  | Wterm :: rest, i, first =>
    let am := Op_AM_term Wterm 0
    Op_AM_loop rest (i + 1)
      (if i = 1 then am
      else if 0 ≤ first ∧ first ≠ am then -(max first am)
      else if first < 0 ∧ am > -first then -am
      else first)

/-- internal_operators.py lines 961-985 `Op_AM`. -/
def Op_AM (WOp : OperatorSum) : Int :=
  if WOp.length = 0 then 0 else Op_AM_loop (WOp.map (·.2)) 1 0

/-- internal_operators.py lines 1030-1033: the set of odd symbols in `Op_Parity`. -/
def oddSyms : List OpSym :=
  [.rad .b, .rad .bm, .rad .Db, .Pi,
   .harm .y112, .harm .y310, .harm .y313, .harm .y314, .harm .y316,
   .harm .y512, .harm .y514, .harm .y515, .harm .y516, .harm .y517, .harm .y518, .harm .y51A]

/-- internal_operators.py lines 1029-1034: the loop of `Op_Parity` over the factors. -/
def Op_Parity_term : List OpSym → Int → Int
  | [], parity => parity
  | t :: Wterm, parity => Op_Parity_term Wterm (if t ∈ oddSyms then parity + 1 else parity)

/-- internal_operators.py lines 1025-1041: the loop of `Op_Parity` over the terms. -/
def Op_Parity_loop : List OperatorProduct → Nat → Int → Int
  | [], _, first => first
  | Wterm :: rest, i, first =>
    let parity := Op_Parity_term Wterm 0
    if i = 1 then Op_Parity_loop rest (i + 1) (Int.fmod parity 2)
    else if Int.fmod (parity - first) 2 = 1 then -1
    else Op_Parity_loop rest (i + 1) first

/-- internal_operators.py lines 1020-1041 `Op_Parity`. -/
def Op_Parity (WOp : OperatorSum) : Int :=
  if WOp.length = 0 then 0 else Op_Parity_loop (WOp.map (·.2)) 1 0

/-- internal_operators.py lines 1069-1079 `Op_Tame`. -/
def Op_Tame (WOp : OperatorSum) : Bool :=
  if WOp.length = 0 then true
  else (WOp.map (·.2)).all fun Wterm =>
    Wterm.all fun t => !([OpSym.Pi, .PiPi2, .PiPi4].contains t)

/-- An item of a spherical product: a symbol, or an explicit triple `(v, alpha, L)`. -/
inductive YSym where
  | sym (s : OpSym)
  | triple (t : Label)
  deriving DecidableEq, Repr

/-- internal_operators.py lines 538-547 `NumSO5r3_Prod`. -/
def NumSO5r3_Prod (ys_op : List YSym) : Int :=
  ys_op.foldl (fun ct y => match y with
    | .triple _ => ct + 1
    | .sym (.harm _) => ct + 1
    | .sym _ => ct) 0

end Acm
