import Verif.Model.Globals
import Mathlib.Algebra.Ring.Parity

/-!
# Specification vocabulary for the settings
-/

namespace Acm.Spec

/-- The documented default settings (globals.py lines 1300-1317, the Maple source in the
comments). -/
structure IsDefault (g : Glb) : Prop where
  rel_pre : g.rel_pre = 2
  rel_wid : g.rel_wid = 7
  low_pre : g.low_pre = 4
  eig_num : g.eig_num = 4
  rat_num : g.rat_num = 4
  amp_num : g.amp_num = 4
  datum : g.eig_rel = true
  basis : g.lam_fun = lambda_acm_fun
  op : g.rat_TRop = quad_op
  opAM : g.rat_TRopAM = 2
  rat_fun : g.rat_fun = quad_rat_fun
  rat_format : g.rat_format = "  B(E2: {}) = {}"
  rat_desg : g.rat_desg = "transition rates"
  amp_fun : g.amp_fun = quad_amp_fun
  amp_format : g.amp_format = "  Amp( {} ) = {}"
  amp_desg : g.amp_desg = "transition amplitudes"
  sft_fun : g.amp_sft_fun = pySqrt
  eig_fit : g.eig_fit = 6
  eig_L : g.eig_L = 2
  eig_idx : g.eig_idx = 1
  rat_fit : g.rat_fit = 100
  rat_L1 : g.rat_L1 = 2
  rat_L2 : g.rat_L2 = 0
  rat_1dx : g.rat_1dx = 1
  rat_2dx : g.rat_2dx = 1
  rat_lst : g.rat_lst = []
  amp_lst : g.amp_lst = []
  eig_sft : g.eig_sft = 1
  rat_sft : g.rat_sft = 1
  amp_sft : g.amp_sft = 1

/-- The documented ranges of the numeric settings, apart from the scaling factors. -/
structure RangesOk (g : Glb) : Prop where
  rel_pre : 0 ≤ g.rel_pre
  rel_wid : 0 ≤ g.rel_wid
  low_pre : 0 ≤ g.low_pre
  eig_num : 0 ≤ g.eig_num
  rat_num : 0 ≤ g.rat_num
  amp_num : g.amp_num = g.rat_num
  eig_L : 0 ≤ g.eig_L
  eig_idx : 1 ≤ g.eig_idx
  rat_L1 : 0 ≤ g.rat_L1
  rat_L2 : 0 ≤ g.rat_L2
  rat_1dx : 1 ≤ g.rat_1dx
  rat_2dx : 1 ≤ g.rat_2dx
  opAM : 0 ≤ g.rat_TRopAM

/-- No scaling factor is zero. -/
def ScalesOk (g : Glb) : Prop := g.eig_sft ≠ 0 ∧ g.rat_sft ≠ 0 ∧ g.amp_sft ≠ 0

/-- A valid designator has at most five fields. -/
def IsDesignator (e : List Int) : Prop := e.length ≤ 5

instance : DecidablePred IsDesignator := fun e => inferInstanceAs (Decidable (e.length ≤ 5))

/-- Decimal notation of an integer. -/
def dec (n : Int) : List Char :=
  match n with
  | .ofNat n => Nat.toDigits 10 n
  | .negSucc n => '-' :: Nat.toDigits 10 (n + 1)

/-- Decimal notation with an explicit sign. -/
def decSigned (n : Int) : List Char := if 0 ≤ n then '+' :: dec n else dec n

/-- The line `Li(ji) -> Lf(jf)`. -/
def arrowLine (Li ji Lf jf : List Char) : List Char :=
  Li ++ '(' :: ji ++ [')', ' ', '-', '>', ' '] ++ Lf ++ '(' :: jf ++ [')']

/-- The documented line for a designator `[L_i, L_f, j_i, j_f, dL]` and its abbreviated forms
(globals.py lines 803-832, the Maple source in the comments): a missing field is shown by its
name. -/
def docLine : List Int → Option (List Char)
  | [] => some (arrowLine "L_i".toList "j_i".toList "L_f".toList "j_f".toList)
  | [Lf] => some (arrowLine "L_i".toList "j_i".toList (dec Lf) "j_f".toList)
  | [Li, Lf] => some (arrowLine (dec Li) "j_i".toList (dec Lf) "j_f".toList)
  | [Li, Lf, jf] => some (arrowLine (dec Li) "j_i".toList (dec Lf) (dec jf))
  | [Li, Lf, ji, jf] => some (arrowLine (dec Li) (dec ji) (dec Lf) (dec jf))
  | [Li, Lf, ji, jf, k] =>
    if k = 0 then some (arrowLine (dec Li) (dec ji) (dec Lf) (dec jf))
    else some (arrowLine (dec Li ++ decSigned k ++ ['k']) (dec ji)
      (dec Lf ++ decSigned k ++ ['k']) (dec jf))
  | _ => none

/-- `n` is the integer of the parity of `v` nearest to `x` (the larger one of two at the same
distance). -/
def NearestOfParity (v : Int) (x : ℝ) (n : Int) : Prop :=
  n % 2 = v % 2 ∧ (n : ℝ) - 1 ≤ x ∧ x < (n : ℝ) + 1

/-- The documented Davidson shift before rounding (globals.py line 158). -/
noncomputable def daviDoc (C : ℝ) (v : ℕ) : ℝ :=
  Real.sqrt (((v : ℝ) + 3 / 2) ^ 2 + C) - Real.sqrt (9 / 4 + C)

end Acm.Spec
