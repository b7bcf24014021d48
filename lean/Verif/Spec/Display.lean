import Verif.Model.FullSpace

/-!
# Specification of what is displayed for the matrix elements

`blk L2 L1` is the block of transitions from `L1` (columns) to `L2` (rows), if there is one; `F L1 L2 x` is
the quantity displayed for a matrix element `x`.  States are counted from 1.
-/

namespace Acm.Spec

variable (blk : Int → Int → Option Arr) (F : Int → Int → ℝ → ℝ) (scale : ℝ)

/-- The line for the transition from the `n1`-th state of `L1` to the `n2`-th state of `L2`: nothing if there are no such
states. -/
noncomputable def lineFour (L1 L2 n1 n2 : Int) : List Shown :=
  match blk L2 L1 with
  | none => []
  | some B =>
    if 1 ≤ n1 ∧ n1 ≤ B.cols ∧ 1 ≤ n2 ∧ n2 ≤ B.rows then
      [.mel L1 n1 L2 n2 (F L1 L2 (B.e (n2 - 1).toNat (n1 - 1).toNat) / scale)]
    else []

/-- The line with the transitions from the first `toshow` states of `L1` to the `n2`-th state of `L2`. -/
noncomputable def lineRow (toshow L1 L2 n2 : Int) : List Shown :=
  match blk L2 L1 with
  | none => []
  | some B =>
    if 1 ≤ n2 ∧ n2 ≤ B.rows ∧ B.cols ≠ 0 then
      [.row L1 L2 n2 ((List.range (min B.cols toshow.toNat)).map fun k =>
        F L1 L2 (B.e (n2 - 1).toNat k) / scale)]
    else []

/-- The lines for the first `toshow` states of `L2`. -/
noncomputable def linesTwo (toshow L1 L2 : Int) : List Shown :=
  (List.range toshow.toNat).flatMap fun k : ℕ => lineRow blk F scale toshow L1 L2 (k + 1)

/-- The lines for all angular momenta `L1` that differ from `L2` by at most `AM`. -/
noncomputable def linesOne (AM toshow L2 : Int) : List Shown :=
  (((List.range (L2 + AM + 1).toNat).map Int.ofNat).filter fun L1 => decide (L2 - L1 ≤ AM)).flatMap
    fun L1 => linesTwo blk F scale toshow L1 L2

/-- The lines for a series of transitions, which starts with angular momenta that are not negative: they are changed in steps of `Lmod`, upwards as far as there are
states or, if `Lmod` is negative, downwards to 0, and always shown in increasing order. -/
noncomputable def linesFive (top L1 L2 n1 n2 Lmod : Int) : List Shown :=
  if L1 < 0 ∨ L2 < 0 then []
  else if 0 < Lmod then
    (List.range (top + 1).toNat).flatMap fun k : ℕ => lineFour blk F scale (L1 + k * Lmod) (L2 + k * Lmod) n1 n2
  else if Lmod < 0 then
    (List.range (min L1 L2 + 1).toNat).reverse.flatMap fun k : ℕ =>
      lineFour blk F scale (L1 + k * Lmod) (L2 + k * Lmod) n1 n2
  else lineFour blk F scale L1 L2 n1 n2

/-- What is displayed for a designator. -/
noncomputable def linesOf (Ls : List Int) (top AM toshow : Int) : List Int → List Shown
  | [] => Ls.flatMap fun L2 => linesOne blk F scale AM toshow L2
  | [L2] => linesOne blk F scale AM toshow L2
  | [L1, L2] => linesTwo blk F scale toshow L1 L2
  | [L1, L2, n2] => lineRow blk F scale toshow L1 L2 n2
  | [L1, L2, n1, n2] => lineFour blk F scale L1 L2 n1 n2
  | [L1, L2, n1, n2, Lmod] => linesFive blk F scale top L1 L2 n1 n2 Lmod
  | ent => [.bad ent]

/-- The designators that the code handles as documented: all but those of three integers whose state number is not
positive, and those of five with states counted from 1 that start above the largest angular momentum. -/
def Handled (top : Int) : List Int → Prop
  | [_, _, n2] => 1 ≤ n2
  | [L1, L2, n1, n2, Lmod] => ¬ (0 ≤ L1 ∧ 0 ≤ L2 ∧ 1 ≤ n1 ∧ 1 ≤ n2 ∧ 0 < Lmod ∧ top < max L1 L2)
  | _ => True

end Acm.Spec
