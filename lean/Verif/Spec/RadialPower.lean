import Verif.Spec.RadialBasis
import Verif.Spec.Radial

/-!
# Specification vocabulary for powers of beta on truncated spaces
-/

namespace Acm.Spec

/-- The power of `beta` that a symbol stands for, if it stands for one. -/
def betaPower : RadSym → Option Int
  | .b => some 1
  | .b2 => some 2
  | .bm => some (-1)
  | .bm2 => some (-2)
  | _ => none

/-- The word stands for `beta^n`. -/
def IsPower (w : List RadSym) (n : Int) : Prop := ∃ ks : List Int, w.map betaPower = ks.map some ∧ ks.sum = n

/-- Non-zero elements of the listed operators (leftmost first) lead from the label `j` to the label `i`. -/
inductive Connected : List (ℕ → ℕ → ℝ) → ℕ → ℕ → Prop
  | nil (i : ℕ) : Connected [] i i
  | cons {f : ℕ → ℕ → ℝ} {fs : List (ℕ → ℕ → ℝ)} {i k j : ℕ} : f i k ≠ 0 → Connected fs k j → Connected (f :: fs) i j

/-- Some such path from `j` to `i` has a label outside `lo..hi`. -/
def Escapes (lo hi : ℕ) (fs : List (ℕ → ℕ → ℝ)) (i j : ℕ) : Prop :=
  ∃ gs hs k, fs = gs ++ hs ∧ ¬ (lo ≤ k ∧ k ≤ hi) ∧ Connected gs i k ∧ Connected hs k j

/-- The matrix element of `beta^(2m+|r|)` from `(lambda, i)` to `(lambda + r, f)` on the labels `lo..hi` that loses a
part of its value at the upper or at the lower end of the range. -/
def Lost (lo hi m : ℕ) (r : Int) (f i : ℕ) : Prop :=
  (hi + 1 ≤ f + m ∧ 2 * hi + 2 ≤ f + i + m + (-r).toNat) ∨
  (0 < lo ∧ f + 1 ≤ lo + m ∧ f + i + 2 ≤ 2 * lo + m + r.toNat)

end Acm.Spec
