import Verif.Spec.Affine

/-!
# Specification of property C110: what displays do not depend on
-/

namespace Acm.Spec

/-- The function of a matrix element does not depend on its sign. -/
def EvenFun (f : MelFun) : Prop := ∀ AM Li Lf x, f AM Li Lf (-x) = f AM Li Lf x

/-- With the matrix element `k` times as large, the function is `c` times as large. -/
def ScalesAs (f : MelFun) (k c : ℝ) : Prop := ∀ AM Li Lf x, f AM Li Lf (k * x) = (f AM Li Lf x).map (c * ·)

/-- The settings with another transition operator. -/
def withOp (s : FState) (op : OperatorSum) : FState := { s with glb := { s.glb with rat_TRop := op } }

end Acm.Spec
