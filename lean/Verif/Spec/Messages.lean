import Verif.Model.Messages
import Verif.Spec.Globals
import Verif.Spec.Text

/-! Vocabulary for the messages of the setting procedures. -/

namespace Acm.Spec

open Acm Acm.Msg

/-- The call returns and prints `m`. -/
def Says (n : Names) (c : GCall) (s : GOut) (m : List Char) (t : GOut) : Prop := exec n c s = (.ok (), t) ∧ t.out = s.out ++ m

/-- The call asks for no message (`show` is not positive), or it gives only valid designators. -/
def Silent : GCall → Prop
  | .scales _ _ k => k ≤ 0
  | .sftFun _ k => k ≤ 0
  | .output _ _ _ k => k ≤ 0
  | .listln _ _ k => k ≤ 0
  | .datum _ k => k ≤ 0
  | .eigFit _ _ _ k => k ≤ 0
  | .ratFit _ _ _ _ _ k => k ≤ 0
  | .setRatLst l => ∀ e ∈ l, IsDesignator e
  | .addRatLst l => ∀ e ∈ l, IsDesignator e
  | .setAmpLst l => ∀ e ∈ l, IsDesignator e
  | .addAmpLst l => ∀ e ∈ l, IsDesignator e
  | .transition _ k => k ≤ 0
  | .ratForm _ _ _ k => k ≤ 0
  | .ampForm _ _ _ k => k ≤ 0
  | .lambdaFun _ k => k ≤ 0
  | .basisType _ _ k => k ≤ 0
  | .defaults k => k ≤ 0

/-- The documented announcement of a format: the format applied to a transition and a star (globals.py lines 1060-1063 and
1113-1116, the Maple source in the comments), for the format `m0{}m1{}m2`. -/
def docPreview (m0 m1 m2 : List Char) : List Char :=
  "Each will be output using the format:\n  ".toList ++ m0 ++ arrowLine "L_i".toList "j_i".toList "L_f".toList "j_f".toList ++ m1 ++
    "*".toList ++ m2 ++ "\n".toList

end Acm.Spec
