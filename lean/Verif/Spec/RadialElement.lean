import Verif.Spec.Radial

/-!
# Specification vocabulary for single radial matrix elements

The radial operators of which the ACM paper lists matrix elements in closed form, as a table:
which elementary operator (with which shift of `lambda`) belongs to which symbol.
-/

namespace Acm.Spec

/-- The operators requested by `ME_Radial`: `none` is the identity. -/
def opList : Option RadSym → List RadSym
  | none => []
  | some s => [s]

/-- The elementary operator with the given symbol that changes `lambda` by the given amount. -/
def closedForm : Option RadSym → Int → Option Prim
  | some .b2, 0 => some (.me .b2)
  | some .bm2, 0 => some (.me .bm2)
  | some .D2b, 0 => some (.me .D2b)
  | some .bDb, 0 => some (.me .bDb)
  | some .S0, 0 => some (.me .S0)
  | some .Sp, 0 => some (.me .Sp)
  | some .Sm, 0 => some (.me .Sm)
  | some .b, 1 => some (.me .b_pl)
  | some .bm, 1 => some (.me .bm_pl)
  | some .Db, 1 => some (.me .Db_pl)
  | some .b, -1 => some (.me .b_ml)
  | some .bm, -1 => some (.me .bm_ml)
  | some .Db, -1 => some (.me .Db_ml)
  | none, v => if v % 2 = 0 then (if 0 ≤ v then some (.idPl (v / 2)) else some (.idMl (-v / 2))) else none
  | _, _ => none

end Acm.Spec
