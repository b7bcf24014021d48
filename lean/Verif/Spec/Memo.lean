import Verif.Model.Memo

/-!
# What the memo tables should do

A memo table only saves time: a call gives what the procedure without tables, whose arrays are values, gives; and an
array that has been handed out keeps its entries.
-/

namespace Acm.Spec

open Acm.Memo

/-- The procedures without tables. -/
noncomputable def unmemoised (la : LinAlg) : Key → Py Arr
  | .rep ME lambdaa lo hi => Acm.RepRadial ME.fn lambdaa lo hi
  | .idPl lambdaa lo hi r => RepRadial_param ME_Radial_id_pl lambdaa lo hi r.toNat
  | .idMl lambdaa lo hi r => RepRadial_param ME_Radial_id_ml lambdaa lo hi r.toNat
  | .b2_sqrt lambdaa lo hi => Acm.RepRadial_b2_sqrt la lambdaa lo hi
  | .b2_sqrtInv lambdaa lo hi => Acm.RepRadial_b2_sqrtInv la lambdaa lo hi
  | .bS_DS K T anorm lambdaa R lo hi => Acm.RepRadial_bS_DS (radMat la anorm lo hi) K T lambdaa R
  | .shfs ops anorm lambdaa shifts lo hi => Acm.RepRadialshfs_Prod (radMat la anorm lo hi) ops lambdaa shifts
  | .prod op anorm lambdaa var lo hi lap => RepRadialProd la anorm op lambdaa var lo hi lap
  | .lc op anorm lambdaa var lo hi lap => Acm.RepRadial_LC la op anorm lambdaa var lo hi lap

/-- The entries of the array that a call returns, or what it raises. -/
noncomputable def memoResult (p : HM ARef) (s : HState) : Py Arr :=
  match p s with
  | (.ok r, s') => .ok (s'.read r)
  | (.error e, _) => .error e

/-- No array that is stored in `s` has other entries in `s'`. -/
def Untouched (s s' : HState) : Prop := ∀ r : ARef, r.base < s.mem.length → s'.read r = s.read r

/-- The array is not stored in any table. -/
def Unshared (s : HState) (r : ARef) : Prop := ∀ k r', s.tab k = some r' → r'.base ≠ r.base

/-- The states `s` after any history of calls, of `cache_clear`, and of the caller changing arrays that
`RepRadial_LC` returned; `own` are the arrays that `RepRadial_LC` returned. -/
inductive History (la : LinAlg) : HState → List ARef → Prop
  | init : History la HState.init []
  | call {s own} {k : Key} : History la s own → History la (k.call la s).2 own
  | prod {s own op anorm lambdaa var lo hi lap} : History la s own →
      History la (Memo.RepRadial_Prod la op anorm lambdaa var lo hi lap s).2 own
  | lc {s own op anorm lambdaa var lo hi lap M s'} : History la s own →
      Memo.RepRadial_LC la op anorm lambdaa var lo hi lap s = (.ok M, s') → History la s' (M :: own)
  | lc_error {s own op anorm lambdaa var lo hi lap e s'} : History la s own →
      Memo.RepRadial_LC la op anorm lambdaa var lo hi lap s = (.error e, s') → History la s' own
  | clear {s own which} : History la s own → History la (clear which s).2 own
  | change {s own r f} : History la s own → r ∈ own → History la (change r f s).2 own

end Acm.Spec
