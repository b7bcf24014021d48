import Verif.Model.FullSpace
import Verif.Spec.FullOps

/-!
# Specification vocabulary for full_space.py
-/

namespace Acm.Spec

/-- `Ls` is the increasing list of the angular momenta in the range that have states. -/
def OccupiedL (a : XArgs) (Ls : List Int) : Prop :=
  Ls.Pairwise (· < ·) ∧ ∀ L, L ∈ Ls ↔ (a.L_min ≤ L ∧ L ≤ a.L_max) ∧
    ∃ d, dimXspace a.nu_min a.nu_max a.v_min a.v_max L none = .ok d ∧ d ≠ 0

/-- The block structures that the constructor makes. -/
def Made (S : LBlockFullSpace) : Prop :=
  LBlockFullSpace.new S.nu_min S.nu_max S.v_min S.v_max S.Lvals = .ok S

/-- The block `(Lr, Lc)` of `A` is the matrix `Y`. -/
def BlockIs (A : LBlockArray) (Lr Lc : Int) (Y : Arr) : Prop :=
  ∃ G, A.get_block Lr Lc = .ok G ∧ G.rows = Y.rows ∧ G.cols = Y.cols ∧
    ∀ i j, i < Y.rows → j < Y.cols → G.e i j = Y.e i j

end Acm.Spec
