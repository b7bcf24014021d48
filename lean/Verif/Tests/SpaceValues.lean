import Verif.Model.Radial

/-!
# The values in `tests/test_radial_space.py`
-/

namespace Acm.Spec

/-- `numpy.allclose(x, e, rtol=rtol, atol=atol)` for one entry. -/
def AllClose (rtol atol x e : ℝ) : Prop := |x - e| ≤ atol + rtol * |e|

/-- tests/test_radial_space.py lines 38-58: products of radial operators, and the expected exponent `K`. -/
def tests_parse : List (List RadSym × Int) :=
  [([.b], 1), ([.b2], 2), ([.bm], -1), ([.bm2], -2), ([.b, .b], 2), ([.b, .b, .b], 3), ([.b2, .b2], 4), ([.b2, .b2, .b2], 6)]

/-- tests/test_radial_space.py lines 76-100: `K`, `T` and the value of `RepRadial_bS_DS(K, T, 1.0, 2.5, 0, 0, 0)`. -/
noncomputable def tests_bS_DS : List (Int × Int × ℝ) :=
  [(0, 0, 1),
   (1, 0, 1.581138830),
   (2, 0, 5 / 2),
   (3, 0, 3.952847075),
   (4, 0, 25 / 4),
   (0, 1, -0.3162277660),
   (0, 2, -7 / 6),
   (0, 3, 0.3689323937),
   (0, 4, 49 / 36),
   (-1, 0, 0.6324555320),
   (-2, 0, 2 / 3),
   (-3, 0, 0.4216370214),
   (-4, 0, 4 / 9),
   (1, 1, -1 / 2),
   (2, 2, -35 / 12),
   (3, 3, 35 / 24),
   (4, 4, 1225 / 144),
   (-1, 1, 1 / 3),
   (-2, 2, -7 / 9),
   (-3, 3, -7 / 27),
   (-4, 4, 49 / 81),
   (1, 4, 2.152105630),
   (2, 3, 0.9223309842),
   (3, 2, -4.611654921),
   (4, 1, -1.976423538)]

/-- tests/test_radial_space.py lines 170-185: `lambda` and the matrix `RepRadial(ME_Radial_b2, lambda, 0, 2)`. -/
noncomputable def tests_rep_b2 : List (ℝ × List (List ℝ)) :=
  [(1.5, [[1.5, 1.224744871, 0], [1.224744871, 3.5, 2.236067977], [0, 2.236067977, 5.5]]),
   (2.5, [[2.5, 1.581138830, 0], [1.581138830, 4.5, 2.645751311], [0, 2.645751311, 6.5]]),
   (3.5, [[3.5, 1.870828693, 0], [1.870828693, 5.5, 3.000000000], [0, 3.000000000, 7.5]])]

end Acm.Spec
