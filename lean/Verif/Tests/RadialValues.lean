import Verif.Model.Radial

/-!
# The values in the project's own tests

The tables of `src/acmpy/tests`, and `math.isclose`.  They say what the code does when it is run; nothing was run here.
-/

namespace Acm.Spec

/-- `math.isclose(x, e, rel_tol=rel, abs_tol=abs)`. -/
def IsClose (rel abs x e : ℝ) : Prop := |x - e| ≤ max (rel * max |x| |e|) abs

/-- tests/test_radial_me.py lines 11-29: `ME_Radial_S0` at `lambda = 2.5`: final label, initial label, value. -/
noncomputable def tests_S0 : List (ℕ × ℕ × ℝ) :=
  [(0, 0, 1.2500000000), (0, 1, 0.0000000000), (0, 2, 0.0000000000), (1, 0, 0.0000000000), (1, 1, 2.2500000000), (1, 2, 0.0000000000), (2, 0, 0.0000000000), (2, 1, 0.0000000000), (2, 2, 3.2500000000)]

/-- tests/test_radial_me.py lines 32-50: `ME_Radial_Sp` at `lambda = 2.5`: final label, initial label, value. -/
noncomputable def tests_Sp : List (ℕ × ℕ × ℝ) :=
  [(0, 0, 0.0000000000), (0, 1, 0.0000000000), (0, 2, 0.0000000000), (1, 0, 1.5811388300), (1, 1, 0.0000000000), (1, 2, 0.0000000000), (2, 0, 0.0000000000), (2, 1, 2.6457513110), (2, 2, 0.0000000000)]

/-- tests/test_radial_me.py lines 53-71: `ME_Radial_Sm` at `lambda = 2.5`: final label, initial label, value. -/
noncomputable def tests_Sm : List (ℕ × ℕ × ℝ) :=
  [(0, 0, 0.0000000000), (0, 1, 1.5811388300), (0, 2, 0.0000000000), (1, 0, 0.0000000000), (1, 1, 0.0000000000), (1, 2, 2.6457513110), (2, 0, 0.0000000000), (2, 1, 0.0000000000), (2, 2, 0.0000000000)]

/-- tests/test_radial_me.py lines 74-92: `ME_Radial_b2` at `lambda = 2.5`: final label, initial label, value. -/
noncomputable def tests_b2 : List (ℕ × ℕ × ℝ) :=
  [(0, 0, 2.5000000000), (0, 1, 1.5811388300), (0, 2, 0.0000000000), (1, 0, 1.5811388300), (1, 1, 4.5000000000), (1, 2, 2.6457513110), (2, 0, 0.0000000000), (2, 1, 2.6457513110), (2, 2, 6.5000000000)]

/-- tests/test_radial_me.py lines 95-113: `ME_Radial_bm2` at `lambda = 2.5`: final label, initial label, value. -/
noncomputable def tests_bm2 : List (ℕ × ℕ × ℝ) :=
  [(0, 0, 0.6666666667), (0, 1, -0.4216370213), (0, 2, 0.3187276291), (1, 0, -0.4216370213), (1, 1, 0.6666666667), (1, 2, -0.5039526306), (2, 0, 0.3187276291), (2, 1, -0.5039526306), (2, 2, 0.6666666667)]

/-- tests/test_radial_me.py lines 116-134: `ME_Radial_pt` at `lambda = 2.5`: final label, initial label, value. -/
noncomputable def tests_pt : List (ℕ × ℕ × ℝ) :=
  [(0, 0, 0.6666666667), (0, 1, -1.054092553), (0, 2, 1.394433378), (1, 0, -0.4216370213), (1, 1, 0.6666666667), (1, 2, -0.8819171040), (2, 0, 0.3187276291), (2, 1, -0.5039526306), (2, 2, 0.6666666667)]

/-- tests/test_radial_me.py lines 137-166: `ME_Radial_D2b` at `lambda = 2.5`: final label, initial label, value. -/
noncomputable def tests_D2b : List (ℕ × ℕ × ℝ) :=
  [(0, 0, -1.1666666670), (0, 1, 0.7378647874), (0, 2, 0.6374552582), (1, 0, 0.7378647874), (1, 1, -3.1666666670), (1, 2, 1.6378460500), (2, 0, 0.6374552582), (2, 1, 1.6378460500), (2, 2, -5.1666666670)]

/-- tests/test_radial_me.py lines 169-187: `ME_Radial_bDb` at `lambda = 2.5`: final label, initial label, value. -/
noncomputable def tests_bDb : List (ℕ × ℕ × ℝ) :=
  [(0, 0, -0.5000000000), (0, 1, 1.5811388300), (0, 2, 0.0000000000), (1, 0, -1.5811388300), (1, 1, -0.5000000000), (1, 2, 2.6457513110), (2, 0, 0.0000000000), (2, 1, -2.6457513110), (2, 2, -0.5000000000)]

/-- tests/test_radial_me.py lines 190-208: `ME_Radial_b_pl` at `lambda = 2.5`: final label, initial label, value. -/
noncomputable def tests_b_pl : List (ℕ × ℕ × ℝ) :=
  [(0, 0, 1.5811388300), (0, 1, 1.0000000000), (0, 2, 0.0000000000), (1, 0, 0.0000000000), (1, 1, 1.8708286930), (1, 2, 1.4142135620), (2, 0, 0.0000000000), (2, 1, 0.0000000000), (2, 2, 2.1213203440)]

/-- tests/test_radial_me.py lines 211-229: `ME_Radial_bm_pl` at `lambda = 2.5`: final label, initial label, value. -/
noncomputable def tests_bm_pl : List (ℕ × ℕ × ℝ) :=
  [(0, 0, 0.6324555320), (0, 1, 0.0000000000), (0, 2, 0.0000000000), (1, 0, -0.3380617018), (1, 1, 0.5345224837), (1, 2, 0.0000000000), (2, 0, 0.2253744679), (2, 1, -0.3563483226), (2, 2, 0.4714045209)]

/-- tests/test_radial_me.py lines 232-250: `ME_Radial_Db_pl` at `lambda = 2.5`: final label, initial label, value. -/
noncomputable def tests_Db_pl : List (ℕ × ℕ × ℝ) :=
  [(0, 0, -0.3162277660), (0, 1, 1.0000000000), (0, 2, 0.0000000000), (1, 0, -0.6761234036), (1, 1, -0.8017837260), (1, 2, 1.4142135620), (2, 0, 0.4507489358), (2, 1, -0.7126966452), (2, 2, -1.1785113020)]

/-- tests/test_radial_me.py lines 253-271: `ME_Radial_b_ml` at `lambda = 2.5`: final label, initial label, value. -/
noncomputable def tests_b_ml : List (ℕ × ℕ × ℝ) :=
  [(0, 0, 1.2247448710), (0, 1, 0.0000000000), (0, 2, 0.0000000000), (1, 0, 1.0000000000), (1, 1, 1.5811388300), (1, 2, 0.0000000000), (2, 0, 0.0000000000), (2, 1, 1.4142135620), (2, 2, 1.8708286930)]

/-- tests/test_radial_me.py lines 274-292: `ME_Radial_bm_ml` at `lambda = 2.5`: final label, initial label, value. -/
noncomputable def tests_bm_ml : List (ℕ × ℕ × ℝ) :=
  [(0, 0, 0.8164965810), (0, 1, -0.5163977795), (0, 2, 0.3903600291), (1, 0, 0.0000000000), (1, 1, 0.6324555320), (1, 2, -0.4780914437), (2, 0, 0.0000000000), (2, 1, 0.0000000000), (2, 2, 0.5345224837)]

/-- tests/test_radial_me.py lines 295-313: `ME_Radial_Db_ml` at `lambda = 2.5`: final label, initial label, value. -/
noncomputable def tests_Db_ml : List (ℕ × ℕ × ℝ) :=
  [(0, 0, 0.4082482900), (0, 1, 0.5163977795), (0, 2, -0.3903600291), (1, 0, -1.0000000000), (1, 1, 0.9486832980), (1, 2, 0.4780914437), (2, 0, 0.0000000000), (2, 1, -1.4142135620), (2, 2, 1.3363062090)]

/-- tests/test_radial_me.py lines 316-352: `ME_Radial_id_pl` at `lambda = 5.5`: final label, initial label, `r`, value. -/
noncomputable def tests_id_pl : List (ℕ × ℕ × ℕ × ℝ) :=
  [(0, 0, 0, 1.0000000000), (0, 0, 1, 0.9198662110), (0, 0, 2, 0.7488553354), (0, 1, 0, 0.0000000000), (0, 1, 1, 0.3922322702), (0, 1, 2, 0.6386259759), (0, 2, 0, 0.0000000000), (0, 2, 1, 0.0000000000), (0, 2, 2, 0.1771229771), (1, 0, 0, 0.0000000000), (1, 0, 1, -0.3358876491), (1, 0, 2, -0.4859215070), (1, 1, 0, 1.0000000000), (1, 1, 1, 0.7877263614), (1, 1, 2, 0.3625958468), (1, 2, 0, 0.0000000000), (1, 2, 1, 0.5163977796), (1, 2, 2, 0.7470616676), (2, 0, 0, 0.0000000000), (2, 0, 1, 0.1629294418), (2, 0, 2, 0.3181102984), (2, 1, 0, 0.0000000000), (2, 1, 1, -0.3821034109), (2, 1, 2, -0.4069280609), (2, 2, 0, 1.0000000000), (2, 2, 1, 0.6888467201), (2, 2, 2, 0.1222666658)]

/-- tests/test_radial_me.py lines 355-391: `ME_Radial_id_ml` at `lambda = 5.5`: final label, initial label, `r`, value. -/
noncomputable def tests_id_ml : List (ℕ × ℕ × ℕ × ℝ) :=
  [(0, 0, 0, 1.0000000000), (0, 0, 1, 0.8819171036), (0, 0, 2, 0.4879500364), (0, 1, 0, 0.0000000000), (0, 1, 1, -0.3760507166), (0, 1, 2, -0.4161251894), (0, 2, 0, 0.0000000000), (0, 2, 1, 0.2085954062), (0, 2, 2, 0.3462370863), (1, 0, 0, 0.0000000000), (1, 0, 1, 0.4714045209), (1, 0, 2, 0.7968190730), (1, 1, 0, 1.0000000000), (1, 1, 1, 0.7035264708), (1, 1, 2, -0.0849411986), (1, 2, 0, 0.0000000000), (1, 2, 1, -0.3902462714), (1, 2, 2, -0.0942337990), (2, 0, 0, 0.0000000000), (2, 0, 1, 0.0000000000), (2, 0, 2, 0.3563483226), (2, 1, 0, 0.0000000000), (2, 1, 1, 0.6030226892), (2, 1, 2, 0.7597371764), (2, 2, 0, 1.0000000000), (2, 2, 1, 0.5853694070), (2, 2, 2, -0.2633914755)]

/-- tests/test_radial_me.py lines 394-463: `MF_Radial_id_poly`: `mu`, `nu`, `r`, and the polynomial in `lamvar`. -/
noncomputable def tests_id_poly (lam : ℝ) : List (ℕ × ℕ × ℕ × ℝ) :=
  [(0, 0, 0, 1), (1, 0, 0, 0), (1, 1, 0, 1), (2, 0, 0, 0), (2, 1, 0, 0), (2, 2, 0, 1), (3, 0, 0, 0), (3, 1, 0, 0), (3, 2, 0, 0), (3, 3, 0, 1), (4, 0, 0, 0), (4, 1, 0, 0), (4, 2, 0, 0), (4, 3, 0, 0), (4, 4, 0, 1), (0, 0, 1, lam), (0, 1, 1, 1), (1, 0, 1, - lam), (1, 1, 1, lam), (1, 2, 1, 2), (2, 0, 1, lam), (2, 1, 1, - lam), (2, 2, 1, lam), (2, 3, 1, 3), (3, 0, 1, - lam), (3, 1, 1, lam), (3, 2, 1, - lam), (3, 3, 1, lam), (3, 4, 1, 4), (4, 0, 1, lam), (4, 1, 1, - lam), (4, 2, 1, lam), (4, 3, 1, - lam), (4, 4, 1, lam), (4, 5, 1, 5), (0, 0, 2, lam ^ 2 + lam), (0, 1, 2, 2 + 2 * lam), (0, 2, 2, 2), (1, 0, 2, - 2 * lam ^ 2 - 2 * lam), (1, 1, 2, lam ^ 2 - lam - 2), (1, 2, 2, 4 + 4 * lam), (1, 3, 2, 6), (2, 0, 2, 3 * lam ^ 2 + 3 * lam), (2, 1, 2, - 2 * lam ^ 2 + 2), (2, 2, 2, lam ^ 2 - 3 * lam - 4), (2, 3, 2, 6 + 6 * lam), (2, 4, 2, 12), (3, 0, 2, - 4 * lam ^ 2 - 4 * lam), (3, 1, 2, 3 * lam ^ 2 + lam - 2), (3, 2, 2, - 2 * lam ^ 2 + 2 * lam + 4), (3, 3, 2, lam ^ 2 - 5 * lam - 6), (3, 4, 2, 8 + 8 * lam), (3, 5, 2, 20), (4, 0, 2, 5 * lam ^ 2 + 5 * lam), (4, 1, 2, - 4 * lam ^ 2 - 2 * lam + 2), (4, 2, 2, 3 * lam ^ 2 - lam - 4), (4, 3, 2, - 2 * lam ^ 2 + 4 * lam + 6), (4, 4, 2, lam ^ 2 - 7 * lam - 8), (4, 5, 2, 10 + 10 * lam), (4, 6, 2, 30)]

/-- tests/test_radial_me.py lines 466-535: `MF_Radial_id_pl` at `lambda = 5.5`: `mu`, `nu`, `r`, value. -/
noncomputable def tests_mf_id_pl : List (ℕ × ℕ × ℕ × ℝ) :=
  [(0, 0, 0, 1.000000000), (1, 0, 0, 0.0), (1, 1, 0, 1.000000000), (2, 0, 0, 0.0), (2, 1, 0, 0.0), (2, 2, 0, 1.000000000), (3, 0, 0, 0.0), (3, 1, 0, 0.0), (3, 2, 0, 0.0), (3, 3, 0, 1.000000000), (4, 0, 0, 0.0), (4, 1, 0, 0.0), (4, 2, 0, 0.0), (4, 3, 0, 0.0), (4, 4, 0, 1.000000000), (0, 0, 1, 5.500000001), (0, 1, 1, 1.000000000), (1, 0, 1, -5.499999997), (1, 1, 1, 5.499999997), (1, 2, 1, 2.000000000), (2, 0, 1, 5.500000000), (2, 1, 1, -5.500000000), (2, 2, 1, 5.500000000), (2, 3, 1, 3.000000000), (3, 0, 1, -5.500000000), (3, 1, 1, 5.500000000), (3, 2, 1, -5.500000000), (3, 3, 1, 5.500000000), (3, 4, 1, 4.000000000), (4, 0, 1, 5.500000000), (4, 1, 1, -5.500000000), (4, 2, 1, 5.500000000), (4, 3, 1, -5.500000000), (4, 4, 1, 5.500000000), (4, 5, 1, 5.000000000), (0, 0, 2, 35.74999999), (0, 1, 2, 13.00000000), (0, 2, 2, 2.000000000), (1, 0, 2, -71.50000000), (1, 1, 2, 22.75000002), (1, 2, 2, 26.00000000), (1, 3, 2, 6.000000000), (2, 0, 2, 107.2500000), (2, 1, 2, -58.49999990), (2, 2, 2, 9.74999995), (2, 3, 2, 38.99999995), (2, 4, 2, 12.00000000), (3, 0, 2, -142.9999999), (3, 1, 2, 94.2500000), (3, 2, 2, -45.49999980), (3, 3, 2, -3.25000020), (3, 4, 2, 52.00000003), (3, 5, 2, 20.00000000), (4, 0, 2, 178.7500000), (4, 1, 2, -130.0000004), (4, 2, 2, 81.2500004), (4, 3, 2, -32.5000001), (4, 4, 2, -16.24999990), (4, 5, 2, 65.00000000), (4, 6, 2, 30.00000000)]

end Acm.Spec
