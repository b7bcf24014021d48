import Verif.Spec.Spherical
import Verif.Spec.CGSO5
import Mathlib.Data.Nat.Choose.Basic
import Mathlib.Analysis.SpecialFunctions.Trigonometric.Basic
import Mathlib.MeasureTheory.Integral.IntervalIntegral.Basic

/-!
# Independent specification: SO(5) spherical harmonics in the intrinsic frame
-/

namespace Acm.Spec

/-- `name` is `SpHarm_` followed by one hexadecimal digit (capital letters) for each of `v`, `alpha` and `L`. -/
def IsHarmonicName (name : String) (x : Int × Int × Int) : Prop :=
  ∃ v a L : ℕ, v < 16 ∧ a < 16 ∧ L < 16 ∧ x = ((v : Int), (a : Int), (L : Int)) ∧
    name.toList = "SpHarm_".toList ++ [v, a, L].map fun n => (Nat.digitChar n).toUpper

/-- The intrinsic components (`K` to function of gamma) of a function on the sphere with angular momentum `L`,
`F_m = Σ_K f_K(gamma) D^L_{K m}(Omega)`. -/
abbrev Intrinsic := ℤ → ℝ → ℝ

/-- The squared norm of each component `F_m`: `∫ D^L_{K m}* D^L_{K' m} dOmega = δ 8 pi^2 / (2 L + 1)` and
the measure is `sin(3 gamma) dgamma dOmega`, `0 ≤ gamma ≤ pi / 3`. -/
noncomputable def normSq (L : ℕ) (f : Intrinsic) : ℝ :=
  8 * Real.pi ^ 2 / (2 * L + 1) *
    ∫ g in (0 : ℝ)..(Real.pi / 3), (∑ K ∈ Finset.Icc (-(L : ℤ)) L, f K g ^ 2) * Real.sin (3 * g)

/-- The quadrupole tensor at beta = 1: `q_0 = cos(gamma)`, `q_2 = q_-2 = sin(gamma) / sqrt 2`, others 0. -/
noncomputable def quadrupole : Intrinsic := fun K g =>
  if K = 0 then Real.cos g else if K = 2 ∨ K = -2 then Real.sin g / Real.sqrt 2 else 0

/-- A scalar (`L = 0`). -/
def scalarFun (f : ℝ → ℝ) : Intrinsic := fun K g => if K = 0 then f g else 0

/-- The product of `f` (`L = l1`) and `g` (`L = l2`) coupled to `L` with the coefficients `c m1 m2`. -/
noncomputable def couple (c : ℤ → ℤ → ℝ) (l1 : ℕ) (f g : Intrinsic) : Intrinsic := fun K x =>
  ∑ m ∈ Finset.Icc (-(l1 : ℤ)) l1, c m (K - m) * (f m x * g (K - m) x)

/-- The coefficients for coupling to the largest angular momentum `l1 + l2`. -/
noncomputable def stretched (l1 l2 : ℕ) (m1 m2 : ℤ) : ℝ :=
  if |m1| ≤ l1 ∧ |m2| ≤ l2 then
    Real.sqrt ((2 * l1).choose (l1 + m1).toNat) * Real.sqrt ((2 * l2).choose (l2 + m2).toNat) /
      Real.sqrt ((2 * (l1 + l2)).choose (l1 + l2 + (m1 + m2)).toNat)
  else 0

/-- The conversion factor `k` turns the harmonic with unit norm, and positive `K = 0` component on the axis gamma = 0,
into `f`. -/
def Converts (k : ℝ) (L : ℕ) (f : Intrinsic) : Prop :=
  normSq L (fun K g => f K g / k) = 1 ∧ 0 < f 0 0 / k

end Acm.Spec
