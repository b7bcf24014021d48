import Verif.Model.Py

/-!
# Model of `src/acmpy/compat.py`

Arguments are typed `Int`, so the `TypeError` of `require_int`
(compat.py lines 31-34) cannot occur and is not modelled.
-/

namespace Acm

/-- compat.py lines 37-41 `require_nonnegint`. -/
def require_nonnegint (value : Int) : Py Unit :=
  if value < 0 then throw .valueError else pure ()

/-- compat.py lines 44-53 `require_nonnegint_range`. -/
def require_nonnegint_range (value_min value_max : Int) : Py Unit := do
  require_nonnegint value_min
  require_nonnegint value_max
  if value_min > value_max then throw .valueError else pure ()

/-- compat.py lines 56-60 `require_posint`. -/
def require_posint (value : Int) : Py Unit := do
  require_nonnegint value
  if value = 0 then throw .valueError else pure ()

/-- compat.py lines 63-67 `is_even`; Python `%` has the sign of the divisor (`Int.fmod`). -/
def is_even (n : Int) : Bool := Int.fmod n 2 == 0

/-- compat.py lines 70-74 `is_odd`. -/
def is_odd (n : Int) : Bool := Int.fmod n 2 == 1

/-- compat.py lines 77-82 `iquo`; Python `//` is floor division (`Int.fdiv`). -/
def iquo (m n : Int) : Py Int := do
  require_nonnegint m
  require_posint n
  pure (Int.fdiv m n)

/-- compat.py lines 85-90 `irem`. -/
def irem (m n : Int) : Py Int := do
  require_nonnegint m
  require_posint n
  pure (Int.fmod m n)

end Acm
