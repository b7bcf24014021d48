import Verif.Model.Compat

/-!
# Model of `src/acmpy/spherical_space.py`

Labels `(v, alpha, L)` are triples of integers, as in `SO5SO3Label` (line 21).
-/

namespace Acm

/-- spherical_space.py `SO5SO3Label`: (seniority, alpha, angular momentum). -/
abbrev Label := Int × Int × Int

/-- spherical_space.py lines 135-139 `dimSO3`. -/
def dimSO3 (L : Int) : Py Int := do
  require_nonnegint L
  pure (2 * L + 1)

/-- spherical_space.py lines 142-146 `dimSO5`. -/
def dimSO5 (v : Int) : Py Int := do
  require_nonnegint v
  pure (Int.fdiv ((v + 1) * (v + 2) * (2 * v + 3)) 6)

/-- spherical_space.py lines 152-155 `dimSO5r3_allL`. -/
def dimSO5r3_allL (v : Int) : Py Int := do
  require_nonnegint v
  let q ← iquo (v * (v + 3)) 6
  pure (q + 1)

/-- spherical_space.py lines 162-168 `dimSO5r3_rngVallL`. -/
def dimSO5r3_rngVallL (v_min v_max : Int) : Py Int := do
  require_nonnegint v_min
  require_nonnegint v_max
  if v_min > v_max then throw .valueError
  pySum (pyRange v_min (v_max + 1)) dimSO5r3_allL

/-- spherical_space.py lines 194-213 `dimSO5r3`. -/
def dimSO5r3 (v L : Int) : Py Int := do
  if v < 0 ∨ L < 0 ∨ L > 2 * v then return 0
  let r ← irem L 2
  let two_b := L + 3 * r
  if Int.fmod two_b 2 ≠ 0 then throw .assertionError
  let b := Int.fdiv two_b 2
  let d ← if v ≥ b then do
      let q ← iquo (v - b) 3
      pure (1 + q)
    else pure 0
  if v ≥ L - 2 then do
    let q ← iquo (v - L + 2) 3
    pure (d - q)
  else pure d

/-- spherical_space.py lines 224-228 `dimSO5r3_rngL`. -/
def dimSO5r3_rngL (v L_min L_max : Int) : Py Int := do
  require_nonnegint v
  require_nonnegint_range L_min L_max
  pySum (pyRange L_min (L_max + 1)) fun j => dimSO5r3 v j

/-- spherical_space.py lines 235-239 `dimSO5r3_rngV`. -/
def dimSO5r3_rngV (v_min v_max L : Int) : Py Int := do
  require_nonnegint_range v_min v_max
  require_nonnegint L
  pySum (pyRange v_min (v_max + 1)) fun v => dimSO5r3 v L

/-- spherical_space.py lines 247-254 `dimSO5r3_rngVrngL`
(the nested generator is a sum of sums; integer addition is associative). -/
def dimSO5r3_rngVrngL (v_min v_max L_min L_max : Int) : Py Int := do
  require_nonnegint_range v_min v_max
  require_nonnegint_range L_min L_max
  pySum (pyRange v_min (v_max + 1)) fun v =>
    pySum (pyRange L_min (L_max + 1)) fun L => dimSO5r3 v L

/-- spherical_space.py lines 264-270 `dimSO5r3_rngVvarL`. -/
def dimSO5r3_rngVvarL (v_min v_max L_min : Int) (L_max : Option Int) : Py Int :=
  match L_max with
  | some L_max => dimSO5r3_rngVrngL v_min v_max L_min L_max
  | none => dimSO5r3_rngV v_min v_max L_min

/-- spherical_space.py lines 293-298 `lbsSO5r3_allL`. -/
def lbsSO5r3_allL (v : Int) : Py (List (Int × Int)) := do
  require_nonnegint v
  pyFlat (pyRange 0 (2 * v + 1)) fun LL => do
    let d ← dimSO5r3 v LL
    pure ((pyRange 1 (d + 1)).map fun a => (a, LL))

/-- spherical_space.py lines 312-318 `lbsSO5r3_rngVallL`. -/
def lbsSO5r3_rngVallL (v_min v_max : Int) : Py (List Label) := do
  require_nonnegint_range v_min v_max
  pyFlat (pyRange 0 (2 * v_max + 1)) fun LL =>
    pyFlat (pyRange v_min (v_max + 1)) fun u => do
      let d ← dimSO5r3 u LL
      pure ((pyRange 1 (d + 1)).map fun a => (u, a, LL))

/-- spherical_space.py lines 331-337 `lbsSO5r3_rngL`. -/
def lbsSO5r3_rngL (v L_min L_max : Int) : Py (List Label) := do
  require_nonnegint v
  require_nonnegint_range L_min L_max
  pyFlat (pyRange L_min (L_max + 1)) fun LL => do
    let d ← dimSO5r3 v LL
    pure ((pyRange 1 (d + 1)).map fun a => (v, a, LL))

/-- spherical_space.py lines 350-356 `lbsSO5r3_rngV`. -/
def lbsSO5r3_rngV (v_min v_max L : Int) : Py (List Label) := do
  require_nonnegint_range v_min v_max
  require_nonnegint L
  pyFlat (pyRange v_min (v_max + 1)) fun u => do
    let d ← dimSO5r3 u L
    pure ((pyRange 1 (d + 1)).map fun a => (u, a, L))

/-- spherical_space.py lines 371-379 `lbsSO5r3_rngVrngL`. -/
def lbsSO5r3_rngVrngL (v_min v_max L_min L_max : Int) : Py (List Label) := do
  require_nonnegint_range v_min v_max
  require_nonnegint_range L_min L_max
  pyFlat (pyRange L_min (L_max + 1)) fun LL =>
    pyFlat (pyRange v_min (v_max + 1)) fun u => do
      let d ← dimSO5r3 u LL
      pure ((pyRange 1 (d + 1)).map fun a => (u, a, LL))

/-- spherical_space.py lines 398-413 `lbsSO5r3_rngVvarL`.  With `L_max` omitted the code
iterates `range(1, dimSO5r3(u, L_min))` (line 413, no `+ 1`); modelled as it is. -/
def lbsSO5r3_rngVvarL (v_min v_max L_min : Int) (L_max : Option Int) : Py (List Label) := do
  require_nonnegint_range v_min v_max
  require_nonnegint L_min
  match L_max with
  | some L_max => do
    require_nonnegint_range L_min L_max
    pyFlat (pyRange L_min (L_max + 1)) fun LL =>
      pyFlat (pyRange v_min (v_max + 1)) fun u => do
        let d ← dimSO5r3 u LL
        pure ((pyRange 1 (d + 1)).map fun a => (u, a, LL))
  | none =>
    pyFlat (pyRange v_min (v_max + 1)) fun u => do
      let d ← dimSO5r3 u L_min
      pure ((pyRange 1 d).map fun a => (u, a, L_min))

end Acm
