import Verif.Model.Operators

/-!
# The names of the spherical harmonics (`src/acmpy/spherical_space.py`)
-/

namespace Acm

/-- spherical_space.py lines 42-71: the string given to `Symbol`. -/
def SpHarm.name : SpHarm → String
  | .y010 => "SpHarm_010"
  | .y112 => "SpHarm_112"
  | .y212 => "SpHarm_212"
  | .y214 => "SpHarm_214"
  | .y310 => "SpHarm_310"
  | .y313 => "SpHarm_313"
  | .y314 => "SpHarm_314"
  | .y316 => "SpHarm_316"
  | .y412 => "SpHarm_412"
  | .y414 => "SpHarm_414"
  | .y415 => "SpHarm_415"
  | .y416 => "SpHarm_416"
  | .y418 => "SpHarm_418"
  | .y512 => "SpHarm_512"
  | .y514 => "SpHarm_514"
  | .y515 => "SpHarm_515"
  | .y516 => "SpHarm_516"
  | .y517 => "SpHarm_517"
  | .y518 => "SpHarm_518"
  | .y51A => "SpHarm_51A"
  | .y610 => "SpHarm_610"
  | .y613 => "SpHarm_613"
  | .y614 => "SpHarm_614"
  | .y616 => "SpHarm_616"
  | .y626 => "SpHarm_626"
  | .y617 => "SpHarm_617"
  | .y618 => "SpHarm_618"
  | .y619 => "SpHarm_619"
  | .y61A => "SpHarm_61A"
  | .y61C => "SpHarm_61C"

/-- spherical_space.py line 114 `SpHarm_Operators`: the keys of `SpHarm_Table`, in the order of insertion
(lines 74-103). -/
def SpHarm_Operators : List SpHarm :=
  [.y010, .y112, .y212, .y214, .y310, .y313, .y314, .y316, .y412, .y414, .y415, .y416, .y418,
   .y512, .y514, .y515, .y516, .y517, .y518, .y51A, .y610, .y613, .y614, .y616, .y626, .y617, .y618, .y619, .y61A, .y61C]

/-- spherical_space.py line 125 `Spherical_Operators`. -/
def Spherical_Operators : List OpSym := SpHarm_Operators.map .harm ++ [.sqLdim, .sqLdiv]

end Acm
