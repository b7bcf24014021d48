import Verif.Model.CGData
import Verif.Model.Messages

/-!
# The text printed by `show_CG_file` (src/acmpy/so5_so3_cg.py lines 228-240)
-/

namespace Acm

/-- so5_so3_cg.py lines 234-237 and 240: the text of a line; `flt` is `str` of a float. -/
def CGPrint.text (flt : ℝ → List Char) : CGPrint → List Char
  | .count n plural => "This file contains ".toList ++ pyStr n ++
      (if plural then " CG coefficients".toList else " CG coefficient".toList) ++ ['\n']
  | .entry (a1, L1, a3, L3) x => Msg.tupleText [a1, L1, a3, L3] ++ ", ".toList ++ flt x ++ ['\n']

/-- so5_so3_cg.py lines 228-240 `show_CG_file`: what is printed.  (Nothing is printed before the file has been read; after that nothing
raises.) -/
def show_CG_text (flt : ℝ → List Char) (fs : FileSys) (q : Quintet) : CGM (List Char) := do
  let out ← show_CG_file fs q
  pure (out.flatMap (CGPrint.text flt))

end Acm
