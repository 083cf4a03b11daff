import Verif.Model.Float

/-!
# Texts of numbers that are the same in all languages (`base.c:1524-1595`, `2219-2221`)
-/

namespace Verif.Model.Raw
open Verif.Model Verif.Model.Float

/-- `ctr_number_to_string_flat`, `base.c:1593-1595`, with `flat = 1` in `ctr_internal_number_to_string`,
`base.c:1542-1548` and `1557-1558`: no separators of thousands, always a point, no unit. -/
def raw (x : F) : Out Text := Num.stripZeros (print x)

/-- `ctr_string_in_to_number`, `base.c:2219-2221`: `ctr_build_number_from_string` without the language, `base.c:880-889` and
`895-897`; at most 40 bytes, up to a zero byte. `none` for texts that `atof` of the model does not cover. -/
def readRaw (t : Text) : Option F := atof ((t.take 40).takeWhile (· ≠ 0))

end Verif.Model.Raw
