import Verif.SpecRaw
import Verif.SpecText

/-! # Specification vocabulary for the text conversions in memory -/

namespace I256

variable {w : Nat}

/-- The result of a parser whose number is stored in memory. -/
def logicalP (be : Bool) : Parsed (Limbs w) → Parsed (Limbs w)
  | .ok m => .ok (logical be m)
  | .err e => .err e

/-- What a formatter leaves behind that writes `s` to the end of `buffer`: the buffer, whose other bytes
have not been touched, and the slice with `s`. -/
def wrote (buffer s : List Byte) : List Byte × List Byte :=
  (buffer.take (buffer.length - s.length) ++ s, s)

end I256
