import Verif.SpecText

/-! Specification vocabulary: the hexadecimal dump of bytes. -/

namespace I256

/-- The two digits of a byte in base 16. -/
def hexPair (b : Byte) : List Byte := [digitByte (b.toNat / 16), digitByte (b.toNat % 16)]

end I256
