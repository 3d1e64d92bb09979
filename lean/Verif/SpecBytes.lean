import Verif.Spec

/-! Specification vocabulary for byte order conversions. -/

namespace I256

/-- Byte `i` of the number `n`, counted from the least significant one. -/
def byteOf (n i : Nat) : Nat := n / 256 ^ i % 256

/-- Element `i`, of `v` bits, of the number `n`, counted from the least significant one. -/
def elemOf (v n i : Nat) : Nat := n / 2 ^ (v * i) % 2 ^ v

end I256
