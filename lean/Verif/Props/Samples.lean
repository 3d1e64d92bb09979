import Verif.Spec

/-! Concrete values used in the examples beside the property theorems: 256-bit numbers on 64-bit
limbs and on 32-bit limbs. -/

namespace I256.Sample

/-- `2^256 - 1` (unsigned), `-1` (signed). -/
def ones : Limbs 64 := [0xffffffffffffffff, 0xffffffffffffffff, 0xffffffffffffffff, 0xffffffffffffffff]
/-- `1`. -/
def one : Limbs 64 := [1, 0, 0, 0]
/-- `0`. -/
def zero : Limbs 64 := [0, 0, 0, 0]
/-- `2^64 - 1 + 5 * 2^128`. -/
def a : Limbs 64 := [0xffffffffffffffff, 0, 5, 0]
/-- `2^255` (unsigned), the minimum (signed). -/
def top : Limbs 64 := [0, 0, 0, 0x8000000000000000]
/-- `2^255 - 1`, the signed maximum. -/
def maxS : Limbs 64 := [0xffffffffffffffff, 0xffffffffffffffff, 0xffffffffffffffff, 0x7fffffffffffffff]
/-- `-2` (signed). -/
def m2 : Limbs 64 := [0xfffffffffffffffe, 0xffffffffffffffff, 0xffffffffffffffff, 0xffffffffffffffff]
/-- `2^32 - 1 + 7 * 2^224` on 32-bit limbs. -/
def b32 : Limbs 32 := [0xffffffff, 0, 0, 0, 0, 0, 0, 7]
/-- `2^256 - 1` on 32-bit limbs. -/
def ones32 : Limbs 32 := List.replicate 8 0xffffffff

end I256.Sample
