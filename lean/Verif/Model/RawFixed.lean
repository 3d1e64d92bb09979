import Verif.Model.RawScalarForms
import Verif.Model.Fixed
import Verif.Model.Endian

/-!
# Literal model of addition, subtraction and multiplication with a fixed-width scalar

`u32`, `u64`, `u128`, `i32`, `i64` and `i128` (feature `stdint`), on arrays in memory order.  See `Raw.lean`
for the vocabulary and `Fixed.lean` for `Fix` and for the choice between the two limb sizes; `cf` is the kind
of build.
-/

namespace I256

variable {w : Nat}

namespace Raw

open _root_.I256.Raw.Div (Cfg)

/-- `u128_to_limb`, src/util.rs L101-107. -/
def u128ToLimb (be : Bool) (value : BitVec 128) : Res (Limbs w) := do
  assert (w == 32)
  let bytes := Endian.memBytes be [value]
  .ok (Endian.ofMemBytes be w 4 bytes)

/-- `u128_to_limb_n`, src/util.rs L124-136. -/
def u128ToLimbN (be : Bool) (N : Nat) (value : BitVec 128) : Res (Limbs w) := do
  assert (w == 32)
  assert (decide (N > 4))
  let result := List.replicate N 0
  let result ← wr be result 0 (value.setWidth w)
  let v ← shr value 96
  let result ← wr be result 1 (v.setWidth w)
  let v ← shr value 64
  let result ← wr be result 2 (v.setWidth w)
  let v ← shr value 32
  wr be result 3 (v.setWidth w)

/-- `i128_to_limb_n`, src/util.rs L152-166. -/
def i128ToLimbN (be : Bool) (N : Nat) (value : BitVec 128) : Res (Limbs w) := do
  assert (w == 32)
  assert (decide (N > 4))
  let signBit := 0 - boolLimb w (value.slt 0)
  let result := List.replicate N signBit
  let result ← wr be result 0 (value.setWidth w)
  let v ← shr value 96
  let result ← wr be result 1 (v.setWidth w)
  let v ← shr value 64
  let result ← wr be result 2 (v.setWidth w)
  let v ← shr value 32
  wr be result 3 (v.setWidth w)

namespace U

/-- `wrapping_add_u32` (src/uint/limb.rs L189-191), `wrapping_add_u64` (L238-241),
`wrapping_add_u128` (L297-309). -/
def wrappingAddFix (be : Bool) : (k : Fix) → Limbs w → BitVec k.n → Res (Limbs w)
  | .b32, x, n => wrappingAddULimb be x (n.setWidth w)
  | .b64, x, n =>
    if w = 64 then wrappingOf (Add.wrappingLimb be x (n.setWidth w))
    else wrappingOf (Add.wrappingWide be x (n.setWidth (w + w)))
  | .b128, x, n => do
    assert (w + w == 64 || w + w == 128)
    if w + w = 128 then wrappingAddUWide be x (n.setWidth (w + w))
    else
      let rhs ← u128ToLimb be n
      wrappingOf (Add.wrappingMn be x rhs)
/-- `overflowing_add_u32` (src/uint/limb.rs L507-509), `overflowing_add_u64` (L542-545),
`overflowing_add_u128` (L580-592). -/
def overflowingAddFix (be : Bool) : (k : Fix) → Limbs w → BitVec k.n → Res (Limbs w × Bool)
  | .b32, x, n => overflowingAddULimb be x (n.setWidth w)
  | .b64, x, n =>
    if w = 64 then overflowingOf (Add.overflowingLimb be x (n.setWidth w))
    else overflowingOf (Add.overflowingWide be x (n.setWidth (w + w)))
  | .b128, x, n => do
    assert (w + w == 64 || w + w == 128)
    if w + w = 128 then overflowingAddUWide be x (n.setWidth (w + w))
    else
      let rhs ← u128ToLimb be n
      overflowingOf (Add.overflowingMn be x rhs)
/-- `checked_add_u32` (src/shared/limb.rs L951-958), `checked_add_u64` (L1034-1041),
`checked_add_u128` (L1117-1124). -/
def checkedAddFix (be : Bool) (k : Fix) (x : Limbs w) (n : BitVec k.n) : Res (Option (Limbs w)) :=
  Pow.checked (overflowingAddFix be k x n)
/-- `add_u32` (src/shared/limb.rs L194-203), `add_u64` (L289-298), `add_u128` (L384-393). -/
def addFix (cf : Cfg) (be : Bool) (k : Fix) (x : Limbs w) (n : BitVec k.n) : Res (Limbs w) :=
  opOf cf (wrappingAddFix be k x n) (checkedAddFix be k x n)

/-- `wrapping_sub_u32` (src/uint/limb.rs L200-202), `wrapping_sub_u64` (L250-253),
`wrapping_sub_u128` (L318-330). -/
def wrappingSubFix (be : Bool) : (k : Fix) → Limbs w → BitVec k.n → Res (Limbs w)
  | .b32, x, n => wrappingSubULimb be x (n.setWidth w)
  | .b64, x, n =>
    if w = 64 then wrappingOf (Sub.wrappingLimb be x (n.setWidth w))
    else wrappingOf (Sub.wrappingWide be x (n.setWidth (w + w)))
  | .b128, x, n => do
    assert (w + w == 64 || w + w == 128)
    if w + w = 128 then wrappingSubUWide be x (n.setWidth (w + w))
    else
      let rhs ← u128ToLimb be n
      wrappingOf (Sub.wrappingMn be x rhs)
/-- `overflowing_sub_u32` (src/uint/limb.rs L518-520), `overflowing_sub_u64` (L554-557),
`overflowing_sub_u128` (L601-613). -/
def overflowingSubFix (be : Bool) : (k : Fix) → Limbs w → BitVec k.n → Res (Limbs w × Bool)
  | .b32, x, n => overflowingSubULimb be x (n.setWidth w)
  | .b64, x, n =>
    if w = 64 then overflowingOf (Sub.overflowingLimb be x (n.setWidth w))
    else overflowingOf (Sub.overflowingWide be x (n.setWidth (w + w)))
  | .b128, x, n => do
    assert (w + w == 64 || w + w == 128)
    if w + w = 128 then overflowingSubUWide be x (n.setWidth (w + w))
    else
      let rhs ← u128ToLimb be n
      overflowingOf (Sub.overflowingMn be x rhs)
/-- `checked_sub_u32` (src/shared/limb.rs L966-973), `checked_sub_u64` (L1049-1056),
`checked_sub_u128` (L1132-1139). -/
def checkedSubFix (be : Bool) (k : Fix) (x : Limbs w) (n : BitVec k.n) : Res (Option (Limbs w)) :=
  Pow.checked (overflowingSubFix be k x n)
/-- `sub_u32` (src/shared/limb.rs L211-220), `sub_u64` (L306-315), `sub_u128` (L401-410). -/
def subFix (cf : Cfg) (be : Bool) (k : Fix) (x : Limbs w) (n : BitVec k.n) : Res (Limbs w) :=
  opOf cf (wrappingSubFix be k x n) (checkedSubFix be k x n)

/-- `wrapping_mul_u32` (src/uint/limb.rs L211-213), `wrapping_mul_u64` (L262-265),
`wrapping_mul_u128` (L339-351). -/
def wrappingMulFix (be : Bool) : (k : Fix) → Limbs w → BitVec k.n → Res (Limbs w)
  | .b32, x, n => wrappingMulULimb be x (n.setWidth w)
  | .b64, x, n =>
    if w = 64 then wrappingOf (Mul.wrappingLimb be x (n.setWidth w))
    else wrappingOf (Mul.wrappingWide be x (n.setWidth (w + w)))
  | .b128, x, n => do
    assert (w + w == 64 || w + w == 128)
    if w + w = 128 then wrappingMulUWide be x (n.setWidth (w + w))
    else
      let rhs ← u128ToLimb be n
      wrappingOf (Mul.wrappingFull be x rhs)
/-- `overflowing_mul_u32` (src/uint/limb.rs L529-531), `overflowing_mul_u64` (L566-569),
`overflowing_mul_u128` (L622-634). -/
def overflowingMulFix (be : Bool) : (k : Fix) → Limbs w → BitVec k.n → Res (Limbs w × Bool)
  | .b32, x, n => overflowingMulULimb be x (n.setWidth w)
  | .b64, x, n =>
    if w = 64 then overflowingOf (Mul.overflowingLimb be x (n.setWidth w))
    else overflowingOf (Mul.overflowingWide be x (n.setWidth (w + w)))
  | .b128, x, n => do
    assert (w + w == 64 || w + w == 128)
    if w + w = 128 then overflowingMulUWide be x (n.setWidth (w + w))
    else
      let rhs ← u128ToLimb be n
      overflowingOf (Mul.overflowingFull be x rhs)
/-- `checked_mul_u32` (src/shared/limb.rs L981-988), `checked_mul_u64` (L1064-1071),
`checked_mul_u128` (L1147-1154). -/
def checkedMulFix (be : Bool) (k : Fix) (x : Limbs w) (n : BitVec k.n) : Res (Option (Limbs w)) :=
  Pow.checked (overflowingMulFix be k x n)
/-- `mul_u32` (src/shared/limb.rs L228-237), `mul_u64` (L323-332), `mul_u128` (L418-427). -/
def mulFix (cf : Cfg) (be : Bool) (k : Fix) (x : Limbs w) (n : BitVec k.n) : Res (Limbs w) :=
  opOf cf (wrappingMulFix be k x n) (checkedMulFix be k x n)

end U

namespace I

/-- `wrapping_add_u32` (src/int/limb.rs L746-748), `wrapping_add_u64` (L860-863),
`wrapping_add_u128` (L994-1007). -/
def wrappingAddFixU (be : Bool) : (k : Fix) → Limbs w → BitVec k.n → Res (Limbs w)
  | .b32, x, n => wrappingAddULimb be x (n.setWidth w)
  | .b64, x, n =>
    if w = 64 then wrappingOf (Add.wrappingLimb be x (n.setWidth w))
    else wrappingOf (Add.sWrappingUWide be x (n.setWidth (w + w)))
  | .b128, x, n => do
    assert (w + w == 64 || w + w == 128)
    if w + w = 128 then wrappingAddUWide be x (n.setWidth (w + w))
    else
      let rhs ← u128ToLimbN be x.length n
      wrappingOf (Add.wrappingMn be x rhs)
/-- `overflowing_add_u32` (src/int/limb.rs L1441-1443), `overflowing_add_u64` (L1538-1541),
`overflowing_add_u128` (L1645-1658). -/
def overflowingAddFixU (be : Bool) : (k : Fix) → Limbs w → BitVec k.n → Res (Limbs w × Bool)
  | .b32, x, n => overflowingAddULimb be x (n.setWidth w)
  | .b64, x, n =>
    if w = 64 then overflowingOf (Add.sOverflowingULimb be x (n.setWidth w))
    else overflowingOf (Add.sOverflowingUWide be x (n.setWidth (w + w)))
  | .b128, x, n => do
    assert (w + w == 64 || w + w == 128)
    if w + w = 128 then overflowingAddUWide be x (n.setWidth (w + w))
    else
      let rhs ← u128ToLimbN be x.length n
      overflowingOf (Add.overflowingMn be x rhs)
/-- `checked_add_u32` (src/shared/limb.rs L951-958), `checked_add_u64` (L1034-1041),
`checked_add_u128` (L1117-1124). -/
def checkedAddFixU (be : Bool) (k : Fix) (x : Limbs w) (n : BitVec k.n) : Res (Option (Limbs w)) :=
  Pow.checked (overflowingAddFixU be k x n)
/-- `add_u32` (src/shared/limb.rs L194-203), `add_u64` (L289-298), `add_u128` (L384-393). -/
def addFixU (cf : Cfg) (be : Bool) (k : Fix) (x : Limbs w) (n : BitVec k.n) : Res (Limbs w) :=
  opOf cf (wrappingAddFixU be k x n) (checkedAddFixU be k x n)

/-- `wrapping_add_i32` (src/int/limb.rs L756-758), `wrapping_add_i64` (L871-874),
`wrapping_add_i128` (L1015-1028). -/
def wrappingAddFixI (be : Bool) : (k : Fix) → Limbs w → BitVec k.n → Res (Limbs w)
  | .b32, x, n => wrappingAddILimb be x (n.signExtend w)
  | .b64, x, n =>
    if w = 64 then wrappingOf (Add.sWrappingILimb be x (n.signExtend w))
    else wrappingOf (Add.sWrappingIWide be x (n.signExtend (w + w)))
  | .b128, x, n => do
    assert (w + w == 64 || w + w == 128)
    if w + w = 128 then wrappingAddIWide be x (n.signExtend (w + w))
    else
      let rhs ← i128ToLimbN be x.length n
      wrappingOf (Add.wrappingMn be x rhs)
/-- `overflowing_add_i32` (src/int/limb.rs L1451-1453), `overflowing_add_i64` (L1549-1552),
`overflowing_add_i128` (L1666-1679). -/
def overflowingAddFixI (be : Bool) : (k : Fix) → Limbs w → BitVec k.n → Res (Limbs w × Bool)
  | .b32, x, n => overflowingAddILimb be x (n.signExtend w)
  | .b64, x, n =>
    if w = 64 then overflowingOf (Add.sOverflowingILimb be x (n.signExtend w))
    else overflowingOf (Add.sOverflowingIWide be x (n.signExtend (w + w)))
  | .b128, x, n => do
    assert (w + w == 64 || w + w == 128)
    if w + w = 128 then overflowingAddIWide be x (n.signExtend (w + w))
    else
      let rhs ← i128ToLimbN be x.length n
      overflowingOf (Add.overflowingMn be x rhs)
/-- `checked_add_i32` (src/int/limb.rs L1990-1992), `checked_add_i64` (L2056-2063),
`checked_add_i128` (L2143-2150). -/
def checkedAddFixI (be : Bool) : (k : Fix) → Limbs w → BitVec k.n → Res (Option (Limbs w))
  | .b32, x, n => checkedAddILimb be x (n.signExtend w)
  | .b64, x, n => Pow.checked (overflowingAddFixI be .b64 x n)
  | .b128, x, n => Pow.checked (overflowingAddFixI be .b128 x n)
/-- `add_i32` (src/int/limb.rs L189-198), `add_i64` (L280-289), `add_i128` (L371-380). -/
def addFixI (cf : Cfg) (be : Bool) (k : Fix) (x : Limbs w) (n : BitVec k.n) : Res (Limbs w) :=
  opOf cf (wrappingAddFixI be k x n) (checkedAddFixI be k x n)

/-- `wrapping_sub_u32` (src/int/limb.rs L767-769), `wrapping_sub_u64` (L883-886),
`wrapping_sub_u128` (L1037-1050). -/
def wrappingSubFixU (be : Bool) : (k : Fix) → Limbs w → BitVec k.n → Res (Limbs w)
  | .b32, x, n => wrappingSubULimb be x (n.setWidth w)
  | .b64, x, n =>
    if w = 64 then wrappingOf (Sub.wrappingLimb be x (n.setWidth w))
    else wrappingOf (Sub.sWrappingUWide be x (n.setWidth (w + w)))
  | .b128, x, n => do
    assert (w + w == 64 || w + w == 128)
    if w + w = 128 then wrappingSubUWide be x (n.setWidth (w + w))
    else
      let rhs ← u128ToLimbN be x.length n
      wrappingOf (Sub.wrappingMn be x rhs)
/-- `overflowing_sub_u32` (src/int/limb.rs L1461-1463), `overflowing_sub_u64` (L1560-1563),
`overflowing_sub_u128` (L1687-1700). -/
def overflowingSubFixU (be : Bool) : (k : Fix) → Limbs w → BitVec k.n → Res (Limbs w × Bool)
  | .b32, x, n => overflowingSubULimb be x (n.setWidth w)
  | .b64, x, n =>
    if w = 64 then overflowingOf (Sub.sOverflowingULimb be x (n.setWidth w))
    else overflowingOf (Sub.sOverflowingUWide be x (n.setWidth (w + w)))
  | .b128, x, n => do
    assert (w + w == 64 || w + w == 128)
    if w + w = 128 then overflowingSubUWide be x (n.setWidth (w + w))
    else
      let rhs ← u128ToLimbN be x.length n
      overflowingOf (Sub.overflowingMn be x rhs)
/-- `checked_sub_u32` (src/shared/limb.rs L966-973), `checked_sub_u64` (L1049-1056),
`checked_sub_u128` (L1132-1139). -/
def checkedSubFixU (be : Bool) (k : Fix) (x : Limbs w) (n : BitVec k.n) : Res (Option (Limbs w)) :=
  Pow.checked (overflowingSubFixU be k x n)
/-- `sub_u32` (src/shared/limb.rs L211-220), `sub_u64` (L306-315), `sub_u128` (L401-410). -/
def subFixU (cf : Cfg) (be : Bool) (k : Fix) (x : Limbs w) (n : BitVec k.n) : Res (Limbs w) :=
  opOf cf (wrappingSubFixU be k x n) (checkedSubFixU be k x n)

/-- `wrapping_sub_i32` (src/int/limb.rs L778-780), `wrapping_sub_i64` (L895-898),
`wrapping_sub_i128` (L1059-1072). -/
def wrappingSubFixI (be : Bool) : (k : Fix) → Limbs w → BitVec k.n → Res (Limbs w)
  | .b32, x, n => wrappingSubILimb be x (n.signExtend w)
  | .b64, x, n =>
    if w = 64 then wrappingOf (Sub.sWrappingILimb be x (n.signExtend w))
    else wrappingOf (Sub.sWrappingIWide be x (n.signExtend (w + w)))
  | .b128, x, n => do
    assert (w + w == 64 || w + w == 128)
    if w + w = 128 then wrappingSubIWide be x (n.signExtend (w + w))
    else
      let rhs ← i128ToLimbN be x.length n
      wrappingOf (Sub.wrappingMn be x rhs)
/-- `overflowing_sub_i32` (src/int/limb.rs L1471-1473), `overflowing_sub_i64` (L1571-1574),
`overflowing_sub_i128` (L1708-1721). -/
def overflowingSubFixI (be : Bool) : (k : Fix) → Limbs w → BitVec k.n → Res (Limbs w × Bool)
  | .b32, x, n => overflowingSubILimb be x (n.signExtend w)
  | .b64, x, n =>
    if w = 64 then overflowingOf (Sub.sOverflowingILimb be x (n.signExtend w))
    else overflowingOf (Sub.sOverflowingIWide be x (n.signExtend (w + w)))
  | .b128, x, n => do
    assert (w + w == 64 || w + w == 128)
    if w + w = 128 then overflowingSubIWide be x (n.signExtend (w + w))
    else
      let rhs ← i128ToLimbN be x.length n
      overflowingOf (Sub.overflowingMn be x rhs)
/-- `checked_sub_i32` (src/int/limb.rs L2000-2002), `checked_sub_i64` (L2071-2078),
`checked_sub_i128` (L2158-2165). -/
def checkedSubFixI (be : Bool) : (k : Fix) → Limbs w → BitVec k.n → Res (Option (Limbs w))
  | .b32, x, n => checkedSubILimb be x (n.signExtend w)
  | .b64, x, n => Pow.checked (overflowingSubFixI be .b64 x n)
  | .b128, x, n => Pow.checked (overflowingSubFixI be .b128 x n)
/-- `sub_i32` (src/int/limb.rs L206-215), `sub_i64` (L297-306), `sub_i128` (L388-397). -/
def subFixI (cf : Cfg) (be : Bool) (k : Fix) (x : Limbs w) (n : BitVec k.n) : Res (Limbs w) :=
  opOf cf (wrappingSubFixI be k x n) (checkedSubFixI be k x n)

/-- `wrapping_mul_u32` (src/int/limb.rs L788-790), `wrapping_mul_u64` (L906-909),
`wrapping_mul_u128` (L1080-1093). -/
def wrappingMulFixU (be : Bool) : (k : Fix) → Limbs w → BitVec k.n → Res (Limbs w)
  | .b32, x, n => wrappingMulULimb be x (n.setWidth w)
  | .b64, x, n =>
    if w = 64 then wrappingOf (Mul.wrappingLimb be x (n.setWidth w))
    else wrappingOf (Mul.wrappingWide be x (n.setWidth (w + w)))
  | .b128, x, n => do
    assert (w + w == 64 || w + w == 128)
    if w + w = 128 then wrappingMulUWide be x (n.setWidth (w + w))
    else
      let rhs ← u128ToLimbN be x.length n
      wrappingOf (Mul.wrappingFull be x rhs)
/-- `overflowing_mul_u32` (src/int/limb.rs L1481-1483), `overflowing_mul_u64` (L1582-1585),
`overflowing_mul_u128` (L1729-1742). -/
def overflowingMulFixU (be : Bool) : (k : Fix) → Limbs w → BitVec k.n → Res (Limbs w × Bool)
  | .b32, x, n => overflowingMulULimb be x (n.setWidth w)
  | .b64, x, n =>
    if w = 64 then overflowingOf (Mul.overflowingULimbS be x (n.setWidth w))
    else overflowingOf (Mul.overflowingUWideS be x (n.setWidth (w + w)))
  | .b128, x, n => do
    assert (w + w == 64 || w + w == 128)
    if w + w = 128 then overflowingMulUWide be x (n.setWidth (w + w))
    else
      let rhs ← u128ToLimbN be x.length n
      overflowingOf (Mul.overflowingFullS be x rhs)
/-- `checked_mul_u32` (src/shared/limb.rs L981-988), `checked_mul_u64` (L1064-1071),
`checked_mul_u128` (L1147-1154). -/
def checkedMulFixU (be : Bool) (k : Fix) (x : Limbs w) (n : BitVec k.n) : Res (Option (Limbs w)) :=
  Pow.checked (overflowingMulFixU be k x n)
/-- `mul_u32` (src/shared/limb.rs L228-237), `mul_u64` (L323-332), `mul_u128` (L418-427). -/
def mulFixU (cf : Cfg) (be : Bool) (k : Fix) (x : Limbs w) (n : BitVec k.n) : Res (Limbs w) :=
  opOf cf (wrappingMulFixU be k x n) (checkedMulFixU be k x n)

/-- `wrapping_mul_i32` (src/int/limb.rs L798-800), `wrapping_mul_i64` (L917-920),
`wrapping_mul_i128` (L1101-1114). -/
def wrappingMulFixI (be : Bool) : (k : Fix) → Limbs w → BitVec k.n → Res (Limbs w)
  | .b32, x, n => wrappingMulILimb be x (n.signExtend w)
  | .b64, x, n =>
    if w = 64 then wrappingOf (Mul.wrappingILimb be x (n.signExtend w))
    else wrappingOf (Mul.wrappingIWide be x (n.signExtend (w + w)))
  | .b128, x, n => do
    assert (w + w == 64 || w + w == 128)
    if w + w = 128 then wrappingMulIWide be x (n.signExtend (w + w))
    else
      let rhs ← i128ToLimbN be x.length n
      wrappingOf (Mul.wrappingFull be x rhs)
/-- `overflowing_mul_i32` (src/int/limb.rs L1491-1493), `overflowing_mul_i64` (L1593-1596),
`overflowing_mul_i128` (L1750-1763). -/
def overflowingMulFixI (be : Bool) : (k : Fix) → Limbs w → BitVec k.n → Res (Limbs w × Bool)
  | .b32, x, n => overflowingMulILimb be x (n.signExtend w)
  | .b64, x, n =>
    if w = 64 then overflowingOf (Mul.overflowingILimbS be x (n.signExtend w))
    else overflowingOf (Mul.overflowingIWideS be x (n.signExtend (w + w)))
  | .b128, x, n => do
    assert (w + w == 64 || w + w == 128)
    if w + w = 128 then overflowingMulIWide be x (n.signExtend (w + w))
    else
      let rhs ← i128ToLimbN be x.length n
      overflowingOf (Mul.overflowingFullS be x rhs)
/-- `checked_mul_i32` (src/int/limb.rs L2010-2012), `checked_mul_i64` (L2086-2093),
`checked_mul_i128` (L2173-2180). -/
def checkedMulFixI (be : Bool) : (k : Fix) → Limbs w → BitVec k.n → Res (Option (Limbs w))
  | .b32, x, n => checkedMulILimb be x (n.signExtend w)
  | .b64, x, n => Pow.checked (overflowingMulFixI be .b64 x n)
  | .b128, x, n => Pow.checked (overflowingMulFixI be .b128 x n)
/-- `mul_i32` (src/int/limb.rs L223-232), `mul_i64` (L314-323), `mul_i128` (L405-414). -/
def mulFixI (cf : Cfg) (be : Bool) (k : Fix) (x : Limbs w) (n : BitVec k.n) : Res (Limbs w) :=
  opOf cf (wrappingMulFixI be k x n) (checkedMulFixI be k x n)

end I

end Raw

end I256
