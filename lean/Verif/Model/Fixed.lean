import Verif.Model.MulApi
import Verif.Model.DivScalar

/-!
# Arithmetic with fixed-width native scalars (feature `stdint`)

`u32`, `u64`, `u128` and, for the signed types, `i32`, `i64`, `i128`.  The code dispatches at compile
time on the limb size `w` (32 or 64): `limb_function!` (src/util.rs L51-85) and the tests of
`ULimb::BITS`/`UWide::BITS`.  The model makes the same choice with `if w = 64`.  `n as ULimb` and
`n as UWide` are `setWidth`, `n as ILimb` and `n as IWide` are `signExtend`.  All results are `Res`
because some of the kernels contain assertions.
-/

namespace I256

variable {w : Nat}

/-- The sizes of the scalar types of this section. -/
inductive Fix
  | b32 | b64 | b128
  deriving DecidableEq, Repr

/-- The number of bits of the scalar type. -/
abbrev Fix.n : Fix → Nat
  | .b32 => 32 | .b64 => 64 | .b128 => 128

/-- `u128_to_limb`, src/util.rs L101-107 (32-bit limbs): the bytes in native order are read as native
limbs, which gives the four limbs in order on either byte order. -/
def u128ToLimb (n : BitVec 128) : Limbs w :=
  [n.setWidth w, (n >>> 32).setWidth w, (n >>> 64).setWidth w, (n >>> 96).setWidth w]
/-- `u128_to_limb_n`, src/util.rs L124-136 (32-bit limbs): limbs 1 and 3 are taken from the wrong
positions; `assert!(N > 4)`. -/
def u128ToLimbN (N : Nat) (n : BitVec 128) : Res (Limbs w) :=
  if N > 4 then
    .ok (n.setWidth w :: (n >>> 96).setWidth w :: (n >>> 64).setWidth w :: (n >>> 32).setWidth w ::
      List.replicate (N - 4) 0)
  else .panic
/-- `i128_to_limb_n`, src/util.rs L152-166 (32-bit limbs), with the same limb order. -/
def i128ToLimbN (N : Nat) (n : BitVec 128) : Res (Limbs w) :=
  if N > 4 then
    .ok (n.setWidth w :: (n >>> 96).setWidth w :: (n >>> 64).setWidth w :: (n >>> 32).setWidth w ::
      List.replicate (N - 4) (signLimb w (n.slt 0)))
  else .panic

/-- `match self.checked_..(n) { Some(v) => v, None => panic }` or the wrapping form, as in
src/shared/limb.rs L194-203, for functions that may panic. -/
abbrev fixOp {α : Type} (oc : Bool) (wrapping : Res α) (checked : Res (Option α)) : Res α :=
  opOfR oc wrapping checked

namespace U

/-- `wrapping_add_u32` (src/uint/limb.rs L189-191), `wrapping_add_u64` (L238-241),
`wrapping_add_u128` (L297-309). -/
def wrappingAddFix : (k : Fix) → Limbs w → BitVec k.n → Res (Limbs w)
  | .b32, x, n => .ok (wrappingAddULimb x (n.setWidth w))
  | .b64, x, n =>
    if w = 64 then .ok (Add.wrappingLimb x (n.setWidth w))
    else Add.wrappingWide x (n.setWidth (w + w))
  | .b128, x, n =>
    if w = 64 then wrappingAddUWide x (n.setWidth (w + w))
    else Add.wrappingMn x (u128ToLimb n)
/-- `overflowing_add_u32` (src/uint/limb.rs L507-509), `overflowing_add_u64` (L542-545),
`overflowing_add_u128` (L580-592). -/
def overflowingAddFix : (k : Fix) → Limbs w → BitVec k.n → Res (Limbs w × Bool)
  | .b32, x, n => .ok (overflowingAddULimb x (n.setWidth w))
  | .b64, x, n =>
    if w = 64 then .ok (Add.overflowingLimb x (n.setWidth w))
    else Add.overflowingWide x (n.setWidth (w + w))
  | .b128, x, n =>
    if w = 64 then overflowingAddUWide x (n.setWidth (w + w))
    else Add.overflowingMn x (u128ToLimb n)
/-- `checked_add_u32` (src/shared/limb.rs L951-958), `checked_add_u64` (L1034-1041),
`checked_add_u128` (L1117-1124). -/
def checkedAddFix (k : Fix) (x : Limbs w) (n : BitVec k.n) : Res (Option (Limbs w)) :=
  (overflowingAddFix k x n).map mkChecked
/-- `add_u32` (src/shared/limb.rs L194-203), `add_u64` (L289-298), `add_u128` (L384-393). -/
def addFix (oc : Bool) (k : Fix) (x : Limbs w) (n : BitVec k.n) : Res (Limbs w) :=
  fixOp oc (wrappingAddFix k x n) (checkedAddFix k x n)

/-- `wrapping_sub_u32` (src/uint/limb.rs L200-202), `wrapping_sub_u64` (L250-253),
`wrapping_sub_u128` (L318-330). -/
def wrappingSubFix : (k : Fix) → Limbs w → BitVec k.n → Res (Limbs w)
  | .b32, x, n => .ok (wrappingSubULimb x (n.setWidth w))
  | .b64, x, n =>
    if w = 64 then .ok (Sub.wrappingLimb x (n.setWidth w))
    else Sub.wrappingWide x (n.setWidth (w + w))
  | .b128, x, n =>
    if w = 64 then wrappingSubUWide x (n.setWidth (w + w))
    else Sub.wrappingMn x (u128ToLimb n)
/-- `overflowing_sub_u32` (src/uint/limb.rs L518-520), `overflowing_sub_u64` (L554-557),
`overflowing_sub_u128` (L601-613). -/
def overflowingSubFix : (k : Fix) → Limbs w → BitVec k.n → Res (Limbs w × Bool)
  | .b32, x, n => .ok (overflowingSubULimb x (n.setWidth w))
  | .b64, x, n =>
    if w = 64 then .ok (Sub.overflowingLimb x (n.setWidth w))
    else Sub.overflowingWide x (n.setWidth (w + w))
  | .b128, x, n =>
    if w = 64 then overflowingSubUWide x (n.setWidth (w + w))
    else Sub.overflowingMn x (u128ToLimb n)
/-- `checked_sub_u32` (src/shared/limb.rs L966-973), `checked_sub_u64` (L1049-1056),
`checked_sub_u128` (L1132-1139). -/
def checkedSubFix (k : Fix) (x : Limbs w) (n : BitVec k.n) : Res (Option (Limbs w)) :=
  (overflowingSubFix k x n).map mkChecked
/-- `sub_u32` (src/shared/limb.rs L211-220), `sub_u64` (L306-315), `sub_u128` (L401-410). -/
def subFix (oc : Bool) (k : Fix) (x : Limbs w) (n : BitVec k.n) : Res (Limbs w) :=
  fixOp oc (wrappingSubFix k x n) (checkedSubFix k x n)

/-- `wrapping_mul_u32` (src/uint/limb.rs L211-213), `wrapping_mul_u64` (L262-265),
`wrapping_mul_u128` (L339-351). -/
def wrappingMulFix : (k : Fix) → Limbs w → BitVec k.n → Res (Limbs w)
  | .b32, x, n => .ok (wrappingMulULimb x (n.setWidth w))
  | .b64, x, n =>
    if w = 64 then .ok (Mul.wrappingLimb x (n.setWidth w))
    else .ok (Mul.wrappingWide x (n.setWidth (w + w)))
  | .b128, x, n =>
    if w = 64 then .ok (wrappingMulUWide x (n.setWidth (w + w)))
    else .ok (Mul.wrappingFull x (u128ToLimb n))
/-- `overflowing_mul_u32` (src/uint/limb.rs L529-531), `overflowing_mul_u64` (L566-569),
`overflowing_mul_u128` (L622-634). -/
def overflowingMulFix : (k : Fix) → Limbs w → BitVec k.n → Res (Limbs w × Bool)
  | .b32, x, n => .ok (overflowingMulULimb x (n.setWidth w))
  | .b64, x, n =>
    if w = 64 then .ok (Mul.overflowingLimb x (n.setWidth w))
    else .ok (Mul.overflowingWide x (n.setWidth (w + w)))
  | .b128, x, n =>
    if w = 64 then .ok (overflowingMulUWide x (n.setWidth (w + w)))
    else .ok (Mul.overflowingFull x (u128ToLimb n))
/-- `checked_mul_u32` (src/shared/limb.rs L981-988), `checked_mul_u64` (L1064-1071),
`checked_mul_u128` (L1147-1154). -/
def checkedMulFix (k : Fix) (x : Limbs w) (n : BitVec k.n) : Res (Option (Limbs w)) :=
  (overflowingMulFix k x n).map mkChecked
/-- `mul_u32` (src/shared/limb.rs L228-237), `mul_u64` (L323-332), `mul_u128` (L418-427). -/
def mulFix (oc : Bool) (k : Fix) (x : Limbs w) (n : BitVec k.n) : Res (Limbs w) :=
  fixOp oc (wrappingMulFix k x n) (checkedMulFix k x n)

/-- `wrapping_div_rem_u32` (src/uint/limb.rs L224-227), `wrapping_div_rem_u64` (L276-286),
`wrapping_div_rem_u128` (L362-374). -/
def wrappingDivRemFix : (k : Fix) → Limbs w → BitVec k.n → Res (Limbs w × BitVec k.n)
  | .b32, x, n => (wrappingDivRemULimb x (n.setWidth w)).map fun (q, r) => (q, r.setWidth 32)
  | .b64, x, n =>
    if w = 32 then
      (wrappingDivRemUWide x (n.setWidth (w + w))).map fun (q, r) => (q, r.setWidth 64)
    else (wrappingDivRemULimb x (n.setWidth w)).map fun (q, r) => (q, r.setWidth 64)
  | .b128, x, n =>
    if w = 64 then
      (wrappingDivRemUWide x (n.setWidth (w + w))).map fun (q, r) => (q, r.setWidth 128)
    else Div.fromU128 x n
/-- `checked_div_rem_u32` (src/shared/limb.rs L996-1002), `checked_div_rem_u64` (L1079-1085),
`checked_div_rem_u128` (L1162-1168). -/
def checkedDivRemFix (k : Fix) (x : Limbs w) (n : BitVec k.n) :
    Res (Option (Limbs w × BitVec k.n)) :=
  checkedBy (isZeroScalar n) (wrappingDivRemFix k x n)
/-- `div_rem_u32` (src/shared/limb.rs L250-259), `div_rem_u64` (L345-354), `div_rem_u128`
(L440-449). -/
def divRemFix (oc : Bool) (k : Fix) (x : Limbs w) (n : BitVec k.n) :
    Res (Limbs w × BitVec k.n) :=
  fixOp oc (wrappingDivRemFix k x n) (checkedDivRemFix k x n)
/-- `overflowing_div_rem_u32` (src/shared/limb.rs L677-679), `overflowing_div_rem_u64` (L716-718),
`overflowing_div_rem_u128` (L755-757). -/
def overflowingDivRemFix (k : Fix) (x : Limbs w) (n : BitVec k.n) :
    Res ((Limbs w × BitVec k.n) × Bool) := (wrappingDivRemFix k x n).map (·, false)
/-- `div_u32` (src/shared/limb.rs L267-269), `div_u64` (L362-364), `div_u128` (L457-459). -/
def divFix (oc : Bool) (k : Fix) (x : Limbs w) (n : BitVec k.n) : Res (Limbs w) :=
  (divRemFix oc k x n).map (·.1)
/-- `wrapping_div_u32` (src/shared/limb.rs L529-531), `wrapping_div_u64` (L553-555),
`wrapping_div_u128` (L577-579). -/
def wrappingDivFix (k : Fix) (x : Limbs w) (n : BitVec k.n) : Res (Limbs w) :=
  (wrappingDivRemFix k x n).map (·.1)
/-- `overflowing_div_u32` (src/shared/limb.rs L689-692), `overflowing_div_u64` (L728-731),
`overflowing_div_u128` (L767-770). -/
def overflowingDivFix (k : Fix) (x : Limbs w) (n : BitVec k.n) : Res (Limbs w × Bool) :=
  (overflowingDivRemFix k x n).map fun (value, overflowed) => (value.1, overflowed)
/-- `checked_div_u32` (src/shared/limb.rs L1011-1013), `checked_div_u64` (L1094-1096),
`checked_div_u128` (L1177-1179). -/
def checkedDivFix (k : Fix) (x : Limbs w) (n : BitVec k.n) : Res (Option (Limbs w)) :=
  (checkedDivRemFix k x n).map fun o => o.map (·.1)
/-- `rem_u32` (src/shared/limb.rs L277-279), `rem_u64` (L372-374), `rem_u128` (L467-469). -/
def remFix (oc : Bool) (k : Fix) (x : Limbs w) (n : BitVec k.n) : Res (BitVec k.n) :=
  (divRemFix oc k x n).map (·.2)
/-- `wrapping_rem_u32` (src/shared/limb.rs L540-542), `wrapping_rem_u64` (L564-566),
`wrapping_rem_u128` (L588-590). -/
def wrappingRemFix (k : Fix) (x : Limbs w) (n : BitVec k.n) : Res (BitVec k.n) :=
  (wrappingDivRemFix k x n).map (·.2)
/-- `overflowing_rem_u32` (src/shared/limb.rs L702-705), `overflowing_rem_u64` (L741-744),
`overflowing_rem_u128` (L780-783). -/
def overflowingRemFix (k : Fix) (x : Limbs w) (n : BitVec k.n) : Res (BitVec k.n × Bool) :=
  (overflowingDivRemFix k x n).map fun (value, overflowed) => (value.2, overflowed)
/-- `checked_rem_u32` (src/shared/limb.rs L1022-1024), `checked_rem_u64` (L1105-1107),
`checked_rem_u128` (L1188-1190). -/
def checkedRemFix (k : Fix) (x : Limbs w) (n : BitVec k.n) : Res (Option (BitVec k.n)) :=
  (checkedDivRemFix k x n).map fun o => o.map (·.2)

end U

namespace I

/-- `wrapping_add_u32` (src/int/limb.rs L746-748), `wrapping_add_u64` (L860-863),
`wrapping_add_u128` (L994-1007). -/
def wrappingAddFixU : (k : Fix) → Limbs w → BitVec k.n → Res (Limbs w)
  | .b32, x, n => .ok (wrappingAddULimb x (n.setWidth w))
  | .b64, x, n =>
    if w = 64 then .ok (Add.wrappingLimb x (n.setWidth w))
    else .ok (Add.sWrappingUWide x (n.setWidth (w + w)))
  | .b128, x, n =>
    if w = 64 then .ok (wrappingAddUWide x (n.setWidth (w + w)))
    else (u128ToLimbN x.length n).bind (Add.wrappingMn x)
/-- `overflowing_add_u32` (src/int/limb.rs L1441-1443), `overflowing_add_u64` (L1538-1541),
`overflowing_add_u128` (L1645-1658). -/
def overflowingAddFixU : (k : Fix) → Limbs w → BitVec k.n → Res (Limbs w × Bool)
  | .b32, x, n => .ok (overflowingAddULimb x (n.setWidth w))
  | .b64, x, n =>
    if w = 64 then .ok (Add.sOverflowingULimb x (n.setWidth w))
    else .ok (Add.sOverflowingUWide x (n.setWidth (w + w)))
  | .b128, x, n =>
    if w = 64 then .ok (overflowingAddUWide x (n.setWidth (w + w)))
    else (u128ToLimbN x.length n).bind (Add.overflowingMn x)
/-- `checked_add_u32` (src/shared/limb.rs L951-958), `checked_add_u64` (L1034-1041),
`checked_add_u128` (L1117-1124). -/
def checkedAddFixU (k : Fix) (x : Limbs w) (n : BitVec k.n) : Res (Option (Limbs w)) :=
  (overflowingAddFixU k x n).map mkChecked
/-- `add_u32` (src/shared/limb.rs L194-203), `add_u64` (L289-298), `add_u128` (L384-393). -/
def addFixU (oc : Bool) (k : Fix) (x : Limbs w) (n : BitVec k.n) : Res (Limbs w) :=
  fixOp oc (wrappingAddFixU k x n) (checkedAddFixU k x n)
/-- `wrapping_add_i32` (src/int/limb.rs L756-758), `wrapping_add_i64` (L871-874),
`wrapping_add_i128` (L1015-1028). -/
def wrappingAddFixI : (k : Fix) → Limbs w → BitVec k.n → Res (Limbs w)
  | .b32, x, n => .ok (wrappingAddILimb x (n.signExtend w))
  | .b64, x, n =>
    if w = 64 then .ok (Add.sWrappingILimb x (n.signExtend w))
    else .ok (Add.sWrappingIWide x (n.signExtend (w + w)))
  | .b128, x, n =>
    if w = 64 then .ok (wrappingAddIWide x (n.signExtend (w + w)))
    else (i128ToLimbN x.length n).bind (Add.wrappingMn x)
/-- `overflowing_add_i32` (src/int/limb.rs L1451-1453), `overflowing_add_i64` (L1549-1552),
`overflowing_add_i128` (L1666-1679). -/
def overflowingAddFixI : (k : Fix) → Limbs w → BitVec k.n → Res (Limbs w × Bool)
  | .b32, x, n => .ok (overflowingAddILimb x (n.signExtend w))
  | .b64, x, n =>
    if w = 64 then .ok (Add.sOverflowingILimb x (n.signExtend w))
    else .ok (Add.sOverflowingIWide x (n.signExtend (w + w)))
  | .b128, x, n =>
    if w = 64 then .ok (overflowingAddIWide x (n.signExtend (w + w)))
    else (i128ToLimbN x.length n).bind (Add.overflowingMn x)
/-- `checked_add_i32` (src/int/limb.rs L1990-1992), `checked_add_i64` (L2056-2063),
`checked_add_i128` (L2143-2150). -/
def checkedAddFixI : (k : Fix) → Limbs w → BitVec k.n → Res (Option (Limbs w))
  | .b32, x, n => .ok (checkedAddILimb x (n.signExtend w))
  | .b64, x, n => (overflowingAddFixI .b64 x n).map mkChecked
  | .b128, x, n => (overflowingAddFixI .b128 x n).map mkChecked
/-- `add_i32` (src/int/limb.rs L189-198), `add_i64` (L280-289), `add_i128` (L371-380). -/
def addFixI (oc : Bool) (k : Fix) (x : Limbs w) (n : BitVec k.n) : Res (Limbs w) :=
  fixOp oc (wrappingAddFixI k x n) (checkedAddFixI k x n)

/-- `wrapping_sub_u32` (src/int/limb.rs L767-769), `wrapping_sub_u64` (L883-886),
`wrapping_sub_u128` (L1037-1050). -/
def wrappingSubFixU : (k : Fix) → Limbs w → BitVec k.n → Res (Limbs w)
  | .b32, x, n => .ok (wrappingSubULimb x (n.setWidth w))
  | .b64, x, n =>
    if w = 64 then .ok (Sub.wrappingLimb x (n.setWidth w))
    else .ok (Sub.sWrappingUWide x (n.setWidth (w + w)))
  | .b128, x, n =>
    if w = 64 then .ok (wrappingSubUWide x (n.setWidth (w + w)))
    else (u128ToLimbN x.length n).bind (Sub.wrappingMn x)
/-- `overflowing_sub_u32` (src/int/limb.rs L1461-1463), `overflowing_sub_u64` (L1560-1563),
`overflowing_sub_u128` (L1687-1700). -/
def overflowingSubFixU : (k : Fix) → Limbs w → BitVec k.n → Res (Limbs w × Bool)
  | .b32, x, n => .ok (overflowingSubULimb x (n.setWidth w))
  | .b64, x, n =>
    if w = 64 then .ok (Sub.sOverflowingULimb x (n.setWidth w))
    else .ok (Sub.sOverflowingUWide x (n.setWidth (w + w)))
  | .b128, x, n =>
    if w = 64 then .ok (overflowingSubUWide x (n.setWidth (w + w)))
    else (u128ToLimbN x.length n).bind (Sub.overflowingMn x)
/-- `checked_sub_u32` (src/shared/limb.rs L966-973), `checked_sub_u64` (L1049-1056),
`checked_sub_u128` (L1132-1139). -/
def checkedSubFixU (k : Fix) (x : Limbs w) (n : BitVec k.n) : Res (Option (Limbs w)) :=
  (overflowingSubFixU k x n).map mkChecked
/-- `sub_u32` (src/shared/limb.rs L211-220), `sub_u64` (L306-315), `sub_u128` (L401-410). -/
def subFixU (oc : Bool) (k : Fix) (x : Limbs w) (n : BitVec k.n) : Res (Limbs w) :=
  fixOp oc (wrappingSubFixU k x n) (checkedSubFixU k x n)
/-- `wrapping_sub_i32` (src/int/limb.rs L778-780), `wrapping_sub_i64` (L895-898),
`wrapping_sub_i128` (L1059-1072). -/
def wrappingSubFixI : (k : Fix) → Limbs w → BitVec k.n → Res (Limbs w)
  | .b32, x, n => .ok (wrappingSubILimb x (n.signExtend w))
  | .b64, x, n =>
    if w = 64 then .ok (Sub.sWrappingILimb x (n.signExtend w))
    else .ok (Sub.sWrappingIWide x (n.signExtend (w + w)))
  | .b128, x, n =>
    if w = 64 then .ok (wrappingSubIWide x (n.signExtend (w + w)))
    else (i128ToLimbN x.length n).bind (Sub.wrappingMn x)
/-- `overflowing_sub_i32` (src/int/limb.rs L1471-1473), `overflowing_sub_i64` (L1571-1574),
`overflowing_sub_i128` (L1708-1721). -/
def overflowingSubFixI : (k : Fix) → Limbs w → BitVec k.n → Res (Limbs w × Bool)
  | .b32, x, n => .ok (overflowingSubILimb x (n.signExtend w))
  | .b64, x, n =>
    if w = 64 then .ok (Sub.sOverflowingILimb x (n.signExtend w))
    else .ok (Sub.sOverflowingIWide x (n.signExtend (w + w)))
  | .b128, x, n =>
    if w = 64 then .ok (overflowingSubIWide x (n.signExtend (w + w)))
    else (i128ToLimbN x.length n).bind (Sub.overflowingMn x)
/-- `checked_sub_i32` (src/int/limb.rs L2000-2002), `checked_sub_i64` (L2071-2078),
`checked_sub_i128` (L2158-2165). -/
def checkedSubFixI : (k : Fix) → Limbs w → BitVec k.n → Res (Option (Limbs w))
  | .b32, x, n => .ok (checkedSubILimb x (n.signExtend w))
  | .b64, x, n => (overflowingSubFixI .b64 x n).map mkChecked
  | .b128, x, n => (overflowingSubFixI .b128 x n).map mkChecked
/-- `sub_i32` (src/int/limb.rs L206-215), `sub_i64` (L297-306), `sub_i128` (L388-397). -/
def subFixI (oc : Bool) (k : Fix) (x : Limbs w) (n : BitVec k.n) : Res (Limbs w) :=
  fixOp oc (wrappingSubFixI k x n) (checkedSubFixI k x n)

/-- `wrapping_mul_u32` (src/int/limb.rs L788-790), `wrapping_mul_u64` (L906-909),
`wrapping_mul_u128` (L1080-1093). -/
def wrappingMulFixU : (k : Fix) → Limbs w → BitVec k.n → Res (Limbs w)
  | .b32, x, n => .ok (wrappingMulULimb x (n.setWidth w))
  | .b64, x, n =>
    if w = 64 then .ok (Mul.wrappingLimb x (n.setWidth w))
    else .ok (Mul.wrappingWide x (n.setWidth (w + w)))
  | .b128, x, n =>
    if w = 64 then .ok (wrappingMulUWide x (n.setWidth (w + w)))
    else (u128ToLimbN x.length n).map (Mul.wrappingFull x)
/-- `overflowing_mul_u32` (src/int/limb.rs L1481-1483), `overflowing_mul_u64` (L1582-1585),
`overflowing_mul_u128` (L1729-1742). -/
def overflowingMulFixU : (k : Fix) → Limbs w → BitVec k.n → Res (Limbs w × Bool)
  | .b32, x, n => .ok (overflowingMulULimb x (n.setWidth w))
  | .b64, x, n =>
    if w = 64 then .ok (Mul.overflowingULimbS x (n.setWidth w))
    else .ok (Mul.overflowingUWideS x (n.setWidth (w + w)))
  | .b128, x, n =>
    if w = 64 then .ok (overflowingMulUWide x (n.setWidth (w + w)))
    else (u128ToLimbN x.length n).map (Mul.overflowingFullS x)
/-- `checked_mul_u32` (src/shared/limb.rs L981-988), `checked_mul_u64` (L1064-1071),
`checked_mul_u128` (L1147-1154). -/
def checkedMulFixU (k : Fix) (x : Limbs w) (n : BitVec k.n) : Res (Option (Limbs w)) :=
  (overflowingMulFixU k x n).map mkChecked
/-- `mul_u32` (src/shared/limb.rs L228-237), `mul_u64` (L323-332), `mul_u128` (L418-427). -/
def mulFixU (oc : Bool) (k : Fix) (x : Limbs w) (n : BitVec k.n) : Res (Limbs w) :=
  fixOp oc (wrappingMulFixU k x n) (checkedMulFixU k x n)
/-- `wrapping_mul_i32` (src/int/limb.rs L798-800), `wrapping_mul_i64` (L917-920),
`wrapping_mul_i128` (L1101-1114). -/
def wrappingMulFixI : (k : Fix) → Limbs w → BitVec k.n → Res (Limbs w)
  | .b32, x, n => .ok (wrappingMulILimb x (n.signExtend w))
  | .b64, x, n =>
    if w = 64 then .ok (Mul.wrappingILimb x (n.signExtend w))
    else .ok (Mul.wrappingIWide x (n.signExtend (w + w)))
  | .b128, x, n =>
    if w = 64 then .ok (wrappingMulIWide x (n.signExtend (w + w)))
    else (i128ToLimbN x.length n).map (Mul.wrappingFull x)
/-- `overflowing_mul_i32` (src/int/limb.rs L1491-1493), `overflowing_mul_i64` (L1593-1596),
`overflowing_mul_i128` (L1750-1763). -/
def overflowingMulFixI : (k : Fix) → Limbs w → BitVec k.n → Res (Limbs w × Bool)
  | .b32, x, n => .ok (overflowingMulILimb x (n.signExtend w))
  | .b64, x, n =>
    if w = 64 then .ok (Mul.overflowingILimbS x (n.signExtend w))
    else .ok (Mul.overflowingIWideS x (n.signExtend (w + w)))
  | .b128, x, n =>
    if w = 64 then .ok (overflowingMulIWide x (n.signExtend (w + w)))
    else (i128ToLimbN x.length n).map (Mul.overflowingFullS x)
/-- `checked_mul_i32` (src/int/limb.rs L2010-2012), `checked_mul_i64` (L2086-2093),
`checked_mul_i128` (L2173-2180). -/
def checkedMulFixI : (k : Fix) → Limbs w → BitVec k.n → Res (Option (Limbs w))
  | .b32, x, n => .ok (checkedMulILimb x (n.signExtend w))
  | .b64, x, n => (overflowingMulFixI .b64 x n).map mkChecked
  | .b128, x, n => (overflowingMulFixI .b128 x n).map mkChecked
/-- `mul_i32` (src/int/limb.rs L223-232), `mul_i64` (L314-323), `mul_i128` (L405-414). -/
def mulFixI (oc : Bool) (k : Fix) (x : Limbs w) (n : BitVec k.n) : Res (Limbs w) :=
  fixOp oc (wrappingMulFixI k x n) (checkedMulFixI k x n)

/-- `wrapping_div_rem_u32` (src/int/limb.rs L812-815), `wrapping_div_rem_u64` (L932-942),
`wrapping_div_rem_u128` (L1126-1146); the 128-bit form on 32-bit limbs repeats the text of
`wrapping_div_rem_uwide`. -/
def wrappingDivRemFixU (oc : Bool) : (k : Fix) → Limbs w → BitVec k.n → Res (Limbs w × BitVec k.n)
  | .b32, x, n => (wrappingDivRemULimb oc x (n.setWidth w)).map fun (q, r) => (q, r.setWidth 32)
  | .b64, x, n =>
    if w = 32 then
      (wrappingDivRemUWide oc x (n.setWidth (w + w))).map fun (q, r) => (q, r.setWidth 64)
    else (wrappingDivRemULimb oc x (n.setWidth w)).map fun (q, r) => (q, r.setWidth 64)
  | .b128, x, n =>
    if w = 64 then
      (wrappingDivRemUWide oc x (n.setWidth (w + w))).map fun (q, r) => (q, r.setWidth 128)
    else divRemUnsigned oc x n (Div.fromU128 (unsignedAbs x) n)
/-- `checked_div_rem_u32` (src/shared/limb.rs L996-1002), `checked_div_rem_u64` (L1079-1085),
`checked_div_rem_u128` (L1162-1168). -/
def checkedDivRemFixU (oc : Bool) (k : Fix) (x : Limbs w) (n : BitVec k.n) :
    Res (Option (Limbs w × BitVec k.n)) :=
  checkedBy (isZeroScalar n) (wrappingDivRemFixU oc k x n)
/-- `div_rem_u32` (src/shared/limb.rs L250-259), `div_rem_u64` (L345-354), `div_rem_u128`
(L440-449). -/
def divRemFixU (oc : Bool) (k : Fix) (x : Limbs w) (n : BitVec k.n) :
    Res (Limbs w × BitVec k.n) :=
  fixOp oc (wrappingDivRemFixU oc k x n) (checkedDivRemFixU oc k x n)
/-- `overflowing_div_rem_u32` (src/shared/limb.rs L677-679), `overflowing_div_rem_u64` (L716-718),
`overflowing_div_rem_u128` (L755-757). -/
def overflowingDivRemFixU (oc : Bool) (k : Fix) (x : Limbs w) (n : BitVec k.n) :
    Res ((Limbs w × BitVec k.n) × Bool) := (wrappingDivRemFixU oc k x n).map (·, false)
/-- `div_u32` (src/shared/limb.rs L267-269), `div_u64` (L362-364), `div_u128` (L457-459). -/
def divFixU (oc : Bool) (k : Fix) (x : Limbs w) (n : BitVec k.n) : Res (Limbs w) :=
  (divRemFixU oc k x n).map (·.1)
/-- `wrapping_div_u32` (src/shared/limb.rs L529-531), `wrapping_div_u64` (L553-555),
`wrapping_div_u128` (L577-579). -/
def wrappingDivFixU (oc : Bool) (k : Fix) (x : Limbs w) (n : BitVec k.n) : Res (Limbs w) :=
  (wrappingDivRemFixU oc k x n).map (·.1)
/-- `overflowing_div_u32` (src/shared/limb.rs L689-692), `overflowing_div_u64` (L728-731),
`overflowing_div_u128` (L767-770). -/
def overflowingDivFixU (oc : Bool) (k : Fix) (x : Limbs w) (n : BitVec k.n) : Res (Limbs w × Bool) :=
  (overflowingDivRemFixU oc k x n).map fun (value, overflowed) => (value.1, overflowed)
/-- `checked_div_u32` (src/shared/limb.rs L1011-1013), `checked_div_u64` (L1094-1096),
`checked_div_u128` (L1177-1179). -/
def checkedDivFixU (oc : Bool) (k : Fix) (x : Limbs w) (n : BitVec k.n) : Res (Option (Limbs w)) :=
  (checkedDivRemFixU oc k x n).map fun o => o.map (·.1)
/-- `rem_u32` (src/shared/limb.rs L277-279), `rem_u64` (L372-374), `rem_u128` (L467-469). -/
def remFixU (oc : Bool) (k : Fix) (x : Limbs w) (n : BitVec k.n) : Res (BitVec k.n) :=
  (divRemFixU oc k x n).map (·.2)
/-- `wrapping_rem_u32` (src/shared/limb.rs L540-542), `wrapping_rem_u64` (L564-566),
`wrapping_rem_u128` (L588-590). -/
def wrappingRemFixU (oc : Bool) (k : Fix) (x : Limbs w) (n : BitVec k.n) : Res (BitVec k.n) :=
  (wrappingDivRemFixU oc k x n).map (·.2)
/-- `overflowing_rem_u32` (src/shared/limb.rs L702-705), `overflowing_rem_u64` (L741-744),
`overflowing_rem_u128` (L780-783). -/
def overflowingRemFixU (oc : Bool) (k : Fix) (x : Limbs w) (n : BitVec k.n) : Res (BitVec k.n × Bool) :=
  (overflowingDivRemFixU oc k x n).map fun (value, overflowed) => (value.2, overflowed)
/-- `checked_rem_u32` (src/shared/limb.rs L1022-1024), `checked_rem_u64` (L1105-1107),
`checked_rem_u128` (L1188-1190). -/
def checkedRemFixU (oc : Bool) (k : Fix) (x : Limbs w) (n : BitVec k.n) : Res (Option (BitVec k.n)) :=
  (checkedDivRemFixU oc k x n).map fun o => o.map (·.2)

/-- `wrapping_div_rem_i32` (src/int/limb.rs L825-828), `wrapping_div_rem_i64` (L952-962),
`wrapping_div_rem_i128` (L1156-1178); the 128-bit form on 32-bit limbs repeats the text of
`wrapping_div_rem_iwide`. -/
def wrappingDivRemFixI : (k : Fix) → Limbs w → BitVec k.n → Res (Limbs w × BitVec k.n)
  | .b32, x, n => (wrappingDivRemILimb x (n.signExtend w)).map fun (q, r) => (q, r.setWidth 32)
  | .b64, x, n =>
    if w = 32 then
      (wrappingDivRemIWide x (n.signExtend (w + w))).map fun (q, r) => (q, r.setWidth 64)
    else (wrappingDivRemILimb x (n.signExtend w)).map fun (q, r) => (q, r.setWidth 64)
  | .b128, x, n =>
    if w = 64 then
      (wrappingDivRemIWide x (n.signExtend (w + w))).map fun (q, r) => (q, r.setWidth 128)
    else divRemSigned x n (Div.fromU128 (unsignedAbs x) (primAbs n))
/-- `overflowing_div_rem_i32` (src/int/limb.rs L1502-1505), `overflowing_div_rem_i64` (L1605-1611),
`overflowing_div_rem_i128` (L1772-1786). -/
def overflowingDivRemFixI : (k : Fix) → Limbs w → BitVec k.n → Res ((Limbs w × BitVec k.n) × Bool)
  | .b32, x, n =>
    (overflowingDivRemILimb x (n.signExtend w)).map fun (v, f) => ((v.1, v.2.setWidth 32), f)
  | .b64, x, n => overflowingDivRemSigned x n (wrappingDivRemFixI .b64 x n)
  | .b128, x, n =>
    if w = 64 then
      (overflowingDivRemIWide x (n.signExtend (w + w))).map fun (v, f) =>
        ((v.1, v.2.setWidth 128), f)
    else overflowingDivRemSigned x n (wrappingDivRemFixI .b128 x n)
/-- `checked_div_rem_i32` (src/int/limb.rs L2021-2024), `checked_div_rem_i64` (L2102-2111),
`checked_div_rem_i128` (L2189-2198). -/
def checkedDivRemFixI : (k : Fix) → Limbs w → BitVec k.n → Res (Option (Limbs w × BitVec k.n))
  | .b32, x, n =>
    (checkedDivRemILimb x (n.signExtend w)).map fun o => o.map fun (q, r) => (q, r.setWidth 32)
  | .b64, x, n => if n == 0 then .ok none else (overflowingDivRemFixI .b64 x n).map mkChecked
  | .b128, x, n => if n == 0 then .ok none else (overflowingDivRemFixI .b128 x n).map mkChecked
/-- `div_rem_i32` (src/int/limb.rs L241-250), `div_rem_i64` (L332-341), `div_rem_i128` (L423-432).
-/
def divRemFixI (oc : Bool) (k : Fix) (x : Limbs w) (n : BitVec k.n) : Res (Limbs w × BitVec k.n) :=
  fixOp oc (wrappingDivRemFixI k x n) (checkedDivRemFixI k x n)
/-- `div_i32` (src/int/limb.rs L258-260), `div_i64` (L349-351), `div_i128` (L440-442). -/
def divFixI (oc : Bool) (k : Fix) (x : Limbs w) (n : BitVec k.n) : Res (Limbs w) :=
  (divRemFixI oc k x n).map (·.1)
/-- `wrapping_div_i32` (src/int/limb.rs L837-839), `wrapping_div_i64` (L971-973),
`wrapping_div_i128` (L1187-1189). -/
def wrappingDivFixI (k : Fix) (x : Limbs w) (n : BitVec k.n) : Res (Limbs w) :=
  (wrappingDivRemFixI k x n).map (·.1)
/-- `overflowing_div_i32` (src/int/limb.rs L1514-1516), `overflowing_div_i64` (L1620-1623),
`overflowing_div_i128` (L1795-1798). -/
def overflowingDivFixI : (k : Fix) → Limbs w → BitVec k.n → Res (Limbs w × Bool)
  | .b32, x, n => overflowingDivILimb x (n.signExtend w)
  | .b64, x, n => (overflowingDivRemFixI .b64 x n).map fun (v, f) => (v.1, f)
  | .b128, x, n => (overflowingDivRemFixI .b128 x n).map fun (v, f) => (v.1, f)
/-- `checked_div_i32` (src/int/limb.rs L2033-2035), `checked_div_i64` (L2120-2122),
`checked_div_i128` (L2207-2209). -/
def checkedDivFixI (k : Fix) (x : Limbs w) (n : BitVec k.n) : Res (Option (Limbs w)) :=
  (checkedDivRemFixI k x n).map fun o => o.map (·.1)
/-- `rem_i32` (src/int/limb.rs L268-270), `rem_i64` (L359-361), `rem_i128` (L450-452). -/
def remFixI (oc : Bool) (k : Fix) (x : Limbs w) (n : BitVec k.n) : Res (BitVec k.n) :=
  (divRemFixI oc k x n).map (·.2)
/-- `wrapping_rem_i32` (src/int/limb.rs L848-850), `wrapping_rem_i64` (L982-984),
`wrapping_rem_i128` (L1198-1200). -/
def wrappingRemFixI (k : Fix) (x : Limbs w) (n : BitVec k.n) : Res (BitVec k.n) :=
  (wrappingDivRemFixI k x n).map (·.2)
/-- `overflowing_rem_i32` (src/int/limb.rs L1525-1528), `overflowing_rem_i64` (L1632-1635),
`overflowing_rem_i128` (L1807-1810). -/
def overflowingRemFixI : (k : Fix) → Limbs w → BitVec k.n → Res (BitVec k.n × Bool)
  | .b32, x, n => (overflowingRemILimb x (n.signExtend w)).map fun (r, f) => (r.setWidth 32, f)
  | .b64, x, n => (overflowingDivRemFixI .b64 x n).map fun (v, f) => (v.2, f)
  | .b128, x, n => (overflowingDivRemFixI .b128 x n).map fun (v, f) => (v.2, f)
/-- `checked_rem_i32` (src/int/limb.rs L2044-2046), `checked_rem_i64` (L2131-2133),
`checked_rem_i128` (L2218-2220). -/
def checkedRemFixI (k : Fix) (x : Limbs w) (n : BitVec k.n) : Res (Option (BitVec k.n)) :=
  (checkedDivRemFixI k x n).map fun o => o.map (·.2)

end I

end I256
