import Verif.Repair.Rest
import Verif.Model.Misc
import Verif.Model.Casts

/-!
# Proposed repairs, continued (not in the crate)

Like `Verif.Repair.Div` and `Verif.Repair.Rest`: the functions of the crate with the change named in each
comment.
-/

namespace I256

variable {w : Nat}

namespace Repair

open Div in
/-- `from_u128`, src/math/div.rs L105-129 (32-bit limbs), with two changes: the changed long division
(B2) and a test for a zero divisor (B4). -/
def fromU128 (x : Limbs w) (divisor : BitVec 128) : Res (Limbs w × BitVec 128) :=
  if w = 32 then
    if divisor = 0 then .panic
    else if 2 ≤ x.length ∧ isZero x 2 = true then
      if getLimb x 0 = 0 ∧ getLimb x 1 = 0 then .ok (scalar1 x.length 0, 0)
      else (nativeDivRem (u128Scalar x) divisor).bind fun (q, r) =>
        .ok (scalarU128 x.length q, r)
    else
      let y := scalarU128 x.length divisor
      match Div.cmp x y with
      | .lt => .ok (List.replicate x.length 0, u128Scalar (x.take x.length))
      | .eq => .ok (scalar1 x.length 1, 0)
      | .gt => (Repair.fullGt x y).bind fun (q, r) => .ok (q, u128Scalar r)
  else .panic

/-! ### Signed numbers and 128-bit scalars on 32-bit limbs

The functions of src/int/limb.rs with two changes: the split of the scalar has its limbs in order (B3),
and addition and subtraction call the kernel for two numbers of the same length (B12). -/

/-- `wrapping_add_u128`, src/int/limb.rs L994-1007 (32-bit limbs). -/
def wrappingAddU128 (x : Limbs w) (n : BitVec 128) : Res (Limbs w) :=
  (u128ToLimbN x.length n).map (Add.wrappingFull x)
/-- `overflowing_add_u128`, src/int/limb.rs L1645-1658 (32-bit limbs). -/
def overflowingAddU128 (x : Limbs w) (n : BitVec 128) : Res (Limbs w × Bool) :=
  (u128ToLimbN x.length n).map (Add.sOverflowingFull x)
/-- `checked_add_u128`, src/shared/limb.rs L1117-1124, on the changed function. -/
def checkedAddU128 (x : Limbs w) (n : BitVec 128) : Res (Option (Limbs w)) :=
  (overflowingAddU128 x n).map mkChecked
/-- `add_u128`, src/shared/limb.rs L384-393, on the changed functions. -/
def addU128 (oc : Bool) (x : Limbs w) (n : BitVec 128) : Res (Limbs w) :=
  fixOp oc (wrappingAddU128 x n) (checkedAddU128 x n)

/-- `wrapping_add_i128`, src/int/limb.rs L1015-1028 (32-bit limbs). -/
def wrappingAddI128 (x : Limbs w) (n : BitVec 128) : Res (Limbs w) :=
  (i128ToLimbN x.length n).map (Add.wrappingFull x)
/-- `overflowing_add_i128`, src/int/limb.rs L1666-1679 (32-bit limbs). -/
def overflowingAddI128 (x : Limbs w) (n : BitVec 128) : Res (Limbs w × Bool) :=
  (i128ToLimbN x.length n).map (Add.sOverflowingFull x)
/-- `checked_add_i128`, src/int/limb.rs L2143-2150, on the changed function. -/
def checkedAddI128 (x : Limbs w) (n : BitVec 128) : Res (Option (Limbs w)) :=
  (overflowingAddI128 x n).map mkChecked
/-- `add_i128`, src/int/limb.rs L371-380, on the changed functions. -/
def addI128 (oc : Bool) (x : Limbs w) (n : BitVec 128) : Res (Limbs w) :=
  fixOp oc (wrappingAddI128 x n) (checkedAddI128 x n)

/-- `wrapping_sub_u128`, src/int/limb.rs L1037-1050 (32-bit limbs). -/
def wrappingSubU128 (x : Limbs w) (n : BitVec 128) : Res (Limbs w) :=
  (u128ToLimbN x.length n).map (Sub.wrappingFull x)
/-- `overflowing_sub_u128`, src/int/limb.rs L1687-1700 (32-bit limbs). -/
def overflowingSubU128 (x : Limbs w) (n : BitVec 128) : Res (Limbs w × Bool) :=
  (u128ToLimbN x.length n).map (Sub.sOverflowingFull x)
/-- `checked_sub_u128`, src/shared/limb.rs L1132-1139, on the changed function. -/
def checkedSubU128 (x : Limbs w) (n : BitVec 128) : Res (Option (Limbs w)) :=
  (overflowingSubU128 x n).map mkChecked
/-- `sub_u128`, src/shared/limb.rs L401-410, on the changed functions. -/
def subU128 (oc : Bool) (x : Limbs w) (n : BitVec 128) : Res (Limbs w) :=
  fixOp oc (wrappingSubU128 x n) (checkedSubU128 x n)

/-- `wrapping_sub_i128`, src/int/limb.rs L1059-1072 (32-bit limbs). -/
def wrappingSubI128 (x : Limbs w) (n : BitVec 128) : Res (Limbs w) :=
  (i128ToLimbN x.length n).map (Sub.wrappingFull x)
/-- `overflowing_sub_i128`, src/int/limb.rs L1708-1721 (32-bit limbs). -/
def overflowingSubI128 (x : Limbs w) (n : BitVec 128) : Res (Limbs w × Bool) :=
  (i128ToLimbN x.length n).map (Sub.sOverflowingFull x)
/-- `checked_sub_i128`, src/int/limb.rs L2158-2165, on the changed function. -/
def checkedSubI128 (x : Limbs w) (n : BitVec 128) : Res (Option (Limbs w)) :=
  (overflowingSubI128 x n).map mkChecked
/-- `sub_i128`, src/int/limb.rs L388-397, on the changed functions. -/
def subI128 (oc : Bool) (x : Limbs w) (n : BitVec 128) : Res (Limbs w) :=
  fixOp oc (wrappingSubI128 x n) (checkedSubI128 x n)

/-- `wrapping_mul_u128`, src/int/limb.rs L1080-1093 (32-bit limbs). -/
def wrappingMulU128 (x : Limbs w) (n : BitVec 128) : Res (Limbs w) :=
  (u128ToLimbN x.length n).map (Mul.wrappingFull x)
/-- `overflowing_mul_u128`, src/int/limb.rs L1729-1742 (32-bit limbs), on the changed kernel (B1). -/
def overflowingMulU128 (x : Limbs w) (n : BitVec 128) : Res (Limbs w × Bool) :=
  (u128ToLimbN x.length n).map (overflowingFullS x)
/-- `checked_mul_u128`, src/shared/limb.rs L1147-1154, on the changed function. -/
def checkedMulU128 (x : Limbs w) (n : BitVec 128) : Res (Option (Limbs w)) :=
  (overflowingMulU128 x n).map mkChecked
/-- `mul_u128`, src/shared/limb.rs L418-427, on the changed functions. -/
def mulU128 (oc : Bool) (x : Limbs w) (n : BitVec 128) : Res (Limbs w) :=
  fixOp oc (wrappingMulU128 x n) (checkedMulU128 x n)

/-- `wrapping_mul_i128`, src/int/limb.rs L1101-1114 (32-bit limbs). -/
def wrappingMulI128 (x : Limbs w) (n : BitVec 128) : Res (Limbs w) :=
  (i128ToLimbN x.length n).map (Mul.wrappingFull x)
/-- `overflowing_mul_i128`, src/int/limb.rs L1750-1763 (32-bit limbs), on the changed kernel (B1). -/
def overflowingMulI128 (x : Limbs w) (n : BitVec 128) : Res (Limbs w × Bool) :=
  (i128ToLimbN x.length n).map (overflowingFullS x)
/-- `checked_mul_i128`, src/int/limb.rs L2173-2180, on the changed function. -/
def checkedMulI128 (x : Limbs w) (n : BitVec 128) : Res (Option (Limbs w)) :=
  (overflowingMulI128 x n).map mkChecked
/-- `mul_i128`, src/int/limb.rs L405-414, on the changed functions. -/
def mulI128 (oc : Bool) (x : Limbs w) (n : BitVec 128) : Res (Limbs w) :=
  fixOp oc (wrappingMulI128 x n) (checkedMulI128 x n)

/-! ### Midpoint, sign, text -/

/-- Signed `midpoint`, src/int/ops.rs L328-337, with one change (B14): the last step, which moves
negative midpoints towards zero, is dropped, as the documentation says rounding towards negative
infinity. -/
def midpointS (x y : Limbs w) : Limbs w :=
  I.wrappingAdd (wrappingShr true (Bits.xor x y) 1) (Bits.and x y)

/-- `Signed::is_positive`, src/int/traits.rs L171-173, with one change (B15): `>` instead of `>=`. -/
def isPositive (x : Limbs w) : Bool := Ord.gt true x (ofU8 x.length 0)

/-- The text without the zeros at its end. -/
def stripZeros : List Byte → List Byte
  | [] => []
  | c :: cs =>
    match stripZeros cs with
    | [] => if c = 48#8 then [] else [c]
    | rest => c :: rest

/-- The last line of `LowerExp` and `UpperExp`, src/uint/traits.rs L94 and L105, with two changes (B8):
the zeros at the end of the fraction are dropped, and the point if no fraction remains. -/
def exp (e : Byte) : List Byte → Res (List Byte)
  | [] => .panic
  | d :: ds =>
    match stripZeros ds with
    | [] => .ok (d :: e :: numeral 10 ds.length)
    | fr => .ok (d :: 46#8 :: fr ++ e :: numeral 10 ds.length)

/-- `LowerExp::fmt` (`e = 101`) and `UpperExp::fmt` (`e = 69`), src/uint/traits.rs L89-106, on the
changed line. -/
def fmtExpU (oc : Bool) (e : Byte) (x : Limbs w) : Res (List Byte) :=
  (U.toStrRadix oc (bits x) x 10).bind (exp e)

/-- `LowerExp::fmt` and `UpperExp::fmt`, src/int/traits.rs L76-83, L104-111, on the changed line. -/
def fmtExpS (oc : Bool) (e : Byte) (f : Write.Flags) (x : Limbs w) : Res (List Byte) :=
  (fmtExpU oc e (I.unsignedAbs x)).map (I.fmtSign f x ++ ·)

/-- `Binary`, `Octal`, `LowerHex` and `UpperHex` of both kinds of types and `Display` of the unsigned
types, src/uint/traits.rs L13-126, with one change (B16): the digits are handed to
`Formatter::pad_integral` of the standard library instead of a loop of their own. `up` is the change of
case (`to_ascii_lowercase` or `to_ascii_uppercase`). -/
def fmtU (oc : Bool) (f : Write.Flags) (radix : BitVec 32) (pre : List Byte) (up : Byte → Byte)
    (x : Limbs w) : Res (List Byte) :=
  (U.toStrRadix oc (bits x) x radix).map fun s => padIntegral f false pre (s.map up)

/-- `Display` of the signed types, src/int/traits.rs L64-71, with the same change (B16). -/
def fmtDisplayS (oc : Bool) (f : Write.Flags) (x : Limbs w) : Res (List Byte) :=
  (U.toStrRadix oc (bits x) (I.unsignedAbs x) 10).map fun s => padIntegral f (I.isNegative x) [] s

end Repair

end I256
