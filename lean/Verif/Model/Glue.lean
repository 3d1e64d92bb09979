import Verif.Model.Endian
import Verif.Model.MulApi
import Verif.Model.Shift

/-!
# Limb access, `unchecked_*` methods and trait glue

`cast_signed` and `cast_unsigned` (src/uint/casts.rs L27, src/int/casts.rs L26) reinterpret the same
limbs, so they do not appear here.
-/

namespace I256

variable {w : Nat}

namespace Access

/-- `get_limb`, src/shared/extensions.rs L19-21, through `to_ne_index`, src/util.rs L9-15. On
big-endian targets `n - 1 - index` underflows for an index out of range, which panics or gives an
index far out of bounds; either way it is a panic. -/
def getLimb (be : Bool) (x : Limbs w) (index : Nat) : Res (BitVec w) :=
  let limbs := Endian.mem be x
  if be && decide (x.length ≤ index) then .panic
  else match limbs[if be then x.length - 1 - index else index]? with
    | some v => .ok v
    | none => .panic

/-- `get_wide`, src/shared/extensions.rs L28-50: two neighbouring elements of the array are put
together through their bytes in memory. `WIDE` (src/shared/constants.rs L43) is `LIMBS / 2`. -/
def getWide (be : Bool) (x : Limbs w) (index : Nat) : Res (BitVec (w + w)) :=
  if index < x.length / 2 then
    let limbs := Endian.mem be x
    let offset := if be then x.length - 2 * (index + 1) else 2 * index
    match limbs[offset]?, limbs[offset + 1]? with
    | some lo, some hi =>
      let bytes := Endian.memBytes be [lo, hi]
      .ok (ofLeBytes (w + w) (if be then bytes.reverse else bytes))
    | _, _ => .panic
  else .panic

/-- `least_significant_limb`, src/shared/extensions.rs L53-55. -/
def leastSignificantLimb (be : Bool) (x : Limbs w) : Res (BitVec w) := getLimb be x 0
/-- `most_significant_limb`, src/shared/extensions.rs L59-61. -/
def mostSignificantLimb (be : Bool) (x : Limbs w) : Res (BitVec w) := getLimb be x (x.length - 1)

end Access

namespace Ord

/-- The loop of `eq_branched`, src/shared/ord.rs L66-70. -/
def eqBranchedLoop : List (BitVec (w + w) × BitVec (w + w)) → Bool → Bool
  | [], isEq => isEq
  | (a, b) :: rest, isEq => if isEq then eqBranchedLoop rest (isEq && a == b) else isEq
/-- `eq_branched`, src/shared/ord.rs L62-72. -/
def eqBranched (x y : Limbs w) : Bool := eqBranchedLoop ((toWide x).zip (toWide y)) true

end Ord

namespace U
/-- `unchecked_add`, src/shared/unchecked.rs L32-38. `none` is undefined behaviour
(`unreachable_unchecked`). -/
def uncheckedAdd (x y : Limbs w) : Option (Limbs w) := checkedAdd x y
/-- `unchecked_sub`, src/shared/unchecked.rs L59-65. -/
def uncheckedSub (x y : Limbs w) : Option (Limbs w) := checkedSub x y
/-- `unchecked_mul`, src/shared/unchecked.rs L86-92. -/
def uncheckedMul (x y : Limbs w) : Option (Limbs w) := checkedMul x y
end U

namespace I
/-- `unchecked_add`, src/shared/unchecked.rs L32-38. -/
def uncheckedAdd (x y : Limbs w) : Option (Limbs w) := checkedAdd x y
/-- `unchecked_sub`, src/shared/unchecked.rs L59-65. -/
def uncheckedSub (x y : Limbs w) : Option (Limbs w) := checkedSub x y
/-- `unchecked_mul`, src/shared/unchecked.rs L86-92. -/
def uncheckedMul (x y : Limbs w) : Option (Limbs w) := checkedMul x y
/-- `unchecked_neg`, src/int/unchecked.rs L27-33. -/
def uncheckedNeg (x : Limbs w) : Option (Limbs w) := checkedNeg x
end I

/-- `unchecked_shl`, src/shared/unchecked.rs L109-115. -/
def uncheckedShl (x : Limbs w) (rhs : Nat) : Option (Limbs w) := checkedShl x rhs
/-- `unchecked_shr`, src/shared/unchecked.rs L132-138. -/
def uncheckedShr (signed : Bool) (x : Limbs w) (rhs : Nat) : Option (Limbs w) :=
  checkedShr signed x rhs

namespace NumTraits

/-- `PrimInt::signed_shl`, src/uint/traits.rs L438-440 and src/int/traits.rs L456-458. -/
def signedShl (oc : Bool) (x : Limbs w) (n : BitVec 32) : Res (Limbs w) := shlPrim oc false x n
/-- `PrimInt::signed_shr`, src/uint/traits.rs L443-445 and src/int/traits.rs L461-463. -/
def signedShr (oc : Bool) (x : Limbs w) (n : BitVec 32) : Res (Limbs w) := shrPrim oc false true x n
/-- `PrimInt::unsigned_shl`, src/uint/traits.rs L448-450 and src/int/traits.rs L466-468. -/
def unsignedShl (oc : Bool) (x : Limbs w) (n : BitVec 32) : Res (Limbs w) := shlPrim oc false x n
/-- `PrimInt::unsigned_shr`, src/uint/traits.rs L453-455 and src/int/traits.rs L471-473. -/
def unsignedShr (oc : Bool) (x : Limbs w) (n : BitVec 32) : Res (Limbs w) :=
  shrPrim oc false false x n

/-- `MulAdd::mul_add`, src/shared/num_traits_impls.rs L161-163, unsigned. -/
def uMulAdd (oc : Bool) (x a b : Limbs w) : Res (Limbs w) := (U.mul oc x a).bind fun p => U.add oc p b
/-- `MulAdd::mul_add`, src/shared/num_traits_impls.rs L161-163, signed. -/
def iMulAdd (oc : Bool) (x a b : Limbs w) : Res (Limbs w) := (I.mul oc x a).bind fun p => I.add oc p b

/-- `Zero::is_zero`, src/shared/num_traits_impls.rs L132-134; `==` is the derived comparison of the
arrays (src/shared/mod.rs L63). -/
def isZero (x : Limbs w) : Bool := x == ofU8 x.length 0
/-- `One::is_one`, src/shared/num_traits_impls.rs L148-150. -/
def isOne (x : Limbs w) : Bool := x == ofU8 x.length 1

end NumTraits

end I256
