import Verif.Repair.Div
import Verif.Model.Ilog
import Verif.Model.Parse
import Verif.Model.Write
import Verif.Model.Fixed

/-!
# Proposed repairs of the other functions (not in the crate)

Like `Verif.Repair.Div`: not a model of existing code, but the functions of the crate with the change
named in each comment.  Functions that are not repeated are those of the model.
-/

namespace I256

variable {w : Nat}

namespace Repair

/-- Signed `overflowing_full`, src/math/mul.rs L433-471, with one change (B1): `is_min` compares all
limbs of the product with `MIN`, not only the top limb. -/
def overflowingFullS (x y : Limbs w) : Limbs w × Bool :=
  let xNeg := (msLimb x).slt 0
  let yNeg := (msLimb y).slt 0
  let shouldBeNegative := xNeg ^^ yNeg
  let x := if xNeg then negate x else x
  let y := if yNeg then negate y else y
  let (r, overflowed) := Mul.overflowingFull x y
  let msl := msLimb r
  let rNeg := msl.slt 0
  if !shouldBeNegative then (r, overflowed || rNeg)
  else
    let isMin := r == I.minValue w r.length
    (negate r, overflowed || (rNeg ^^ isMin))

/-- Signed `checked_mul_ulimb`, src/shared/limb.rs L822-829, on the changed kernel (B1). -/
def checkedMulULimbS (x : Limbs w) (n : BitVec w) : Option (Limbs w) :=
  mkChecked (overflowingFullS x (extU x.length n))

/-- Signed `wrapping_div_rem`, src/int/wrapping.rs L74-99, on the changed `full` (B2, B4). -/
def wrappingDivRemS (x y : Limbs w) : Res (Limbs w × Limbs w) :=
  (full (I.unsignedAbs x) (I.unsignedAbs y)).map fun (div, rem) =>
    (if I.isNegative x != I.isNegative y then I.wrappingNeg div else div,
      if I.isNegative x then I.wrappingNeg rem else rem)

/-- The loop of `checked_ilog`, src/uint/checked.rs L79-82, on the changed division (B2). -/
def ilogLoop (oc : Bool) (x base : Limbs w) : Nat → BitVec 32 → Limbs w → Option (Res Nat)
  | 0, _, _ => none
  | rounds + 1, n, r =>
    match full x base with
    | .panic => some .panic
    | .ok (q, _) =>
      if Ord.le false r q then
        if oc && n == BitVec.allOnes 32 then some .panic
        else
          match U.mul oc r base with
          | .panic => some .panic
          | .ok r => ilogLoop oc x base rounds (n + 1) r
      else some (.ok n.toNat)

/-- `checked_ilog`, src/uint/checked.rs L55-84, with the changed division and two changes of the guard
(B5): `base <= 1` instead of `base <= 0`, and `Some(0)` if `self < base`. -/
def checkedIlogU (oc : Bool) (rounds : Nat) (x base : Limbs w) : Option (Res (Option Nat)) :=
  if x == ofU8 x.length 0 || Ord.le false base (ofU8 x.length 1) then some (.ok none)
  else if Ord.lt false x base then some (.ok (some 0))
  else
    match U.ilogStart oc x base with
    | .panic => some .panic
    | .ok (n, r) => (ilogLoop oc x base rounds n r).map (Res.map some)

/-- Signed `checked_ilog`, src/int/checked.rs L86-91, on the changed unsigned function (B5). -/
def checkedIlogS (oc : Bool) (rounds : Nat) (x base : Limbs w) : Option (Res (Option Nat)) :=
  if Ord.le true x (ofU8 x.length 0) || Ord.le true base (ofU8 x.length 1) then some (.ok none)
  else checkedIlogU oc rounds x base

/-- The part of `from_str_radix` after the sign, src/parse.rs L146-157, with one change (B6): no digit
at all is `InvalidDigit`. -/
def parseBody (ops : Parse.Ops w) (signed : Bool) (N : Nat) (radix : BitVec 32) (negative : Bool)
    (digits : List Byte) : Parsed (Limbs w) :=
  if digits = [] then .err .invalidDigit else Parse.body ops signed N radix negative digits

/-- `from_str_radix`, src/parse.rs L117-158, on the changed body. -/
def fromStrRadix (ops : Parse.Ops w) (signed : Bool) (N : Nat) (src : List Byte)
    (radix : BitVec 32) : Res (Parsed (Limbs w)) :=
  if radix < 2 || 36 < radix then .panic
  else
    match src with
    | [] => .ok (.err .empty)
    | c :: cs =>
      if c = 43 then .ok (parseBody ops signed N radix false cs)
      else if c = 45 && signed then .ok (parseBody ops signed N radix true cs)
      else if c = 45 then .ok (.err .negOverflow)
      else .ok (parseBody ops signed N radix false (c :: cs))

/-- The methods used by the signed parser, with the changed `checked_mul_ulimb` (B1). -/
def parseOpsS : Parse.Ops w := { I.parseOps with cMul := checkedMulULimbS }

/-- Signed `to_str_radix`, src/write.rs L30-70, with one change (B7): the digits are those of the
absolute value, computed on the unsigned type. -/
def toStrRadixS (oc : Bool) (len : Nat) (x : Limbs w) (radix : BitVec 32) : Res (List Byte) :=
  if len < bits x + 1 then .panic
  else
    (U.toStrRadix oc (len - 1) (I.unsignedAbs x) radix).map fun s =>
      if I.isNegative x then 45#8 :: s else s

/-- The range test of the shift operators, src/shared/shift.rs L13 and L27, with one change (B9): the
amount is compared as a 128-bit number. -/
def primInRange {n : Nat} (ps : Bool) (B : Nat) (a : BitVec n) : Bool :=
  !(ps && a.slt 0) && (if ps then a.signExtend 128 else a.setWidth 128).ult (BitVec.ofNat 128 B)

/-- `Shl<$t>` with overflow checks, src/shared/shift.rs L11-16, on the changed test (B9). -/
def shlPrim {n : Nat} (ps : Bool) (x : Limbs w) (a : BitVec n) : Res (Limbs w) :=
  if primInRange ps (bits x) a then .ok (wrappingShl x (primAsU32 ps a)) else .panic

/-- `Shr<$t>` with overflow checks, src/shared/shift.rs L25-30, on the changed test (B9). -/
def shrPrim {n : Nat} (ps signed : Bool) (x : Limbs w) (a : BitVec n) : Res (Limbs w) :=
  if primInRange ps (bits x) a then .ok (wrappingShr signed x (primAsU32 ps a)) else .panic

/-- Signed `carrying_add`, src/shared/bigint.rs L23-27, with one change (B10): `b != d` instead of
`b | d`. -/
def carryingAddS (x y : Limbs w) (carry : Bool) : Limbs w × Bool :=
  let (a, b) := I.overflowingAdd x y
  let (c, d) := I.overflowingAddULimb a (boolLimb w carry)
  (c, b ^^ d)

/-- Signed `borrowing_sub`, src/shared/bigint.rs L42-46, with the same change (B10). -/
def borrowingSubS (x y : Limbs w) (borrow : Bool) : Limbs w × Bool :=
  let (a, b) := I.overflowingSub x y
  let (c, d) := I.overflowingSubULimb a (boolLimb w borrow)
  (c, b ^^ d)

/-- `TryFrom<unsigned>` for the signed type, src/int/traits.rs L134-140, with one change (B11): `<=`
instead of `<`. -/
def tryFromUnsigned (x : Limbs w) : Option (Limbs w) :=
  if Ord.le false x (I.maxValue w x.length) then some x else none

/-- `unbounded_shr`, src/shared/unbounded.rs L35-41, for the signed types, with one change (B13): -1 for
negative numbers. -/
def unboundedShrS (x : Limbs w) (rhs : Nat) : Limbs w :=
  if rhs < bits x then wrappingShr true x rhs
  else if I.isNegative x then ofI8 x.length (-1) else ofU8 x.length 0

/-- `u128_to_limb_n`, src/util.rs L124-136 (32-bit limbs), with the limbs in order (B3). -/
def u128ToLimbN (N : Nat) (n : BitVec 128) : Res (Limbs w) :=
  if N > 4 then
    .ok (n.setWidth w :: (n >>> 32).setWidth w :: (n >>> 64).setWidth w :: (n >>> 96).setWidth w ::
      List.replicate (N - 4) 0)
  else .panic

/-- `i128_to_limb_n`, src/util.rs L152-166 (32-bit limbs), with the limbs in order (B3). -/
def i128ToLimbN (N : Nat) (n : BitVec 128) : Res (Limbs w) :=
  if N > 4 then
    .ok (n.setWidth w :: (n >>> 32).setWidth w :: (n >>> 64).setWidth w :: (n >>> 96).setWidth w ::
      List.replicate (N - 4) (signLimb w (n.slt 0)))
  else .panic

end Repair

end I256
