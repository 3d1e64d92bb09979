import Verif.Model.RawPow
import Verif.Model.RawCasts

/-!
# Literal model of the forms of addition, subtraction, multiplication, negation and exponentiation

The methods of `src/uint` and `src/int` above the kernels, on arrays in memory order.  See `Raw.lean`
for the vocabulary and `RawDiv.lean` for the kinds of build `Cfg`.  `to_ne_limbs` (src/shared/endian.rs
L246-248) returns the field; `as_signed`, `as_unsigned`, `from_signed`, `from_unsigned` are
`Cast.reinterpret`.
-/

namespace I256

variable {w : Nat}

namespace Raw

open _root_.I256.Raw.Div (Cfg)
open _root_.I256.Raw.Cast (reinterpret)

/-- `match v { Some(v) => v, None => panic!(..) }`, e.g. src/shared/strict.rs L20-23. -/
def unwrapRes {α : Type} (r : Res (Option α)) : Res α := do
  let o ← r
  unwrapOrPanic o


/-- `match v { Some(v) => v, None => d }`, e.g. src/uint/saturating.rs L23-26. -/
def orElse {α : Type} (r : Res (Option α)) (d : Res α) : Res α := do
  let o ← r
  match o with
  | some v => .ok v
  | none => d

namespace U

/-- `wrapping_add`, src/uint/wrapping.rs L22-25. -/
def wrappingAdd (be : Bool) (x y : Limbs w) : Res (Limbs w) := wrappingOf (Add.wrappingFull be x y)
/-- `wrapping_add_signed`, src/uint/wrapping.rs L33-35. -/
def wrappingAddSigned (be : Bool) (x rhs : Limbs w) : Res (Limbs w) := do
  let rhs ← reinterpret rhs
  wrappingAdd be x rhs
/-- `wrapping_sub`, src/uint/wrapping.rs L43-48. -/
def wrappingSub (be : Bool) (x y : Limbs w) : Res (Limbs w) := wrappingOf (Sub.wrappingFull be x y)
/-- `wrapping_neg`, src/uint/wrapping.rs L319-321. -/
def wrappingNeg (be : Bool) (x : Limbs w) : Res (Limbs w) := do
  let min ← constant x.length 0
  wrappingSub be min x

/-- `overflowing_add`, src/uint/overflowing.rs L26-31. -/
def overflowingAdd (be : Bool) (x y : Limbs w) : Res (Limbs w × Bool) :=
  overflowingOf (Add.overflowingFull be x y)
/-- `overflowing_add_signed`, src/uint/overflowing.rs L42-46. -/
def overflowingAddSigned (be : Bool) (x rhs : Limbs w) : Res (Limbs w × Bool) := do
  let isNegative ← Bits.isNegative be rhs
  let rhs ← reinterpret rhs
  let (r, overflowed) ← overflowingAdd be x rhs
  .ok (r, overflowed ^^ isNegative)
/-- `overflowing_sub`, src/uint/overflowing.rs L57-62. -/
def overflowingSub (be : Bool) (x y : Limbs w) : Res (Limbs w × Bool) :=
  overflowingOf (Sub.overflowingFull be x y)
/-- `overflowing_sub_signed`, src/uint/overflowing.rs L71-74. -/
def overflowingSubSigned (be : Bool) (x rhs : Limbs w) : Res (Limbs w × Bool) := do
  let u ← reinterpret rhs
  let (res, overflow) ← overflowingSub be x u
  let isNegative ← Bits.isNegative be rhs
  .ok (res, overflow ^^ isNegative)

/-- `checked_add`, src/shared/checked.rs L16-23. -/
def checkedAdd (be : Bool) (x y : Limbs w) : Res (Option (Limbs w)) := Pow.checked (overflowingAdd be x y)
/-- `checked_sub`, src/shared/checked.rs L31-38. -/
def checkedSub (be : Bool) (x y : Limbs w) : Res (Option (Limbs w)) := Pow.checked (overflowingSub be x y)
/-- `checked_add_signed`, src/uint/checked.rs L21-28. -/
def checkedAddSigned (be : Bool) (x y : Limbs w) : Res (Option (Limbs w)) :=
  Pow.checked (overflowingAddSigned be x y)
/-- `checked_neg`, src/uint/checked.rs L37-43. -/
def checkedNeg (be : Bool) (x : Limbs w) : Res (Option (Limbs w)) := do
  let min ← constant x.length 0
  let eq ← Ord.eqConst be x min
  .ok (if eq then some x else none)
/-- `checked_signed_diff`, src/uint/checked.rs L132-141, with `ge_const`, src/shared/ord.rs L126-128. -/
def checkedSignedDiff (be : Bool) (x rhs : Limbs w) : Res (Option (Limbs w)) := do
  let d ← wrappingSub be x rhs
  let res ← reinterpret d
  let lt ← Ord.lt be false x rhs
  let zero ← fromU8 be x.length 0
  let neg ← Ord.lt be true res zero
  let overflow := (!lt) == neg
  .ok (if !overflow then some res else none)

/-- `saturating_add`, src/uint/saturating.rs L22-27. -/
def saturatingAdd (be : Bool) (x y : Limbs w) : Res (Limbs w) :=
  orElse (checkedAdd be x y) (constant x.length (BitVec.allOnes w))
/-- `saturating_add_signed`, src/uint/saturating.rs L35-45. -/
def saturatingAddSigned (be : Bool) (x rhs : Limbs w) : Res (Limbs w) := do
  let isNegative ← Bits.isNegative be rhs
  let rhs ← reinterpret rhs
  let (r, overflowed) ← overflowingAdd be x rhs
  if overflowed == isNegative then .ok r
  else if overflowed then constant x.length (BitVec.allOnes w)
  else constant x.length 0
/-- `saturating_sub`, src/uint/saturating.rs L53-58. -/
def saturatingSub (be : Bool) (x y : Limbs w) : Res (Limbs w) :=
  orElse (checkedSub be x y) (constant x.length 0)
/-- `saturating_mul`, src/uint/saturating.rs L66-71. -/
def saturatingMul (be : Bool) (x y : Limbs w) : Res (Limbs w) :=
  orElse (checkedMul be x y) (constant x.length (BitVec.allOnes w))
/-- `saturating_pow`, src/uint/saturating.rs L92-97. -/
def saturatingPow (cf : Cfg) (be : Bool) (x : Limbs w) (exp : BitVec 32) : Res (Limbs w) :=
  orElse (checkedPow cf be x exp) (constant x.length (BitVec.allOnes w))

/-- `strict_add`, src/shared/strict.rs L19-24. -/
def strictAdd (be : Bool) (x y : Limbs w) : Res (Limbs w) := unwrapRes (checkedAdd be x y)
/-- `strict_sub`, src/shared/strict.rs L35-40. -/
def strictSub (be : Bool) (x y : Limbs w) : Res (Limbs w) := unwrapRes (checkedSub be x y)
/-- `strict_mul`, src/shared/strict.rs L51-56. -/
def strictMul (be : Bool) (x y : Limbs w) : Res (Limbs w) := unwrapRes (checkedMul be x y)
/-- `strict_pow`, src/shared/strict.rs L67-72. -/
def strictPow (cf : Cfg) (be : Bool) (x : Limbs w) (exp : BitVec 32) : Res (Limbs w) :=
  unwrapRes (checkedPow cf be x exp)
/-- `strict_add_signed`, src/uint/strict.rs L25-30. -/
def strictAddSigned (be : Bool) (x y : Limbs w) : Res (Limbs w) := unwrapRes (checkedAddSigned be x y)
/-- `strict_neg`, src/uint/strict.rs L125-130. -/
def strictNeg (be : Bool) (x : Limbs w) : Res (Limbs w) := unwrapRes (checkedNeg be x)

/-- `+`, src/shared/ops.rs L57-66. -/
def add (cf : Cfg) (be : Bool) (x y : Limbs w) : Res (Limbs w) :=
  opOf cf (wrappingAdd be x y) (checkedAdd be x y)
/-- `-`, src/shared/ops.rs L121-130. -/
def sub (cf : Cfg) (be : Bool) (x y : Limbs w) : Res (Limbs w) :=
  opOf cf (wrappingSub be x y) (checkedSub be x y)

/-- `abs_diff`, src/uint/ops.rs L166-172. -/
def absDiff (be : Bool) (x other : Limbs w) : Res (Limbs w) := do
  let lt ← Ord.lt be false x other
  if lt then wrappingSub be other x else wrappingSub be x other

/-- `wrapping_add_ulimb`, src/uint/limb.rs L23-26. -/
def wrappingAddULimb (be : Bool) (x : Limbs w) (n : BitVec w) : Res (Limbs w) :=
  wrappingOf (Add.wrappingLimb be x n)
/-- `overflowing_add_ulimb`, src/uint/limb.rs L389-392. -/
def overflowingAddULimb (be : Bool) (x : Limbs w) (n : BitVec w) : Res (Limbs w × Bool) :=
  overflowingOf (Add.overflowingLimb be x n)
/-- `overflowing_sub_ulimb`, src/uint/limb.rs L401-404. -/
def overflowingSubULimb (be : Bool) (x : Limbs w) (n : BitVec w) : Res (Limbs w × Bool) :=
  overflowingOf (Sub.overflowingLimb be x n)
/-- `add_ulimb`, src/shared/limb.rs L12-21, with `checked_add_ulimb`, L794-801. -/
def addULimb (cf : Cfg) (be : Bool) (x : Limbs w) (n : BitVec w) : Res (Limbs w) :=
  opOf cf (wrappingAddULimb be x n) (Pow.checked (overflowingAddULimb be x n))

/-- `carrying_add`, src/shared/bigint.rs L23-27. -/
def carryingAdd (be : Bool) (x rhs : Limbs w) (carry : Bool) : Res (Limbs w × Bool) := do
  let (a, b) ← overflowingAdd be x rhs
  let (c, d) ← overflowingAddULimb be a (boolLimb w carry)
  .ok (c, b || d)
/-- `borrowing_sub`, src/shared/bigint.rs L42-46. -/
def borrowingSub (be : Bool) (x rhs : Limbs w) (borrow : Bool) : Res (Limbs w × Bool) := do
  let (a, b) ← overflowingSub be x rhs
  let (c, d) ← overflowingSubULimb be a (boolLimb w borrow)
  .ok (c, b || d)

/-- `widening_mul`, src/uint/ops.rs L285-290. -/
def wideningMul (be : Bool) (x rhs : Limbs w) : Res (Limbs w × Limbs w) := do
  let (lo, hi) ← Mul.widening be x rhs
  let lo ← fromNeLimbs lo
  let hi ← fromNeLimbs hi
  .ok (lo, hi)
/-- `carrying_mul`, src/uint/ops.rs L308-316. -/
def carryingMul (cf : Cfg) (be : Bool) (x rhs carry : Limbs w) : Res (Limbs w × Limbs w) := do
  let (lo, hi) ← Mul.widening be x rhs
  let lo ← fromNeLimbs lo
  let (lo, overflowed) ← overflowingAdd be lo carry
  let hi ← fromNeLimbs hi
  let hi ← addULimb cf be hi (boolLimb w overflowed)
  .ok (lo, hi)
/-- `high_mul`, src/uint/extensions.rs L44-59. -/
def highMul (be : Bool) (x y : Limbs w) : Res (Limbs w) := do
  let x1 ← Bits.high be x
  let x0 ← Bits.low be x
  let y1 ← Bits.high be y
  let y0 ← Bits.low be y
  let w0 ← wrappingMul be x0 y0
  let p ← wrappingMul be x0 y1
  let h ← Bits.high be w0
  let m ← wrappingAdd be p h
  let w1 ← Bits.low be m
  let w2 ← Bits.high be m
  let p ← wrappingMul be x1 y0
  let s ← wrappingAdd be p w1
  let w3 ← Bits.high be s
  let p ← wrappingMul be x1 y1
  let s ← wrappingAdd be p w2
  wrappingAdd be s w3

end U

namespace I

/-- `wrapping_add`, src/int/wrapping.rs L22-25; `wrapping_signed` is `wrapping_full`, src/math/add.rs. -/
def wrappingAdd (be : Bool) (x y : Limbs w) : Res (Limbs w) := wrappingOf (Add.wrappingFull be x y)
/-- `wrapping_sub`, src/int/wrapping.rs L33-36. -/
def wrappingSub (be : Bool) (x y : Limbs w) : Res (Limbs w) := wrappingOf (Sub.wrappingFull be x y)
/-- `wrapping_sub_unsigned`, src/int/wrapping.rs L44-46. -/
def wrappingSubUnsigned (be : Bool) (x rhs : Limbs w) : Res (Limbs w) := do
  let rhs ← reinterpret rhs
  wrappingSub be x rhs

/-- `overflowing_add`, src/int/overflowing.rs L24-29. -/
def overflowingAdd (be : Bool) (x y : Limbs w) : Res (Limbs w × Bool) :=
  overflowingOf (Add.sOverflowingFull be x y)
/-- `overflowing_sub`, src/int/overflowing.rs L39-44. -/
def overflowingSub (be : Bool) (x y : Limbs w) : Res (Limbs w × Bool) :=
  overflowingOf (Sub.sOverflowingFull be x y)
/-- `overflowing_add_unsigned`, src/int/overflowing.rs L54-58. -/
def overflowingAddUnsigned (be : Bool) (x rhs : Limbs w) : Res (Limbs w × Bool) := do
  let rhs ← reinterpret rhs
  let (res, overflowed) ← overflowingAdd be x rhs
  let isNegative ← Bits.isNegative be rhs
  .ok (res, overflowed ^^ isNegative)
/-- `overflowing_sub_unsigned`, src/int/overflowing.rs L68-72. -/
def overflowingSubUnsigned (be : Bool) (x rhs : Limbs w) : Res (Limbs w × Bool) := do
  let rhs ← reinterpret rhs
  let (res, overflowed) ← overflowingSub be x rhs
  let isNegative ← Bits.isNegative be rhs
  .ok (res, overflowed ^^ isNegative)

/-- `checked_add`, src/shared/checked.rs L16-23. -/
def checkedAdd (be : Bool) (x y : Limbs w) : Res (Option (Limbs w)) := Pow.checked (overflowingAdd be x y)
/-- `checked_sub`, src/shared/checked.rs L31-38. -/
def checkedSub (be : Bool) (x y : Limbs w) : Res (Option (Limbs w)) := Pow.checked (overflowingSub be x y)
/-- `checked_add_unsigned`, src/int/checked.rs L22-29. -/
def checkedAddUnsigned (be : Bool) (x y : Limbs w) : Res (Option (Limbs w)) :=
  Pow.checked (overflowingAddUnsigned be x y)
/-- `checked_sub_unsigned`, src/int/checked.rs L37-44. -/
def checkedSubUnsigned (be : Bool) (x y : Limbs w) : Res (Option (Limbs w)) :=
  Pow.checked (overflowingSubUnsigned be x y)
/-- `checked_mul` with `IS_SIGNED = true`, src/shared/checked.rs L46-63. -/
def checkedMul (be : Bool) (x y : Limbs w) : Res (Option (Limbs w)) := Pow.checked (overflowingMul be x y)

/-- `None if self.is_negative() => Self::MIN, None => Self::MAX`, src/int/saturating.rs L25-26. -/
def boundOf (be : Bool) (x : Limbs w) : Res (Limbs w) := do
  let neg ← Bits.isNegative be x
  if neg then minValue be x.length else maxValue be x.length
/-- `saturating_add`, src/int/saturating.rs L22-28. -/
def saturatingAdd (be : Bool) (x y : Limbs w) : Res (Limbs w) := orElse (checkedAdd be x y) (boundOf be x)
/-- `saturating_add_unsigned`, src/int/saturating.rs L36-43. -/
def saturatingAddUnsigned (be : Bool) (x y : Limbs w) : Res (Limbs w) :=
  orElse (checkedAddUnsigned be x y) (maxValue be x.length)
/-- `saturating_sub`, src/int/saturating.rs L51-57. -/
def saturatingSub (be : Bool) (x y : Limbs w) : Res (Limbs w) := orElse (checkedSub be x y) (boundOf be x)
/-- `saturating_sub_unsigned`, src/int/saturating.rs L65-72. -/
def saturatingSubUnsigned (be : Bool) (x y : Limbs w) : Res (Limbs w) :=
  orElse (checkedSubUnsigned be x y) (minValue be x.length)
/-- `saturating_mul`, src/int/saturating.rs L103-114. -/
def saturatingMul (be : Bool) (x rhs : Limbs w) : Res (Limbs w) :=
  orElse (checkedMul be x rhs) (do
    let a ← Bits.isNegative be x
    let b ← Bits.isNegative be rhs
    if a == b then maxValue be x.length else minValue be x.length)
/-- `saturating_pow`, src/int/saturating.rs L137-143. -/
def saturatingPow (cf : Cfg) (be : Bool) (x : Limbs w) (exp : BitVec 32) : Res (Limbs w) :=
  orElse (checkedPow cf be x exp) (do
    let zero ← fromU8 be x.length 0
    let lt ← Ord.lt be true x zero
    if lt && exp % 2 == 1 then minValue be x.length else maxValue be x.length)
/-- `saturating_neg`, src/int/saturating.rs L80-82. -/
def saturatingNeg (be : Bool) (x : Limbs w) : Res (Limbs w) := do
  let zero ← fromU8 be x.length 0
  saturatingSub be zero x

/-- `strict_add`, src/shared/strict.rs L19-24. -/
def strictAdd (be : Bool) (x y : Limbs w) : Res (Limbs w) := unwrapRes (checkedAdd be x y)
/-- `strict_sub`, src/shared/strict.rs L35-40. -/
def strictSub (be : Bool) (x y : Limbs w) : Res (Limbs w) := unwrapRes (checkedSub be x y)
/-- `strict_mul`, src/shared/strict.rs L51-56. -/
def strictMul (be : Bool) (x y : Limbs w) : Res (Limbs w) := unwrapRes (checkedMul be x y)
/-- `strict_pow`, src/shared/strict.rs L67-72. -/
def strictPow (cf : Cfg) (be : Bool) (x : Limbs w) (exp : BitVec 32) : Res (Limbs w) :=
  unwrapRes (checkedPow cf be x exp)
/-- `strict_add_unsigned`, src/int/strict.rs L25-30. -/
def strictAddUnsigned (be : Bool) (x y : Limbs w) : Res (Limbs w) :=
  unwrapRes (checkedAddUnsigned be x y)
/-- `strict_sub_unsigned`, src/int/strict.rs L41-46. -/
def strictSubUnsigned (be : Bool) (x y : Limbs w) : Res (Limbs w) :=
  unwrapRes (checkedSubUnsigned be x y)

/-- `+`, src/shared/ops.rs L57-66. -/
def add (cf : Cfg) (be : Bool) (x y : Limbs w) : Res (Limbs w) :=
  opOf cf (wrappingAdd be x y) (checkedAdd be x y)
/-- `*`, src/shared/ops.rs L89-98. -/
def mul (cf : Cfg) (be : Bool) (x y : Limbs w) : Res (Limbs w) :=
  opOf cf (wrappingMul be x y) (checkedMul be x y)

/-- `wrapping_abs`, src/int/wrapping.rs L224-226. -/
def wrappingAbs (cf : Cfg) (be : Bool) (x : Limbs w) : Res (Limbs w) := do
  let r ← overflowingAbs cf be x
  .ok r.1
/-- `checked_neg`, src/int/checked.rs L51-58. -/
def checkedNeg (cf : Cfg) (be : Bool) (x : Limbs w) : Res (Option (Limbs w)) :=
  Pow.checked (overflowingNeg cf be x)
/-- `checked_abs`, src/int/checked.rs L66-71. -/
def checkedAbs (cf : Cfg) (be : Bool) (x : Limbs w) : Res (Option (Limbs w)) :=
  Pow.checked (overflowingAbs cf be x)
/-- `saturating_abs`, src/int/saturating.rs L90-95. -/
def saturatingAbs (cf : Cfg) (be : Bool) (x : Limbs w) : Res (Limbs w) :=
  orElse (checkedAbs cf be x) (maxValue be x.length)
/-- `strict_neg`, src/int/strict.rs L137-142. -/
def strictNeg (cf : Cfg) (be : Bool) (x : Limbs w) : Res (Limbs w) := unwrapRes (checkedNeg cf be x)
/-- `abs`, src/int/ops.rs L279-284, and `strict_abs`, src/int/strict.rs L153-158. -/
def abs (cf : Cfg) (be : Bool) (x : Limbs w) : Res (Limbs w) := unwrapRes (checkedAbs cf be x)
/-- `Neg::neg`, src/int/traits.rs L16-25. -/
def neg (cf : Cfg) (be : Bool) (x : Limbs w) : Res (Limbs w) :=
  opOf cf (wrappingNeg cf be x) (checkedNeg cf be x)

/-- `abs_diff`, src/int/ops.rs L294-300. -/
def absDiff (be : Bool) (x other : Limbs w) : Res (Limbs w) := do
  let lt ← Ord.lt be true x other
  if lt then
    let a ← reinterpret other
    let b ← reinterpret x
    U.wrappingSub be a b
  else
    let a ← reinterpret x
    let b ← reinterpret other
    U.wrappingSub be a b
/-- `overflowing_add_ulimb`, src/int/limb.rs L1214-1217. -/
def overflowingAddULimb (be : Bool) (x : Limbs w) (n : BitVec w) : Res (Limbs w × Bool) :=
  overflowingOf (Add.sOverflowingULimb be x n)
/-- `overflowing_sub_ulimb`, src/int/limb.rs L1236-1239. -/
def overflowingSubULimb (be : Bool) (x : Limbs w) (n : BitVec w) : Res (Limbs w × Bool) :=
  overflowingOf (Sub.sOverflowingULimb be x n)
/-- `carrying_add`, src/shared/bigint.rs L23-27. -/
def carryingAdd (be : Bool) (x rhs : Limbs w) (carry : Bool) : Res (Limbs w × Bool) := do
  let (a, b) ← overflowingAdd be x rhs
  let (c, d) ← overflowingAddULimb be a (boolLimb w carry)
  .ok (c, b || d)
/-- `borrowing_sub`, src/shared/bigint.rs L42-46. -/
def borrowingSub (be : Bool) (x rhs : Limbs w) (borrow : Bool) : Res (Limbs w × Bool) := do
  let (a, b) ← overflowingSub be x rhs
  let (c, d) ← overflowingSubULimb be a (boolLimb w borrow)
  .ok (c, b || d)
/-- `signum`, src/int/ops.rs L310-316. -/
def signum (be : Bool) (x : Limbs w) : Res (Limbs w) := do
  let zero ← fromU8 be x.length 0
  let o ← Ord.cmp be true x zero
  match o with
  | .lt => Cast.fromI be x.length .b8 (-1)
  | .eq => fromU8 be x.length 0
  | .gt => fromU8 be x.length 1

end I

end Raw

end I256
