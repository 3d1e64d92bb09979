import Verif.Model.MathShift
import Verif.Model.RawMul
import Verif.Model.RawDiv

/-!
# The quickcheck predicates of devel/tests/native_math.rs and devel/tests/div_math.rs

Every predicate is a function that returns a Boolean or panics; quickcheck counts both `false` and a
panic as a failure.  The crate's functions are the literal transcriptions; the primitive integers of the
expected results (`u64`, `i64`, `u128`) are bit vectors.
-/

namespace I256

open Raw Raw.Div

namespace QuickCheck

/-- `split`, devel/tests/native_math.rs L4-6, and the array literal `[x0, x1]` of every predicate. -/
def pair (x : BitVec 64) : Limbs 32 := [x.setWidth 32, (x >>> 32).setWidth 32]

/-- `unsplit`, devel/tests/native_math.rs L8-10; the addition is checked. -/
def unsplit (x0 x1 : BitVec 32) : Res (BitVec 64) := Raw.add (x0.setWidth 64) (x1.setWidth 64 <<< 32)

/-- The last lines of a predicate on wrapped results, e.g. devel/tests/native_math.rs L17-19:
`unsplit(result[0], result[1])` and the comparison. -/
def eqW (result : Res (Limbs 32)) (expected : BitVec 64) : Res Bool := do
  let result ← result
  let actual ← unsplit (← at_ result 0) (← at_ result 1)
  .ok (expected == actual)

/-- The last lines of a predicate on a result with a flag, e.g. devel/tests/native_math.rs L26-28. -/
def eqO (result : Res (Limbs 32 × Bool)) (expected : BitVec 64 × Bool) : Res Bool := do
  let (result, overflowed) ← result
  let actual ← unsplit (← at_ result 0) (← at_ result 1)
  .ok (expected == (actual, overflowed))

/-- `wrapping_add_u32_quickcheck`, devel/tests/native_math.rs L13-20. -/
def wrappingAddU32 (be : Bool) (x y : BitVec 64) : Res Bool :=
  eqW (Raw.Add.wrappingFull be (pair x) (pair y)) (x + y)

/-- `overflowing_add_u32_quickcheck`, devel/tests/native_math.rs L22-29. -/
def overflowingAddU32 (be : Bool) (x y : BitVec 64) : Res Bool :=
  eqO (Raw.Add.overflowingFull be (pair x) (pair y)) (x + y, x.uaddOverflow y)

/-- `wrapping_add_wide_u32_quickcheck`, devel/tests/native_math.rs L31-37. -/
def wrappingAddWideU32 (be : Bool) (x : BitVec 64) (y : BitVec 32) : Res Bool :=
  eqW (Raw.Add.wrappingLimb be (pair x) y) (x + (y.setWidth 64))

/-- `overflowing_add_wide_u32_quickcheck`, devel/tests/native_math.rs L39-45. -/
def overflowingAddWideU32 (be : Bool) (x : BitVec 64) (y : BitVec 32) : Res Bool :=
  eqO (Raw.Add.overflowingLimb be (pair x) y) (x + (y.setWidth 64), x.uaddOverflow (y.setWidth 64))

/-- `overflowing_sub_u32_quickcheck`, devel/tests/native_math.rs L47-54. -/
def overflowingSubU32 (be : Bool) (x y : BitVec 64) : Res Bool :=
  eqO (Raw.Sub.overflowingFull be (pair x) (pair y)) (x - y, x.usubOverflow y)

/-- `wrapping_sub_limb_u32_quickcheck`, devel/tests/native_math.rs L56-62. -/
def wrappingSubLimbU32 (be : Bool) (x : BitVec 64) (y : BitVec 32) : Res Bool :=
  eqW (Raw.Sub.wrappingLimb be (pair x) y) (x - (y.setWidth 64))

/-- `overflowing_sub_limb_u32_quickcheck`, devel/tests/native_math.rs L64-70. -/
def overflowingSubLimbU32 (be : Bool) (x : BitVec 64) (y : BitVec 32) : Res Bool :=
  eqO (Raw.Sub.overflowingLimb be (pair x) y) (x - (y.setWidth 64), x.usubOverflow (y.setWidth 64))

/-- `wrapping_mul_u32_quickcheck`, devel/tests/native_math.rs L72-79. -/
def wrappingMulU32 (be : Bool) (x y : BitVec 64) : Res Bool :=
  eqW (Raw.Mul.wrappingFull be (pair x) (pair y)) (x * y)

/-- `overflowing_mul_u32_quickcheck`, devel/tests/native_math.rs L81-88. -/
def overflowingMulU32 (be : Bool) (x y : BitVec 64) : Res Bool :=
  eqO (Raw.Mul.overflowingFull be (pair x) (pair y)) (x * y, x.umulOverflow y)

/-- `wrapping_add_i32_quickcheck`, devel/tests/native_math.rs L124-131. -/
def wrappingAddI32 (be : Bool) (x y : BitVec 64) : Res Bool :=
  eqW (Raw.Add.sWrappingFull be (pair x) (pair y)) (x + y)

/-- `overflowing_add_i32_quickcheck`, devel/tests/native_math.rs L133-140. -/
def overflowingAddI32 (be : Bool) (x y : BitVec 64) : Res Bool :=
  eqO (Raw.Add.sOverflowingFull be (pair x) (pair y)) (x + y, x.saddOverflow y)

/-- `wrapping_add_ulimb_i32_quickcheck`, devel/tests/native_math.rs L142-148. -/
def wrappingAddUlimbI32 (be : Bool) (x : BitVec 64) (y : BitVec 32) : Res Bool :=
  eqW (Raw.Add.wrappingLimb be (pair x) y) (x + (y.setWidth 64))

/-- `overflowing_add_ulimb_i32_quickcheck`, devel/tests/native_math.rs L150-156. -/
def overflowingAddUlimbI32 (be : Bool) (x : BitVec 64) (y : BitVec 32) : Res Bool :=
  eqO (Raw.Add.sOverflowingULimb be (pair x) y) (x + (y.setWidth 64), x.saddOverflow (y.setWidth 64))

/-- `wrapping_add_ilimb_i32_quickcheck`, devel/tests/native_math.rs L158-164. -/
def wrappingAddIlimbI32 (be : Bool) (x : BitVec 64) (y : BitVec 32) : Res Bool :=
  eqW (Raw.Add.sWrappingILimb be (pair x) y) (x + (y.signExtend 64))

/-- `overflowing_add_ilimb_i32_quickcheck`, devel/tests/native_math.rs L166-172. -/
def overflowingAddIlimbI32 (be : Bool) (x : BitVec 64) (y : BitVec 32) : Res Bool :=
  eqO (Raw.Add.sOverflowingILimb be (pair x) y) (x + (y.signExtend 64), x.saddOverflow (y.signExtend 64))

/-- `wrapping_sub_i32_quickcheck`, devel/tests/native_math.rs L174-181. -/
def wrappingSubI32 (be : Bool) (x y : BitVec 64) : Res Bool :=
  eqW (Raw.Sub.wrappingFull be (pair x) (pair y)) (x - y)

/-- `overflowing_sub_i32_quickcheck`, devel/tests/native_math.rs L183-190. -/
def overflowingSubI32 (be : Bool) (x y : BitVec 64) : Res Bool :=
  eqO (Raw.Sub.sOverflowingFull be (pair x) (pair y)) (x - y, x.ssubOverflow y)

/-- `wrapping_sub_ulimb_i32_quickcheck`, devel/tests/native_math.rs L192-198. -/
def wrappingSubUlimbI32 (be : Bool) (x : BitVec 64) (y : BitVec 32) : Res Bool :=
  eqW (Raw.Sub.wrappingLimb be (pair x) y) (x - (y.setWidth 64))

/-- `overflowing_sub_ulimb_i32_quickcheck`, devel/tests/native_math.rs L200-206. -/
def overflowingSubUlimbI32 (be : Bool) (x : BitVec 64) (y : BitVec 32) : Res Bool :=
  eqO (Raw.Sub.sOverflowingULimb be (pair x) y) (x - (y.setWidth 64), x.ssubOverflow (y.setWidth 64))

/-- `wrapping_sub_ilimb_i32_quickcheck`, devel/tests/native_math.rs L208-214. -/
def wrappingSubIlimbI32 (be : Bool) (x : BitVec 64) (y : BitVec 32) : Res Bool :=
  eqW (Raw.Sub.sWrappingILimb be (pair x) y) (x - (y.signExtend 64))

/-- `overflowing_sub_ilimb_i32_quickcheck`, devel/tests/native_math.rs L216-222. -/
def overflowingSubIlimbI32 (be : Bool) (x : BitVec 64) (y : BitVec 32) : Res Bool :=
  eqO (Raw.Sub.sOverflowingILimb be (pair x) y) (x - (y.signExtend 64), x.ssubOverflow (y.signExtend 64))

/-- `wrapping_mul_i32_quickcheck`, devel/tests/native_math.rs L224-231. -/
def wrappingMulI32 (be : Bool) (x y : BitVec 64) : Res Bool :=
  eqW (Raw.Mul.wrappingFull be (pair x) (pair y)) (x * y)

/-- `overflowing_mul_i32_quickcheck`, devel/tests/native_math.rs L233-240. -/
def overflowingMulI32 (be : Bool) (x y : BitVec 64) : Res Bool :=
  eqO (Raw.Mul.overflowingFullS be (pair x) (pair y)) (x * y, x.smulOverflow y)

/-- `wrapping_mul_ulimb_i32_quickcheck`, devel/tests/native_math.rs L242-248. -/
def wrappingMulUlimbI32 (be : Bool) (x : BitVec 64) (y : BitVec 32) : Res Bool :=
  eqW (Raw.Mul.wrappingLimb be (pair x) y) (x * (y.setWidth 64))

/-- `overflowing_mul_ulimb_i32_quickcheck`, devel/tests/native_math.rs L250-256. -/
def overflowingMulUlimbI32 (be : Bool) (x : BitVec 64) (y : BitVec 32) : Res Bool :=
  eqO (Raw.Mul.overflowingULimbS be (pair x) y) (x * (y.setWidth 64), x.smulOverflow (y.setWidth 64))

/-- `wrapping_mul_ilimb_i32_quickcheck`, devel/tests/native_math.rs L258-264. -/
def wrappingMulIlimbI32 (be : Bool) (x : BitVec 64) (y : BitVec 32) : Res Bool :=
  eqW (Raw.Mul.wrappingILimb be (pair x) y) (x * (y.signExtend 64))

/-- `overflowing_mul_ilimb_i32_quickcheck`, devel/tests/native_math.rs L266-272. -/
def overflowingMulIlimbI32 (be : Bool) (x : BitVec 64) (y : BitVec 32) : Res Bool :=
  eqO (Raw.Mul.overflowingILimbS be (pair x) y) (x * (y.signExtend 64), x.smulOverflow (y.signExtend 64))

/-- `shl_u32_quickcheck`, devel/tests/native_math.rs L90-97, and `shl_i32_quickcheck`, L274-281. -/
def shlU32 (cf : Cfg) (be : Bool) (x : BitVec 64) (n : BitVec 32) : Res Bool :=
  let n := (n % 64).toNat
  eqW (Raw.Shift.leftIn cf be (pair x) n) (x <<< n)

/-- `shr_u32_quickcheck`, devel/tests/native_math.rs L99-106. -/
def shrU32 (cf : Cfg) (be : Bool) (x : BitVec 64) (n : BitVec 32) : Res Bool :=
  let n := (n % 64).toNat
  eqW (Raw.Shift.rightIn cf be false (pair x) n) (x >>> n)

/-- `shr_i32_quickcheck`, devel/tests/native_math.rs L283-290. -/
def shrI32 (cf : Cfg) (be : Bool) (x : BitVec 64) (n : BitVec 32) : Res Bool :=
  let n := (n % 64).toNat
  eqW (Raw.Shift.rightIn cf be true (pair x) n) (x.sshiftRight n)

/-- `rotate_left_u32_quickcheck`, devel/tests/native_math.rs L108-114. -/
def rotateLeftU32 (cf : Cfg) (be : Bool) (x : BitVec 64) (n : BitVec 32) : Res Bool :=
  eqW (Raw.Rot.leftIn cf be (pair x) n.toNat) (x.rotateLeft n.toNat)

/-- `rotate_right_u32_quickcheck`, devel/tests/native_math.rs L116-122. -/
def rotateRightU32 (cf : Cfg) (be : Bool) (x : BitVec 64) (n : BitVec 32) : Res Bool :=
  eqW (Raw.Rot.rightIn cf be (pair x) n.toNat) (x.rotateRight n.toNat)

/-- `widening_mul_quickcheck`, devel/tests/native_math.rs L292-300; the product of two zero-extended
`u64` does not overflow in `u128`. -/
def wideningMul (be : Bool) (x y : BitVec 64) : Res Bool := do
  let (lo, hi) ← Raw.Mul.widening be (pair x) (pair y)
  let expected ← Raw.mul (x.setWidth 128) (y.setWidth 128)
  let lo ← unsplit (← at_ lo 0) (← at_ lo 1)
  let hi ← unsplit (← at_ hi 0) (← at_ hi 1)
  .ok (expected == (lo.setWidth 128 ||| (hi.setWidth 128 <<< 64)))

/-! ### devel/tests/div_math.rs -/

variable {w : Nat}

/-- `[x0, x1]` from a `UWide`, devel/tests/div_math.rs L8-9 and L13. -/
def halves (x : BitVec (w + w)) : Limbs w := [x.setWidth w, (x >>> w).setWidth w]

/-- `x0 | x1 << BITS`, devel/tests/div_math.rs L17-18 and L22. -/
def join (x : Limbs w) : Res (BitVec (w + w)) := do
  let x0 ← at_ x 0
  let x1 ← at_ x 1
  .ok (x0.setWidth (w + w) ||| (x1.setWidth (w + w) <<< w))

/-- `uwide_div_quickcheck`, devel/tests/div_math.rs L52-61, with `uwide_div`, L7-23. -/
def uwideDiv (cf : Cfg) (num den : BitVec (w + w)) : Res Bool :=
  if den ≠ 0 then do
    let (div, rem) ← full cf (halves num) (halves den)
    .ok ((← join div, ← join rem) == (num / den, num % den))
  else .ok true

/-- `uwide_div_wide_quickcheck`, devel/tests/div_math.rs L63-72, with `uwide_div_wide`, L25-36. -/
def uwideDivWide (cf : Cfg) (num : BitVec (w + w)) (den : BitVec w) : Res Bool :=
  if den ≠ 0 then do
    let (div, rem) ← wideDiv cf (halves num) (den.setWidth (w + w))
    .ok ((← join div, rem.setWidth w) ==
      (num / den.setWidth (w + w), (num % den.setWidth (w + w)).setWidth w))
  else .ok true

/-- `uwide_div_limb_quickcheck`, devel/tests/div_math.rs L74-83, with `uwide_div_limb`, L38-48. -/
def uwideDivLimb (cf : Cfg) (num : BitVec (w + w)) (den : BitVec w) : Res Bool :=
  if den ≠ 0 then do
    let (div, rem) ← limb cf (halves num) den
    .ok ((← join div, rem) == (num / den.setWidth (w + w), (num % den.setWidth (w + w)).setWidth w))
  else .ok true

end QuickCheck

end I256
