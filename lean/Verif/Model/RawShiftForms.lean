import Verif.Model.RawForms
import Verif.Model.RawDivForms
import Verif.Model.Shift

/-!
# Literal model of the forms of the shifts, the powers of two and the midpoints

See `Raw.lean` for the vocabulary.  The arrays are in memory order; `cf` is the kind of build.  An amount
of a primitive integer type is a bit vector, and `ps` tells whether that type is signed.
-/

namespace I256

variable {w : Nat}

namespace Raw

open _root_.I256.Raw.Div (Cfg)

/-- `checked_shl`, src/shared/checked.rs L157-164. -/
def checkedShl (be : Bool) (self : Limbs w) (rhs : Nat) : Res (Option (Limbs w)) := do
  if rhs < bits self then
    let v ← wrappingShl be self rhs
    .ok (some v)
  else .ok none
/-- `checked_shr`, src/shared/checked.rs L172-179. -/
def checkedShr (be signed : Bool) (self : Limbs w) (rhs : Nat) : Res (Option (Limbs w)) := do
  if rhs < bits self then
    let v ← wrappingShr be signed self rhs
    .ok (some v)
  else .ok none

/-- `strict_shl`, src/shared/strict.rs L83-88. -/
def strictShl (be : Bool) (self : Limbs w) (rhs : Nat) : Res (Limbs w) :=
  unwrapRes (checkedShl be self rhs)
/-- `strict_shr`, src/shared/strict.rs L99-104. -/
def strictShr (be signed : Bool) (self : Limbs w) (rhs : Nat) : Res (Limbs w) :=
  unwrapRes (checkedShr be signed self rhs)

/-- `unbounded_shl`, src/shared/unbounded.rs L18-24. -/
def unboundedShl (be : Bool) (self : Limbs w) (rhs : Nat) : Res (Limbs w) :=
  if rhs < bits self then wrappingShl be self rhs else fromU8 be self.length 0
/-- `unbounded_shr`, src/shared/unbounded.rs L35-41. -/
def unboundedShr (be signed : Bool) (self : Limbs w) (rhs : Nat) : Res (Limbs w) :=
  if rhs < bits self then wrappingShr be signed self rhs else fromU8 be self.length 0

/-- `overflowing_shl`, src/int/overflowing.rs L192-194. -/
def I.overflowingShl (be : Bool) (self : Limbs w) (rhs : Nat) : Res (Limbs w × Bool) := do
  let v ← wrappingShl be self rhs
  .ok (v, decide (rhs ≥ bits self))
/-- `overflowing_shr`, src/int/overflowing.rs L206-208. -/
def I.overflowingShr (be : Bool) (self : Limbs w) (rhs : Nat) : Res (Limbs w × Bool) := do
  let v ← wrappingShr be true self rhs
  .ok (v, decide (rhs ≥ bits self))

/-- `Shl<$t>` for a primitive `$t`, src/shared/shift.rs L11-16. -/
def shlPrim {n : Nat} (cf : Cfg) (be ps : Bool) (self : Limbs w) (other : BitVec n) : Res (Limbs w) := do
  if cf.oc then assert (primInRange ps (bits self) other) else .ok ()
  wrappingShl be self (primAsU32 ps other)
/-- `Shr<$t>` for a primitive `$t`, src/shared/shift.rs L25-30. -/
def shrPrim {n : Nat} (cf : Cfg) (be ps signed : Bool) (self : Limbs w) (other : BitVec n) :
    Res (Limbs w) := do
  if cf.oc then assert (primInRange ps (bits self) other) else .ok ()
  wrappingShr be signed self (primAsU32 ps other)

/-- The assertion of `Shl` and `Shr` with an amount of the type of the other signedness,
src/shared/shift.rs L42-45 and L58-61; `os` tells whether that type is signed.  `ge_const` is
src/shared/ord.rs L126-128, `from_u32` is src/shared/casts.rs L67-71. -/
def assertBig (be os : Bool) (BITS : Nat) (other : Limbs w) : Res Unit := do
  let limit ← Cast.fromU32 be other.length (BitVec.ofNat 32 BITS)
  let below ← Ord.lt be os other limit
  let isAbove := !below
  let zero ← Cast.fromU32 be other.length 0
  let isBelow ← Ord.lt be os other zero
  let isOverflow := isAbove || isBelow
  assert (!isOverflow)
/-- `Shl` by the big integer type of the other signedness, src/shared/shift.rs L40-48. -/
def shlBig (cf : Cfg) (be os : Bool) (self other : Limbs w) : Res (Limbs w) := do
  if cf.oc then assertBig be os (bits self) other else .ok ()
  let n ← Cast.asU32 be other
  wrappingShl be self n.toNat
/-- `Shr` by the big integer type of the other signedness, src/shared/shift.rs L56-64. -/
def shrBig (cf : Cfg) (be os signed : Bool) (self other : Limbs w) : Res (Limbs w) := do
  if cf.oc then assertBig be os (bits self) other else .ok ()
  let n ← Cast.asU32 be other
  wrappingShr be signed self n.toNat

/-- `Shl<Self>`, src/shared/ops.rs L155-158. -/
def shlSelf (be : Bool) (self other : Limbs w) : Res (Limbs w) := do
  let limb ← leastSignificantLimb be other
  let shift := limb.setWidth 32 &&& BitVec.allOnes 32
  wrappingShl be self shift.toNat
/-- `Shr<Self>`, src/shared/ops.rs L166-169. -/
def shrSelf (be signed : Bool) (self other : Limbs w) : Res (Limbs w) := do
  let limb ← leastSignificantLimb be other
  let shift := limb.setWidth 32 &&& BitVec.allOnes 32
  wrappingShr be signed self shift.toNat

namespace Bits

/-- `count_zeros`, src/shared/bitops.rs L32-34. -/
def countZeros (self : Limbs w) : Res Nat := do
  let n ← not self
  countOnes n
/-- `leading_ones`, src/shared/bitops.rs L92-94. -/
def leadingOnes (be : Bool) (self : Limbs w) : Res Nat := do
  let n ← not self
  leadingZeros be n
/-- `trailing_ones`, src/shared/bitops.rs L101-103. -/
def trailingOnes (be : Bool) (self : Limbs w) : Res Nat := do
  let n ← not self
  trailingZeros be n

end Bits

namespace U

/-- `is_power_of_two`, src/uint/ops.rs L210-212. -/
def isPowerOfTwo (self : Limbs w) : Res Bool := do
  let n ← Bits.countOnes self
  .ok (n == 1)

/-- `one_less_than_next_power_of_two`, src/uint/ops.rs L215-222. -/
def oneLessThanNextPowerOfTwo (be : Bool) (self : Limbs w) : Res (Limbs w) := do
  let one ← fromU8 be self.length 1
  let small ← Ord.le be false self one
  if small then constant self.length 0
  else
    let p ← wrappingSub be self one
    let z ← Bits.leadingZeros be p
    let max ← constant self.length (BitVec.allOnes w)
    wrappingShr be false max z

/-- `wrapping_next_power_of_two`, src/uint/wrapping.rs L329-331. -/
def wrappingNextPowerOfTwo (be : Bool) (self : Limbs w) : Res (Limbs w) := do
  let p ← oneLessThanNextPowerOfTwo be self
  let one ← fromU8 be self.length 1
  wrappingAdd be p one

/-- `checked_next_power_of_two`, src/uint/checked.rs L149-151. -/
def checkedNextPowerOfTwo (be : Bool) (self : Limbs w) : Res (Option (Limbs w)) := do
  let p ← oneLessThanNextPowerOfTwo be self
  let one ← fromU8 be self.length 1
  checkedAdd be p one

/-- `next_power_of_two`, src/uint/ops.rs L233-242. -/
def nextPowerOfTwo (cf : Cfg) (be : Bool) (self : Limbs w) : Res (Limbs w) :=
  opOf cf (wrappingNextPowerOfTwo be self) (checkedNextPowerOfTwo be self)

/-- `midpoint`, src/uint/ops.rs L253-258. -/
def midpoint (be : Bool) (self rhs : Limbs w) : Res (Limbs w) := do
  let xor ← Bits.zip (· ^^^ ·) self rhs
  let half ← wrappingShr be false xor 1
  let and ← Bits.zip (· &&& ·) self rhs
  wrappingAdd be half and

end U

namespace I

/-- `midpoint`, src/int/ops.rs L328-337. -/
def midpoint (be : Bool) (self rhs : Limbs w) : Res (Limbs w) := do
  let xor ← Bits.zip (· ^^^ ·) self rhs
  let half ← wrappingShr be true xor 1
  let and ← Bits.zip (· &&& ·) self rhs
  let t ← wrappingAdd be half and
  let neg ← Bits.isNegative be t
  let isNegative ← fromU8 be self.length neg.toNat
  let odd ← Bits.zip (· &&& ·) isNegative xor
  wrappingAdd be t odd

end I

end Raw

end I256
