import Verif.Model.RawDivApi
import Verif.Model.Casts

/-!
# Literal model of `src/shared/casts.rs` and of the constants

See `Raw.lean` for the vocabulary.  `N` is `Self::LIMBS`.  The results are arrays in memory order.  The
shifts of the `u64` and `u128` values are checked native shifts.
-/

namespace I256

variable {w : Nat}

namespace Raw

namespace Cast

/-- `from_u32`, src/shared/casts.rs L67-71. -/
def fromU32 (be : Bool) (N : Nat) (value : BitVec 32) : Res (Limbs w) := do
  let limbs ← wr be (List.replicate N 0) 0 (value.setWidth w)
  fromNeLimbs limbs

/-- `from_u64`, src/shared/casts.rs L75-87. -/
def fromU64 (be : Bool) (N : Nat) (value : BitVec 64) : Res (Limbs w) := do
  assert (decide (w = 32 ∨ w = 64))
  let limbs : Limbs w := List.replicate N 0
  if w = 32 then
    let limbs ← wr be limbs 0 (value.setWidth w)
    let v1 ← shr value 32
    let limbs ← wr be limbs 1 (v1.setWidth w)
    fromNeLimbs limbs
  else
    let limbs ← wr be limbs 0 (value.setWidth w)
    fromNeLimbs limbs

/-- The four or two assignments to `limbs` in `from_u128`, src/shared/casts.rs L96-104, and `from_i128`,
L204-212. -/
def put128 (be : Bool) (limbs : Limbs w) (value : BitVec 128) : Res (Limbs w) := do
  if w = 32 then
    let limbs ← wr be limbs 0 (value.setWidth w)
    let v1 ← shr value 32
    let limbs ← wr be limbs 1 (v1.setWidth w)
    let v2 ← shr value 64
    let limbs ← wr be limbs 2 (v2.setWidth w)
    let v3 ← shr value 96
    wr be limbs 3 (v3.setWidth w)
  else
    let limbs ← wr be limbs 0 (value.setWidth w)
    let v1 ← shr value 64
    wr be limbs 1 (v1.setWidth w)

/-- `from_u128`, src/shared/casts.rs L91-106. -/
def fromU128 (be : Bool) (N : Nat) (value : BitVec 128) : Res (Limbs w) := do
  assert (decide (w = 32 ∨ w = 64))
  let limbs ← put128 be (List.replicate N 0) value
  fromNeLimbs limbs

/-- `from_u8` (src/shared/casts.rs L55-57), `from_u16` (L61-63) and the above. -/
def fromU (be : Bool) (N : Nat) : (p : Prim) → BitVec p.n → Res (Limbs w)
  | .b8, v => fromU32 be N (v.setWidth 32)
  | .b16, v => fromU32 be N (v.setWidth 32)
  | .b32, v => fromU32 be N v
  | .b64, v => fromU64 be N v
  | .b128, v => fromU128 be N v

/-- `ULimb::MIN.wrapping_sub(value.is_negative() as ULimb)`, src/shared/casts.rs L164. -/
def signBit {n : Nat} (w : Nat) (value : BitVec n) : BitVec w :=
  0 - (if value.toInt < 0 then 1 else 0)

/-- `from_i64`, src/shared/casts.rs L176-193. In the first branch `UWide` is `u64`. -/
def fromI64 (be : Bool) (N : Nat) (value : BitVec 64) : Res (Limbs w) := do
  assert (decide (w = 32 ∨ w = 64))
  let limbs : Limbs w := List.replicate N (signBit w value)
  if w = 32 then
    let limbs ← wr be limbs 0 (value.setWidth w)
    let v1 ← shr value 32
    let limbs ← wr be limbs 1 (v1.setWidth w)
    fromNeLimbs limbs
  else
    let limbs ← wr be limbs 0 (value.setWidth w)
    fromNeLimbs limbs

/-- `from_i32`, src/shared/casts.rs L160-172. -/
def fromI32 (be : Bool) (N : Nat) (value : BitVec 32) : Res (Limbs w) := do
  assert (decide (w = 32 ∨ w = 64))
  if w = 32 then
    let limbs ← wr be (List.replicate N (signBit w value)) 0 (value.setWidth w)
    fromNeLimbs limbs
  else fromI64 be N (value.signExtend 64)

/-- `from_i128`, src/shared/casts.rs L197-214. -/
def fromI128 (be : Bool) (N : Nat) (value : BitVec 128) : Res (Limbs w) := do
  assert (decide (w = 32 ∨ w = 64))
  let limbs ← put128 be (List.replicate N (signBit w value)) value
  fromNeLimbs limbs

/-- `from_i8` (src/shared/casts.rs L148-150), `from_i16` (L154-156) and the above. -/
def fromI (be : Bool) (N : Nat) : (p : Prim) → BitVec p.n → Res (Limbs w)
  | .b8, v => fromI32 be N (v.signExtend 32)
  | .b16, v => fromI32 be N (v.signExtend 32)
  | .b32, v => fromI32 be N v
  | .b64, v => fromI64 be N v
  | .b128, v => fromI128 be N v

/-- `from_ulimb`, src/shared/casts.rs L111-119. -/
def fromULimb (be : Bool) (N : Nat) (v : BitVec w) : Res (Limbs w) := do
  assert (decide (w = 32 ∨ w = 64))
  if w = 32 then fromU32 be N (v.setWidth 32) else fromU64 be N (v.setWidth 64)
/-- `from_uwide`, src/shared/casts.rs L124-132. -/
def fromUWide (be : Bool) (N : Nat) (v : BitVec (w + w)) : Res (Limbs w) := do
  assert (decide (w + w = 64 ∨ w + w = 128))
  if w + w = 64 then fromU64 be N (v.setWidth 64) else fromU128 be N (v.setWidth 128)
/-- `from_ilimb`, src/shared/casts.rs L219-227. -/
def fromILimb (be : Bool) (N : Nat) (v : BitVec w) : Res (Limbs w) := do
  assert (decide (w = 32 ∨ w = 64))
  if w = 32 then fromI32 be N (v.setWidth 32) else fromI64 be N (v.setWidth 64)
/-- `from_iwide`, src/shared/casts.rs L232-240. -/
def fromIWide (be : Bool) (N : Nat) (v : BitVec (w + w)) : Res (Limbs w) := do
  assert (decide (w + w = 64 ∨ w + w = 128))
  if w + w = 64 then fromI64 be N (v.setWidth 64) else fromI128 be N (v.setWidth 128)

/-- `from_unsigned`, `from_signed`, `as_unsigned`, `as_signed`, `cast_unsigned` and `cast_signed`,
src/shared/casts.rs L136-138, L142-144, L371-373, L377-379, src/int/casts.rs L26-28, src/uint/casts.rs L27-29. -/
def reinterpret (x : Limbs w) : Res (Limbs w) := fromNeLimbs x

/-- `as_u32`, src/shared/casts.rs L256-261. -/
def asU32 (be : Bool) (x : Limbs w) : Res (BitVec 32) := do
  assert (decide (w = 32 ∨ w = 64))
  let x0 ← rd be x 0
  .ok (x0.setWidth 32)

/-- `as_u64`, src/shared/casts.rs L265-277. -/
def asU64 (be : Bool) (x : Limbs w) : Res (BitVec 64) := do
  assert (decide (w = 32 ∨ w = 64))
  if w = 32 then
    let x0 ← rd be x 0
    let x1 ← rd be x 1
    let h1 ← shl (x1.setWidth 64) 32
    .ok (x0.setWidth 64 ||| h1)
  else
    let x0 ← rd be x 0
    .ok (x0.setWidth 64)

/-- `as_u128`, src/shared/casts.rs L281-297. -/
def asU128 (be : Bool) (x : Limbs w) : Res (BitVec 128) := do
  assert (decide (w = 32 ∨ w = 64))
  if w = 32 then
    let x0 ← rd be x 0
    let x1 ← rd be x 1
    let x2 ← rd be x 2
    let x3 ← rd be x 3
    let h1 ← shl (x1.setWidth 128) 32
    let h2 ← shl (x2.setWidth 128) 64
    let h3 ← shl (x3.setWidth 128) 96
    .ok (x0.setWidth 128 ||| h1 ||| h2 ||| h3)
  else
    let x0 ← rd be x 0
    let x1 ← rd be x 1
    let h1 ← shl (x1.setWidth 128) 64
    .ok (x0.setWidth 128 ||| h1)

/-- `as_u8` (src/shared/casts.rs L244-246), `as_u16` (L250-252) and the above. The signed forms
`as_i8` … `as_i128` (L327-353) are the same bits. -/
def asP (be : Bool) (x : Limbs w) : (p : Prim) → Res (BitVec p.n)
  | .b8 => (asU32 be x).map (·.setWidth 8)
  | .b16 => (asU32 be x).map (·.setWidth 16)
  | .b32 => asU32 be x
  | .b64 => asU64 be x
  | .b128 => asU128 be x

/-- `as_ulimb`, src/shared/casts.rs L302-310; `as_ilimb` (L358-360) is the same bits. -/
def asULimb (be : Bool) (x : Limbs w) : Res (BitVec w) := do
  assert (decide (w = 32 ∨ w = 64))
  if w = 32 then (asU32 be x).map (·.setWidth w) else (asU64 be x).map (·.setWidth w)
/-- `as_uwide`, src/shared/casts.rs L315-323; `as_iwide` (L365-367) is the same bits. -/
def asUWide (be : Bool) (x : Limbs w) : Res (BitVec (w + w)) := do
  assert (decide (w + w = 64 ∨ w + w = 128))
  if w + w = 64 then (asU64 be x).map (·.setWidth (w + w)) else (asU128 be x).map (·.setWidth (w + w))

end Cast

/-- `get_limb`, src/shared/extensions.rs L19-21. -/
def getLimb (be : Bool) (x : Limbs w) (index : Nat) : Res (BitVec w) := rd be x index

/-- `is_even`, src/shared/extensions.rs L7-9. -/
def isEven (be : Bool) (x : Limbs w) : Res Bool := do
  let v ← getLimb be x 0
  .ok (v.toNat % 2 == 0)

/-- `is_odd`, src/shared/extensions.rs L13-15. -/
def isOdd (be : Bool) (x : Limbs w) : Res Bool := do
  let v ← isEven be x
  .ok (!v)

/-- `least_significant_limb`, src/shared/extensions.rs L53-55. -/
def leastSignificantLimb (be : Bool) (x : Limbs w) : Res (BitVec w) := getLimb be x 0
/-- `most_significant_limb`, src/shared/extensions.rs L59-61. -/
def mostSignificantLimb (be : Bool) (x : Limbs w) : Res (BitVec w) := do
  let k ← usub x.length 1
  getLimb be x k

/-- `max_value` of the signed types, src/int/constants.rs L30-34; `ILimb::MAX` is the limb with all bits
but the top one. -/
def I.maxValue (be : Bool) (N : Nat) : Res (Limbs w) := do
  let k ← usub N 1
  let limbs ← wr be (List.replicate N (BitVec.allOnes w)) k (BitVec.intMax w)
  fromNeLimbs limbs

/-- `min_value` and `max_value` of the unsigned types, src/uint/constants.rs L21-23, L28-30. -/
def U.constant (N : Nat) (v : BitVec w) : Res (Limbs w) := fromNeLimbs (List.replicate N v)

end Raw

end I256
