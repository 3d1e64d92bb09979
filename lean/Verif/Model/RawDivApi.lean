import Verif.Model.RawAdd
import Verif.Model.RawApi
import Verif.Model.RawDiv

/-!
# Literal model of the callers of `src/math/div.rs`

See `Raw.lean` for the vocabulary and `RawDiv.lean` for `Cfg`.  The numbers are in memory order; the
callers bring them into little-endian order and back.
-/

namespace I256

variable {w : Nat}

namespace Raw

open Div (Cfg debugAssert)

/-- `to_le_limbs`, src/shared/endian.rs L223-229. -/
def toLeLimbs (be : Bool) (x : Limbs w) : Res (Limbs w) :=
  if !be then .ok x else Bits.swapArray x

/-- `from_le_limbs`, src/shared/endian.rs L267-273. -/
def fromLeLimbs (be : Bool) (limbs : Limbs w) : Res (Limbs w) := do
  if be then
    let l ← Bits.swapArray limbs
    fromNeLimbs l
  else fromNeLimbs limbs

/-- `eq_const`, src/shared/ord.rs L76-82. -/
def Ord.eqConst (be : Bool) (x y : Limbs w) : Res Bool :=
  if w * x.length < 4096 then Ord.eqBranchless be x y else Ord.eqBranched be x y

/-- `from_u8` of a small constant, src/shared/casts.rs L55-57, L66-71. -/
def fromU8 (be : Bool) (N v : Nat) : Res (Limbs w) := do
  let limbs ← wr be (List.replicate N 0) 0 (BitVec.ofNat w v)
  fromNeLimbs limbs

namespace U

/-- `wrapping_div_rem`, src/uint/wrapping.rs L228-238. -/
def wrappingDivRem (cf : Cfg) (be : Bool) (x y : Limbs w) : Res (Limbs w × Limbs w) := do
  let x ← toLeLimbs be x
  let y ← toLeLimbs be y
  let (div, rem) ← Div.full cf x y
  let div ← fromLeLimbs be div
  let rem ← fromLeLimbs be rem
  .ok (div, rem)

/-- `wrapping_div_rem_ulimb`, src/uint/limb.rs L103-107. -/
def wrappingDivRemULimb (cf : Cfg) (be : Bool) (x : Limbs w) (n : BitVec w) :
    Res (Limbs w × BitVec w) := do
  let x ← toLeLimbs be x
  let (div, rem) ← Div.limb cf x n
  let div ← fromLeLimbs be div
  .ok (div, rem)

/-- `wrapping_div_rem_uwide`, src/uint/limb.rs L170-174. -/
def wrappingDivRemUWide (cf : Cfg) (be : Bool) (x : Limbs w) (n : BitVec (w + w)) :
    Res (Limbs w × BitVec (w + w)) := do
  let x ← toLeLimbs be x
  let (div, rem) ← Div.wideDiv cf x n
  let div ← fromLeLimbs be div
  .ok (div, rem)

/-- `wrapping_div_rem_u128` with limbs of 32 bits, src/uint/limb.rs L368-372. -/
def wrappingDivRemU128 (cf : Cfg) (be : Bool) (x : Limbs w) (n : BitVec 128) :
    Res (Limbs w × BitVec 128) := do
  let x ← toLeLimbs be x
  let (div, rem) ← Div.fromU128 cf x n
  let div ← fromLeLimbs be div
  .ok (div, rem)

end U

namespace I

/-- `min_value`, src/int/constants.rs L21-25. -/
def minValue (be : Bool) (N : Nat) : Res (Limbs w) := do
  let k ← usub N 1
  let limbs ← wr be (List.replicate N 0) k (BitVec.intMin w)
  fromNeLimbs limbs

/-- `wrapping_neg`, src/int/wrapping.rs L205-211, with `wrapping_add_ulimb`, src/int/limb.rs L465-468,
and `wrapping_sub`, src/int/wrapping.rs L33-36. -/
def wrappingNeg (cf : Cfg) (be : Bool) (x : Limbs w) : Res (Limbs w) := do
  let n ← Bits.not x
  let n ← Add.wrappingLimb be n 1
  let twosNeg ← fromNeLimbs n
  let zero ← fromU8 be x.length 0
  let d ← Sub.wrappingFull be zero x
  let fromZero ← fromNeLimbs d
  let eq ← Ord.eqConst be fromZero twosNeg
  debugAssert cf eq
  .ok fromZero

/-- `overflowing_neg`, src/int/overflowing.rs L174-180. -/
def overflowingNeg (cf : Cfg) (be : Bool) (x : Limbs w) : Res (Limbs w × Bool) := do
  let min ← minValue be x.length
  let eq ← Ord.eqConst be x min
  if eq then .ok (min, true)
  else
    let v ← wrappingNeg cf be x
    .ok (v, false)

/-- `overflowing_abs`, src/int/overflowing.rs L217-222. -/
def overflowingAbs (cf : Cfg) (be : Bool) (x : Limbs w) : Res (Limbs w × Bool) := do
  let neg ← Bits.isNegative be x
  if neg then overflowingNeg cf be x else .ok (x, false)

/-- `unsigned_abs`, src/int/ops.rs L68-70, with `wrapping_abs`, src/int/wrapping.rs L224-226; the
cast `as_unsigned` keeps the limbs. -/
def unsignedAbs (cf : Cfg) (be : Bool) (x : Limbs w) : Res (Limbs w) := do
  let r ← overflowingAbs cf be x
  fromNeLimbs r.1

/-- `wrapping_div_rem`, src/int/wrapping.rs L74-99. -/
def wrappingDivRem (cf : Cfg) (be : Bool) (self n : Limbs w) : Res (Limbs w × Limbs w) := do
  let x ← unsignedAbs cf be self
  let x ← toLeLimbs be x
  let y ← unsignedAbs cf be n
  let y ← toLeLimbs be y
  let (div, rem) ← Div.full cf x y
  let div ← fromLeLimbs be div
  let rem ← fromLeLimbs be rem
  let xNeg ← Bits.isNegative be self
  let yNeg ← Bits.isNegative be n
  let div ← if xNeg != yNeg then wrappingNeg cf be div else .ok div
  let rem ← if xNeg then wrappingNeg cf be rem else .ok rem
  .ok (div, rem)

end I

end Raw

end I256
