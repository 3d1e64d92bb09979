import Verif.Model.RawDivApi
import Verif.Model.DivApi

/-!
# Literal model of the scalar divisions of the signed types

See `Raw.lean` for the vocabulary and `RawDiv.lean` for `Cfg`.  The numbers are in memory order.
-/

namespace I256

variable {w : Nat}

namespace Raw

open Div (Cfg debugAssert)

/-- `if cfg!(not(have_overflow_checks)) { wrapping } else { match checked { .. } }`,
src/shared/limb.rs L66-73. -/
def opOf {α : Type} (cf : Cfg) (wrapping : Res α) (checked : Res (Option α)) : Res α := do
  if !cf.oc then wrapping
  else
    let r ← checked
    unwrapOrPanic r

/-- `checked_div_rem_ulimb`, src/shared/limb.rs L836-842: `None` for a zero divisor. -/
def checkedBy {α : Type} {n : Nat} (v : BitVec n) (wrapping : Res α) : Res (Option α) := do
  if v == 0 then .ok none
  else
    let r ← wrapping
    .ok (some r)

namespace U

/-- `div_rem_ulimb`, src/shared/limb.rs L65-74. -/
def divRemULimb (cf : Cfg) (be : Bool) (x : Limbs w) (n : BitVec w) : Res (Limbs w × BitVec w) :=
  opOf cf (wrappingDivRemULimb cf be x n) (checkedBy n (wrappingDivRemULimb cf be x n))

end U

namespace I

/-- `-`, src/shared/ops.rs L121-130, with `wrapping_sub`, src/int/wrapping.rs L33-36, `checked_sub`,
src/shared/checked.rs L31-38, and `overflowing_sub`, src/int/overflowing.rs L39-44. -/
def sub (cf : Cfg) (be : Bool) (x y : Limbs w) : Res (Limbs w) := do
  if !cf.oc then
    let limbs ← Sub.wrappingFull be x y
    fromNeLimbs limbs
  else
    let (limbs, overflowed) ← Sub.sOverflowingFull be x y
    let value ← fromNeLimbs limbs
    if !overflowed then .ok value else .panic

/-- The body shared by `wrapping_div_rem_ulimb` (src/int/limb.rs L539-555), `wrapping_div_rem_uwide`
(L677-689) and the 32-bit branch of `wrapping_div_rem_u128` (L1134-1145); `div` is the kernel in
`src/math/div.rs`. -/
def divRemUnsigned {m : Nat} (cf : Cfg) (be : Bool)
    (div : Limbs w → BitVec m → Res (Limbs w × BitVec m)) (self : Limbs w) (n : BitVec m) :
    Res (Limbs w × BitVec m) := do
  let x ← unsignedAbs cf be self
  let x ← toLeLimbs be x
  let (d, rem) ← div x n
  let d ← fromLeLimbs be d
  let neg ← Bits.isNegative be self
  let d ← if neg then wrappingNeg cf be d else .ok d
  let neg ← Bits.isNegative be self
  if neg && rem != 0 then
    let one ← fromU8 be self.length 1
    let d ← sub cf be d one
    let rem ← Div.sub cf n rem
    .ok (d, rem)
  else .ok (d, rem)

/-- The body shared by `wrapping_div_rem_ilimb` (src/int/limb.rs L564-582), `wrapping_div_rem_iwide`
(L698-712) and the 32-bit branch of `wrapping_div_rem_i128` (L1164-1177); `div` is the kernel in
`src/math/div.rs`. The cast of `rem` keeps the bits. -/
def divRemSigned {m : Nat} (cf : Cfg) (be : Bool)
    (div : Limbs w → BitVec m → Res (Limbs w × BitVec m)) (self : Limbs w) (n : BitVec m) :
    Res (Limbs w × BitVec m) := do
  let x ← unsignedAbs cf be self
  let x ← toLeLimbs be x
  let (d, rem) ← div x (I256.I.primAbs n)
  let d ← fromLeLimbs be d
  let neg ← Bits.isNegative be self
  let d ← if neg != n.slt 0 then wrappingNeg cf be d else .ok d
  let neg ← Bits.isNegative be self
  .ok (d, if neg then -rem else rem)

/-- `wrapping_div_rem_ulimb`, src/int/limb.rs L539-555. -/
def wrappingDivRemULimb (cf : Cfg) (be : Bool) : Limbs w → BitVec w → Res (Limbs w × BitVec w) :=
  divRemUnsigned cf be (Div.limb cf)
/-- `wrapping_div_rem_uwide`, src/int/limb.rs L677-689. -/
def wrappingDivRemUWide (cf : Cfg) (be : Bool) :
    Limbs w → BitVec (w + w) → Res (Limbs w × BitVec (w + w)) :=
  divRemUnsigned cf be (Div.wideDiv cf)
/-- `wrapping_div_rem_u128` with limbs of 32 bits, src/int/limb.rs L1134-1145. -/
def wrappingDivRemU128 (cf : Cfg) (be : Bool) : Limbs w → BitVec 128 → Res (Limbs w × BitVec 128) :=
  divRemUnsigned cf be (Div.fromU128 cf)
/-- `wrapping_div_rem_ilimb`, src/int/limb.rs L564-582. -/
def wrappingDivRemILimb (cf : Cfg) (be : Bool) : Limbs w → BitVec w → Res (Limbs w × BitVec w) :=
  divRemSigned cf be (Div.limb cf)
/-- `wrapping_div_rem_iwide`, src/int/limb.rs L698-712. -/
def wrappingDivRemIWide (cf : Cfg) (be : Bool) :
    Limbs w → BitVec (w + w) → Res (Limbs w × BitVec (w + w)) :=
  divRemSigned cf be (Div.wideDiv cf)
/-- `wrapping_div_rem_i128` with limbs of 32 bits, src/int/limb.rs L1164-1177. -/
def wrappingDivRemI128 (cf : Cfg) (be : Bool) : Limbs w → BitVec 128 → Res (Limbs w × BitVec 128) :=
  divRemSigned cf be (Div.fromU128 cf)

/-- `div_rem_ulimb`, src/shared/limb.rs L65-74. -/
def divRemULimb (cf : Cfg) (be : Bool) (x : Limbs w) (n : BitVec w) : Res (Limbs w × BitVec w) :=
  opOf cf (wrappingDivRemULimb cf be x n) (checkedBy n (wrappingDivRemULimb cf be x n))

end I

end Raw

end I256
