import Verif.Model.RawForms
import Verif.Model.RawScalar

/-!
# Literal model of the forms of the division methods

See `Raw.lean` for the vocabulary and `RawDiv.lean` for `Cfg`.  The numbers are in memory order.  The
wrapping division is in `RawDivApi.lean`, `U.wrappingDiv`, `U.checkedDiv` and `U.div` are in `RawPow.lean`.
-/

namespace I256

variable {w : Nat}

namespace Raw

open Div (Cfg)

/-- `if self.is_div_none(rhs) { None } else { Some(..) }`, src/shared/checked.rs L86-90, L100-104, L114-118,
L129-133 and L144-148. -/
def someUnless {α : Type} (isNone : Res Bool) (r : Res α) : Res (Option α) := do
  let b ← isNone
  if b then .ok none
  else
    let v ← r
    .ok (some v)

/-- `if self.is_div_overflow(rhs) { (.., flag) } else { (.., false) }`, src/shared/overflowing.rs L58-62,
src/int/overflowing.rs L103-107, L121-125, L139-143 and L157-161. -/
def flagIf {α : Type} (isOver : Res Bool) (over : Res (α × Bool)) (r : Res α) : Res (α × Bool) := do
  let b ← isOver
  if b then over
  else
    let v ← r
    .ok (v, false)

/-- `.0` of a pair. -/
def fst {α β : Type} (r : Res (α × β)) : Res α := do
  let p ← r
  .ok p.1

/-- `.1` of a pair. -/
def snd {α β : Type} (r : Res (α × β)) : Res β := do
  let p ← r
  .ok p.2

/-- `x.eq_const(Self::from_u8(0))`, e.g. src/uint/ops.rs L19. -/
def isZero (be : Bool) (x : Limbs w) : Res Bool := do
  let zero ← fromU8 be x.length 0
  Ord.eqConst be x zero

/-- `gt_const`, src/shared/ord.rs L120-122. -/
def Ord.gt (be signed : Bool) (x y : Limbs w) : Res Bool := do
  let b ← Ord.le be signed x y
  .ok (!b)

namespace U

/-- `is_div_overflow`, src/uint/ops.rs L11-14. -/
def isDivOverflow (_self _rhs : Limbs w) : Res Bool := .ok false
/-- `is_div_none`, src/uint/ops.rs L18-20. -/
def isDivNone (be : Bool) (_self rhs : Limbs w) : Res Bool := isZero be rhs

/-- `wrapping_div_euclid`, src/uint/wrapping.rs L268-270. -/
def wrappingDivEuclid (cf : Cfg) (be : Bool) (x y : Limbs w) : Res (Limbs w) := wrappingDiv cf be x y
/-- `wrapping_rem`, src/uint/wrapping.rs L284-286. -/
def wrappingRem (cf : Cfg) (be : Bool) (x y : Limbs w) : Res (Limbs w) := snd (wrappingDivRem cf be x y)
/-- `wrapping_rem_euclid`, src/uint/wrapping.rs L302-304. -/
def wrappingRemEuclid (cf : Cfg) (be : Bool) (x y : Limbs w) : Res (Limbs w) := wrappingRem cf be x y

/-- `overflowing_div_rem`, src/shared/overflowing.rs L57-63. -/
def overflowingDivRem (cf : Cfg) (be : Bool) (self n : Limbs w) : Res ((Limbs w × Limbs w) × Bool) :=
  flagIf (isDivOverflow self n)
    (do let zero ← fromU8 be self.length 0
        .ok ((self, zero), true))
    (wrappingDivRem cf be self n)
/-- `overflowing_div`, src/uint/overflowing.rs L122-124. -/
def overflowingDiv (cf : Cfg) (be : Bool) (x y : Limbs w) : Res (Limbs w × Bool) := do
  let q ← wrappingDiv cf be x y
  .ok (q, false)
/-- `overflowing_div_euclid`, src/uint/overflowing.rs L141-143. -/
def overflowingDivEuclid (cf : Cfg) (be : Bool) (x y : Limbs w) : Res (Limbs w × Bool) :=
  overflowingDiv cf be x y
/-- `overflowing_rem`, src/uint/overflowing.rs L157-159. -/
def overflowingRem (cf : Cfg) (be : Bool) (x y : Limbs w) : Res (Limbs w × Bool) := do
  let r ← wrappingRem cf be x y
  .ok (r, false)
/-- `overflowing_rem_euclid`, src/uint/overflowing.rs L177-179. -/
def overflowingRemEuclid (cf : Cfg) (be : Bool) (x y : Limbs w) : Res (Limbs w × Bool) :=
  overflowingRem cf be x y

/-- `checked_div_rem`, src/shared/checked.rs L85-91. -/
def checkedDivRem (cf : Cfg) (be : Bool) (x y : Limbs w) : Res (Option (Limbs w × Limbs w)) :=
  someUnless (isDivNone be x y) (wrappingDivRem cf be x y)
/-- `checked_rem`, src/shared/checked.rs L113-119. -/
def checkedRem (cf : Cfg) (be : Bool) (x y : Limbs w) : Res (Option (Limbs w)) :=
  someUnless (isDivNone be x y) (wrappingRem cf be x y)
/-- `checked_div_euclid`, src/shared/checked.rs L128-134. -/
def checkedDivEuclid (cf : Cfg) (be : Bool) (x y : Limbs w) : Res (Option (Limbs w)) :=
  someUnless (isDivNone be x y) (wrappingDivEuclid cf be x y)
/-- `checked_rem_euclid`, src/shared/checked.rs L143-149. -/
def checkedRemEuclid (cf : Cfg) (be : Bool) (x y : Limbs w) : Res (Option (Limbs w)) :=
  someUnless (isDivNone be x y) (wrappingRemEuclid cf be x y)

/-- `saturating_div`, src/uint/saturating.rs L81-84. -/
def saturatingDiv (cf : Cfg) (be : Bool) (x y : Limbs w) : Res (Limbs w) := wrappingDiv cf be x y

/-- `strict_div`, src/uint/strict.rs L44-49. -/
def strictDiv (cf : Cfg) (be : Bool) (x y : Limbs w) : Res (Limbs w) := unwrapRes (checkedDiv cf be x y)
/-- `strict_rem`, src/uint/strict.rs L64-69. -/
def strictRem (cf : Cfg) (be : Bool) (x y : Limbs w) : Res (Limbs w) := unwrapRes (checkedRem cf be x y)
/-- `strict_div_euclid`, src/uint/strict.rs L85-90. -/
def strictDivEuclid (cf : Cfg) (be : Bool) (x y : Limbs w) : Res (Limbs w) :=
  unwrapRes (checkedDivEuclid cf be x y)
/-- `strict_rem_euclid`, src/uint/strict.rs L107-112. -/
def strictRemEuclid (cf : Cfg) (be : Bool) (x y : Limbs w) : Res (Limbs w) :=
  unwrapRes (checkedRemEuclid cf be x y)

/-- `div_rem`, src/shared/ops.rs L36-45. -/
def divRem (cf : Cfg) (be : Bool) (x y : Limbs w) : Res (Limbs w × Limbs w) :=
  opOf cf (wrappingDivRem cf be x y) (checkedDivRem cf be x y)
/-- `Rem::rem`, src/shared/ops.rs L105-114. -/
def rem (cf : Cfg) (be : Bool) (x y : Limbs w) : Res (Limbs w) :=
  opOf cf (wrappingRem cf be x y) (checkedRem cf be x y)
/-- `div_euclid`, src/uint/ops.rs L39-48. -/
def divEuclid (cf : Cfg) (be : Bool) (x y : Limbs w) : Res (Limbs w) :=
  opOf cf (wrappingDivEuclid cf be x y) (checkedDivEuclid cf be x y)
/-- `rem_euclid`, src/uint/ops.rs L61-70. -/
def remEuclid (cf : Cfg) (be : Bool) (x y : Limbs w) : Res (Limbs w) :=
  opOf cf (wrappingRem cf be x y) (checkedRemEuclid cf be x y)

/-- `div_floor`, src/uint/ops.rs L82-84. -/
def divFloor (cf : Cfg) (be : Bool) (x y : Limbs w) : Res (Limbs w) := wrappingDiv cf be x y
/-- `div_ceil`, src/uint/ops.rs L94-102. -/
def divCeil (cf : Cfg) (be : Bool) (self rhs : Limbs w) : Res (Limbs w) := do
  let (d, r) ← wrappingDivRem cf be self rhs
  let z ← isZero be r
  if !z then wrappingAddULimb be d 1 else .ok d

/-- `next_multiple_of`, src/uint/ops.rs L183-190.  Matching `Self::MIN` is the derived comparison of the
limb arrays; `MIN` is src/uint/constants.rs L20-23. -/
def nextMultipleOf (cf : Cfg) (be : Bool) (self rhs : Limbs w) : Res (Limbs w) := do
  let r ← rem cf be self rhs
  let min ← constant self.length 0
  if r == min then .ok self
  else
    let d ← sub cf be rhs r
    add cf be self d
/-- `checked_next_multiple_of`, src/uint/checked.rs L119-126. -/
def checkedNextMultipleOf (cf : Cfg) (be : Bool) (self rhs : Limbs w) : Res (Option (Limbs w)) := do
  let o ← checkedRem cf be self rhs
  let min ← constant self.length 0
  match o with
  | none => .ok none
  | some r =>
    if r == min then .ok (some self)
    else
      let d ← wrappingSub be rhs r
      checkedAdd be self d
/-- `is_multiple_of`, src/uint/ops.rs L199-204. -/
def isMultipleOf (cf : Cfg) (be : Bool) (self rhs : Limbs w) : Res Bool := do
  let min ← constant self.length 0
  if rhs == min then Ord.eqConst be self min
  else
    let r ← wrappingRem cf be self rhs
    Ord.eqConst be r min

end U

namespace I

/-- `Self::from_i8(-1)`, e.g. src/int/ops.rs L12. -/
def minusOne (be : Bool) (N : Nat) : Res (Limbs w) := Cast.fromI be N .b8 (-1)

/-- `is_div_overflow`, src/int/ops.rs L11-13; `&` evaluates both operands. -/
def isDivOverflow (be : Bool) (self rhs : Limbs w) : Res Bool := do
  let min ← minValue be self.length
  let a ← Ord.eqConst be self min
  let m ← minusOne be rhs.length
  let b ← Ord.eqConst be rhs m
  .ok (a && b)
/-- `is_div_none`, src/int/ops.rs L17-19; `||` is lazy. -/
def isDivNone (be : Bool) (self rhs : Limbs w) : Res Bool := do
  let z ← isZero be rhs
  if z then .ok true else isDivOverflow be self rhs

/-- `wrapping_div`, src/int/wrapping.rs L117-119. -/
def wrappingDiv (cf : Cfg) (be : Bool) (x y : Limbs w) : Res (Limbs w) := fst (wrappingDivRem cf be x y)
/-- `wrapping_rem`, src/int/wrapping.rs L163-165. -/
def wrappingRem (cf : Cfg) (be : Bool) (x y : Limbs w) : Res (Limbs w) := snd (wrappingDivRem cf be x y)
/-- `wrapping_add_ulimb`, src/int/limb.rs L465-468. -/
def wrappingAddULimb (be : Bool) (x : Limbs w) (n : BitVec w) : Res (Limbs w) :=
  wrappingOf (Add.wrappingLimb be x n)
/-- `wrapping_sub_ulimb`, src/int/limb.rs L486-489. -/
def wrappingSubULimb (be : Bool) (x : Limbs w) (n : BitVec w) : Res (Limbs w) :=
  wrappingOf (Sub.wrappingLimb be x n)
/-- `wrapping_div_euclid`, src/int/wrapping.rs L136-146. -/
def wrappingDivEuclid (cf : Cfg) (be : Bool) (self rhs : Limbs w) : Res (Limbs w) := do
  let (q, r) ← wrappingDivRem cf be self rhs
  let neg ← Bits.isNegative be r
  if neg then
    let pos ← Bits.isPositive be rhs
    if pos then wrappingSubULimb be q 1 else wrappingAddULimb be q 1
  else .ok q
/-- `wrapping_rem_euclid`, src/int/wrapping.rs L177-192. -/
def wrappingRemEuclid (cf : Cfg) (be : Bool) (self rhs : Limbs w) : Res (Limbs w) := do
  let r ← wrappingRem cf be self rhs
  let neg ← Bits.isNegative be r
  if neg then
    let a ← wrappingAbs cf be rhs
    wrappingAdd be r a
  else .ok r

/-- `overflowing_div_rem`, src/shared/overflowing.rs L57-63. -/
def overflowingDivRem (cf : Cfg) (be : Bool) (self n : Limbs w) : Res ((Limbs w × Limbs w) × Bool) :=
  flagIf (isDivOverflow be self n)
    (do let zero ← fromU8 be self.length 0
        .ok ((self, zero), true))
    (wrappingDivRem cf be self n)
/-- `overflowing_div`, src/int/overflowing.rs L102-108. -/
def overflowingDiv (cf : Cfg) (be : Bool) (self rhs : Limbs w) : Res (Limbs w × Bool) :=
  flagIf (isDivOverflow be self rhs) (.ok (self, true)) (wrappingDiv cf be self rhs)
/-- `overflowing_div_euclid`, src/int/overflowing.rs L120-126. -/
def overflowingDivEuclid (cf : Cfg) (be : Bool) (self rhs : Limbs w) : Res (Limbs w × Bool) :=
  flagIf (isDivOverflow be self rhs) (.ok (self, true)) (wrappingDivEuclid cf be self rhs)
/-- `(Self::from_u8(0), self.eq_const(Self::MIN))`, src/int/overflowing.rs L140 and L158. -/
def overRem (be : Bool) (self : Limbs w) : Res (Limbs w × Bool) := do
  let zero ← fromU8 be self.length 0
  let min ← minValue be self.length
  let eq ← Ord.eqConst be self min
  .ok (zero, eq)
/-- `overflowing_rem`, src/int/overflowing.rs L138-144. -/
def overflowingRem (cf : Cfg) (be : Bool) (self rhs : Limbs w) : Res (Limbs w × Bool) :=
  flagIf (isDivOverflow be self rhs) (overRem be self) (wrappingRem cf be self rhs)
/-- `overflowing_rem_euclid`, src/int/overflowing.rs L156-162. -/
def overflowingRemEuclid (cf : Cfg) (be : Bool) (self rhs : Limbs w) : Res (Limbs w × Bool) :=
  flagIf (isDivOverflow be self rhs) (overRem be self) (wrappingRemEuclid cf be self rhs)

/-- `checked_div_rem`, src/shared/checked.rs L85-91. -/
def checkedDivRem (cf : Cfg) (be : Bool) (x y : Limbs w) : Res (Option (Limbs w × Limbs w)) :=
  someUnless (isDivNone be x y) (wrappingDivRem cf be x y)
/-- `checked_div`, src/shared/checked.rs L99-105. -/
def checkedDiv (cf : Cfg) (be : Bool) (x y : Limbs w) : Res (Option (Limbs w)) :=
  someUnless (isDivNone be x y) (wrappingDiv cf be x y)
/-- `checked_rem`, src/shared/checked.rs L113-119. -/
def checkedRem (cf : Cfg) (be : Bool) (x y : Limbs w) : Res (Option (Limbs w)) :=
  someUnless (isDivNone be x y) (wrappingRem cf be x y)
/-- `checked_div_euclid`, src/shared/checked.rs L128-134. -/
def checkedDivEuclid (cf : Cfg) (be : Bool) (x y : Limbs w) : Res (Option (Limbs w)) :=
  someUnless (isDivNone be x y) (wrappingDivEuclid cf be x y)
/-- `checked_rem_euclid`, src/shared/checked.rs L143-149. -/
def checkedRemEuclid (cf : Cfg) (be : Bool) (x y : Limbs w) : Res (Option (Limbs w)) :=
  someUnless (isDivNone be x y) (wrappingRemEuclid cf be x y)

/-- `saturating_div`, src/int/saturating.rs L124-129. -/
def saturatingDiv (cf : Cfg) (be : Bool) (self rhs : Limbs w) : Res (Limbs w) := do
  let (result, overflowed) ← overflowingDiv cf be self rhs
  if overflowed then maxValue be self.length else .ok result

/-- `strict_div`, src/int/strict.rs L61-66. -/
def strictDiv (cf : Cfg) (be : Bool) (x y : Limbs w) : Res (Limbs w) := unwrapRes (checkedDiv cf be x y)
/-- `strict_rem`, src/int/strict.rs L81-86. -/
def strictRem (cf : Cfg) (be : Bool) (x y : Limbs w) : Res (Limbs w) := unwrapRes (checkedRem cf be x y)
/-- `strict_div_euclid`, src/int/strict.rs L102-107. -/
def strictDivEuclid (cf : Cfg) (be : Bool) (x y : Limbs w) : Res (Limbs w) :=
  unwrapRes (checkedDivEuclid cf be x y)
/-- `strict_rem_euclid`, src/int/strict.rs L122-127. -/
def strictRemEuclid (cf : Cfg) (be : Bool) (x y : Limbs w) : Res (Limbs w) :=
  unwrapRes (checkedRemEuclid cf be x y)

/-- `div_rem`, src/shared/ops.rs L36-45. -/
def divRem (cf : Cfg) (be : Bool) (x y : Limbs w) : Res (Limbs w × Limbs w) :=
  opOf cf (wrappingDivRem cf be x y) (checkedDivRem cf be x y)
/-- `Div::div`, src/shared/ops.rs L73-82. -/
def div (cf : Cfg) (be : Bool) (x y : Limbs w) : Res (Limbs w) :=
  opOf cf (wrappingDiv cf be x y) (checkedDiv cf be x y)
/-- `Rem::rem`, src/shared/ops.rs L105-114. -/
def rem (cf : Cfg) (be : Bool) (x y : Limbs w) : Res (Limbs w) :=
  opOf cf (wrappingRem cf be x y) (checkedRem cf be x y)
/-- `div_euclid`, src/int/ops.rs L90-99. -/
def divEuclid (cf : Cfg) (be : Bool) (x y : Limbs w) : Res (Limbs w) :=
  opOf cf (wrappingDivEuclid cf be x y) (checkedDivEuclid cf be x y)
/-- `rem_euclid`, src/int/ops.rs L112-121. -/
def remEuclid (cf : Cfg) (be : Bool) (x y : Limbs w) : Res (Limbs w) :=
  opOf cf (wrappingRemEuclid cf be x y) (checkedRemEuclid cf be x y)

/-- `div_floor`, src/int/ops.rs L131-146. -/
def divFloor (cf : Cfg) (be : Bool) (self rhs : Limbs w) : Res (Limbs w) := do
  let (d, r) ← wrappingDivRem cf be self rhs
  let a ← Bits.isNegative be self
  let b ← Bits.isNegative be rhs
  let correction := a ^^ b
  let z ← isZero be r
  if !z then wrappingSubULimb be d (boolLimb w correction) else .ok d
/-- `self >> n` for a `u32`, src/shared/shift.rs L25-30; `BITS as u32` and `n as u32` keep the value. -/
def shrU32 (cf : Cfg) (be : Bool) (x : Limbs w) (n : BitVec 32) : Res (Limbs w) := do
  if cf.oc then assert (decide (n.toNat < bits x)) else .ok ()
  wrappingShr be true x n.toNat
/-- `div_ceil`, src/int/ops.rs L156-167.  `^` is `bitxor_const`, src/shared/bitops.rs L137-147. -/
def divCeil (cf : Cfg) (be : Bool) (self rhs : Limbs w) : Res (Limbs w) := do
  let (d, r) ← wrappingDivRem cf be self rhs
  let one ← fromU8 be self.length 1
  let x ← Bits.zip (· ^^^ ·) self rhs
  let k ← usub (bits self) 1
  let s ← shrU32 cf be x (BitVec.ofNat 32 k)
  let correction ← add cf be one s
  let z ← isZero be r
  if !z then wrappingAdd be d correction else .ok d

/-- `next_multiple_of`, src/int/ops.rs L181-201; `&&` and `||` are lazy. -/
def nextMultipleOf (cf : Cfg) (be : Bool) (self rhs : Limbs w) : Res (Limbs w) := do
  let m1 ← minusOne be rhs.length
  let eq ← Ord.eqConst be rhs m1
  if eq then .ok self
  else
    let zero ← fromU8 be self.length 0
    let r ← rem cf be self rhs
    let rPos ← Ord.gt be true r zero
    let up ← if rPos then Ord.lt be true rhs zero else .ok false
    let c ← if up then .ok true else do
      let rNeg ← Ord.lt be true r zero
      if rNeg then Ord.gt be true rhs zero else .ok false
    let m ← if c then add cf be r rhs else .ok r
    let z ← Ord.eqConst be m zero
    if z then .ok self
    else
      let d ← sub cf be rhs m
      add cf be self d
/-- `checked_next_multiple_of`, src/int/checked.rs L123-144; `&` and `|` evaluate both operands. -/
def checkedNextMultipleOf (cf : Cfg) (be : Bool) (self rhs : Limbs w) : Res (Option (Limbs w)) := do
  let m1 ← minusOne be rhs.length
  let eq ← Ord.eqConst be rhs m1
  if eq then .ok (some self)
  else
    let zero ← fromU8 be self.length 0
    let o ← checkedRem cf be self rhs
    match o with
    | none => .ok none
    | some r =>
      let rp ← Bits.isPositive be r
      let yn ← Bits.isNegative be rhs
      let rn ← Bits.isNegative be r
      let yp ← Bits.isPositive be rhs
      let m ← if (rp && yn) || (rn && yp) then add cf be r rhs else .ok r
      let z ← Ord.eqConst be m zero
      if z then .ok (some self)
      else
        let d ← sub cf be rhs m
        checkedAdd be self d

end I

end Raw

end I256
