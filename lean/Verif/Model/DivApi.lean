import Verif.Model.AddSubApi
import Verif.Model.Div
import Verif.Model.Shift

/-!
# Division API of the unsigned and signed types

`to_le_limbs`/`from_le_limbs` are the identity on the logical little-endian limb order used here.
A panic inside the division is propagated.
-/

namespace I256

variable {w : Nat}

/-- The pattern of src/shared/checked.rs L85-149: `None` if the division is undefined, otherwise
`Some` of the wrapping result. -/
def checkedBy {α : Type} (isNone : Bool) (r : Res α) : Res (Option α) :=
  if isNone then .ok none else r.map some

/-- The operator pattern of src/shared/ops.rs L73-82 for functions that may panic. -/
def opOfR {α : Type} (oc : Bool) (wrapping : Res α) (checked : Res (Option α)) : Res α :=
  if !oc then wrapping else checked.bind unwrapOrPanic

/-- `if n == 0 { None } else { Some(..) }`, src/shared/limb.rs L836-842, L913-919. -/
def isZeroScalar {n : Nat} (v : BitVec n) : Bool := v == 0

namespace U

/-- `is_div_none`, src/uint/ops.rs L18-20. -/
def isDivNone (y : Limbs w) : Bool := Ord.eqConst y (ofU8 y.length 0)

/-- `wrapping_div_rem`, src/uint/wrapping.rs L228-238. -/
def wrappingDivRem (x y : Limbs w) : Res (Limbs w × Limbs w) := Div.full x y
/-- `wrapping_div`, src/uint/wrapping.rs L251-253. -/
def wrappingDiv (x y : Limbs w) : Res (Limbs w) := (wrappingDivRem x y).map (·.1)
/-- `wrapping_div_euclid`, src/uint/wrapping.rs L268-270. -/
def wrappingDivEuclid (x y : Limbs w) : Res (Limbs w) := wrappingDiv x y
/-- `wrapping_rem`, src/uint/wrapping.rs L284-286. -/
def wrappingRem (x y : Limbs w) : Res (Limbs w) := (wrappingDivRem x y).map (·.2)
/-- `wrapping_rem_euclid`, src/uint/wrapping.rs L302-304. -/
def wrappingRemEuclid (x y : Limbs w) : Res (Limbs w) := wrappingRem x y

/-- `overflowing_div_rem`, src/shared/overflowing.rs L57-63; `is_div_overflow` is `false`
(src/uint/ops.rs L11-14). -/
def overflowingDivRem (x y : Limbs w) : Res ((Limbs w × Limbs w) × Bool) :=
  (wrappingDivRem x y).map (·, false)
/-- `overflowing_div`, src/uint/overflowing.rs L122-124. -/
def overflowingDiv (x y : Limbs w) : Res (Limbs w × Bool) := (wrappingDiv x y).map (·, false)
/-- `overflowing_div_euclid`, src/uint/overflowing.rs L141-143. -/
def overflowingDivEuclid (x y : Limbs w) : Res (Limbs w × Bool) := overflowingDiv x y
/-- `overflowing_rem`, src/uint/overflowing.rs L157-159. -/
def overflowingRem (x y : Limbs w) : Res (Limbs w × Bool) := (wrappingRem x y).map (·, false)
/-- `overflowing_rem_euclid`, src/uint/overflowing.rs L177-179. -/
def overflowingRemEuclid (x y : Limbs w) : Res (Limbs w × Bool) := overflowingRem x y

/-- `checked_div_rem`, src/shared/checked.rs L85-91. -/
def checkedDivRem (x y : Limbs w) : Res (Option (Limbs w × Limbs w)) :=
  checkedBy (isDivNone y) (wrappingDivRem x y)
/-- `checked_div`, src/shared/checked.rs L99-105. -/
def checkedDiv (x y : Limbs w) : Res (Option (Limbs w)) := checkedBy (isDivNone y) (wrappingDiv x y)
/-- `checked_rem`, src/shared/checked.rs L113-119. -/
def checkedRem (x y : Limbs w) : Res (Option (Limbs w)) := checkedBy (isDivNone y) (wrappingRem x y)
/-- `checked_div_euclid`, src/shared/checked.rs L128-134. -/
def checkedDivEuclid (x y : Limbs w) : Res (Option (Limbs w)) :=
  checkedBy (isDivNone y) (wrappingDivEuclid x y)
/-- `checked_rem_euclid`, src/shared/checked.rs L143-149. -/
def checkedRemEuclid (x y : Limbs w) : Res (Option (Limbs w)) :=
  checkedBy (isDivNone y) (wrappingRemEuclid x y)

/-- `saturating_div`, src/uint/saturating.rs L81-84. -/
def saturatingDiv (x y : Limbs w) : Res (Limbs w) := wrappingDiv x y

/-- `strict_div`, src/uint/strict.rs L44-49. -/
def strictDiv (x y : Limbs w) : Res (Limbs w) := (checkedDiv x y).bind unwrapOrPanic
/-- `strict_rem`, src/uint/strict.rs L64-69. -/
def strictRem (x y : Limbs w) : Res (Limbs w) := (checkedRem x y).bind unwrapOrPanic
/-- `strict_div_euclid`, src/uint/strict.rs L85-90. -/
def strictDivEuclid (x y : Limbs w) : Res (Limbs w) := (checkedDivEuclid x y).bind unwrapOrPanic
/-- `strict_rem_euclid`, src/uint/strict.rs L107-112. -/
def strictRemEuclid (x y : Limbs w) : Res (Limbs w) := (checkedRemEuclid x y).bind unwrapOrPanic

/-- `div_rem`, src/shared/ops.rs L36-45. -/
def divRem (oc : Bool) (x y : Limbs w) : Res (Limbs w × Limbs w) :=
  opOfR oc (wrappingDivRem x y) (checkedDivRem x y)
/-- `Div::div`, src/shared/ops.rs L73-82. -/
def div (oc : Bool) (x y : Limbs w) : Res (Limbs w) := opOfR oc (wrappingDiv x y) (checkedDiv x y)
/-- `Rem::rem`, src/shared/ops.rs L105-114. -/
def rem (oc : Bool) (x y : Limbs w) : Res (Limbs w) := opOfR oc (wrappingRem x y) (checkedRem x y)
/-- `div_euclid`, src/uint/ops.rs L39-48. -/
def divEuclid (oc : Bool) (x y : Limbs w) : Res (Limbs w) :=
  opOfR oc (wrappingDivEuclid x y) (checkedDivEuclid x y)
/-- `rem_euclid`, src/uint/ops.rs L61-70. -/
def remEuclid (oc : Bool) (x y : Limbs w) : Res (Limbs w) :=
  opOfR oc (wrappingRem x y) (checkedRemEuclid x y)

/-- `div_floor`, src/uint/ops.rs L82-84. -/
def divFloor (x y : Limbs w) : Res (Limbs w) := wrappingDiv x y
/-- `div_ceil`, src/uint/ops.rs L94-102. -/
def divCeil (x y : Limbs w) : Res (Limbs w) :=
  (wrappingDivRem x y).map fun (d, r) =>
    if !Ord.eqConst r (ofU8 r.length 0) then wrappingAddULimb d 1 else d

/-- `next_multiple_of`, src/uint/ops.rs L183-190. -/
def nextMultipleOf (oc : Bool) (x y : Limbs w) : Res (Limbs w) :=
  (rem oc x y).bind fun r =>
    if r = minValue w x.length then .ok x
    else (sub oc y r).bind fun d => add oc x d
/-- `checked_next_multiple_of`, src/uint/checked.rs L119-126. -/
def checkedNextMultipleOf (x y : Limbs w) : Res (Option (Limbs w)) :=
  (checkedRem x y).map fun
    | none => none
    | some r => if r = minValue w x.length then some x else checkedAdd x (wrappingSub y r)
/-- `is_multiple_of`, src/uint/ops.rs L199-204. -/
def isMultipleOf (x y : Limbs w) : Res Bool :=
  if y = minValue w x.length then .ok (Ord.eqConst x (minValue w x.length))
  else (wrappingRem x y).map fun r => Ord.eqConst r (minValue w x.length)

/-- `wrapping_div_rem_ulimb`, src/uint/limb.rs L103-107. -/
def wrappingDivRemULimb (x : Limbs w) (n : BitVec w) : Res (Limbs w × BitVec w) := Div.limb x n
/-- `wrapping_div_rem_uwide`, src/uint/limb.rs L170-174. -/
def wrappingDivRemUWide (x : Limbs w) (n : BitVec (w + w)) : Res (Limbs w × BitVec (w + w)) :=
  Div.wideDiv x n
/-- `checked_div_rem_ulimb`, src/shared/limb.rs L836-842. -/
def checkedDivRemULimb (x : Limbs w) (n : BitVec w) : Res (Option (Limbs w × BitVec w)) :=
  checkedBy (isZeroScalar n) (wrappingDivRemULimb x n)
/-- `checked_div_rem_uwide`, src/shared/limb.rs L913-919. -/
def checkedDivRemUWide (x : Limbs w) (n : BitVec (w + w)) :
    Res (Option (Limbs w × BitVec (w + w))) :=
  checkedBy (isZeroScalar n) (wrappingDivRemUWide x n)
/-- `div_rem_ulimb`, src/shared/limb.rs L65-74. -/
def divRemULimb (oc : Bool) (x : Limbs w) (n : BitVec w) : Res (Limbs w × BitVec w) :=
  opOfR oc (wrappingDivRemULimb x n) (checkedDivRemULimb x n)
/-- `div_rem_uwide`, src/shared/limb.rs L154-163. -/
def divRemUWide (oc : Bool) (x : Limbs w) (n : BitVec (w + w)) : Res (Limbs w × BitVec (w + w)) :=
  opOfR oc (wrappingDivRemUWide x n) (checkedDivRemUWide x n)

end U

namespace I

/-- `is_div_overflow`, src/int/ops.rs L11-13. -/
def isDivOverflow (x y : Limbs w) : Bool :=
  Ord.eqConst x (minValue w x.length) && Ord.eqConst y (ofI8 y.length (-1))
/-- `is_div_none`, src/int/ops.rs L17-19. -/
def isDivNone (x y : Limbs w) : Bool := Ord.eqConst y (ofU8 y.length 0) || isDivOverflow x y

/-- `wrapping_div_rem`, src/int/wrapping.rs L74-99. -/
def wrappingDivRem (x y : Limbs w) : Res (Limbs w × Limbs w) :=
  (Div.full (unsignedAbs x) (unsignedAbs y)).map fun (div, rem) =>
    (if isNegative x != isNegative y then wrappingNeg div else div,
      if isNegative x then wrappingNeg rem else rem)
/-- `wrapping_div`, src/int/wrapping.rs L117-119. -/
def wrappingDiv (x y : Limbs w) : Res (Limbs w) := (wrappingDivRem x y).map (·.1)
/-- `wrapping_rem`, src/int/wrapping.rs L163-165. -/
def wrappingRem (x y : Limbs w) : Res (Limbs w) := (wrappingDivRem x y).map (·.2)
/-- `wrapping_div_euclid`, src/int/wrapping.rs L136-146. -/
def wrappingDivEuclid (x y : Limbs w) : Res (Limbs w) :=
  (wrappingDivRem x y).map fun (q, r) =>
    if isNegative r then
      if isPositive y then wrappingSubULimb q 1 else wrappingAddULimb q 1
    else q
/-- `wrapping_rem_euclid`, src/int/wrapping.rs L177-192. -/
def wrappingRemEuclid (x y : Limbs w) : Res (Limbs w) :=
  (wrappingRem x y).map fun r => if isNegative r then wrappingAdd r (wrappingAbs y) else r

/-- `overflowing_div_rem`, src/shared/overflowing.rs L57-63. -/
def overflowingDivRem (x y : Limbs w) : Res ((Limbs w × Limbs w) × Bool) :=
  if isDivOverflow x y then .ok ((x, ofU8 x.length 0), true) else (wrappingDivRem x y).map (·, false)
/-- `overflowing_div`, src/int/overflowing.rs L102-108. -/
def overflowingDiv (x y : Limbs w) : Res (Limbs w × Bool) :=
  if isDivOverflow x y then .ok (x, true) else (wrappingDiv x y).map (·, false)
/-- `overflowing_div_euclid`, src/int/overflowing.rs L120-126. -/
def overflowingDivEuclid (x y : Limbs w) : Res (Limbs w × Bool) :=
  if isDivOverflow x y then .ok (x, true) else (wrappingDivEuclid x y).map (·, false)
/-- `overflowing_rem`, src/int/overflowing.rs L138-144. -/
def overflowingRem (x y : Limbs w) : Res (Limbs w × Bool) :=
  if isDivOverflow x y then .ok (ofU8 x.length 0, Ord.eqConst x (minValue w x.length))
  else (wrappingRem x y).map (·, false)
/-- `overflowing_rem_euclid`, src/int/overflowing.rs L156-162. -/
def overflowingRemEuclid (x y : Limbs w) : Res (Limbs w × Bool) :=
  if isDivOverflow x y then .ok (ofU8 x.length 0, Ord.eqConst x (minValue w x.length))
  else (wrappingRemEuclid x y).map (·, false)

/-- `checked_div_rem`, src/shared/checked.rs L85-91. -/
def checkedDivRem (x y : Limbs w) : Res (Option (Limbs w × Limbs w)) :=
  checkedBy (isDivNone x y) (wrappingDivRem x y)
/-- `checked_div`, src/shared/checked.rs L99-105. -/
def checkedDiv (x y : Limbs w) : Res (Option (Limbs w)) :=
  checkedBy (isDivNone x y) (wrappingDiv x y)
/-- `checked_rem`, src/shared/checked.rs L113-119. -/
def checkedRem (x y : Limbs w) : Res (Option (Limbs w)) :=
  checkedBy (isDivNone x y) (wrappingRem x y)
/-- `checked_div_euclid`, src/shared/checked.rs L128-134. -/
def checkedDivEuclid (x y : Limbs w) : Res (Option (Limbs w)) :=
  checkedBy (isDivNone x y) (wrappingDivEuclid x y)
/-- `checked_rem_euclid`, src/shared/checked.rs L143-149. -/
def checkedRemEuclid (x y : Limbs w) : Res (Option (Limbs w)) :=
  checkedBy (isDivNone x y) (wrappingRemEuclid x y)

/-- `saturating_div`, src/int/saturating.rs L124-129. -/
def saturatingDiv (x y : Limbs w) : Res (Limbs w) :=
  (overflowingDiv x y).map fun
    | (result, false) => result
    | (_, true) => maxValue w x.length

/-- `strict_div`, src/int/strict.rs L61-66. -/
def strictDiv (x y : Limbs w) : Res (Limbs w) := (checkedDiv x y).bind unwrapOrPanic
/-- `strict_rem`, src/int/strict.rs L81-86. -/
def strictRem (x y : Limbs w) : Res (Limbs w) := (checkedRem x y).bind unwrapOrPanic
/-- `strict_div_euclid`, src/int/strict.rs L102-107. -/
def strictDivEuclid (x y : Limbs w) : Res (Limbs w) := (checkedDivEuclid x y).bind unwrapOrPanic
/-- `strict_rem_euclid`, src/int/strict.rs L122-127. -/
def strictRemEuclid (x y : Limbs w) : Res (Limbs w) := (checkedRemEuclid x y).bind unwrapOrPanic

/-- `div_rem`, src/shared/ops.rs L36-45. -/
def divRem (oc : Bool) (x y : Limbs w) : Res (Limbs w × Limbs w) :=
  opOfR oc (wrappingDivRem x y) (checkedDivRem x y)
/-- `Div::div`, src/shared/ops.rs L73-82. -/
def div (oc : Bool) (x y : Limbs w) : Res (Limbs w) := opOfR oc (wrappingDiv x y) (checkedDiv x y)
/-- `Rem::rem`, src/shared/ops.rs L105-114. -/
def rem (oc : Bool) (x y : Limbs w) : Res (Limbs w) := opOfR oc (wrappingRem x y) (checkedRem x y)
/-- `div_euclid`, src/int/ops.rs L90-99. -/
def divEuclid (oc : Bool) (x y : Limbs w) : Res (Limbs w) :=
  opOfR oc (wrappingDivEuclid x y) (checkedDivEuclid x y)
/-- `rem_euclid`, src/int/ops.rs L112-121. -/
def remEuclid (oc : Bool) (x y : Limbs w) : Res (Limbs w) :=
  opOfR oc (wrappingRemEuclid x y) (checkedRemEuclid x y)

/-- `div_floor`, src/int/ops.rs L131-146. -/
def divFloor (x y : Limbs w) : Res (Limbs w) :=
  (wrappingDivRem x y).map fun (d, r) =>
    let correction := isNegative x ^^ isNegative y
    if !Ord.eqConst r (ofU8 r.length 0) then wrappingSubULimb d (boolLimb w correction) else d
/-- `div_ceil`, src/int/ops.rs L156-167. The shift amount is a `u32`. -/
def divCeil (oc : Bool) (x y : Limbs w) : Res (Limbs w) :=
  (wrappingDivRem x y).bind fun (d, r) =>
    (shrPrim oc false true (Bits.xor x y) (BitVec.ofNat 32 (bits x - 1))).bind fun s =>
      (add oc (ofU8 x.length 1) s).map fun correction =>
        if !Ord.eqConst r (ofU8 r.length 0) then wrappingAdd d correction else d

/-- `next_multiple_of`, src/int/ops.rs L181-201. -/
def nextMultipleOf (oc : Bool) (x y : Limbs w) : Res (Limbs w) :=
  if Ord.eqConst y (ofI8 y.length (-1)) then .ok x
  else
    let zero : Limbs w := ofU8 x.length 0
    (rem oc x y).bind fun r =>
      (if (Ord.gt true r zero && Ord.lt true y zero) || (Ord.lt true r zero && Ord.gt true y zero)
        then add oc r y else .ok r).bind fun m =>
          if Ord.eqConst m zero then .ok x
          else (sub oc y m).bind fun d => add oc x d
/-- `checked_next_multiple_of`, src/int/checked.rs L123-144. -/
def checkedNextMultipleOf (oc : Bool) (x y : Limbs w) : Res (Option (Limbs w)) :=
  if Ord.eqConst y (ofI8 y.length (-1)) then .ok (some x)
  else
    let zero : Limbs w := ofU8 x.length 0
    (checkedRem x y).bind fun
      | none => .ok none
      | some r =>
        (if (isPositive r && isNegative y) || (isNegative r && isPositive y)
          then add oc r y else .ok r).bind fun m =>
            if Ord.eqConst m zero then .ok (some x)
            else (sub oc y m).map fun d => checkedAdd x d

/-- The common tail of `wrapping_div_rem_ulimb` (src/int/limb.rs L541-554) and
`wrapping_div_rem_uwide` (L679-688). `div -= 1` is the operator; `n - rem` is the
primitive subtraction, which panics on overflow in a build with overflow checks. -/
def divRemUnsigned {n : Nat} (oc : Bool) (x : Limbs w) (v : BitVec n)
    (r : Res (Limbs w × BitVec n)) : Res (Limbs w × BitVec n) :=
  r.bind fun (d, rem) =>
    let d := if isNegative x then wrappingNeg d else d
    if isNegative x && rem != 0 then
      (sub oc d (ofU8 d.length 1)).bind fun d =>
        if oc && v.ult rem then .panic else .ok (d, v - rem)
    else .ok (d, rem)
/-- `wrapping_div_rem_ulimb`, src/int/limb.rs L539-555. -/
def wrappingDivRemULimb (oc : Bool) (x : Limbs w) (n : BitVec w) : Res (Limbs w × BitVec w) :=
  divRemUnsigned oc x n (Div.limb (unsignedAbs x) n)
/-- `wrapping_div_rem_uwide`, src/int/limb.rs L677-689. -/
def wrappingDivRemUWide (oc : Bool) (x : Limbs w) (n : BitVec (w + w)) :
    Res (Limbs w × BitVec (w + w)) :=
  divRemUnsigned oc x n (Div.wideDiv (unsignedAbs x) n)

/-- The sign handling of src/int/limb.rs L567-581 and L701-711. -/
def divRemSigned {n : Nat} (x : Limbs w) (v : BitVec n) (r : Res (Limbs w × BitVec n)) :
    Res (Limbs w × BitVec n) :=
  r.map fun (d, rem) =>
    (if isNegative x != v.slt 0 then wrappingNeg d else d, if isNegative x then -rem else rem)
/-- The primitive `unsigned_abs`. -/
def primAbs {n : Nat} (v : BitVec n) : BitVec n := if v.slt 0 then -v else v
/-- `wrapping_div_rem_ilimb`, src/int/limb.rs L564-582. -/
def wrappingDivRemILimb (x : Limbs w) (n : BitVec w) : Res (Limbs w × BitVec w) :=
  divRemSigned x n (Div.limb (unsignedAbs x) (primAbs n))
/-- `wrapping_div_rem_iwide`, src/int/limb.rs L698-712. -/
def wrappingDivRemIWide (x : Limbs w) (n : BitVec (w + w)) : Res (Limbs w × BitVec (w + w)) :=
  divRemSigned x n (Div.wideDiv (unsignedAbs x) (primAbs n))

/-- `overflowing_div_rem_ilimb` (src/int/limb.rs L1285-1291), `overflowing_div_rem_iwide`
(L1396-1402). -/
def overflowingDivRemSigned {n : Nat} (x : Limbs w) (v : BitVec n)
    (wrapping : Res (Limbs w × BitVec n)) : Res ((Limbs w × BitVec n) × Bool) :=
  if Ord.eqConst x (minValue w x.length) && v == BitVec.allOnes n then
    .ok ((minValue w x.length, 0), true)
  else wrapping.map (·, false)
/-- `checked_div_rem_ilimb` (src/int/limb.rs L1866-1875), `checked_div_rem_iwide` (L1947-1956). -/
def checkedDivRemSigned {n : Nat} (x : Limbs w) (v : BitVec n)
    (wrapping : Res (Limbs w × BitVec n)) : Res (Option (Limbs w × BitVec n)) :=
  if v == 0 then .ok none else (overflowingDivRemSigned x v wrapping).map mkChecked

/-- `checked_div_rem_ulimb`, src/shared/limb.rs L836-842. -/
def checkedDivRemULimb (oc : Bool) (x : Limbs w) (n : BitVec w) :
    Res (Option (Limbs w × BitVec w)) := checkedBy (isZeroScalar n) (wrappingDivRemULimb oc x n)
/-- `checked_div_rem_uwide`, src/shared/limb.rs L913-919. -/
def checkedDivRemUWide (oc : Bool) (x : Limbs w) (n : BitVec (w + w)) :
    Res (Option (Limbs w × BitVec (w + w))) :=
  checkedBy (isZeroScalar n) (wrappingDivRemUWide oc x n)
/-- `div_rem_ulimb`, src/shared/limb.rs L65-74. -/
def divRemULimb (oc : Bool) (x : Limbs w) (n : BitVec w) : Res (Limbs w × BitVec w) :=
  opOfR oc (wrappingDivRemULimb oc x n) (checkedDivRemULimb oc x n)
/-- `div_rem_uwide`, src/shared/limb.rs L154-163. -/
def divRemUWide (oc : Bool) (x : Limbs w) (n : BitVec (w + w)) : Res (Limbs w × BitVec (w + w)) :=
  opOfR oc (wrappingDivRemUWide oc x n) (checkedDivRemUWide oc x n)

/-- `overflowing_div_rem_ilimb`, src/int/limb.rs L1285-1291. -/
def overflowingDivRemILimb (x : Limbs w) (n : BitVec w) : Res ((Limbs w × BitVec w) × Bool) :=
  overflowingDivRemSigned x n (wrappingDivRemILimb x n)
/-- `overflowing_div_rem_iwide`, src/int/limb.rs L1396-1402. -/
def overflowingDivRemIWide (x : Limbs w) (n : BitVec (w + w)) :
    Res ((Limbs w × BitVec (w + w)) × Bool) :=
  overflowingDivRemSigned x n (wrappingDivRemIWide x n)
/-- `checked_div_rem_ilimb`, src/int/limb.rs L1866-1875. -/
def checkedDivRemILimb (x : Limbs w) (n : BitVec w) : Res (Option (Limbs w × BitVec w)) :=
  checkedDivRemSigned x n (wrappingDivRemILimb x n)
/-- `checked_div_rem_iwide`, src/int/limb.rs L1947-1956. -/
def checkedDivRemIWide (x : Limbs w) (n : BitVec (w + w)) :
    Res (Option (Limbs w × BitVec (w + w))) :=
  checkedDivRemSigned x n (wrappingDivRemIWide x n)
/-- `div_rem_ilimb`, src/int/limb.rs L63-72. -/
def divRemILimb (oc : Bool) (x : Limbs w) (n : BitVec w) : Res (Limbs w × BitVec w) :=
  opOfR oc (wrappingDivRemILimb x n) (checkedDivRemILimb x n)
/-- `div_rem_iwide`, src/int/limb.rs L148-157. -/
def divRemIWide (oc : Bool) (x : Limbs w) (n : BitVec (w + w)) : Res (Limbs w × BitVec (w + w)) :=
  opOfR oc (wrappingDivRemIWide x n) (checkedDivRemIWide x n)

end I

end I256
