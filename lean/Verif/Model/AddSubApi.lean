import Verif.Model.Common

/-!
# The addition and subtraction methods of the unsigned (`U`) and signed (`I`) types
-/

namespace I256

variable {w : Nat}

namespace U

/-- src/uint/wrapping.rs L22-25 -/
def wrappingAdd (x y : Limbs w) : Limbs w := Add.wrappingFull x y
/-- src/uint/wrapping.rs L33-35 -/
def wrappingAddSigned (x y : Limbs w) : Limbs w := wrappingAdd x y
/-- src/uint/wrapping.rs L43-48 -/
def wrappingSub (x y : Limbs w) : Limbs w := Sub.wrappingFull x y
/-- src/uint/wrapping.rs L319-321 -/
def wrappingNeg (x : Limbs w) : Limbs w := wrappingSub (minValue w x.length) x

/-- src/uint/overflowing.rs L26-31 -/
def overflowingAdd (x y : Limbs w) : Limbs w × Bool := Add.overflowingFull x y
/-- src/uint/overflowing.rs L42-46 -/
def overflowingAddSigned (x y : Limbs w) : Limbs w × Bool :=
  let isNegative := I.isNegative y
  let (r, overflowed) := overflowingAdd x y
  (r, overflowed ^^ isNegative)
/-- src/uint/overflowing.rs L57-62 -/
def overflowingSub (x y : Limbs w) : Limbs w × Bool := Sub.overflowingFull x y
/-- src/uint/overflowing.rs L71-74 -/
def overflowingSubSigned (x y : Limbs w) : Limbs w × Bool :=
  let (res, overflow) := overflowingSub x y
  (res, overflow ^^ I.isNegative y)

/-- src/shared/checked.rs L16-23 -/
def checkedAdd (x y : Limbs w) : Option (Limbs w) := mkChecked (overflowingAdd x y)
/-- src/shared/checked.rs L31-38 -/
def checkedSub (x y : Limbs w) : Option (Limbs w) := mkChecked (overflowingSub x y)
/-- src/uint/checked.rs L21-28 -/
def checkedAddSigned (x y : Limbs w) : Option (Limbs w) := mkChecked (overflowingAddSigned x y)
/-- src/uint/checked.rs L37-43 -/
def checkedNeg (x : Limbs w) : Option (Limbs w) :=
  if Ord.eqConst x (minValue w x.length) then some x else none
/-- src/uint/checked.rs L132-141 -/
def checkedSignedDiff (x y : Limbs w) : Option (Limbs w) :=
  let res := wrappingSub x y
  let overflow := Ord.ge false x y == Ord.lt true res (ofU8 x.length 0)
  if !overflow then some res else none

/-- src/uint/saturating.rs L22-27 -/
def saturatingAdd (x y : Limbs w) : Limbs w := unwrapOr (checkedAdd x y) (maxValue w x.length)
/-- src/uint/saturating.rs L35-45 -/
def saturatingAddSigned (x y : Limbs w) : Limbs w :=
  let isNegative := I.isNegative y
  let (r, overflowed) := overflowingAdd x y
  if overflowed == isNegative then r
  else if overflowed then maxValue w x.length
  else minValue w x.length
/-- src/uint/saturating.rs L53-58 -/
def saturatingSub (x y : Limbs w) : Limbs w := unwrapOr (checkedSub x y) (minValue w x.length)

/-- src/shared/strict.rs L19-24 -/
def strictAdd (x y : Limbs w) : Res (Limbs w) := unwrapOrPanic (checkedAdd x y)
/-- src/shared/strict.rs L35-40 -/
def strictSub (x y : Limbs w) : Res (Limbs w) := unwrapOrPanic (checkedSub x y)

/-- src/uint/strict.rs L25-30 -/
def strictAddSigned (x y : Limbs w) : Res (Limbs w) := unwrapOrPanic (checkedAddSigned x y)

/-- `+`, src/shared/ops.rs L57-66 -/
def add (oc : Bool) (x y : Limbs w) : Res (Limbs w) := opOf oc (wrappingAdd x y) (checkedAdd x y)
/-- `-`, src/shared/ops.rs L121-130 -/
def sub (oc : Bool) (x y : Limbs w) : Res (Limbs w) := opOf oc (wrappingSub x y) (checkedSub x y)

/-- src/uint/limb.rs L23-26 -/
def wrappingAddULimb (x : Limbs w) (n : BitVec w) : Limbs w := Add.wrappingLimb x n
/-- src/uint/limb.rs L34-37 -/
def wrappingSubULimb (x : Limbs w) (n : BitVec w) : Limbs w := Sub.wrappingLimb x n
/-- src/uint/limb.rs L117-120 -/
def wrappingAddUWide (x : Limbs w) (n : BitVec (w + w)) : Res (Limbs w) := Add.wrappingWide x n
/-- src/uint/limb.rs L128-131 -/
def wrappingSubUWide (x : Limbs w) (n : BitVec (w + w)) : Res (Limbs w) := Sub.wrappingWide x n
/-- src/uint/limb.rs L389-392 -/
def overflowingAddULimb (x : Limbs w) (n : BitVec w) : Limbs w × Bool := Add.overflowingLimb x n
/-- src/uint/limb.rs L401-404 -/
def overflowingSubULimb (x : Limbs w) (n : BitVec w) : Limbs w × Bool := Sub.overflowingLimb x n
/-- src/uint/limb.rs L446-449 -/
def overflowingAddUWide (x : Limbs w) (n : BitVec (w + w)) : Res (Limbs w × Bool) :=
  Add.overflowingWide x n
/-- src/uint/limb.rs L458-461 -/
def overflowingSubUWide (x : Limbs w) (n : BitVec (w + w)) : Res (Limbs w × Bool) :=
  Sub.overflowingWide x n

/-- src/shared/limb.rs L794-801 -/
def checkedAddULimb (x : Limbs w) (n : BitVec w) : Option (Limbs w) :=
  mkChecked (overflowingAddULimb x n)
/-- src/shared/limb.rs L808-815 -/
def checkedSubULimb (x : Limbs w) (n : BitVec w) : Option (Limbs w) :=
  mkChecked (overflowingSubULimb x n)
/-- src/shared/limb.rs L871-878 -/
def checkedAddUWide (x : Limbs w) (n : BitVec (w + w)) : Res (Option (Limbs w)) :=
  (overflowingAddUWide x n).map mkChecked
/-- src/shared/limb.rs L885-892 -/
def checkedSubUWide (x : Limbs w) (n : BitVec (w + w)) : Res (Option (Limbs w)) :=
  (overflowingSubUWide x n).map mkChecked
/-- src/shared/limb.rs L12-21 -/
def addULimb (oc : Bool) (x : Limbs w) (n : BitVec w) : Res (Limbs w) :=
  opOf oc (wrappingAddULimb x n) (checkedAddULimb x n)
/-- src/shared/limb.rs L28-37 -/
def subULimb (oc : Bool) (x : Limbs w) (n : BitVec w) : Res (Limbs w) :=
  opOf oc (wrappingSubULimb x n) (checkedSubULimb x n)
/-- src/shared/limb.rs L101-110 -/
def addUWide (oc : Bool) (x : Limbs w) (n : BitVec (w + w)) : Res (Limbs w) :=
  if !oc then wrappingAddUWide x n else (checkedAddUWide x n).bind unwrapOrPanic
/-- src/shared/limb.rs L117-126 -/
def subUWide (oc : Bool) (x : Limbs w) (n : BitVec (w + w)) : Res (Limbs w) :=
  if !oc then wrappingSubUWide x n else (checkedSubUWide x n).bind unwrapOrPanic

/-- src/shared/bigint.rs L23-27 -/
def carryingAdd (x y : Limbs w) (carry : Bool) : Limbs w × Bool :=
  let (a, b) := overflowingAdd x y
  let (c, d) := overflowingAddULimb a (boolLimb w carry)
  (c, b || d)
/-- src/shared/bigint.rs L42-46 -/
def borrowingSub (x y : Limbs w) (borrow : Bool) : Limbs w × Bool :=
  let (a, b) := overflowingSub x y
  let (c, d) := overflowingSubULimb a (boolLimb w borrow)
  (c, b || d)

/-- src/uint/ops.rs L166-172 -/
def absDiff (x y : Limbs w) : Limbs w :=
  if Ord.lt false x y then wrappingSub y x else wrappingSub x y

end U

namespace I

/-- src/int/wrapping.rs L22-25 -/
def wrappingAdd (x y : Limbs w) : Limbs w := Add.wrappingFull x y
/-- src/int/wrapping.rs L33-36 -/
def wrappingSub (x y : Limbs w) : Limbs w := Sub.wrappingFull x y
/-- src/int/wrapping.rs L44-46 -/
def wrappingSubUnsigned (x y : Limbs w) : Limbs w := wrappingSub x y

/-- src/int/overflowing.rs L24-29 -/
def overflowingAdd (x y : Limbs w) : Limbs w × Bool := Add.sOverflowingFull x y
/-- src/int/overflowing.rs L39-44 -/
def overflowingSub (x y : Limbs w) : Limbs w × Bool := Sub.sOverflowingFull x y
/-- src/int/overflowing.rs L54-58 -/
def overflowingAddUnsigned (x y : Limbs w) : Limbs w × Bool :=
  let (res, overflowed) := overflowingAdd x y
  (res, overflowed ^^ isNegative y)
/-- src/int/overflowing.rs L68-72 -/
def overflowingSubUnsigned (x y : Limbs w) : Limbs w × Bool :=
  let (res, overflowed) := overflowingSub x y
  (res, overflowed ^^ isNegative y)

/-- src/shared/checked.rs L16-23 -/
def checkedAdd (x y : Limbs w) : Option (Limbs w) := mkChecked (overflowingAdd x y)
/-- src/shared/checked.rs L31-38 -/
def checkedSub (x y : Limbs w) : Option (Limbs w) := mkChecked (overflowingSub x y)
/-- src/int/checked.rs L22-29 -/
def checkedAddUnsigned (x y : Limbs w) : Option (Limbs w) := mkChecked (overflowingAddUnsigned x y)
/-- src/int/checked.rs L37-44 -/
def checkedSubUnsigned (x y : Limbs w) : Option (Limbs w) := mkChecked (overflowingSubUnsigned x y)

/-- `match checked { Some(v) => v, None if self.is_negative() => MIN, None => MAX }`,
src/int/saturating.rs L23-27. -/
def saturate (x : Limbs w) (o : Option (Limbs w)) : Limbs w :=
  match o with
  | some v => v
  | none => if isNegative x then minValue w x.length else maxValue w x.length

/-- src/int/saturating.rs L22-28 -/
def saturatingAdd (x y : Limbs w) : Limbs w := saturate x (checkedAdd x y)
/-- src/int/saturating.rs L36-43 -/
def saturatingAddUnsigned (x y : Limbs w) : Limbs w :=
  unwrapOr (checkedAddUnsigned x y) (maxValue w x.length)
/-- src/int/saturating.rs L51-57 -/
def saturatingSub (x y : Limbs w) : Limbs w := saturate x (checkedSub x y)
/-- src/int/saturating.rs L65-72 -/
def saturatingSubUnsigned (x y : Limbs w) : Limbs w :=
  unwrapOr (checkedSubUnsigned x y) (minValue w x.length)

/-- src/shared/strict.rs L19-24 -/
def strictAdd (x y : Limbs w) : Res (Limbs w) := unwrapOrPanic (checkedAdd x y)
/-- src/shared/strict.rs L35-40 -/
def strictSub (x y : Limbs w) : Res (Limbs w) := unwrapOrPanic (checkedSub x y)

/-- src/int/strict.rs L25-30 -/
def strictAddUnsigned (x y : Limbs w) : Res (Limbs w) := unwrapOrPanic (checkedAddUnsigned x y)
/-- src/int/strict.rs L41-46 -/
def strictSubUnsigned (x y : Limbs w) : Res (Limbs w) := unwrapOrPanic (checkedSubUnsigned x y)

/-- `+`, src/shared/ops.rs L57-66 -/
def add (oc : Bool) (x y : Limbs w) : Res (Limbs w) := opOf oc (wrappingAdd x y) (checkedAdd x y)
/-- `-`, src/shared/ops.rs L121-130 -/
def sub (oc : Bool) (x y : Limbs w) : Res (Limbs w) := opOf oc (wrappingSub x y) (checkedSub x y)

/-- src/int/limb.rs L465-468 -/
def wrappingAddULimb (x : Limbs w) (n : BitVec w) : Limbs w := Add.wrappingLimb x n
/-- src/int/limb.rs L475-478 -/
def wrappingAddILimb (x : Limbs w) (n : BitVec w) : Limbs w := Add.sWrappingILimb x n
/-- src/int/limb.rs L486-489 -/
def wrappingSubULimb (x : Limbs w) (n : BitVec w) : Limbs w := Sub.wrappingLimb x n
/-- src/int/limb.rs L497-500 -/
def wrappingSubILimb (x : Limbs w) (n : BitVec w) : Limbs w := Sub.sWrappingILimb x n
/-- src/int/limb.rs L611-614 -/
def wrappingAddUWide (x : Limbs w) (n : BitVec (w + w)) : Limbs w := Add.sWrappingUWide x n
/-- src/int/limb.rs L621-624 -/
def wrappingAddIWide (x : Limbs w) (n : BitVec (w + w)) : Limbs w := Add.sWrappingIWide x n
/-- src/int/limb.rs L632-635 -/
def wrappingSubUWide (x : Limbs w) (n : BitVec (w + w)) : Limbs w := Sub.sWrappingUWide x n
/-- src/int/limb.rs L643-646 -/
def wrappingSubIWide (x : Limbs w) (n : BitVec (w + w)) : Limbs w := Sub.sWrappingIWide x n
/-- src/int/limb.rs L1214-1217 -/
def overflowingAddULimb (x : Limbs w) (n : BitVec w) : Limbs w × Bool := Add.sOverflowingULimb x n
/-- src/int/limb.rs L1225-1228 -/
def overflowingAddILimb (x : Limbs w) (n : BitVec w) : Limbs w × Bool := Add.sOverflowingILimb x n
/-- src/int/limb.rs L1236-1239 -/
def overflowingSubULimb (x : Limbs w) (n : BitVec w) : Limbs w × Bool := Sub.sOverflowingULimb x n
/-- src/int/limb.rs L1247-1250 -/
def overflowingSubILimb (x : Limbs w) (n : BitVec w) : Limbs w × Bool := Sub.sOverflowingILimb x n
/-- src/int/limb.rs L1325-1328 -/
def overflowingAddUWide (x : Limbs w) (n : BitVec (w + w)) : Limbs w × Bool :=
  Add.sOverflowingUWide x n
/-- src/int/limb.rs L1336-1339 -/
def overflowingAddIWide (x : Limbs w) (n : BitVec (w + w)) : Limbs w × Bool :=
  Add.sOverflowingIWide x n
/-- src/int/limb.rs L1347-1350 -/
def overflowingSubUWide (x : Limbs w) (n : BitVec (w + w)) : Limbs w × Bool :=
  Sub.sOverflowingUWide x n
/-- src/int/limb.rs L1358-1361 -/
def overflowingSubIWide (x : Limbs w) (n : BitVec (w + w)) : Limbs w × Bool :=
  Sub.sOverflowingIWide x n

/-- src/shared/limb.rs L794-801 -/
def checkedAddULimb (x : Limbs w) (n : BitVec w) : Option (Limbs w) :=
  mkChecked (overflowingAddULimb x n)
/-- src/shared/limb.rs L12-21 -/
def addULimb (oc : Bool) (x : Limbs w) (n : BitVec w) : Res (Limbs w) :=
  opOf oc (wrappingAddULimb x n) (checkedAddULimb x n)
/-- src/shared/limb.rs L808-815 -/
def checkedSubULimb (x : Limbs w) (n : BitVec w) : Option (Limbs w) :=
  mkChecked (overflowingSubULimb x n)
/-- src/shared/limb.rs L28-37 -/
def subULimb (oc : Bool) (x : Limbs w) (n : BitVec w) : Res (Limbs w) :=
  opOf oc (wrappingSubULimb x n) (checkedSubULimb x n)
/-- src/int/limb.rs L1823-1830 -/
def checkedAddILimb (x : Limbs w) (n : BitVec w) : Option (Limbs w) :=
  mkChecked (overflowingAddILimb x n)
/-- src/int/limb.rs L14-23 -/
def addILimb (oc : Bool) (x : Limbs w) (n : BitVec w) : Res (Limbs w) :=
  opOf oc (wrappingAddILimb x n) (checkedAddILimb x n)
/-- src/int/limb.rs L1837-1844 -/
def checkedSubILimb (x : Limbs w) (n : BitVec w) : Option (Limbs w) :=
  mkChecked (overflowingSubILimb x n)
/-- src/int/limb.rs L30-39 -/
def subILimb (oc : Bool) (x : Limbs w) (n : BitVec w) : Res (Limbs w) :=
  opOf oc (wrappingSubILimb x n) (checkedSubILimb x n)
/-- src/shared/limb.rs L871-878 -/
def checkedAddUWide (x : Limbs w) (n : BitVec (w + w)) : Option (Limbs w) :=
  mkChecked (overflowingAddUWide x n)
/-- src/shared/limb.rs L101-110 -/
def addUWide (oc : Bool) (x : Limbs w) (n : BitVec (w + w)) : Res (Limbs w) :=
  opOf oc (wrappingAddUWide x n) (checkedAddUWide x n)
/-- src/shared/limb.rs L885-892 -/
def checkedSubUWide (x : Limbs w) (n : BitVec (w + w)) : Option (Limbs w) :=
  mkChecked (overflowingSubUWide x n)
/-- src/shared/limb.rs L117-126 -/
def subUWide (oc : Bool) (x : Limbs w) (n : BitVec (w + w)) : Res (Limbs w) :=
  opOf oc (wrappingSubUWide x n) (checkedSubUWide x n)
/-- src/int/limb.rs L1904-1911 -/
def checkedAddIWide (x : Limbs w) (n : BitVec (w + w)) : Option (Limbs w) :=
  mkChecked (overflowingAddIWide x n)
/-- src/int/limb.rs L99-108 -/
def addIWide (oc : Bool) (x : Limbs w) (n : BitVec (w + w)) : Res (Limbs w) :=
  opOf oc (wrappingAddIWide x n) (checkedAddIWide x n)
/-- src/int/limb.rs L1918-1925 -/
def checkedSubIWide (x : Limbs w) (n : BitVec (w + w)) : Option (Limbs w) :=
  mkChecked (overflowingSubIWide x n)
/-- src/int/limb.rs L115-124 -/
def subIWide (oc : Bool) (x : Limbs w) (n : BitVec (w + w)) : Res (Limbs w) :=
  opOf oc (wrappingSubIWide x n) (checkedSubIWide x n)

/-- src/shared/bigint.rs L23-27 -/
def carryingAdd (x y : Limbs w) (carry : Bool) : Limbs w × Bool :=
  let (a, b) := overflowingAdd x y
  let (c, d) := overflowingAddULimb a (boolLimb w carry)
  (c, b || d)
/-- src/shared/bigint.rs L42-46 -/
def borrowingSub (x y : Limbs w) (borrow : Bool) : Limbs w × Bool :=
  let (a, b) := overflowingSub x y
  let (c, d) := overflowingSubULimb a (boolLimb w borrow)
  (c, b || d)

/-- `wrapping_neg`, src/int/wrapping.rs L205-211. The `debug_assert!` of L209 is a consequence of
C36 and not modelled. -/
def wrappingNeg (x : Limbs w) : Limbs w := wrappingSub (ofU8 x.length 0) x
/-- src/int/overflowing.rs L174-180 -/
def overflowingNeg (x : Limbs w) : Limbs w × Bool :=
  if Ord.eqConst x (minValue w x.length) then (minValue w x.length, true)
  else (wrappingNeg x, false)
/-- src/int/overflowing.rs L217-222 -/
def overflowingAbs (x : Limbs w) : Limbs w × Bool :=
  if isNegative x then overflowingNeg x else (x, false)
/-- src/int/wrapping.rs L224-226 -/
def wrappingAbs (x : Limbs w) : Limbs w := (overflowingAbs x).1
/-- src/int/ops.rs L68-70 -/
def unsignedAbs (x : Limbs w) : Limbs w := wrappingAbs x
/-- src/int/checked.rs L51-58 -/
def checkedNeg (x : Limbs w) : Option (Limbs w) := mkChecked (overflowingNeg x)
/-- src/int/checked.rs L66-71 -/
def checkedAbs (x : Limbs w) : Option (Limbs w) := mkChecked (overflowingAbs x)
/-- src/int/saturating.rs L80-82 -/
def saturatingNeg (x : Limbs w) : Limbs w := saturatingSub (ofU8 x.length 0) x
/-- src/int/saturating.rs L90-95 -/
def saturatingAbs (x : Limbs w) : Limbs w := unwrapOr (checkedAbs x) (maxValue w x.length)
/-- src/int/ops.rs L279-284 and `strict_abs`, src/int/strict.rs L153-158 -/
def abs (x : Limbs w) : Res (Limbs w) := unwrapOrPanic (checkedAbs x)
/-- `strict_neg`, src/int/strict.rs L137-142 -/
def strictNeg (x : Limbs w) : Res (Limbs w) := unwrapOrPanic (checkedNeg x)
/-- `Neg::neg`, src/int/traits.rs L16-25 -/
def neg (oc : Bool) (x : Limbs w) : Res (Limbs w) := opOf oc (wrappingNeg x) (checkedNeg x)
/-- src/int/ops.rs L294-300 -/
def absDiff (x y : Limbs w) : Limbs w :=
  if Ord.lt true x y then U.wrappingSub y x else U.wrappingSub x y
/-- src/int/ops.rs L310-316 -/
def signum (x : Limbs w) : Limbs w :=
  match Ord.cmp true x (ofU8 x.length 0) with
  | .lt => ofI8 x.length (-1)
  | .eq => ofU8 x.length 0
  | .gt => ofU8 x.length 1

end I

end I256
