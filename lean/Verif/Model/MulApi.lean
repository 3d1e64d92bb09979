import Verif.Model.AddSubApi
import Verif.Model.Mul
import Verif.Model.Bitops

/-!
# The multiplication and exponentiation methods of the unsigned (`U`) and signed (`I`) types

An exponent is a `u32`: a natural number below `2^32`.
-/

namespace I256

variable {w : Nat}

/-- The loop of `wrapping_pow`, src/shared/wrapping.rs L24-35. The loop halves `exp` until it is 1;
the first argument bounds the number of iterations, 32 suffice for a `u32` (running out of it would
be the endless loop excluded by the `debug_assert!` of L34). -/
def wrappingPowLoop (mul : Limbs w → Limbs w → Limbs w) : Nat → Nat → Limbs w → Limbs w → Limbs w
  | 0, _, _, acc => acc
  | fuel + 1, exp, base, acc =>
    if exp &&& 1 == 1 then
      let acc := mul acc base
      if exp == 1 then acc
      else wrappingPowLoop mul fuel (exp / 2) (mul base base) acc
    else wrappingPowLoop mul fuel (exp / 2) (mul base base) acc

/-- `wrapping_pow`, src/shared/wrapping.rs L16-36. -/
def wrappingPow (mul : Limbs w → Limbs w → Limbs w) (x : Limbs w) (exp : Nat) : Limbs w :=
  if exp == 0 then ofU8 x.length 1
  else wrappingPowLoop mul 32 exp x (ofU8 x.length 1)

/-- The loop of `overflowing_pow`, src/shared/overflowing.rs L29-45. See `wrappingPowLoop` for the
first argument. -/
def overflowingPowLoop (mul : Limbs w → Limbs w → Limbs w × Bool) :
    Nat → Nat → Limbs w → Limbs w → Bool → Limbs w × Bool
  | 0, _, _, acc, overflowed => (acc, overflowed)
  | fuel + 1, exp, base, acc, overflowed =>
    if exp &&& 1 == 1 then
      let r := mul acc base
      if exp == 1 then (r.1, r.2 || overflowed)
      else
        let acc := r.1
        let overflowed := overflowed || r.2
        let r := mul base base
        overflowingPowLoop mul fuel (exp / 2) r.1 acc (overflowed || r.2)
    else
      let r := mul base base
      overflowingPowLoop mul fuel (exp / 2) r.1 acc (overflowed || r.2)

/-- `overflowing_pow`, src/shared/overflowing.rs L19-46. -/
def overflowingPow (mul : Limbs w → Limbs w → Limbs w × Bool) (x : Limbs w) (exp : Nat) :
    Limbs w × Bool :=
  if exp == 0 then (ofU8 x.length 1, false)
  else overflowingPowLoop mul 32 exp x (ofU8 x.length 1) false

namespace U

/-- src/uint/wrapping.rs L83-217 (L84-214 are comments) -/
def wrappingMul (x y : Limbs w) : Limbs w := Mul.wrappingFull x y
/-- src/uint/overflowing.rs L103-108 -/
def overflowingMul (x y : Limbs w) : Limbs w × Bool := Mul.overflowingFull x y
/-- `checked_mul` with `IS_SIGNED = false`, src/shared/checked.rs L46-63 -/
def checkedMul (x y : Limbs w) : Option (Limbs w) :=
  match checkedIlog2 false x, checkedIlog2 false y with
  | some l, some r => if l + r > bits x - 1 then none else mkChecked (overflowingMul x y)
  | none, _ => some (ofU8 x.length 0)
  | _, none => some (ofU8 x.length 0)
/-- src/uint/saturating.rs L66-71 -/
def saturatingMul (x y : Limbs w) : Limbs w := unwrapOr (checkedMul x y) (maxValue w x.length)
/-- src/shared/strict.rs L51-56 -/
def strictMul (x y : Limbs w) : Res (Limbs w) := unwrapOrPanic (checkedMul x y)
/-- `*`, src/shared/ops.rs L89-98 -/
def mul (oc : Bool) (x y : Limbs w) : Res (Limbs w) := opOf oc (wrappingMul x y) (checkedMul x y)

/-- src/uint/limb.rs L63-94 -/
def wrappingMulULimb (x : Limbs w) (n : BitVec w) : Limbs w := Mul.wrappingLimb x n
/-- src/uint/limb.rs L157-160 -/
def wrappingMulUWide (x : Limbs w) (n : BitVec (w + w)) : Limbs w := Mul.wrappingWide x n
/-- src/uint/limb.rs L432-435 -/
def overflowingMulULimb (x : Limbs w) (n : BitVec w) : Limbs w × Bool := Mul.overflowingLimb x n
/-- src/uint/limb.rs L489-492 -/
def overflowingMulUWide (x : Limbs w) (n : BitVec (w + w)) : Limbs w × Bool :=
  Mul.overflowingWide x n
/-- src/shared/limb.rs L822-829 -/
def checkedMulULimb (x : Limbs w) (n : BitVec w) : Option (Limbs w) :=
  mkChecked (overflowingMulULimb x n)
/-- src/shared/limb.rs L899-906 -/
def checkedMulUWide (x : Limbs w) (n : BitVec (w + w)) : Option (Limbs w) :=
  mkChecked (overflowingMulUWide x n)
/-- src/shared/limb.rs L44-53 -/
def mulULimb (oc : Bool) (x : Limbs w) (n : BitVec w) : Res (Limbs w) :=
  opOf oc (wrappingMulULimb x n) (checkedMulULimb x n)
/-- src/shared/limb.rs L133-142 -/
def mulUWide (oc : Bool) (x : Limbs w) (n : BitVec (w + w)) : Res (Limbs w) :=
  opOf oc (wrappingMulUWide x n) (checkedMulUWide x n)

/-- src/uint/ops.rs L285-290 -/
def wideningMul (x y : Limbs w) : Limbs w × Limbs w := Mul.widening x y
/-- src/uint/ops.rs L308-316 -/
def carryingMul (oc : Bool) (x y carry : Limbs w) : Res (Limbs w × Limbs w) :=
  let (lo, hi) := Mul.widening x y
  let (lo, overflowed) := overflowingAdd lo carry
  (addULimb oc hi (boolLimb w overflowed)).map fun hi => (lo, hi)

/-- src/shared/wrapping.rs L16-36 -/
def wrappingPow (x : Limbs w) (exp : Nat) : Limbs w := I256.wrappingPow wrappingMul x exp
/-- src/shared/overflowing.rs L19-46 -/
def overflowingPow (x : Limbs w) (exp : Nat) : Limbs w × Bool :=
  I256.overflowingPow overflowingMul x exp
/-- src/shared/checked.rs L71-76 -/
def checkedPow (x : Limbs w) (exp : Nat) : Option (Limbs w) := mkChecked (overflowingPow x exp)
/-- src/uint/saturating.rs L92-97 -/
def saturatingPow (x : Limbs w) (exp : Nat) : Limbs w :=
  unwrapOr (checkedPow x exp) (maxValue w x.length)
/-- src/shared/strict.rs L67-72 -/
def strictPow (x : Limbs w) (exp : Nat) : Res (Limbs w) := unwrapOrPanic (checkedPow x exp)
/-- `pow`, src/shared/ops.rs L20-26 -/
def pow (oc : Bool) (x : Limbs w) (exp : Nat) : Res (Limbs w) :=
  opOf oc (wrappingPow x exp) (checkedPow x exp)

/-- `low`, src/uint/extensions.rs L11-21: the lower half of the limbs, in an array of full length. -/
def low (x : Limbs w) : Limbs w :=
  x.take (x.length / 2) ++ List.replicate (x.length - x.length / 2) 0
/-- `high`, src/uint/extensions.rs L26-36: `LIMBS / 2` limbs from index `LIMBS / 2` on. -/
def high (x : Limbs w) : Limbs w :=
  (x.drop (x.length / 2)).take (x.length / 2) ++ List.replicate (x.length - x.length / 2) 0
/-- `high_mul`, src/uint/extensions.rs L44-59 -/
def highMul (x y : Limbs w) : Limbs w :=
  let x1 := high x
  let x0 := low x
  let y1 := high y
  let y0 := low y
  let w0 := wrappingMul x0 y0
  let m := wrappingAdd (wrappingMul x0 y1) (high w0)
  let w1 := low m
  let w2 := high m
  let w3 := high (wrappingAdd (wrappingMul x1 y0) w1)
  wrappingAdd (wrappingAdd (wrappingMul x1 y1) w2) w3

end U

namespace I

/-- src/int/wrapping.rs L61-64 -/
def wrappingMul (x y : Limbs w) : Limbs w := Mul.wrappingFull x y
/-- src/int/overflowing.rs L85-90 -/
def overflowingMul (x y : Limbs w) : Limbs w × Bool := Mul.overflowingFullS x y
/-- `checked_mul` with `IS_SIGNED = true`, src/shared/checked.rs L46-63 -/
def checkedMul (x y : Limbs w) : Option (Limbs w) := mkChecked (overflowingMul x y)
/-- src/int/saturating.rs L103-114 -/
def saturatingMul (x y : Limbs w) : Limbs w :=
  match checkedMul x y with
  | some v => v
  | none =>
    if isNegative x == isNegative y then maxValue w x.length else minValue w x.length
/-- src/shared/strict.rs L51-56 -/
def strictMul (x y : Limbs w) : Res (Limbs w) := unwrapOrPanic (checkedMul x y)
/-- `*`, src/shared/ops.rs L89-98 -/
def mul (oc : Bool) (x y : Limbs w) : Res (Limbs w) := opOf oc (wrappingMul x y) (checkedMul x y)

/-- src/int/limb.rs L512-515 -/
def wrappingMulULimb (x : Limbs w) (n : BitVec w) : Limbs w := Mul.wrappingLimb x n
/-- src/int/limb.rs L525-528 -/
def wrappingMulILimb (x : Limbs w) (n : BitVec w) : Limbs w := Mul.wrappingILimb x n
/-- src/int/limb.rs L653-656 -/
def wrappingMulUWide (x : Limbs w) (n : BitVec (w + w)) : Limbs w := Mul.wrappingWide x n
/-- src/int/limb.rs L663-666 -/
def wrappingMulIWide (x : Limbs w) (n : BitVec (w + w)) : Limbs w := Mul.wrappingIWide x n
/-- src/int/limb.rs L1260-1263 -/
def overflowingMulULimb (x : Limbs w) (n : BitVec w) : Limbs w × Bool := Mul.overflowingULimbS x n
/-- src/int/limb.rs L1273-1276 -/
def overflowingMulILimb (x : Limbs w) (n : BitVec w) : Limbs w × Bool := Mul.overflowingILimbS x n
/-- src/int/limb.rs L1371-1374 -/
def overflowingMulUWide (x : Limbs w) (n : BitVec (w + w)) : Limbs w × Bool :=
  Mul.overflowingUWideS x n
/-- src/int/limb.rs L1384-1387 -/
def overflowingMulIWide (x : Limbs w) (n : BitVec (w + w)) : Limbs w × Bool :=
  Mul.overflowingIWideS x n
/-- src/shared/limb.rs L822-829 -/
def checkedMulULimb (x : Limbs w) (n : BitVec w) : Option (Limbs w) :=
  mkChecked (overflowingMulULimb x n)
/-- src/int/limb.rs L1851-1858 -/
def checkedMulILimb (x : Limbs w) (n : BitVec w) : Option (Limbs w) :=
  mkChecked (overflowingMulILimb x n)
/-- src/shared/limb.rs L899-906 -/
def checkedMulUWide (x : Limbs w) (n : BitVec (w + w)) : Option (Limbs w) :=
  mkChecked (overflowingMulUWide x n)
/-- src/int/limb.rs L1932-1939 -/
def checkedMulIWide (x : Limbs w) (n : BitVec (w + w)) : Option (Limbs w) :=
  mkChecked (overflowingMulIWide x n)
/-- src/shared/limb.rs L44-53 -/
def mulULimb (oc : Bool) (x : Limbs w) (n : BitVec w) : Res (Limbs w) :=
  opOf oc (wrappingMulULimb x n) (checkedMulULimb x n)
/-- src/int/limb.rs L46-55 -/
def mulILimb (oc : Bool) (x : Limbs w) (n : BitVec w) : Res (Limbs w) :=
  opOf oc (wrappingMulILimb x n) (checkedMulILimb x n)
/-- src/shared/limb.rs L133-142 -/
def mulUWide (oc : Bool) (x : Limbs w) (n : BitVec (w + w)) : Res (Limbs w) :=
  opOf oc (wrappingMulUWide x n) (checkedMulUWide x n)
/-- src/int/limb.rs L131-140 -/
def mulIWide (oc : Bool) (x : Limbs w) (n : BitVec (w + w)) : Res (Limbs w) :=
  opOf oc (wrappingMulIWide x n) (checkedMulIWide x n)

/-- src/shared/wrapping.rs L16-36 -/
def wrappingPow (x : Limbs w) (exp : Nat) : Limbs w := I256.wrappingPow wrappingMul x exp
/-- src/shared/overflowing.rs L19-46 -/
def overflowingPow (x : Limbs w) (exp : Nat) : Limbs w × Bool :=
  I256.overflowingPow overflowingMul x exp
/-- src/shared/checked.rs L71-76 -/
def checkedPow (x : Limbs w) (exp : Nat) : Option (Limbs w) := mkChecked (overflowingPow x exp)
/-- src/int/saturating.rs L137-143 -/
def saturatingPow (x : Limbs w) (exp : Nat) : Limbs w :=
  match checkedPow x exp with
  | some v => v
  | none =>
    if Ord.lt true x (ofU8 x.length 0) && exp % 2 == 1 then minValue w x.length
    else maxValue w x.length
/-- src/shared/strict.rs L67-72 -/
def strictPow (x : Limbs w) (exp : Nat) : Res (Limbs w) := unwrapOrPanic (checkedPow x exp)
/-- `pow`, src/shared/ops.rs L20-26 -/
def pow (oc : Bool) (x : Limbs w) (exp : Nat) : Res (Limbs w) :=
  opOf oc (wrappingPow x exp) (checkedPow x exp)

end I

end I256
