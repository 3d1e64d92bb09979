import Verif.Spec

/-!
# Model of the native limb operations

`src/math/bigint.rs`: the carrying helpers on one limb.  The Rust primitives `overflowing_add`,
`overflowing_sub` on unsigned and signed native integers are `BitVec` addition/subtraction paired
with the library's overflow predicates.
-/

namespace I256

variable {w : Nat}

/-- `c as $t` for a `bool` (Rust cast: `false ↦ 0`, `true ↦ 1`). -/
def boolLimb (w : Nat) (c : Bool) : BitVec w := BitVec.ofNat w c.toNat

/-- `uN::overflowing_add`. -/
def uAddO (x y : BitVec w) : BitVec w × Bool := (x + y, BitVec.uaddOverflow x y)

/-- `uN::overflowing_sub`. -/
def uSubO (x y : BitVec w) : BitVec w × Bool := (x - y, BitVec.usubOverflow x y)

/-- `iN::overflowing_add`. -/
def sAddO (x y : BitVec w) : BitVec w × Bool := (x + y, BitVec.saddOverflow x y)

/-- `iN::overflowing_sub`. -/
def sSubO (x y : BitVec w) : BitVec w × Bool := (x - y, BitVec.ssubOverflow x y)

/-- `carrying_add_u32/u64`, src/math/bigint.rs L17-24. -/
def carryingAdd (lhs rhs : BitVec w) (carry : Bool) : BitVec w × Bool :=
  let (v, c0) := uAddO lhs rhs
  let (v, c1) := uAddO v (boolLimb w carry)
  (v, c0 || c1)

/-- `borrowing_sub_u32/u64`, src/math/bigint.rs L26-34. -/
def borrowingSub (lhs rhs : BitVec w) (borrow : Bool) : BitVec w × Bool :=
  let (v, b0) := uSubO lhs rhs
  let (v, b1) := uSubO v (boolLimb w borrow)
  (v, b0 || b1)

/-- `x as $w`: zero extension of a limb to the double-width type. -/
def wide (x : BitVec w) : BitVec (w + w) := x.setWidth (w + w)

/-- `v as $t`: the low limb of a double-width value. -/
def loLimb (v : BitVec (w + w)) : BitVec w := v.setWidth w

/-- `(v >> <$t>::BITS) as $t`: the high limb of a double-width value. -/
def hiLimb (v : BitVec (w + w)) : BitVec w := (v >>> w).setWidth w

/-- `mac_u32/u64`: `a + b * c + carry` in the double-width type, src/math/bigint.rs L45-51.
Returns the low and the high limb. -/
def mac (a b c carry : BitVec w) : BitVec w × BitVec w :=
  let value := wide a + wide b * wide c + wide carry
  (loLimb value, hiLimb value)

/-- `carrying_mul_u32/u64`, src/math/bigint.rs L36-43. -/
def carryingMul (lhs rhs carry : BitVec w) : BitVec w × BitVec w :=
  let value := wide lhs * wide rhs + wide carry
  (loLimb value, hiLimb value)

end I256
