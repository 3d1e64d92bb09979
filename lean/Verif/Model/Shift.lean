import Verif.Model.Common

/-!
# Model of `src/math/shift.rs`, `src/math/rotate.rs` and the shift and rotation functions

The kernels are generic in the element type (`u32`, `u64`, `u128`), here `BitVec W`; the callers
instantiate `W` with the double-width type.  A shift amount is a natural number (Rust: `u32`).
-/

namespace I256

variable {w W : Nat}

/-- Native `x << n` on an element. An amount of `BITS` or more is rejected with overflow checks and
masked without; the kernels never use one, the masking form is modelled so that a wrong amount
gives a wrong value. -/
def shlN (x : BitVec W) (n : Nat) : BitVec W := x <<< (n % W)
/-- Native `x >> n` on an unsigned element, see `shlN`. -/
def shrN (x : BitVec W) (n : Nat) : BitVec W := x >>> (n % W)
/-- Native `((x as $s) >> n) as $u`, the arithmetic shift, see `shlN`. -/
def sshrN (x : BitVec W) (n : Nat) : BitVec W := x.sshiftRight (n % W)

/-- `from_ne_wide`, src/shared/endian.rs L370-376, in logical order: the inverse of `toWide`. -/
def fromWide : List (BitVec (w + w)) → Limbs w
  | [] => []
  | v :: vs => loLimb v :: hiLimb v :: fromWide vs

namespace Shift

/-- `shift >> BITS.trailing_zeros()`, src/math/shift.rs L92 and L216: `BITS` is a power of two, so
`trailing_zeros` is its logarithm. -/
def limbN (W shift : Nat) : Nat := shift >>> Nat.log2 W
/-- `shift & (BITS - 1)`, src/math/shift.rs L93 and L217. -/
def bitsN (W shift : Nat) : Nat := shift &&& (W - 1)

/-- The loop of `left` with a bit shift, src/math/shift.rs L121-128. The list holds
`x[0], …, x[N - 1 - limb_n]`, the result `result[limb_n], …, result[N - 1]`. -/
def leftLoop (b inv : Nat) : Limbs W → BitVec W → Limbs W
  | [], _ => []
  | xi :: xs, carry => (shlN xi b ||| carry) :: leftLoop b inv xs (shrN xi inv)

/-- `left`, src/math/shift.rs L87-140. The result starts as zeros. The `debug_assert` on the amount
holds at every call (the amount is reduced modulo the width first). -/
def left (x : Limbs W) (shift : Nat) : Limbs W :=
  let l := limbN W shift
  let b := bitsN W shift
  let inv := W - b
  match x with
  | [x0, x1] =>
    if l ≠ 0 then [0, shlN x0 b]
    else if shift = 0 then [x0, x1]
    else [shlN x0 b, shlN x1 b ||| shrN x0 inv]
  | x =>
    if b ≠ 0 then List.replicate l 0 ++ leftLoop b inv (x.take (x.length - l)) 0
    else List.replicate l 0 ++ x.take (x.length - l)

/-- The loop of `right` with a bit shift, src/math/shift.rs L261-275. The list holds
`x[N - 1], …, x[limb_n]`, the result `result[N - 1 - limb_n], …, result[0]`; `first` is
`index == N - 1`. -/
def rightLoop (signed : Bool) (b inv : Nat) : Bool → Limbs W → BitVec W → Limbs W
  | _, [], _ => []
  | first, xi :: xs, carry =>
    let ri := if signed && first then sshrN xi b else shrN xi b
    (ri ||| carry) :: rightLoop signed b inv false xs (shlN xi inv)

/-- `right`, src/math/shift.rs L212-287. The result starts as all ones or zeros (L221-225), which is
what remains in the top `limb_n` elements. -/
def right (signed : Bool) (x : Limbs W) (shift : Nat) : Limbs W :=
  let l := limbN W shift
  let b := bitsN W shift
  let inv := W - b
  let fill : BitVec W := if signed && (msLimb x).slt 0 then BitVec.allOnes W else 0
  match x with
  | [x0, x1] =>
    if l ≠ 0 then
      if signed then [sshrN x1 b, sshrN x1 (W - 1)] else [shrN x1 b, 0]
    else if b = 0 then [x0, x1]
    else [shrN x0 b ||| shlN x1 inv, if signed then sshrN x1 b else shrN x1 b]
  | x =>
    if b ≠ 0 then
      (rightLoop signed b inv true (x.drop l).reverse 0).reverse ++ List.replicate l fill
    else x.drop l ++ List.replicate l fill

end Shift

namespace Rot

/-- The loop of rotate `left` with a bit shift, src/math/rotate.rs L96-106: `xs` are the elements
from `index` on. Returns the array and the last carry. -/
def loop (b inv l N : Nat) : Limbs W → Nat → Limbs W → BitVec W → Limbs W × BitVec W
  | [], _, result, carry => (result, carry)
  | xi :: xs, index, result, carry =>
    loop b inv l N xs (index + 1) (result.set ((index + l) % N) (shlN xi b ||| carry)) (shrN xi inv)

/-- The loop of rotate `left` without a bit shift, src/math/rotate.rs L109-115. -/
def copyLoop (l N : Nat) : Limbs W → Nat → Limbs W → Limbs W
  | [], _, result => result
  | xi :: xs, index, result => copyLoop l N xs (index + 1) (result.set ((index + l) % N) xi)

/-- Rotate `left`, src/math/rotate.rs L60-119. -/
def left (x : Limbs W) (n : Nat) : Limbs W :=
  let N := x.length
  let n := n % (N * W)
  let l := Shift.limbN W n
  let b := Shift.bitsN W n
  let inv := W - b
  match x with
  | [y0, y1] =>
    let (x0, x1) := if l ≠ 0 then (y1, y0) else (y0, y1)
    if b = 0 then [x0, x1]
    else [shlN x0 b ||| shrN x1 (W - b), shlN x1 b ||| shrN x0 (W - b)]
  | x =>
    if b ≠ 0 then
      let (result, carry) := loop b inv l N x 0 (List.replicate N 0) 0
      result.set l (result.getD l 0 ||| carry)
    else copyLoop l N x 0 (List.replicate N 0)

/-- Rotate `right`, src/math/rotate.rs L135-141. -/
def right (x : Limbs W) (n : Nat) : Limbs W :=
  let n := n % (W * x.length)
  left x (W * x.length - n)

end Rot

/-- `wrapping_shl`, src/uint/bitops.rs L18-21 and src/int/bitops.rs L19-22 (`left` is the same
function for both signs). -/
def wrappingShl (x : Limbs w) (rhs : Nat) : Limbs w :=
  fromWide (Shift.left (toWide x) (rhs % bits x))

/-- `wrapping_shr`, src/uint/bitops.rs L26-29 and src/int/bitops.rs L27-30. -/
def wrappingShr (signed : Bool) (x : Limbs w) (rhs : Nat) : Limbs w :=
  fromWide (Shift.right signed (toWide x) (rhs % bits x))

/-- `rotate_left`, src/shared/bitops.rs L169-172. -/
def rotateLeft (x : Limbs w) (n : Nat) : Limbs w := fromWide (Rot.left (toWide x) n)
/-- `rotate_right`, src/shared/bitops.rs L182-185. -/
def rotateRight (x : Limbs w) (n : Nat) : Limbs w := fromWide (Rot.right (toWide x) n)

/-- `checked_shl`, src/shared/checked.rs L157-164. -/
def checkedShl (x : Limbs w) (rhs : Nat) : Option (Limbs w) :=
  if rhs < bits x then some (wrappingShl x rhs) else none
/-- `checked_shr`, src/shared/checked.rs L172-179. -/
def checkedShr (signed : Bool) (x : Limbs w) (rhs : Nat) : Option (Limbs w) :=
  if rhs < bits x then some (wrappingShr signed x rhs) else none

/-- `strict_shl`, src/shared/strict.rs L83-88. -/
def strictShl (x : Limbs w) (rhs : Nat) : Res (Limbs w) := unwrapOrPanic (checkedShl x rhs)
/-- `strict_shr`, src/shared/strict.rs L99-104. -/
def strictShr (signed : Bool) (x : Limbs w) (rhs : Nat) : Res (Limbs w) :=
  unwrapOrPanic (checkedShr signed x rhs)

/-- `overflowing_shl`, src/int/overflowing.rs L192-194 (signed types only). -/
def I.overflowingShl (x : Limbs w) (rhs : Nat) : Limbs w × Bool :=
  (wrappingShl x rhs, decide (bits x ≤ rhs))
/-- `overflowing_shr`, src/int/overflowing.rs L206-208 (signed types only). -/
def I.overflowingShr (x : Limbs w) (rhs : Nat) : Limbs w × Bool :=
  (wrappingShr true x rhs, decide (bits x ≤ rhs))

/-- `unbounded_shl`, src/shared/unbounded.rs L18-24. -/
def unboundedShl (x : Limbs w) (rhs : Nat) : Limbs w :=
  if rhs < bits x then wrappingShl x rhs else ofU8 x.length 0
/-- `unbounded_shr`, src/shared/unbounded.rs L35-41. -/
def unboundedShr (signed : Bool) (x : Limbs w) (rhs : Nat) : Limbs w :=
  if rhs < bits x then wrappingShr signed x rhs else ofU8 x.length 0

/-- A value of a primitive integer type of `n` bits: `as u32`. `ps` tells whether the type is
signed. -/
def primAsU32 {n : Nat} (ps : Bool) (a : BitVec n) : Nat :=
  (if ps then a.signExtend 32 else a.setWidth 32).toNat

/-- `other < Self::BITS as $t && other >= 0`, src/shared/shift.rs L13 and L27. -/
def primInRange {n : Nat} (ps : Bool) (B : Nat) (a : BitVec n) : Bool :=
  if ps then a.slt (BitVec.ofNat n B) && !a.slt 0 else a.ult (BitVec.ofNat n B)

/-- `Shl<$t>` for a primitive `$t`, src/shared/shift.rs L11-16. -/
def shlPrim {n : Nat} (oc ps : Bool) (x : Limbs w) (a : BitVec n) : Res (Limbs w) :=
  if oc && !primInRange ps (bits x) a then .panic else .ok (wrappingShl x (primAsU32 ps a))
/-- `Shr<$t>` for a primitive `$t`, src/shared/shift.rs L25-30. -/
def shrPrim {n : Nat} (oc ps signed : Bool) (x : Limbs w) (a : BitVec n) : Res (Limbs w) :=
  if oc && !primInRange ps (bits x) a then .panic else .ok (wrappingShr signed x (primAsU32 ps a))

/-- `as_u32`, src/shared/casts.rs L256-261 (and `least_significant_limb() as u32 & u32::MAX`,
src/shared/ops.rs L156, L167). -/
def asU32 (x : Limbs w) : Nat := ((getLimb x 0).setWidth 32).toNat

/-- `is_above || is_below`, src/shared/shift.rs L42-44 and L58-60; `os` tells whether the type of
the amount is signed. `from_u32` is src/shared/casts.rs L67-71. -/
def bigOutOfRange (os : Bool) (B : Nat) (y : Limbs w) : Bool :=
  Ord.ge os y (extU y.length (BitVec.ofNat w B)) || Ord.lt os y (extU y.length 0)

/-- `Shl` by the big integer type of the other signedness, src/shared/shift.rs L40-48. -/
def shlBig (oc os : Bool) (x y : Limbs w) : Res (Limbs w) :=
  if oc && bigOutOfRange os (bits x) y then .panic else .ok (wrappingShl x (asU32 y))
/-- `Shr` by the big integer type of the other signedness, src/shared/shift.rs L56-64. -/
def shrBig (oc os signed : Bool) (x y : Limbs w) : Res (Limbs w) :=
  if oc && bigOutOfRange os (bits x) y then .panic else .ok (wrappingShr signed x (asU32 y))

/-- `Shl<Self>`, src/shared/ops.rs L155-158. There is no range check. -/
def shlSelf (x y : Limbs w) : Limbs w := wrappingShl x (asU32 y)
/-- `Shr<Self>`, src/shared/ops.rs L166-169. There is no range check. -/
def shrSelf (signed : Bool) (x y : Limbs w) : Limbs w := wrappingShr signed x (asU32 y)

end I256
