import Verif.Repair.More
import Verif.Model.MathShift

/-!
# Proposed repairs of the public functions of `math` (not in the crate)

Like `Verif.Repair.Div`: the functions of the crate with the change named in each comment.  They concern
array lengths and shift amounts the crate itself does not use.
-/

namespace I256

variable {w : Nat}

namespace Repair

/-! ### Division with unequal lengths (B17) -/

/-- `full`, src/math/div.rs L45-64, on the changed `full` with two more changes (B17): the zero test comes
before the branch for one limb, and a numerator with fewer limbs than the divisor is extended by zeros, the
quotient being cut back to the limbs of the numerator. -/
def fullAny (x y : Limbs w) : Res (Limbs w × Limbs w) :=
  if Div.isZero y 0 then .panic
  else if x.length < y.length then
    (full (x ++ List.replicate (y.length - x.length) 0) y).map fun (q, r) => (q.take x.length, r)
  else full x y

/-- `wide`, src/math/div.rs L74-98, on the changed `wide` with a numerator of fewer than two limbs
extended (B17). -/
def wideAny (x : Limbs w) (divisor : BitVec (w + w)) : Res (Limbs w × BitVec (w + w)) :=
  if x.length < 2 then
    (wideDiv (x ++ List.replicate (2 - x.length) 0) divisor).map fun (q, r) => (q.take x.length, r)
  else wideDiv x divisor

/-- `from_u128`, src/math/div.rs L105-129 (32-bit limbs), on the changed `from_u128` with a numerator of
fewer than four limbs extended (B17). -/
def fromU128Any (x : Limbs w) (divisor : BitVec 128) : Res (Limbs w × BitVec 128) :=
  if x.length < 4 then
    (fromU128 (x ++ List.replicate (4 - x.length) 0) divisor).map fun (q, r) => (q.take x.length, r)
  else fromU128 x divisor

/-! ### Signed products and sums with shorter or unsigned operands (B18) -/

/-- Signed `wrapping_full`, src/math/mul.rs L310-317, with one change (B18): the product of
`overflowing_full`, which takes the absolute values, without its flag. -/
def wrappingFullS (x y : Limbs w) : Limbs w := (overflowingFullS x y).1

/-- Signed `overflowing_full`, src/math/mul.rs L433-471, with the change of B1 and the second factor
unsigned (B18): only the sign of the first factor counts. -/
def overflowingFullSU (x y : Limbs w) : Limbs w × Bool :=
  let xNeg := (msLimb x).slt 0
  let x := if xNeg then negate x else x
  let (r, overflowed) := Mul.overflowingFull x y
  let msl := msLimb r
  let rNeg := msl.slt 0
  if !xNeg then (r, overflowed || rNeg)
  else
    let isMin := r == I.minValue w r.length
    (negate r, overflowed || (rNeg ^^ isMin))

/-- Signed `overflowing_ulimb`, src/math/mul.rs L498-502, on the product with an unsigned factor (B18). -/
def overflowingMulULimb (x : Limbs w) (y : BitVec w) : Limbs w × Bool :=
  overflowingFullSU x (extU x.length y)
/-- Signed `overflowing_uwide`, src/math/mul.rs L507-512, on the product with an unsigned factor (B18). -/
def overflowingMulUWide (x : Limbs w) (y : BitVec (w + w)) : Limbs w × Bool :=
  overflowingFullSU x (extUW x.length y)
/-- Signed `overflowing_uwide`, src/math/add.rs L680-685, with one change (B18): the flag is that of
`overflowing_add_unsigned`, src/int/overflowing.rs L54-58. -/
def overflowingAddUWide (x : Limbs w) (y : BitVec (w + w)) : Limbs w × Bool :=
  I.overflowingAddUnsigned x (extUW x.length y)
/-- Signed `overflowing_uwide`, src/math/sub.rs L681-686, with one change (B18): the flag is that of
`overflowing_sub_unsigned`, src/int/overflowing.rs L68-72. -/
def overflowingSubUWide (x : Limbs w) (y : BitVec (w + w)) : Limbs w × Bool :=
  I.overflowingSubUnsigned x (extUW x.length y)

/-! ### Shifts of two elements (B19) -/

open Raw in
open Raw.Div (Cfg) in
/-- `left`, src/math/shift.rs L87-140, with one change (B19): the branch for two elements (L101) is only
taken if the amount is below the width; otherwise the loops write nothing into the zeros. -/
def leftIn (cf : Cfg) (be : Bool) (x : Limbs w) (shift : Nat) : Res (Limbs w) := do
  let N := x.length
  assert (decide (N ≥ 2))
  if cf.da then
    let bits ← mul32 cf N w
    assert (decide (shift < bits))
  let limbN := shift >>> Nat.log2 w
  let bitsN := shift &&& (w - 1)
  let invN ← usub w bitsN
  let result := List.replicate N 0
  if N = 2 ∧ limbN < 2 then
    let x0 ← rd be x 0
    let x1 ← rd be x 1
    if limbN ≠ 0 then
      let r1 ← shl x0 bitsN
      let result ← wr be result 0 0
      wr be result 1 r1
    else if shift = 0 then
      let result ← wr be result 0 x0
      wr be result 1 x1
    else
      let hi ← shl x1 bitsN
      let lo ← shl x0 bitsN
      let carry ← shr x0 invN
      let result ← wr be result 0 lo
      wr be result 1 (hi ||| carry)
  else if bitsN ≠ 0 then
    let (_, result, _) ← loop N (fun s => decide (s.1 < N)) (fun (index, result, carry) => do
      let k ← usub index limbN
      let xi ← rd be x k
      let v ← shl xi bitsN
      let result ← wr be result index (v ||| carry)
      let carry ← shr xi invN
      .ok (index + 1, result, carry)) (limbN, result, 0)
    .ok result
  else
    let (_, result, _) ← loop N (fun s => decide (s.1 < N)) (fun (index, result, u) => do
      let k ← usub index limbN
      let xi ← rd be x k
      let result ← wr be result index xi
      .ok (index + 1, result, u)) (limbN, result, ())
    .ok result

open Raw in
open Raw.Div (Cfg) in
/-- `right`, src/math/shift.rs L212-287, with the same change at L231 (B19). -/
def rightIn (cf : Cfg) (be signed : Bool) (x : Limbs w) (shift : Nat) : Res (Limbs w) := do
  let N := x.length
  assert (decide (N ≥ 2))
  if cf.da then
    let bits ← mul32 cf N w
    assert (decide (shift < bits))
  let limbN := shift >>> Nat.log2 w
  let bitsN := shift &&& (w - 1)
  let invN ← usub w bitsN
  let last ← usub N 1
  let top ← rd be x last
  let result := List.replicate N (if signed && top.slt 0 then BitVec.allOnes w else 0)
  if N = 2 ∧ limbN < 2 then
    let x0 ← rd be x 0
    let x1 ← rd be x 1
    if limbN ≠ 0 then
      if signed then
        let lo ← sar x1 bitsN
        let n ← usub w 1
        let hi ← sar x1 n
        let result ← wr be result 0 lo
        wr be result 1 hi
      else
        let lo ← shr x1 bitsN
        let result ← wr be result 0 lo
        wr be result 1 0
    else if bitsN = 0 then
      let result ← wr be result 0 x0
      wr be result 1 x1
    else
      let hi ← if signed then sar x1 bitsN else shr x1 bitsN
      let lo ← shr x0 bitsN
      let carry ← shl x1 invN
      let result ← wr be result 0 (lo ||| carry)
      wr be result 1 hi
  else if bitsN ≠ 0 then
    let (_, result, _) ← loop N (fun s => decide (s.1 > limbN)) (fun (index, result, carry) => do
      let index ← usub index 1
      let xi ← rd be x index
      let last ← usub N 1
      let ri ← if signed && index == last then sar xi bitsN else shr xi bitsN
      let k ← usub index limbN
      let result ← wr be result k (ri ||| carry)
      let carry ← shl xi invN
      .ok (index, result, carry)) (N, result, 0)
    .ok result
  else
    let (_, result, _) ← loop N (fun s => decide (s.1 > limbN)) (fun (index, result, u) => do
      let index ← usub index 1
      let xi ← rd be x index
      let k ← usub index limbN
      let result ← wr be result k xi
      .ok (index, result, u)) (N, result, ())
    .ok result

end Repair

end I256
