import Verif.Model.RawShift
import Verif.Model.RawDiv

/-!
# Literal model of the public functions of `src/math/shift.rs` and `src/math/rotate.rs`, every build

`Model/RawShift.lean` has these functions as the crate calls them: with an amount below the width and a
width that fits in 32 bits.  Here they are for every number of elements, every amount and every build:
the test of the amount is a `debug_assert`, and `N as u32 * BITS` is a product of 32-bit numbers.  The
element type has `W` bits (`u32`, `u64` and `u128`).
-/

namespace I256

variable {W : Nat}

namespace Raw

open I256.Raw.Div (Cfg)

/-- `N as u32 * BITS` on 32-bit numbers, src/math/shift.rs L91, L215, src/math/rotate.rs L73, L139-140. -/
def mul32 (cf : Cfg) (a b : Nat) : Res Nat :=
  let p := a % 2 ^ 32 * b
  if p < 2 ^ 32 then .ok p else if cf.oc then .panic else .ok (p % 2 ^ 32)

namespace Shift

/-- `left`, src/math/shift.rs L87-140; the loops have the state `(index, result, carry)` and
`(index, result)`. -/
def leftIn (cf : Cfg) (be : Bool) (x : Limbs W) (shift : Nat) : Res (Limbs W) := do
  let N := x.length
  assert (decide (N ≥ 2))
  if cf.da then
    let bits ← mul32 cf N W
    assert (decide (shift < bits))
  let limbN := shift >>> Nat.log2 W
  let bitsN := shift &&& (W - 1)
  let invN ← usub W bitsN
  let result := List.replicate N 0
  if N = 2 then
    let x0 ← rd be x 0
    let x1 ← rd be x 1
    if limbN ≠ 0 then
      let r1 ← shl x0 bitsN
      let result ← wr be result 0 0
      wr be result 1 r1
    else if shift = 0 then
      let result ← wr be result 0 x0
      wr be result 1 x1
    else
      let hi ← shl x1 bitsN
      let lo ← shl x0 bitsN
      let carry ← shr x0 invN
      let result ← wr be result 0 lo
      wr be result 1 (hi ||| carry)
  else if bitsN ≠ 0 then
    let (_, result, _) ← loop N (fun s => decide (s.1 < N)) (fun (index, result, carry) => do
      let k ← usub index limbN
      let xi ← rd be x k
      let v ← shl xi bitsN
      let result ← wr be result index (v ||| carry)
      let carry ← shr xi invN
      .ok (index + 1, result, carry)) (limbN, result, 0)
    .ok result
  else
    let (_, result, _) ← loop N (fun s => decide (s.1 < N)) (fun (index, result, u) => do
      let k ← usub index limbN
      let xi ← rd be x k
      let result ← wr be result index xi
      .ok (index + 1, result, u)) (limbN, result, ())
    .ok result

/-- `right`, src/math/shift.rs L212-287. -/
def rightIn (cf : Cfg) (be signed : Bool) (x : Limbs W) (shift : Nat) : Res (Limbs W) := do
  let N := x.length
  assert (decide (N ≥ 2))
  if cf.da then
    let bits ← mul32 cf N W
    assert (decide (shift < bits))
  let limbN := shift >>> Nat.log2 W
  let bitsN := shift &&& (W - 1)
  let invN ← usub W bitsN
  let last ← usub N 1
  let top ← rd be x last
  let result := List.replicate N (if signed && top.slt 0 then BitVec.allOnes W else 0)
  if N = 2 then
    let x0 ← rd be x 0
    let x1 ← rd be x 1
    if limbN ≠ 0 then
      if signed then
        let lo ← sar x1 bitsN
        let n ← usub W 1
        let hi ← sar x1 n
        let result ← wr be result 0 lo
        wr be result 1 hi
      else
        let lo ← shr x1 bitsN
        let result ← wr be result 0 lo
        wr be result 1 0
    else if bitsN = 0 then
      let result ← wr be result 0 x0
      wr be result 1 x1
    else
      let hi ← if signed then sar x1 bitsN else shr x1 bitsN
      let lo ← shr x0 bitsN
      let carry ← shl x1 invN
      let result ← wr be result 0 (lo ||| carry)
      wr be result 1 hi
  else if bitsN ≠ 0 then
    let (_, result, _) ← loop N (fun s => decide (s.1 > limbN)) (fun (index, result, carry) => do
      let index ← usub index 1
      let xi ← rd be x index
      let last ← usub N 1
      let ri ← if signed && index == last then sar xi bitsN else shr xi bitsN
      let k ← usub index limbN
      let result ← wr be result k (ri ||| carry)
      let carry ← shl xi invN
      .ok (index, result, carry)) (N, result, 0)
    .ok result
  else
    let (_, result, _) ← loop N (fun s => decide (s.1 > limbN)) (fun (index, result, u) => do
      let index ← usub index 1
      let xi ← rd be x index
      let k ← usub index limbN
      let result ← wr be result k xi
      .ok (index, result, u)) (N, result, ())
    .ok result

end Shift

namespace Rot

/-- Rotate `left`, src/math/rotate.rs L60-119. `%` by zero panics. -/
def leftIn (cf : Cfg) (be : Bool) (x : Limbs W) (n : Nat) : Res (Limbs W) := do
  let N := x.length
  assert (decide (N ≥ 2))
  let bits ← mul32 cf N W
  assert (decide (bits ≠ 0))
  let n := n % bits
  let limbN := n >>> Nat.log2 W
  let bitsN := n &&& (W - 1)
  let invN ← usub W bitsN
  let result := List.replicate N 0
  if N = 2 then
    let y0 ← rd be x 0
    let y1 ← rd be x 1
    let (x0, x1) := if limbN ≠ 0 then (y1, y0) else (y0, y1)
    if bitsN = 0 then
      let result ← wr be result 0 x0
      wr be result 1 x1
    else
      let hi1 ← shl x1 bitsN
      let hi0 ← shr x0 invN
      let lo1 ← shl x0 bitsN
      let lo0 ← shr x1 invN
      let result ← wr be result 0 (lo1 ||| lo0)
      wr be result 1 (hi1 ||| hi0)
  else if bitsN ≠ 0 then
    let (_, result, carry) ← loop N (fun s => decide (s.1 < N)) (fun (index, result, carry) => do
      let rotN := (index + limbN) % N
      let xi ← rd be x index
      let v ← shl xi bitsN
      let ri := v ||| carry
      let carry ← shr xi invN
      let result ← wr be result rotN ri
      .ok (index + 1, result, carry)) (0, result, 0)
    let r ← rd be result limbN
    wr be result limbN (r ||| carry)
  else
    let (_, result) ← loop N (fun s => decide (s.1 < N)) (fun (index, result) => do
      let rotN := (index + limbN) % N
      let xi ← rd be x index
      let result ← wr be result rotN xi
      .ok (index + 1, result)) (0, result)
    .ok result

/-- Rotate `right`, src/math/rotate.rs L135-141. -/
def rightIn (cf : Cfg) (be : Bool) (x : Limbs W) (n : Nat) : Res (Limbs W) := do
  let N := x.length
  assert (decide (N ≥ 2))
  let bits ← mul32 cf N W
  assert (decide (bits ≠ 0))
  let n := n % bits
  let k ← usub bits n
  leftIn cf be x k

end Rot

end Raw

end I256
