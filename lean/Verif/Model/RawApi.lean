import Verif.Model.RawShift
import Verif.Model.Bitops
import Verif.Model.Endian

/-!
# Literal model of the loops in `src/shared`, `src/int/ops.rs` and `src/uint/extensions.rs`

See `Raw.lean` for the vocabulary.  `self.limbs` is the array in memory order.  The `u32` counters of
the bit counts stay below 2048, so their sums and products are not checked.
-/

namespace I256

variable {w : Nat}

namespace Raw

/-- `to_ne_wide`, src/shared/endian.rs L327-333: a `transmute` by way of the bytes. -/
def toNeWide (be : Bool) (limbs : Limbs w) : Limbs (w + w) :=
  Endian.ofMemBytes be (w + w) (limbs.length / 2) (Endian.memBytes be limbs)

/-- `from_ne_limbs`, src/shared/endian.rs L286-291. -/
def fromNeLimbs (limbs : Limbs w) : Res (Limbs w) := do
  assert (decide (w * limbs.length % 128 = 0))
  .ok limbs

/-- `from_ne_wide` of the type with `N` limbs, src/shared/endian.rs L370-376 with `from_ne_bytes`,
L193-199. -/
def fromNeWide (be : Bool) (N : Nat) (v : Limbs (w + w)) : Res (Limbs w) :=
  fromNeLimbs (Endian.ofMemBytes be w N (Endian.memBytes be v))

/-- `rhs % Self::BITS`, checked. -/
def remBits (rhs BITS : Nat) : Res Nat := if BITS = 0 then .panic else .ok (rhs % BITS)

/-- `wrapping_shl`, src/uint/bitops.rs L18-21 and src/int/bitops.rs L19-22. -/
def wrappingShl (be : Bool) (x : Limbs w) (rhs : Nat) : Res (Limbs w) := do
  let n ← remBits rhs (bits x)
  let result ← Shift.left be (toNeWide be x) n
  fromNeWide be x.length result

/-- `wrapping_shr`, src/uint/bitops.rs L26-29 and src/int/bitops.rs L27-30. -/
def wrappingShr (be signed : Bool) (x : Limbs w) (rhs : Nat) : Res (Limbs w) := do
  let n ← remBits rhs (bits x)
  let result ← Shift.right be signed (toNeWide be x) n
  fromNeWide be x.length result

/-- `rotate_left`, src/shared/bitops.rs L169-172. -/
def rotateLeft (be : Bool) (x : Limbs w) (n : Nat) : Res (Limbs w) := do
  let result ← Rot.left be (toNeWide be x) n
  fromNeWide be x.length result

/-- `rotate_right`, src/shared/bitops.rs L182-185. -/
def rotateRight (be : Bool) (x : Limbs w) (n : Nat) : Res (Limbs w) := do
  let result ← Rot.right be (toNeWide be x) n
  fromNeWide be x.length result

namespace Ord

/-- The `@ord` rule, src/shared/ord.rs L16-39; `signed` selects the type of the top value, `op2` is the
operator for the last value. The state is `(i, is_ord, is_eq)`. -/
def ordConst (be signed : Bool) (op2 : BitVec (w + w) → BitVec (w + w) → Bool) (x y : Limbs w) :
    Res Bool := do
  let WIDE := x.length / 2
  let lhs := toNeWide be x
  let rhs := toNeWide be y
  let i ← usub WIDE 1
  let lhs0 ← rd be lhs i
  let rhs0 ← rd be rhs i
  let isOrd := if signed then lhs0.slt rhs0 else lhs0.ult rhs0
  let (_, isOrd, _) ← loop WIDE (fun s => decide (s.1 > 0) && !s.2.1 && s.2.2)
    (fun (i, _, _) => do
      let i ← usub i 1
      let a ← rd be lhs i
      let b ← rd be rhs i
      .ok (i, if i = 0 then op2 a b else a.ult b, a == b)) (i, isOrd, lhs0 == rhs0)
  .ok isOrd

/-- `lt_const`, src/shared/ord.rs L91-101. -/
def lt (be signed : Bool) (x y : Limbs w) : Res Bool :=
  ordConst be signed (fun a b => a.ult b) x y
/-- `le_const`, src/shared/ord.rs L106-116. -/
def le (be signed : Bool) (x y : Limbs w) : Res Bool :=
  ordConst be signed (fun a b => a.ule b) x y

/-- `eq_branchless`, src/shared/ord.rs L47-58: the arrays are indexed in memory order. -/
def eqBranchless (be : Bool) (x y : Limbs w) : Res Bool := do
  let WIDE := x.length / 2
  let lhs := toNeWide be x
  let rhs := toNeWide be y
  let (_, isEq) ← loop WIDE (fun s => decide (s.1 < WIDE)) (fun (i, isEq) => do
    let a ← at_ lhs i
    let b ← at_ rhs i
    .ok (i + 1, isEq && a == b)) (0, true)
  .ok isEq

/-- `eq_branched`, src/shared/ord.rs L62-72. -/
def eqBranched (be : Bool) (x y : Limbs w) : Res Bool := do
  let WIDE := x.length / 2
  let lhs := toNeWide be x
  let rhs := toNeWide be y
  let (_, isEq) ← loop WIDE (fun s => decide (s.1 < WIDE) && s.2) (fun (i, isEq) => do
    let a ← at_ lhs i
    let b ← at_ rhs i
    .ok (i + 1, isEq && a == b)) (0, true)
  .ok isEq

/-- `cmp_const`, src/shared/ord.rs L132-159. The state is `(i, is_eq, is_lt, is_gt)`. -/
def cmp (be signed : Bool) (x y : Limbs w) : Res Ordering := do
  let WIDE := x.length / 2
  let lhs := toNeWide be x
  let rhs := toNeWide be y
  let i ← usub WIDE 1
  let lhs0 ← rd be lhs i
  let rhs0 ← rd be rhs i
  let isLt := if signed then lhs0.slt rhs0 else lhs0.ult rhs0
  let isGt := if signed then rhs0.slt lhs0 else rhs0.ult lhs0
  let (_, _, isLt, isGt) ← loop WIDE
    (fun s => decide (s.1 > 0) && !s.2.2.1 && !s.2.2.2 && s.2.1)
    (fun (i, _, _, _) => do
      let i ← usub i 1
      let a ← rd be lhs i
      let b ← rd be rhs i
      .ok (i, a == b, a.ult b, b.ult a)) (i, lhs0 == rhs0, isLt, isGt)
  .ok (if isLt then .lt else if isGt then .gt else .eq)

end Ord

namespace Bits

/-- The loops of `bitand_const`, `bitor_const` and `bitxor_const`, src/shared/bitops.rs L109-119,
L123-133 and L137-147, with the operator `op`; the arrays are indexed in memory order. -/
def zip (op : BitVec w → BitVec w → BitVec w) (lhs rhs : Limbs w) : Res (Limbs w) := do
  let N := lhs.length
  let (_, result) ← loop N (fun s => decide (s.1 < N)) (fun (i, result) => do
    let a ← at_ lhs i
    let b ← at_ rhs i
    let result ← set_ result i (op a b)
    .ok (i + 1, result)) (0, List.replicate N 0)
  fromNeLimbs result

/-- `not_const`, src/shared/bitops.rs L151-160. -/
def not (x : Limbs w) : Res (Limbs w) := do
  let N := x.length
  let (_, result) ← loop N (fun s => decide (s.1 < N)) (fun (i, result) => do
    let a ← at_ x i
    let result ← set_ result i (~~~ a)
    .ok (i + 1, result)) (0, List.replicate N 0)
  fromNeLimbs result

/-- `count_ones`, src/shared/bitops.rs L17-26. -/
def countOnes (x : Limbs w) : Res Nat := do
  let N := x.length
  let (_, count) ← loop N (fun s => decide (s.1 < N)) (fun (i, count) => do
    let a ← at_ x i
    .ok (i + 1, count + popcount a)) (0, 0)
  .ok count

/-- `leading_zeros`, src/shared/bitops.rs L62-70. -/
def leadingZeros (be : Bool) (x : Limbs w) : Res Nat := do
  let N := x.length
  let (_, count) ← loop N (fun s => decide (s.1 < N) && decide (s.2 = s.1 * w))
    (fun (i, count) => do
      let k ← usub N i
      let k ← usub k 1
      let a ← rd be x k
      .ok (i + 1, count + clz a)) (0, 0)
  .ok count

/-- `trailing_zeros`, src/shared/bitops.rs L77-85. -/
def trailingZeros (be : Bool) (x : Limbs w) : Res Nat := do
  let N := x.length
  let (_, count) ← loop N (fun s => decide (s.1 < N) && decide (s.2 = s.1 * w))
    (fun (i, count) => do
      let a ← rd be x i
      .ok (i + 1, count + ctz a)) (0, 0)
  .ok count

/-- The loops of `swap_bytes` and `reverse_bits`, src/shared/endian.rs L25-35 and L44-54, with the
native operation `f`. -/
def flip (f : BitVec w → BitVec w) (x : Limbs w) : Res (Limbs w) := do
  let N := x.length
  let (_, r) ← loop N (fun s => decide (s.1 < N)) (fun (i, r) => do
    let k ← usub N 1
    let k ← usub k i
    let a ← at_ x k
    let r ← set_ r i (f a)
    .ok (i + 1, r)) (0, List.replicate N 0)
  .ok r

/-- `swap_array!`, src/util.rs L33-44. -/
def swapArray (value : Limbs w) : Res (Limbs w) := do
  let N := value.length
  let (_, res) ← loop N (fun s => decide (s.1 < N)) (fun (i, res) => do
    let k ← usub N i
    let k ← usub k 1
    let a ← at_ value k
    let res ← set_ res i a
    .ok (i + 1, res)) (0, value)
  .ok res

/-- `is_positive`, src/int/ops.rs L26-43. The state of the loop is `i` and the value of an early
`return`. -/
def isPositive (be : Bool) (x : Limbs w) : Res Bool := do
  let last ← usub x.length 1
  let high ← rd be x last
  if high.slt 0 then .ok false
  else if (0 : BitVec w).slt high then .ok true
  else
    let i ← usub x.length 1
    let (_, ret) ← loop x.length (fun s => decide (s.1 > 0) && s.2.isNone) (fun (i, ret) => do
      let i ← usub i 1
      let a ← rd be x i
      .ok (i, if (0 : BitVec w).ult a then some true else ret)) (i, none)
    .ok (ret.getD false)

/-- `is_negative`, src/int/ops.rs L50-54. -/
def isNegative (be : Bool) (x : Limbs w) : Res Bool := do
  let last ← usub x.length 1
  let high ← rd be x last
  .ok (high.slt 0)

/-- `low`, src/uint/extensions.rs L11-21. -/
def low (be : Bool) (x : Limbs w) : Res (Limbs w) := do
  let half := x.length / 2
  let (_, r) ← loop half (fun s => decide (s.1 < half)) (fun (i, r) => do
    let a ← rd be x i
    let r ← wr be r i a
    .ok (i + 1, r)) (0, List.replicate x.length 0)
  fromNeLimbs r

/-- `high`, src/uint/extensions.rs L26-36. -/
def high (be : Bool) (x : Limbs w) : Res (Limbs w) := do
  let half := x.length / 2
  let (_, r) ← loop half (fun s => decide (s.1 < half)) (fun (i, r) => do
    let a ← rd be x (i + half)
    let r ← wr be r i a
    .ok (i + 1, r)) (0, List.replicate x.length 0)
  fromNeLimbs r

end Bits

end Raw

end I256
