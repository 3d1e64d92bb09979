import Verif.Model.Limb

/-!
# Model of `src/math/add.rs`

The `while` loops run over the limbs from the least significant one; here they are recursions on the
list.  The result array is built limb by limb.  The functions taking a carry argument are the
loop bodies, started with `false`.
-/

namespace I256

variable {w : Nat}

/-- `<$u>::MIN.wrapping_sub(y.is_negative() as $u)`: the fill limb of a sign extension
(src/math/add.rs L617, L661, L691, L703; the same line in sub.rs and mul.rs). -/
def signLimb (w : Nat) (neg : Bool) : BitVec w := 0 - boolLimb w neg

/-- `rhs = [0; N]; rhs[0] = y`: zero extension of a one-limb scalar (src/math/mul.rs L499-500). -/
def extU (N : Nat) (y : BitVec w) : Limbs w := y :: List.replicate (N - 1) 0

/-- `rhs = [0; N]; rhs[0] = y as $u; rhs[1] = (y >> BITS) as $u`: zero extension of a double-limb
scalar (src/math/add.rs L671-673). -/
def extUW (N : Nat) (y : BitVec (w + w)) : Limbs w :=
  loLimb y :: hiLimb y :: List.replicate (N - 2) 0

/-- `rhs = [sign_bit; N]; rhs[0] = y as $u`: sign extension of a one-limb scalar
(src/math/add.rs L617-619). -/
def extI (N : Nat) (y : BitVec w) : Limbs w :=
  y :: List.replicate (N - 1) (signLimb w y.msb)

/-- `rhs = [sign_bit; N]; rhs[0] = y as $u; rhs[1] = (y >> BITS) as $u` for a signed double-limb
scalar (src/math/add.rs L691-695). -/
def extIW (N : Nat) (y : BitVec (w + w)) : Limbs w :=
  loLimb y :: hiLimb y :: List.replicate (N - 2) (signLimb w y.msb)

/-- `rhs = [0; 2]; ...`: a double-limb scalar as a two-limb array (src/math/add.rs L274-276). -/
def twoLimbs (y : BitVec (w + w)) : Limbs w := [loLimb y, hiLimb y]

namespace Add

/-- Loop of `wrapping_full`, src/math/add.rs L50-65 (unsigned) and L386-405 (signed, the same
code): carrying additions, and a wrapping addition at the last limb. -/
def wrappingLoop : Limbs w → Limbs w → Bool → Limbs w
  | [x], [y], c => [x + y + boolLimb w c]
  | x :: xs, y :: ys, c =>
    let (v, c) := carryingAdd x y c
    v :: wrappingLoop xs ys c
  | _, _, _ => []

/-- `wrapping_full`, src/math/add.rs L50-65. -/
def wrappingFull (x y : Limbs w) : Limbs w := wrappingLoop x y false

/-- Loop of the unsigned `overflowing_full`, src/math/add.rs L97-112. -/
def overflowingLoop : Limbs w → Limbs w → Bool → Limbs w × Bool
  | x :: xs, y :: ys, c =>
    let (v, c) := carryingAdd x y c
    let (r, c) := overflowingLoop xs ys c
    (v :: r, c)
  | _, _, c => ([], c)

/-- Unsigned `overflowing_full`, src/math/add.rs L97-112. -/
def overflowingFull (x y : Limbs w) : Limbs w × Bool := overflowingLoop x y false

/-- The carry propagation loop with a wrapping last limb: src/math/add.rs L151-158
(`wrapping_limb`), L230-235 (`wrapping_mn`), and the signed copy L520-528. -/
def carryWrapping : Limbs w → Bool → Limbs w
  | [x], c => [x + boolLimb w c]
  | x :: xs, c =>
    let (v, c) := uAddO x (boolLimb w c)
    v :: carryWrapping xs c
  | [], _ => []

/-- The carry propagation loop with an overflow flag: src/math/add.rs L200-204, L261-265. -/
def carryOverflowing : Limbs w → Bool → Limbs w × Bool
  | x :: xs, c =>
    let (v, c) := uAddO x (boolLimb w c)
    let (r, c) := carryOverflowing xs c
    (v :: r, c)
  | [], c => ([], c)

/-- `wrapping_limb`, src/math/add.rs L142-161 (unsigned), L511-531 (signed `wrapping_ulimb`, the
same code). -/
def wrappingLimb (x : Limbs w) (y : BitVec w) : Limbs w :=
  match x with
  | x :: xs =>
    let (v, c) := uAddO x y
    v :: carryWrapping xs c
  | [] => []

/-- Unsigned `overflowing_limb`, src/math/add.rs L192-207. -/
def overflowingLimb (x : Limbs w) (y : BitVec w) : Limbs w × Bool :=
  match x with
  | x :: xs =>
    let (v, c) := uAddO x y
    let (r, c) := carryOverflowing xs c
    (v :: r, c)
  | [] => ([], false)

/-- Loops of `wrapping_mn` after the assertion, src/math/add.rs L219-237. -/
def wrappingMnLoop : Limbs w → Limbs w → Bool → Limbs w
  | x :: xs, y :: ys, c =>
    let (v, c) := carryingAdd x y c
    v :: wrappingMnLoop xs ys c
  | xs, [], c => carryWrapping xs c
  | [], _ :: _, _ => []

/-- `wrapping_mn`, src/math/add.rs L213-238, with `assert!(N >= 2 && M > N)`. -/
def wrappingMn (x y : Limbs w) : Res (Limbs w) :=
  if y.length ≥ 2 ∧ x.length > y.length then .ok (wrappingMnLoop x y false) else .panic

/-- Loops of `overflowing_mn` after the assertion, src/math/add.rs L250-267. -/
def overflowingMnLoop : Limbs w → Limbs w → Bool → Limbs w × Bool
  | x :: xs, y :: ys, c =>
    let (v, c) := carryingAdd x y c
    let (r, c) := overflowingMnLoop xs ys c
    (v :: r, c)
  | xs, [], c => carryOverflowing xs c
  | [], _ :: _, c => ([], c)

/-- `overflowing_mn`, src/math/add.rs L244-268. -/
def overflowingMn (x y : Limbs w) : Res (Limbs w × Bool) :=
  if y.length ≥ 2 ∧ x.length > y.length then .ok (overflowingMnLoop x y false) else .panic

/-- Unsigned `wrapping_wide`, src/math/add.rs L273-278. -/
def wrappingWide (x : Limbs w) (y : BitVec (w + w)) : Res (Limbs w) := wrappingMn x (twoLimbs y)

/-- Unsigned `overflowing_wide`, src/math/add.rs L283-288. -/
def overflowingWide (x : Limbs w) (y : BitVec (w + w)) : Res (Limbs w × Bool) :=
  overflowingMn x (twoLimbs y)

/-- Loop of the signed `overflowing_full`, src/math/add.rs L444-481: the last limb is added as a
signed number, twice, and the two flags are xor-ed. -/
def sOverflowingLoop : Limbs w → Limbs w → Bool → Limbs w × Bool
  | [x], [y], c =>
    let (v, c0) := sAddO x y
    let (v, c1) := sAddO v (boolLimb w c)
    ([v], c0 ^^ c1)
  | x :: xs, y :: ys, c =>
    let (v, c) := carryingAdd x y c
    let (r, c) := sOverflowingLoop xs ys c
    (v :: r, c)
  | _, _, _ => ([], false)

/-- Signed `overflowing_full`, src/math/add.rs L444-481. -/
def sOverflowingFull (x y : Limbs w) : Limbs w × Bool := sOverflowingLoop x y false

/-- The carry propagation loop with a signed last limb, src/math/add.rs L571-579. -/
def sCarryOverflowing : Limbs w → Bool → Limbs w × Bool
  | [x], c =>
    let (v, c) := sAddO x (boolLimb w c)
    ([v], c)
  | x :: xs, c =>
    let (v, c) := uAddO x (boolLimb w c)
    let (r, c) := sCarryOverflowing xs c
    (v :: r, c)
  | [], c => ([], c)

/-- Signed `overflowing_ulimb`, src/math/add.rs L562-582. -/
def sOverflowingULimb (x : Limbs w) (y : BitVec w) : Limbs w × Bool :=
  match x with
  | x :: xs =>
    let (v, c) := uAddO x y
    let (r, c) := sCarryOverflowing xs c
    (v :: r, c)
  | [] => ([], false)

/-- Signed `wrapping_ilimb`, src/math/add.rs L615-621. -/
def sWrappingILimb (x : Limbs w) (y : BitVec w) : Limbs w := wrappingFull x (extI x.length y)
/-- Signed `overflowing_ilimb`, src/math/add.rs L659-665. -/
def sOverflowingILimb (x : Limbs w) (y : BitVec w) : Limbs w × Bool :=
  sOverflowingFull x (extI x.length y)
/-- Signed `wrapping_uwide`, src/math/add.rs L670-675. -/
def sWrappingUWide (x : Limbs w) (y : BitVec (w + w)) : Limbs w :=
  wrappingFull x (extUW x.length y)
/-- Signed `overflowing_uwide`, src/math/add.rs L680-685. -/
def sOverflowingUWide (x : Limbs w) (y : BitVec (w + w)) : Limbs w × Bool :=
  sOverflowingFull x (extUW x.length y)
/-- Signed `wrapping_iwide`, src/math/add.rs L690-697. -/
def sWrappingIWide (x : Limbs w) (y : BitVec (w + w)) : Limbs w :=
  wrappingFull x (extIW x.length y)
/-- Signed `overflowing_iwide`, src/math/add.rs L702-709. -/
def sOverflowingIWide (x : Limbs w) (y : BitVec (w + w)) : Limbs w × Bool :=
  sOverflowingFull x (extIW x.length y)

end Add

end I256
