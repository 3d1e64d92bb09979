import Verif.Model.Add

/-!
# Model of `src/math/sub.rs`

Same structure as `src/math/add.rs` with borrows.
-/

namespace I256

variable {w : Nat}

namespace Sub

/-- Loop of `wrapping_full`, src/math/sub.rs L50-67 (unsigned) and L387-406 (signed, the same
code): borrowing subtractions, and a wrapping subtraction at the last limb. -/
def wrappingLoop : Limbs w → Limbs w → Bool → Limbs w
  | [x], [y], c => [x - y - boolLimb w c]
  | x :: xs, y :: ys, c =>
    let (v, c) := borrowingSub x y c
    v :: wrappingLoop xs ys c
  | _, _, _ => []

/-- `wrapping_full`, src/math/sub.rs L50-67. -/
def wrappingFull (x y : Limbs w) : Limbs w := wrappingLoop x y false

/-- Loop of the unsigned `overflowing_full`, src/math/sub.rs L99-116. -/
def overflowingLoop : Limbs w → Limbs w → Bool → Limbs w × Bool
  | x :: xs, y :: ys, c =>
    let (v, c) := borrowingSub x y c
    let (r, c) := overflowingLoop xs ys c
    (v :: r, c)
  | _, _, c => ([], c)

/-- Unsigned `overflowing_full`, src/math/sub.rs L99-116. -/
def overflowingFull (x y : Limbs w) : Limbs w × Bool := overflowingLoop x y false

/-- The borrow propagation loop with a wrapping last limb: src/math/sub.rs L155-162
(`wrapping_limb`), L235-240 (`wrapping_mn`), and the signed copy L519-527. -/
def carryWrapping : Limbs w → Bool → Limbs w
  | [x], c => [x - boolLimb w c]
  | x :: xs, c =>
    let (v, c) := uSubO x (boolLimb w c)
    v :: carryWrapping xs c
  | [], _ => []

/-- The borrow propagation loop with an overflow flag: src/math/sub.rs L205-209, L266-270. -/
def carryOverflowing : Limbs w → Bool → Limbs w × Bool
  | x :: xs, c =>
    let (v, c) := uSubO x (boolLimb w c)
    let (r, c) := carryOverflowing xs c
    (v :: r, c)
  | [], c => ([], c)

/-- `wrapping_limb`, src/math/sub.rs L147-165 (unsigned), L510-530 (signed `wrapping_ulimb`, the
same code). -/
def wrappingLimb (x : Limbs w) (y : BitVec w) : Limbs w :=
  match x with
  | x :: xs =>
    let (v, c) := uSubO x y
    v :: carryWrapping xs c
  | [] => []

/-- Unsigned `overflowing_limb`, src/math/sub.rs L197-212. -/
def overflowingLimb (x : Limbs w) (y : BitVec w) : Limbs w × Bool :=
  match x with
  | x :: xs =>
    let (v, c) := uSubO x y
    let (r, c) := carryOverflowing xs c
    (v :: r, c)
  | [] => ([], false)

/-- Loops of `wrapping_mn` after the assertion, src/math/sub.rs L224-240. -/
def wrappingMnLoop : Limbs w → Limbs w → Bool → Limbs w
  | x :: xs, y :: ys, c =>
    let (v, c) := borrowingSub x y c
    v :: wrappingMnLoop xs ys c
  | xs, [], c => carryWrapping xs c
  | [], _ :: _, _ => []

/-- `wrapping_mn`, src/math/sub.rs L218-243, with `assert!(N >= 2 && M > N)`. -/
def wrappingMn (x y : Limbs w) : Res (Limbs w) :=
  if y.length ≥ 2 ∧ x.length > y.length then .ok (wrappingMnLoop x y false) else .panic

/-- Loops of `overflowing_mn` after the assertion, src/math/sub.rs L255-272. -/
def overflowingMnLoop : Limbs w → Limbs w → Bool → Limbs w × Bool
  | x :: xs, y :: ys, c =>
    let (v, c) := borrowingSub x y c
    let (r, c) := overflowingMnLoop xs ys c
    (v :: r, c)
  | xs, [], c => carryOverflowing xs c
  | [], _ :: _, c => ([], c)

/-- `overflowing_mn`, src/math/sub.rs L249-273. -/
def overflowingMn (x y : Limbs w) : Res (Limbs w × Bool) :=
  if y.length ≥ 2 ∧ x.length > y.length then .ok (overflowingMnLoop x y false) else .panic

/-- Unsigned `wrapping_wide`, src/math/sub.rs L278-283. -/
def wrappingWide (x : Limbs w) (y : BitVec (w + w)) : Res (Limbs w) := wrappingMn x (twoLimbs y)

/-- Unsigned `overflowing_wide`, src/math/sub.rs L288-293. -/
def overflowingWide (x : Limbs w) (y : BitVec (w + w)) : Res (Limbs w × Bool) :=
  overflowingMn x (twoLimbs y)

/-- Loop of the signed `overflowing_full`, src/math/sub.rs L442-479: the last limb is subtracted as a
signed number, twice, and the two flags are xor-ed. -/
def sOverflowingLoop : Limbs w → Limbs w → Bool → Limbs w × Bool
  | [x], [y], c =>
    let (v, c0) := sSubO x y
    let (v, c1) := sSubO v (boolLimb w c)
    ([v], c0 ^^ c1)
  | x :: xs, y :: ys, c =>
    let (v, c) := borrowingSub x y c
    let (r, c) := sOverflowingLoop xs ys c
    (v :: r, c)
  | _, _, _ => ([], false)

/-- Signed `overflowing_full`, src/math/sub.rs L442-479. -/
def sOverflowingFull (x y : Limbs w) : Limbs w × Bool := sOverflowingLoop x y false

/-- The borrow propagation loop with a signed last limb, src/math/sub.rs L571-581. -/
def sCarryOverflowing : Limbs w → Bool → Limbs w × Bool
  | [x], c =>
    let (v, c) := sSubO x (boolLimb w c)
    ([v], c)
  | x :: xs, c =>
    let (v, c) := uSubO x (boolLimb w c)
    let (r, c) := sCarryOverflowing xs c
    (v :: r, c)
  | [], c => ([], c)

/-- Signed `overflowing_ulimb`, src/math/sub.rs L562-582. -/
def sOverflowingULimb (x : Limbs w) (y : BitVec w) : Limbs w × Bool :=
  match x with
  | x :: xs =>
    let (v, c) := uSubO x y
    let (r, c) := sCarryOverflowing xs c
    (v :: r, c)
  | [] => ([], false)

/-- Signed `wrapping_ilimb`, src/math/sub.rs L616-622. -/
def sWrappingILimb (x : Limbs w) (y : BitVec w) : Limbs w := wrappingFull x (extI x.length y)
/-- Signed `overflowing_ilimb`, src/math/sub.rs L660-666. -/
def sOverflowingILimb (x : Limbs w) (y : BitVec w) : Limbs w × Bool :=
  sOverflowingFull x (extI x.length y)
/-- Signed `wrapping_uwide`, src/math/sub.rs L671-676. -/
def sWrappingUWide (x : Limbs w) (y : BitVec (w + w)) : Limbs w :=
  wrappingFull x (extUW x.length y)
/-- Signed `overflowing_uwide`, src/math/sub.rs L681-686. -/
def sOverflowingUWide (x : Limbs w) (y : BitVec (w + w)) : Limbs w × Bool :=
  sOverflowingFull x (extUW x.length y)
/-- Signed `wrapping_iwide`, src/math/sub.rs L691-698. -/
def sWrappingIWide (x : Limbs w) (y : BitVec (w + w)) : Limbs w :=
  wrappingFull x (extIW x.length y)
/-- Signed `overflowing_iwide`, src/math/sub.rs L703-710. -/
def sOverflowingIWide (x : Limbs w) (y : BitVec (w + w)) : Limbs w × Bool :=
  sOverflowingFull x (extIW x.length y)

end Sub

end I256
