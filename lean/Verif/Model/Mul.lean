import Verif.Model.Add
import Verif.Model.Ord

/-!
# Model of `src/math/mul.rs`

The outer loop over the limbs of `x` works on the part `r[i..]` of the result array: `r[i]` is final
after the row of `x[i]`.  The index `i + j` of the inner loop walks along this part, together with
the index `j` of `y`; `i + j < M` is "the rest of the result array is not empty".

`assert!(M >= N)` (L86, L160) is not modelled: all callers pass arrays of the same length, or a
scalar of one or two limbs.
-/

namespace I256

variable {w : Nat}

/-- Carry loop of `negate!`, src/math/mul.rs L34-46. -/
def negateLoop : Limbs w → Bool → Limbs w
  | [x], c => [~~~x + boolLimb w c]
  | x :: xs, c =>
    let (v, c) := uAddO (~~~x) (boolLimb w c)
    v :: negateLoop xs c
  | [], _ => []

/-- `negate!`, src/math/mul.rs L27-50. -/
def negate (x : Limbs w) : Limbs w :=
  match x with
  | x :: xs =>
    let (v, c) := uAddO (~~~x) 1
    v :: negateLoop xs c
  | [] => []

namespace Mul

/-- One row of `wrapping_full`, src/math/mul.rs L95-115: adds `xi * y` to the result array from
position `i` on.  The first argument list is the rest of `y`, the second the rest of the result
array. -/
def row (xi : BitVec w) : Limbs w → Limbs w → BitVec w → Limbs w
  | y :: ys, r :: rs, carry =>
    let (v, carry) := mac r xi y carry
    v :: row xi ys rs carry
  | [], _ :: rs, carry => carry :: rs
  | _, [], _ => []

/-- The outer loop of `wrapping_full`, src/math/mul.rs L94-117. -/
def rows : Limbs w → Limbs w → Limbs w → Limbs w
  | [], _, rs => rs
  | xi :: xs, ys, rs =>
    match row xi ys rs 0 with
    | r :: rs => r :: rows xs ys rs
    | [] => []

/-- `wrapping_full`, src/math/mul.rs L80-120. The signed `wrapping_full` (L310-317) calls it. -/
def wrappingFull (x y : Limbs w) : Limbs w := rows x y (List.replicate x.length 0)

/-- Unsigned `wrapping_limb`, src/math/mul.rs L125-127, and signed `wrapping_ulimb`, L347-349. -/
def wrappingLimb (x : Limbs w) (y : BitVec w) : Limbs w := wrappingFull x [y]
/-- Unsigned `wrapping_wide`, src/math/mul.rs L132-137, and signed `wrapping_uwide`, L354-359. -/
def wrappingWide (x : Limbs w) (y : BitVec (w + w)) : Limbs w := wrappingFull x (twoLimbs y)
/-- Signed `wrapping_ilimb`, src/math/mul.rs L389-396. -/
def wrappingILimb (x : Limbs w) (y : BitVec w) : Limbs w := wrappingFull x (extI x.length y)
/-- Signed `wrapping_iwide`, src/math/mul.rs L401-410. -/
def wrappingIWide (x : Limbs w) (y : BitVec (w + w)) : Limbs w :=
  wrappingFull x (extIW x.length y)

/-- The part of the inner loop of `overflowing_full` beyond the end of the result array,
src/math/mul.rs L187-190: overflow if a product of two non-zero limbs is dropped. -/
def dropped (xi : BitVec w) : Limbs w → Bool
  | y :: ys => if xi ≠ 0 ∧ y ≠ 0 then true else dropped xi ys
  | [] => false

/-- One row of `overflowing_full`, src/math/mul.rs L171-202. -/
def rowO (xi : BitVec w) : Limbs w → Limbs w → BitVec w → Limbs w × Bool
  | y :: ys, r :: rs, carry =>
    let (v, carry) := mac r xi y carry
    let (rs, o) := rowO xi ys rs carry
    (v :: rs, o)
  | [], _ :: rs, carry => (carry :: rs, false)
  | ys, [], carry => ([], dropped xi ys || decide (carry ≠ 0))

/-- The outer loop of `overflowing_full`, src/math/mul.rs L170-204. -/
def rowsO : Limbs w → Limbs w → Limbs w → Limbs w × Bool
  | [], _, rs => (rs, false)
  | xi :: xs, ys, rs =>
    match rowO xi ys rs 0 with
    | (r :: rs, o) =>
      let (rs, o') := rowsO xs ys rs
      (r :: rs, o || o')
    | ([], o) => ([], o)

/-- Unsigned `overflowing_full`, src/math/mul.rs L154-207. -/
def overflowingFull (x y : Limbs w) : Limbs w × Bool := rowsO x y (List.replicate x.length 0)

/-- Unsigned `overflowing_limb`, src/math/mul.rs L212-214. -/
def overflowingLimb (x : Limbs w) (y : BitVec w) : Limbs w × Bool := overflowingFull x [y]
/-- Unsigned `overflowing_wide`, src/math/mul.rs L219-224. -/
def overflowingWide (x : Limbs w) (y : BitVec (w + w)) : Limbs w × Bool :=
  overflowingFull x (twoLimbs y)

/-- Signed `overflowing_full`, src/math/mul.rs L433-471. -/
def overflowingFullS (x y : Limbs w) : Limbs w × Bool :=
  let xNeg := (msLimb x).slt 0
  let yNeg := (msLimb y).slt 0
  let shouldBeNegative := xNeg ^^ yNeg
  let x := if xNeg then negate x else x
  let y := if yNeg then negate y else y
  let (r, overflowed) := overflowingFull x y
  let msl := msLimb r
  let rNeg := msl.slt 0
  if !shouldBeNegative then (r, overflowed || rNeg)
  else
    let isMin := msl == BitVec.intMin w
    (negate r, overflowed || (rNeg ^^ isMin))

/-- Signed `overflowing_ulimb`, src/math/mul.rs L498-502. -/
def overflowingULimbS (x : Limbs w) (y : BitVec w) : Limbs w × Bool :=
  overflowingFullS x (extU x.length y)
/-- Signed `overflowing_uwide`, src/math/mul.rs L507-512. -/
def overflowingUWideS (x : Limbs w) (y : BitVec (w + w)) : Limbs w × Bool :=
  overflowingFullS x (extUW x.length y)
/-- Signed `overflowing_ilimb`, src/math/mul.rs L539-544. -/
def overflowingILimbS (x : Limbs w) (y : BitVec w) : Limbs w × Bool :=
  overflowingFullS x (extI x.length y)
/-- Signed `overflowing_iwide`, src/math/mul.rs L549-556. -/
def overflowingIWideS (x : Limbs w) (y : BitVec (w + w)) : Limbs w × Bool :=
  overflowingFullS x (extIW x.length y)

/-- `widening`, src/math/mul.rs L624-659. The arrays `lo` and `hi` are one array of `2 * M` limbs
(the code picks `lo[ij]` or `hi[ij - M]` by comparing `ij` with `M`); the carry of a row is stored
at position `i + M`. -/
def widening (x y : Limbs w) : Limbs w × Limbs w :=
  let r := rows x y (List.replicate (x.length + x.length) 0)
  (r.take x.length, r.drop x.length)

end Mul

end I256
