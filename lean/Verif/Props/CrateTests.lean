import Verif.Model.RawText
import Verif.Model.RawForms
import Verif.Model.RawShiftForms
import Verif.Model.RawScalarForms
import Verif.Model.RawFixed
import Verif.Model.RawDivForms
import Verif.Model.MathShift
import Verif.Model.Endian
import Verif.SpecText

/-!
# The crate's own unit tests, run on the model

These are not proofs of properties.  Each `example` is an assertion of a unit test of the crate with the
function replaced by its model, so that the model can be compared with the values the authors of the crate
expect.  The literal model is used, in both byte orders (as the tests do with `from_le_over` and its
relatives), except for the conversions from and to text, where the model on lists of limbs is used (C70
shows that the two agree).  Those tests run with 64-bit limbs, the others with 64-bit
and 32-bit limbs unless the test is limited to one of them.
-/

namespace I256

namespace CrateTests

open I256.Raw.Div (Cfg)
open Endian (mem)

/-- A build with overflow checks, debug assertions and no inline assembly. -/
def dev : Cfg := ⟨true, true, false⟩

/-- The number `v` modulo `2^(w * N)` as limbs. -/
def num (w N : Nat) (v : Int) : Limbs w := (List.range N).map fun i => BitVec.ofInt w (v / 2 ^ (w * i))

/-- The run ends with the number `v`, in memory order. -/
def gives {w : Nat} (be : Bool) (N : Nat) (v : Int) (r : Res (Limbs w)) : Bool :=
  decide (r = .ok (mem be (num w N v)))

/-- The run rejects the text. -/
def rejects {w : Nat} (r : Res (Parsed (Limbs w))) : Bool :=
  match r with
  | .ok (.err _) => true
  | _ => false

/-! ### `overflowing_add_u32_test`, src/math/add.rs L786-802 -/

example : ∀ be : Bool, Raw.Add.overflowingFull be (mem be ([1, 0] : Limbs 32)) (mem be ([1, 0] : Limbs 32)) =
    .ok (mem be ([2, 0] : Limbs 32), false) := by decide +kernel
example : ∀ be : Bool, Raw.Add.overflowingFull be (mem be ([4294967295, 0] : Limbs 32)) (mem be ([4294967295, 0] : Limbs 32)) =
    .ok (mem be ([4294967294, 1] : Limbs 32), false) := by decide +kernel
example : ∀ be : Bool, Raw.Add.overflowingFull be (mem be ([4294967295, 1] : Limbs 32)) (mem be ([4294967295, 0] : Limbs 32)) =
    .ok (mem be ([4294967294, 2] : Limbs 32), false) := by decide +kernel
example : ∀ be : Bool, Raw.Add.overflowingFull be (mem be ([4294967295, 4294967295] : Limbs 32)) (mem be ([1, 0] : Limbs 32)) =
    .ok (mem be ([0, 0] : Limbs 32), true) := by decide +kernel
example : ∀ be : Bool, Raw.Add.overflowingFull be (mem be ([4294967295, 4294967295] : Limbs 32)) (mem be ([2, 0] : Limbs 32)) =
    .ok (mem be ([1, 0] : Limbs 32), true) := by decide +kernel
example : ∀ be : Bool, Raw.Add.overflowingFull be (mem be ([4294967295, 4294967295] : Limbs 32)) (mem be ([4294967295, 4294967295] : Limbs 32)) =
    .ok (mem be ([4294967294, 4294967295] : Limbs 32), true) := by decide +kernel

/-! ### `overflowing_add_i32_test`, src/math/add.rs L805-832 -/

example : ∀ be : Bool, Raw.Add.sOverflowingFull be (mem be ([1, 0] : Limbs 32)) (mem be ([1, 0] : Limbs 32)) =
    .ok (mem be ([2, 0] : Limbs 32), false) := by decide +kernel
example : ∀ be : Bool, Raw.Add.sOverflowingFull be (mem be ([4294967295, 0] : Limbs 32)) (mem be ([4294967295, 0] : Limbs 32)) =
    .ok (mem be ([4294967294, 1] : Limbs 32), false) := by decide +kernel
example : ∀ be : Bool, Raw.Add.sOverflowingFull be (mem be ([4294967295, 1] : Limbs 32)) (mem be ([4294967295, 0] : Limbs 32)) =
    .ok (mem be ([4294967294, 2] : Limbs 32), false) := by decide +kernel
example : ∀ be : Bool, Raw.Add.sOverflowingFull be (mem be ([4294967295, 2147483647] : Limbs 32)) (mem be ([1, 0] : Limbs 32)) =
    .ok (mem be ([0, 2147483648] : Limbs 32), true) := by decide +kernel
example : ∀ be : Bool, Raw.Add.sOverflowingFull be (mem be ([4294967295, 2147483647] : Limbs 32)) (mem be ([2, 0] : Limbs 32)) =
    .ok (mem be ([1, 2147483648] : Limbs 32), true) := by decide +kernel
example : ∀ be : Bool, Raw.Add.sOverflowingFull be (mem be ([4294967295, 2147483647] : Limbs 32)) (mem be ([4294967295, 2147483647] : Limbs 32)) =
    .ok (mem be ([4294967294, 4294967295] : Limbs 32), true) := by decide +kernel

/-! ### `overflowing_sub_u32_test`, src/math/sub.rs L790-801 -/

example : ∀ be : Bool, Raw.Sub.overflowingFull be (mem be ([0, 0] : Limbs 32)) (mem be ([1, 0] : Limbs 32)) =
    .ok (mem be ([4294967295, 4294967295] : Limbs 32), true) := by decide +kernel
example : ∀ be : Bool, Raw.Sub.overflowingFull be (mem be ([1, 0] : Limbs 32)) (mem be ([1, 0] : Limbs 32)) =
    .ok (mem be ([0, 0] : Limbs 32), false) := by decide +kernel
example : ∀ be : Bool, Raw.Sub.overflowingFull be (mem be ([1, 0] : Limbs 32)) (mem be ([0, 0] : Limbs 32)) =
    .ok (mem be ([1, 0] : Limbs 32), false) := by decide +kernel
example : ∀ be : Bool, Raw.Sub.overflowingFull be (mem be ([4294967295, 1] : Limbs 32)) (mem be ([0, 2] : Limbs 32)) =
    .ok (mem be ([4294967295, 4294967295] : Limbs 32), true) := by decide +kernel
example : ∀ be : Bool, Raw.Sub.overflowingFull be (mem be ([0, 1] : Limbs 32)) (mem be ([0, 2] : Limbs 32)) =
    .ok (mem be ([0, 4294967295] : Limbs 32), true) := by decide +kernel
example : ∀ be : Bool, Raw.Sub.overflowingFull be (mem be ([0, 1] : Limbs 32)) (mem be ([1, 1] : Limbs 32)) =
    .ok (mem be ([4294967295, 4294967295] : Limbs 32), true) := by decide +kernel

/-! ### `shl_u32_test`, src/math/shift.rs L380-398 -/

example : ∀ be : Bool, Raw.Shift.leftIn dev be (mem be ([1, 0] : Limbs 32)) 1 = .ok (mem be ([2, 0] : Limbs 32)) := by decide +kernel
example : ∀ be : Bool, Raw.Shift.leftIn dev be (mem be ([0, 1] : Limbs 32)) 0 = .ok (mem be ([0, 1] : Limbs 32)) := by decide +kernel
example : ∀ be : Bool, Raw.Shift.leftIn dev be (mem be ([0, 1] : Limbs 32)) 1 = .ok (mem be ([0, 2] : Limbs 32)) := by decide +kernel
example : ∀ be : Bool, Raw.Shift.leftIn dev be (mem be ([1, 0] : Limbs 32)) 32 = .ok (mem be ([0, 1] : Limbs 32)) := by decide +kernel
example : ∀ be : Bool, Raw.Shift.leftIn dev be (mem be ([0, 1] : Limbs 32)) 32 = .ok (mem be ([0, 0] : Limbs 32)) := by decide +kernel
example : ∀ be : Bool, Raw.Shift.leftIn dev be (mem be ([2, 0] : Limbs 32)) 31 = .ok (mem be ([0, 1] : Limbs 32)) := by decide +kernel
example : ∀ be : Bool, Raw.Shift.leftIn dev be (mem be ([0, 2] : Limbs 32)) 31 = .ok (mem be ([0, 0] : Limbs 32)) := by decide +kernel
example : ∀ be : Bool, Raw.Shift.leftIn dev be (mem be ([1, 2] : Limbs 32)) 31 = .ok (mem be ([2147483648, 0] : Limbs 32)) := by decide +kernel
example : ∀ be : Bool, Raw.Shift.leftIn dev be (mem be ([1, 2, 3] : Limbs 32)) 31 = .ok (mem be ([2147483648, 0, 2147483649] : Limbs 32)) := by decide +kernel
example : ∀ be : Bool, Raw.Shift.leftIn dev be (mem be ([1, 2, 0] : Limbs 32)) 31 = .ok (mem be ([2147483648, 0, 1] : Limbs 32)) := by decide +kernel
example : ∀ be : Bool, Raw.Shift.leftIn dev be (mem be ([1, 2, 3] : Limbs 32)) 32 = .ok (mem be ([0, 1, 2] : Limbs 32)) := by decide +kernel
example : ∀ be : Bool, Raw.Shift.leftIn dev be (mem be ([1, 2, 3] : Limbs 32)) 63 = .ok (mem be ([0, 2147483648, 0] : Limbs 32)) := by decide +kernel
example : ∀ be : Bool, Raw.Shift.leftIn dev be (mem be ([1, 2, 3] : Limbs 32)) 64 = .ok (mem be ([0, 0, 1] : Limbs 32)) := by decide +kernel
example : ∀ be : Bool, Raw.Shift.leftIn dev be (mem be ([1, 2, 3] : Limbs 32)) 95 = .ok (mem be ([0, 0, 2147483648] : Limbs 32)) := by decide +kernel
example : ∀ be : Bool, Raw.Shift.leftIn dev be (mem be ([1, 2, 3] : Limbs 32)) 0 = .ok (mem be ([1, 2, 3] : Limbs 32)) := by decide +kernel

/-! ### `shr_u32_test`, src/math/shift.rs L401-419 -/

example : ∀ be : Bool, Raw.Shift.rightIn dev be false (mem be ([1, 0] : Limbs 32)) 1 = .ok (mem be ([0, 0] : Limbs 32)) := by decide +kernel
example : ∀ be : Bool, Raw.Shift.rightIn dev be false (mem be ([0, 1] : Limbs 32)) 0 = .ok (mem be ([0, 1] : Limbs 32)) := by decide +kernel
example : ∀ be : Bool, Raw.Shift.rightIn dev be false (mem be ([0, 1] : Limbs 32)) 1 = .ok (mem be ([2147483648, 0] : Limbs 32)) := by decide +kernel
example : ∀ be : Bool, Raw.Shift.rightIn dev be false (mem be ([1, 0] : Limbs 32)) 32 = .ok (mem be ([0, 0] : Limbs 32)) := by decide +kernel
example : ∀ be : Bool, Raw.Shift.rightIn dev be false (mem be ([0, 1] : Limbs 32)) 32 = .ok (mem be ([1, 0] : Limbs 32)) := by decide +kernel
example : ∀ be : Bool, Raw.Shift.rightIn dev be false (mem be ([2, 0] : Limbs 32)) 31 = .ok (mem be ([0, 0] : Limbs 32)) := by decide +kernel
example : ∀ be : Bool, Raw.Shift.rightIn dev be false (mem be ([0, 2] : Limbs 32)) 31 = .ok (mem be ([4, 0] : Limbs 32)) := by decide +kernel
example : ∀ be : Bool, Raw.Shift.rightIn dev be false (mem be ([1, 2] : Limbs 32)) 31 = .ok (mem be ([4, 0] : Limbs 32)) := by decide +kernel
example : ∀ be : Bool, Raw.Shift.rightIn dev be false (mem be ([1, 2, 3] : Limbs 32)) 31 = .ok (mem be ([4, 6, 0] : Limbs 32)) := by decide +kernel
example : ∀ be : Bool, Raw.Shift.rightIn dev be false (mem be ([1, 2, 0] : Limbs 32)) 31 = .ok (mem be ([4, 0, 0] : Limbs 32)) := by decide +kernel
example : ∀ be : Bool, Raw.Shift.rightIn dev be false (mem be ([1, 2, 3] : Limbs 32)) 32 = .ok (mem be ([2, 3, 0] : Limbs 32)) := by decide +kernel
example : ∀ be : Bool, Raw.Shift.rightIn dev be false (mem be ([1, 2, 3] : Limbs 32)) 63 = .ok (mem be ([6, 0, 0] : Limbs 32)) := by decide +kernel
example : ∀ be : Bool, Raw.Shift.rightIn dev be false (mem be ([1, 2, 3] : Limbs 32)) 64 = .ok (mem be ([3, 0, 0] : Limbs 32)) := by decide +kernel
example : ∀ be : Bool, Raw.Shift.rightIn dev be false (mem be ([1, 2, 3] : Limbs 32)) 95 = .ok (mem be ([0, 0, 0] : Limbs 32)) := by decide +kernel
example : ∀ be : Bool, Raw.Shift.rightIn dev be false (mem be ([1, 2, 3] : Limbs 32)) 0 = .ok (mem be ([1, 2, 3] : Limbs 32)) := by decide +kernel

/-! ### `overflowing_mul_u32_test`, src/math/mul.rs L741-757 -/

example : ∀ be : Bool, Raw.Mul.overflowingFull be (mem be ([4294967295, 4294967295] : Limbs 32)) (mem be ([4294967295, 4294967295] : Limbs 32)) =
    .ok (mem be ([1, 0] : Limbs 32), true) := by decide +kernel
example : ∀ be : Bool, Raw.Mul.overflowingFull be (mem be ([1, 0] : Limbs 32)) (mem be ([4294967295, 1] : Limbs 32)) =
    .ok (mem be ([4294967295, 1] : Limbs 32), false) := by decide +kernel
example : ∀ be : Bool, Raw.Mul.overflowingFull be (mem be ([2, 0] : Limbs 32)) (mem be ([2147483648, 0] : Limbs 32)) =
    .ok (mem be ([0, 1] : Limbs 32), false) := by decide +kernel
example : ∀ be : Bool, Raw.Mul.overflowingFull be (mem be ([1, 0] : Limbs 32)) (mem be ([1, 0] : Limbs 32)) =
    .ok (mem be ([1, 0] : Limbs 32), false) := by decide +kernel
example : ∀ be : Bool, Raw.Mul.overflowingFull be (mem be ([1, 0] : Limbs 32)) (mem be ([0, 0] : Limbs 32)) =
    .ok (mem be ([0, 0] : Limbs 32), false) := by decide +kernel
example : ∀ be : Bool, Raw.Mul.overflowingFull be (mem be ([4294967295, 1] : Limbs 32)) (mem be ([0, 2] : Limbs 32)) =
    .ok (mem be ([0, 4294967294] : Limbs 32), true) := by decide +kernel
example : ∀ be : Bool, Raw.Mul.overflowingFull be (mem be ([0, 1] : Limbs 32)) (mem be ([0, 2] : Limbs 32)) =
    .ok (mem be ([0, 0] : Limbs 32), true) := by decide +kernel
example : ∀ be : Bool, Raw.Mul.overflowingFull be (mem be ([67, 0] : Limbs 32)) (mem be ([64103990, 0] : Limbs 32)) =
    .ok (mem be ([34, 1] : Limbs 32), false) := by decide +kernel

/-! ### `wrapping_mul_limb_u32_test` and `overflowing_mul_limb_u32_test`, src/math/mul.rs L760-780 -/

example : ∀ be : Bool, Raw.Mul.wrappingLimb be (mem be ([67, 0] : Limbs 32)) 64103990 = .ok (mem be ([34, 1] : Limbs 32)) := by decide +kernel
example : ∀ be : Bool, Raw.Mul.overflowingLimb be (mem be ([67, 0] : Limbs 32)) 64103990 = .ok (mem be ([34, 1] : Limbs 32), false) := by decide +kernel
example : ∀ be : Bool, Raw.Mul.wrappingLimb be (mem be ([2, 0] : Limbs 32)) 2147483648 = .ok (mem be ([0, 1] : Limbs 32)) := by decide +kernel
example : ∀ be : Bool, Raw.Mul.overflowingLimb be (mem be ([2, 0] : Limbs 32)) 2147483648 = .ok (mem be ([0, 1] : Limbs 32), false) := by decide +kernel
example : ∀ be : Bool, Raw.Mul.wrappingLimb be (mem be ([0, 2147483648] : Limbs 32)) 2 = .ok (mem be ([0, 0] : Limbs 32)) := by decide +kernel
example : ∀ be : Bool, Raw.Mul.overflowingLimb be (mem be ([0, 2147483648] : Limbs 32)) 2 = .ok (mem be ([0, 0] : Limbs 32), true) := by decide +kernel
example : ∀ be : Bool, Raw.Mul.wrappingLimb be (mem be ([2, 2147483648] : Limbs 32)) 2 = .ok (mem be ([4, 0] : Limbs 32)) := by decide +kernel
example : ∀ be : Bool, Raw.Mul.overflowingLimb be (mem be ([2, 2147483648] : Limbs 32)) 2 = .ok (mem be ([4, 0] : Limbs 32), true) := by decide +kernel
example : ∀ be : Bool, Raw.Mul.wrappingLimb be (mem be ([2147483647, 2147483647] : Limbs 32)) 2 = .ok (mem be ([4294967294, 4294967294] : Limbs 32)) := by decide +kernel
example : ∀ be : Bool, Raw.Mul.overflowingLimb be (mem be ([2147483647, 2147483647] : Limbs 32)) 2 = .ok (mem be ([4294967294, 4294967294] : Limbs 32), false) := by decide +kernel

/-! ### `wrapping_mul_i32_test`, src/math/mul.rs L783-789 -/

example : ∀ be : Bool, Raw.Mul.wrappingFull be (mem be ([1, 0] : Limbs 32)) (mem be ([0, 1] : Limbs 32)) = .ok (mem be ([0, 1] : Limbs 32)) := by decide +kernel
example : ∀ be : Bool, Raw.Mul.wrappingFull be (mem be ([4294967295, 4294967295] : Limbs 32)) (mem be ([1, 0] : Limbs 32)) = .ok (mem be ([4294967295, 4294967295] : Limbs 32)) := by decide +kernel

/-! ### `overflowing_mul_i32_test`, src/math/mul.rs L792-818 -/

example : ∀ be : Bool, Raw.Mul.overflowingFullS be (mem be ([4294967295, 4294967295] : Limbs 32)) (mem be ([0, 2147483648] : Limbs 32)) =
    .ok (mem be ([0, 2147483648] : Limbs 32), true) := by decide +kernel
example : ∀ be : Bool, Raw.Mul.overflowingFullS be (mem be ([4294967295, 4294967295] : Limbs 32)) (mem be ([0, 2147483647] : Limbs 32)) =
    .ok (mem be ([0, 2147483649] : Limbs 32), false) := by decide +kernel
example : ∀ be : Bool, Raw.Mul.overflowingFullS be (mem be ([4294967295, 4294967295] : Limbs 32)) (mem be ([0, 2147483648] : Limbs 32)) =
    .ok (mem be ([0, 2147483648] : Limbs 32), true) := by decide +kernel
example : ∀ be : Bool, Raw.Mul.overflowingFullS be (mem be ([0, 2147483648] : Limbs 32)) (mem be ([1, 0] : Limbs 32)) =
    .ok (mem be ([0, 2147483648] : Limbs 32), false) := by decide +kernel
example : ∀ be : Bool, Raw.Mul.overflowingFullS be (mem be ([4294967295, 2147483648] : Limbs 32)) (mem be ([1, 0] : Limbs 32)) =
    .ok (mem be ([4294967295, 2147483648] : Limbs 32), false) := by decide +kernel
example : ∀ be : Bool, Raw.Mul.overflowingFullS be (mem be ([4294967295, 2147483648] : Limbs 32)) (mem be ([0, 0] : Limbs 32)) =
    .ok (mem be ([0, 0] : Limbs 32), false) := by decide +kernel

/-! ### `widening_mul_i32_test`, src/math/mul.rs L821-828 -/

example : ∀ be : Bool, Raw.Mul.widening be (mem be ([1, 0] : Limbs 32)) (mem be ([0, 1] : Limbs 32)) =
    .ok (mem be ([0, 1] : Limbs 32), mem be ([0, 0] : Limbs 32)) := by decide +kernel
example : ∀ be : Bool, Raw.Mul.widening be (mem be ([0, 1] : Limbs 32)) (mem be ([0, 1] : Limbs 32)) =
    .ok (mem be ([0, 0] : Limbs 32), mem be ([1, 0] : Limbs 32)) := by decide +kernel
example : ∀ be : Bool, Raw.Mul.widening be (mem be ([4294967295, 4294967295] : Limbs 32)) (mem be ([4294967295, 4294967295] : Limbs 32)) =
    .ok (mem be ([1, 0] : Limbs 32), mem be ([4294967294, 4294967295] : Limbs 32)) := by decide +kernel

/-! ### `u256_tests::add_test`, src/lib.rs L195-208 -/

example : ∀ be : Bool, gives be 4 (2) (Raw.Add.wrappingFull be (mem be (num 64 4 (1))) (mem be (num 64 4 (1)))) := by decide +kernel
example : ∀ be : Bool, (Raw.Add.overflowingFull be (mem be (num 64 4 (1))) (mem be (num 64 4 (1)))).map Prod.fst =
    Raw.Add.wrappingFull be (mem be (num 64 4 (1))) (mem be (num 64 4 (1))) := by decide +kernel
example : ∀ be : Bool, gives be 4 (115792089237316195423570985008687907853269984665640564039457584007913129639934) (Raw.Add.wrappingFull be (mem be (num 64 4 (115792089237316195423570985008687907853269984665640564039457584007913129639935))) (mem be (num 64 4 (115792089237316195423570985008687907853269984665640564039457584007913129639935)))) := by decide +kernel
example : ∀ be : Bool, (Raw.Add.overflowingFull be (mem be (num 64 4 (115792089237316195423570985008687907853269984665640564039457584007913129639935))) (mem be (num 64 4 (115792089237316195423570985008687907853269984665640564039457584007913129639935)))).map Prod.fst =
    Raw.Add.wrappingFull be (mem be (num 64 4 (115792089237316195423570985008687907853269984665640564039457584007913129639935))) (mem be (num 64 4 (115792089237316195423570985008687907853269984665640564039457584007913129639935))) := by decide +kernel
example : ∀ be : Bool, gives be 8 (2) (Raw.Add.wrappingFull be (mem be (num 32 8 (1))) (mem be (num 32 8 (1)))) := by decide +kernel
example : ∀ be : Bool, (Raw.Add.overflowingFull be (mem be (num 32 8 (1))) (mem be (num 32 8 (1)))).map Prod.fst =
    Raw.Add.wrappingFull be (mem be (num 32 8 (1))) (mem be (num 32 8 (1))) := by decide +kernel
example : ∀ be : Bool, gives be 8 (115792089237316195423570985008687907853269984665640564039457584007913129639934) (Raw.Add.wrappingFull be (mem be (num 32 8 (115792089237316195423570985008687907853269984665640564039457584007913129639935))) (mem be (num 32 8 (115792089237316195423570985008687907853269984665640564039457584007913129639935)))) := by decide +kernel
example : ∀ be : Bool, (Raw.Add.overflowingFull be (mem be (num 32 8 (115792089237316195423570985008687907853269984665640564039457584007913129639935))) (mem be (num 32 8 (115792089237316195423570985008687907853269984665640564039457584007913129639935)))).map Prod.fst =
    Raw.Add.wrappingFull be (mem be (num 32 8 (115792089237316195423570985008687907853269984665640564039457584007913129639935))) (mem be (num 32 8 (115792089237316195423570985008687907853269984665640564039457584007913129639935))) := by decide +kernel

/-! ### `u256_tests::endian_tests`, src/lib.rs L211-233; numbers of this model are little-endian lists -/

example : ∀ be : Bool, Endian.fromLeBytes be 64 4 (Endian.toLeBytes be (num 64 4 0x00000000003456780000000000def0120000000000789abc0000000000123456)) = .ok (num 64 4 0x00000000003456780000000000def0120000000000789abc0000000000123456) := by decide +kernel
example : ∀ be : Bool, Endian.fromLeLimbs be (Endian.toLeLimbs be (num 64 4 0x00000000003456780000000000def0120000000000789abc0000000000123456)) = .ok (num 64 4 0x00000000003456780000000000def0120000000000789abc0000000000123456) := by decide +kernel
example : ∀ be : Bool, Endian.fromLeArr be 64 4 (Endian.toLeArr be 32 8 (num 64 4 0x00000000003456780000000000def0120000000000789abc0000000000123456)) = .ok (num 64 4 0x00000000003456780000000000def0120000000000789abc0000000000123456) := by decide +kernel
example : ∀ be : Bool, Endian.fromLeArr be 64 4 (Endian.toLeArr be 64 4 (num 64 4 0x00000000003456780000000000def0120000000000789abc0000000000123456)) = .ok (num 64 4 0x00000000003456780000000000def0120000000000789abc0000000000123456) := by decide +kernel
example : ∀ be : Bool, Endian.fromLeArr be 64 4 (Endian.toLeArr be 128 2 (num 64 4 0x00000000003456780000000000def0120000000000789abc0000000000123456)) = .ok (num 64 4 0x00000000003456780000000000def0120000000000789abc0000000000123456) := by decide +kernel
example : ∀ be : Bool, Endian.fromBeBytes be 64 4 (Endian.toBeBytes be (num 64 4 0x00000000003456780000000000def0120000000000789abc0000000000123456)) = .ok (num 64 4 0x00000000003456780000000000def0120000000000789abc0000000000123456) := by decide +kernel
example : ∀ be : Bool, Endian.fromBeLimbs be (Endian.toBeLimbs be (num 64 4 0x00000000003456780000000000def0120000000000789abc0000000000123456)) = .ok (num 64 4 0x00000000003456780000000000def0120000000000789abc0000000000123456) := by decide +kernel
example : ∀ be : Bool, Endian.fromBeArr be 64 4 (Endian.toBeArr be 32 8 (num 64 4 0x00000000003456780000000000def0120000000000789abc0000000000123456)) = .ok (num 64 4 0x00000000003456780000000000def0120000000000789abc0000000000123456) := by decide +kernel
example : ∀ be : Bool, Endian.fromBeArr be 64 4 (Endian.toBeArr be 64 4 (num 64 4 0x00000000003456780000000000def0120000000000789abc0000000000123456)) = .ok (num 64 4 0x00000000003456780000000000def0120000000000789abc0000000000123456) := by decide +kernel
example : ∀ be : Bool, Endian.fromBeArr be 64 4 (Endian.toBeArr be 128 2 (num 64 4 0x00000000003456780000000000def0120000000000789abc0000000000123456)) = .ok (num 64 4 0x00000000003456780000000000def0120000000000789abc0000000000123456) := by decide +kernel
example : ∀ be : Bool, Endian.fromNeBytes be 64 4 (Endian.toNeBytes be (num 64 4 0x00000000003456780000000000def0120000000000789abc0000000000123456)) = .ok (num 64 4 0x00000000003456780000000000def0120000000000789abc0000000000123456) := by decide +kernel
example : ∀ be : Bool, Endian.fromNeLimbs be (Endian.toNeLimbs be (num 64 4 0x00000000003456780000000000def0120000000000789abc0000000000123456)) = .ok (num 64 4 0x00000000003456780000000000def0120000000000789abc0000000000123456) := by decide +kernel
example : ∀ be : Bool, Endian.fromNeArr be 64 4 (Endian.toNeArr be 32 8 (num 64 4 0x00000000003456780000000000def0120000000000789abc0000000000123456)) = .ok (num 64 4 0x00000000003456780000000000def0120000000000789abc0000000000123456) := by decide +kernel
example : ∀ be : Bool, Endian.fromNeArr be 64 4 (Endian.toNeArr be 64 4 (num 64 4 0x00000000003456780000000000def0120000000000789abc0000000000123456)) = .ok (num 64 4 0x00000000003456780000000000def0120000000000789abc0000000000123456) := by decide +kernel
example : ∀ be : Bool, Endian.fromNeArr be 64 4 (Endian.toNeArr be 128 2 (num 64 4 0x00000000003456780000000000def0120000000000789abc0000000000123456)) = .ok (num 64 4 0x00000000003456780000000000def0120000000000789abc0000000000123456) := by decide +kernel
example : ∀ be : Bool, Endian.fromLeBytes be 32 8 (Endian.toLeBytes be (num 32 8 0x00000000003456780000000000def0120000000000789abc0000000000123456)) = .ok (num 32 8 0x00000000003456780000000000def0120000000000789abc0000000000123456) := by decide +kernel
example : ∀ be : Bool, Endian.fromLeLimbs be (Endian.toLeLimbs be (num 32 8 0x00000000003456780000000000def0120000000000789abc0000000000123456)) = .ok (num 32 8 0x00000000003456780000000000def0120000000000789abc0000000000123456) := by decide +kernel
example : ∀ be : Bool, Endian.fromLeArr be 32 8 (Endian.toLeArr be 32 8 (num 32 8 0x00000000003456780000000000def0120000000000789abc0000000000123456)) = .ok (num 32 8 0x00000000003456780000000000def0120000000000789abc0000000000123456) := by decide +kernel
example : ∀ be : Bool, Endian.fromLeArr be 32 8 (Endian.toLeArr be 64 4 (num 32 8 0x00000000003456780000000000def0120000000000789abc0000000000123456)) = .ok (num 32 8 0x00000000003456780000000000def0120000000000789abc0000000000123456) := by decide +kernel
example : ∀ be : Bool, Endian.fromBeBytes be 32 8 (Endian.toBeBytes be (num 32 8 0x00000000003456780000000000def0120000000000789abc0000000000123456)) = .ok (num 32 8 0x00000000003456780000000000def0120000000000789abc0000000000123456) := by decide +kernel
example : ∀ be : Bool, Endian.fromBeLimbs be (Endian.toBeLimbs be (num 32 8 0x00000000003456780000000000def0120000000000789abc0000000000123456)) = .ok (num 32 8 0x00000000003456780000000000def0120000000000789abc0000000000123456) := by decide +kernel
example : ∀ be : Bool, Endian.fromBeArr be 32 8 (Endian.toBeArr be 32 8 (num 32 8 0x00000000003456780000000000def0120000000000789abc0000000000123456)) = .ok (num 32 8 0x00000000003456780000000000def0120000000000789abc0000000000123456) := by decide +kernel
example : ∀ be : Bool, Endian.fromBeArr be 32 8 (Endian.toBeArr be 64 4 (num 32 8 0x00000000003456780000000000def0120000000000789abc0000000000123456)) = .ok (num 32 8 0x00000000003456780000000000def0120000000000789abc0000000000123456) := by decide +kernel
example : ∀ be : Bool, Endian.fromNeBytes be 32 8 (Endian.toNeBytes be (num 32 8 0x00000000003456780000000000def0120000000000789abc0000000000123456)) = .ok (num 32 8 0x00000000003456780000000000def0120000000000789abc0000000000123456) := by decide +kernel
example : ∀ be : Bool, Endian.fromNeLimbs be (Endian.toNeLimbs be (num 32 8 0x00000000003456780000000000def0120000000000789abc0000000000123456)) = .ok (num 32 8 0x00000000003456780000000000def0120000000000789abc0000000000123456) := by decide +kernel
example : ∀ be : Bool, Endian.fromNeArr be 32 8 (Endian.toNeArr be 32 8 (num 32 8 0x00000000003456780000000000def0120000000000789abc0000000000123456)) = .ok (num 32 8 0x00000000003456780000000000def0120000000000789abc0000000000123456) := by decide +kernel
example : ∀ be : Bool, Endian.fromNeArr be 32 8 (Endian.toNeArr be 64 4 (num 32 8 0x00000000003456780000000000def0120000000000789abc0000000000123456)) = .ok (num 32 8 0x00000000003456780000000000def0120000000000789abc0000000000123456) := by decide +kernel

/-- `{}`. -/
def plain : Write.Flags := {}
/-- `{:#}`. -/
def alternate : Write.Flags := { alternate := true }

/-! ### `u256_tests::display_test`, src/lib.rs L236-247 -/

example : U.fmtDisplay true plain (num 64 4 (115792089237316195423570985008687907853269984665640564039457584007913129639935)) =
    .ok (ascii "115792089237316195423570985008687907853269984665640564039457584007913129639935") := by decide +kernel
example : U.fmtDisplay true plain (num 64 4 (340282366920938463463374607431768211456)) =
    .ok (ascii "340282366920938463463374607431768211456") := by decide +kernel

/-! ### `u256_tests::lower_exp_test`, src/lib.rs L250-261 -/

example : U.fmtLowerExp true plain (num 64 4 (115792089237316195423570985008687907853269984665640564039457584007913129639935)) =
    .ok (ascii "1.15792089237316195423570985008687907853269984665640564039457584007913129639935e77") := by decide +kernel
example : U.fmtLowerExp true plain (num 64 4 (340282366920938463463374607431768211456)) =
    .ok (ascii "3.40282366920938463463374607431768211456e38") := by decide +kernel

/-! ### `u256_tests::upper_exp_test`, src/lib.rs L264-275 -/

example : U.fmtUpperExp true plain (num 64 4 (115792089237316195423570985008687907853269984665640564039457584007913129639935)) =
    .ok (ascii "1.15792089237316195423570985008687907853269984665640564039457584007913129639935E77") := by decide +kernel
example : U.fmtUpperExp true plain (num 64 4 (340282366920938463463374607431768211456)) =
    .ok (ascii "3.40282366920938463463374607431768211456E38") := by decide +kernel

/-! ### `u256_tests::octal_test`, src/lib.rs L278-295 -/

example : U.fmtOctal true plain (num 64 4 (115792089237316195423570985008687907853269984665640564039457584007913129639935)) =
    .ok (ascii "17777777777777777777777777777777777777777777777777777777777777777777777777777777777777") := by decide +kernel
example : U.fmtOctal true alternate (num 64 4 (115792089237316195423570985008687907853269984665640564039457584007913129639935)) =
    .ok (ascii "0o17777777777777777777777777777777777777777777777777777777777777777777777777777777777777") := by decide +kernel
example : U.fmtOctal true plain (num 64 4 (340282366920938463463374607431768211456)) =
    .ok (ascii "4000000000000000000000000000000000000000000") := by decide +kernel

/-! ### `u256_tests::binary_test`, src/lib.rs L298-318 -/

example : U.fmtBinary true plain (num 64 4 (115792089237316195423570985008687907853269984665640564039457584007913129639935)) =
    .ok (ascii "1111111111111111111111111111111111111111111111111111111111111111111111111111111111111111111111111111111111111111111111111111111111111111111111111111111111111111111111111111111111111111111111111111111111111111111111111111111111111111111111111111111111111111") := by decide +kernel
example : U.fmtBinary true alternate (num 64 4 (115792089237316195423570985008687907853269984665640564039457584007913129639935)) =
    .ok (ascii "0b1111111111111111111111111111111111111111111111111111111111111111111111111111111111111111111111111111111111111111111111111111111111111111111111111111111111111111111111111111111111111111111111111111111111111111111111111111111111111111111111111111111111111111") := by decide +kernel
example : U.fmtBinary true plain (num 64 4 (340282366920938463463374607431768211456)) =
    .ok (ascii "100000000000000000000000000000000000000000000000000000000000000000000000000000000000000000000000000000000000000000000000000000000") := by decide +kernel

/-! ### `u256_tests::lower_hex_test`, src/lib.rs L321-332 -/

example : U.fmtLowerHex true plain (num 64 4 (115792089237316195423570985008687907853269984665640564039457584007913129639935)) =
    .ok (ascii "ffffffffffffffffffffffffffffffffffffffffffffffffffffffffffffffff") := by decide +kernel
example : U.fmtLowerHex true alternate (num 64 4 (115792089237316195423570985008687907853269984665640564039457584007913129639935)) =
    .ok (ascii "0xffffffffffffffffffffffffffffffffffffffffffffffffffffffffffffffff") := by decide +kernel
example : U.fmtLowerHex true plain (num 64 4 (340282366920938463463374607431768211456)) =
    .ok (ascii "100000000000000000000000000000000") := by decide +kernel

/-! ### `u256_tests::upper_hex_test`, src/lib.rs L335-346 -/

example : U.fmtUpperHex true plain (num 64 4 (115792089237316195423570985008687907853269984665640564039457584007913129639935)) =
    .ok (ascii "FFFFFFFFFFFFFFFFFFFFFFFFFFFFFFFFFFFFFFFFFFFFFFFFFFFFFFFFFFFFFFFF") := by decide +kernel
example : U.fmtUpperHex true alternate (num 64 4 (115792089237316195423570985008687907853269984665640564039457584007913129639935)) =
    .ok (ascii "0xFFFFFFFFFFFFFFFFFFFFFFFFFFFFFFFFFFFFFFFFFFFFFFFFFFFFFFFFFFFFFFFF") := by decide +kernel
example : U.fmtUpperHex true plain (num 64 4 (340282366920938463463374607431768211456)) =
    .ok (ascii "100000000000000000000000000000000") := by decide +kernel

/-! ### `u256_tests::from_str_radix_test`, src/lib.rs L349-407 -/

example : U.fromStrRadix 4 (ascii "115792089237316195423570985008687907853269984665640564039457584007913129639935") 10 =
    .ok (.ok (num 64 4 (115792089237316195423570985008687907853269984665640564039457584007913129639935))) := by decide +kernel
example : U.fromStrRadix 4 (ascii "+115792089237316195423570985008687907853269984665640564039457584007913129639935") 10 =
    .ok (.ok (num 64 4 (115792089237316195423570985008687907853269984665640564039457584007913129639935))) := by decide +kernel
example : U.fromStrRadix 4 (ascii "+ffffffffffffffffffffffffffffffffffffffffffffffffffffffffffffffff") 16 =
    .ok (.ok (num 64 4 (115792089237316195423570985008687907853269984665640564039457584007913129639935))) := by decide +kernel
example : U.fromStrRadix 4 (ascii "+ffffffffffffffff") 16 =
    .ok (.ok (num 64 4 (18446744073709551615))) := by decide +kernel
example : U.fromStrRadix 4 (ascii "5124095576027427") 10 =
    .ok (.ok (num 64 4 (5124095576027427))) := by decide +kernel
example : U.fromStrRadix 4 (ascii "+123456789ab123") 16 =
    .ok (.ok (num 64 4 (5124095576027427))) := by decide +kernel
example : rejects (w := 64) (U.fromStrRadix 4 (ascii "-15") 10) = true := by decide +kernel
example : rejects (w := 64) (U.fromStrRadix 4 (ascii "-0xFF") 16) = true := by decide +kernel
example : rejects (w := 64) (U.fromStrRadix 4 (ascii "+0xFF") 16) = true := by decide +kernel
example : rejects (w := 64) (U.fromStrRadix 4 (ascii "0xFF") 16) = true := by decide +kernel
example : rejects (w := 64) (U.fromStrRadix 4 (ascii "FF") 10) = true := by decide +kernel
example : rejects (w := 64) (U.fromStrRadix 4 (ascii "a9") 10) = true := by decide +kernel
example : rejects (w := 64) (U.fromStrRadix 4 (ascii "12.34") 10) = true := by decide +kernel
example : rejects (w := 64) (U.fromStrRadix 4 (ascii "1234_67") 10) = true := by decide +kernel
example : rejects (w := 64) (U.fromStrRadix 4 (ascii "115792089237316195423570985008687907853269984665640564039457584007913129639936") 10) = true := by decide +kernel
example : rejects (w := 64) (U.fromStrRadix 4 (ascii "-123") 10) = true := by decide +kernel

/-! ### `i256_tests::from_str_radix_test`, src/lib.rs L411-477 -/

example : I.fromStrRadix 4 (ascii "-57896044618658097711785492504343953926634992332820282019728792003956564819968") 10 =
    .ok (.ok (num 64 4 (-57896044618658097711785492504343953926634992332820282019728792003956564819968))) := by decide +kernel
example : I.fmtDisplay true plain (num 64 4 (-57896044618658097711785492504343953926634992332820282019728792003956564819968)) = .ok (ascii "-57896044618658097711785492504343953926634992332820282019728792003956564819968") := by decide +kernel
example : I.fromStrRadix 4 (ascii "-57896044618658097711785492504343953926634992332820282019728792003956564819968") 10 =
    .ok (.ok (num 64 4 (-57896044618658097711785492504343953926634992332820282019728792003956564819968))) := by decide +kernel
example : I.fromStrRadix 4 (ascii "+57896044618658097711785492504343953926634992332820282019728792003956564819967") 10 =
    .ok (.ok (num 64 4 (57896044618658097711785492504343953926634992332820282019728792003956564819967))) := by decide +kernel
example : I.fmtDisplay true plain (num 64 4 (57896044618658097711785492504343953926634992332820282019728792003956564819967)) = .ok (ascii "57896044618658097711785492504343953926634992332820282019728792003956564819967") := by decide +kernel
example : I.fromStrRadix 4 (ascii "57896044618658097711785492504343953926634992332820282019728792003956564819967") 10 =
    .ok (.ok (num 64 4 (57896044618658097711785492504343953926634992332820282019728792003956564819967))) := by decide +kernel
example : I.fromStrRadix 4 (ascii "+ffffffffffffffff") 16 =
    .ok (.ok (num 64 4 (18446744073709551615))) := by decide +kernel
example : I.fmtDisplay true plain (num 64 4 (18446744073709551615)) = .ok (ascii "18446744073709551615") := by decide +kernel
example : I.fromStrRadix 4 (ascii "18446744073709551615") 10 =
    .ok (.ok (num 64 4 (18446744073709551615))) := by decide +kernel
example : I.fromStrRadix 4 (ascii "5124095576027427") 10 =
    .ok (.ok (num 64 4 (5124095576027427))) := by decide +kernel
example : I.fmtDisplay true plain (num 64 4 (5124095576027427)) = .ok (ascii "5124095576027427") := by decide +kernel
example : I.fromStrRadix 4 (ascii "5124095576027427") 10 =
    .ok (.ok (num 64 4 (5124095576027427))) := by decide +kernel
example : I.fromStrRadix 4 (ascii "+123456789ab123") 16 =
    .ok (.ok (num 64 4 (5124095576027427))) := by decide +kernel
example : I.fmtDisplay true plain (num 64 4 (5124095576027427)) = .ok (ascii "5124095576027427") := by decide +kernel
example : I.fromStrRadix 4 (ascii "5124095576027427") 10 =
    .ok (.ok (num 64 4 (5124095576027427))) := by decide +kernel
example : I.fromStrRadix 4 (ascii "-15") 10 =
    .ok (.ok (num 64 4 (-15))) := by decide +kernel
example : I.fmtDisplay true plain (num 64 4 (-15)) = .ok (ascii "-15") := by decide +kernel
example : I.fromStrRadix 4 (ascii "-15") 10 =
    .ok (.ok (num 64 4 (-15))) := by decide +kernel
example : I.fromStrRadix 4 (ascii "-FF") 16 =
    .ok (.ok (num 64 4 (-255))) := by decide +kernel
example : I.fmtDisplay true plain (num 64 4 (-255)) = .ok (ascii "-255") := by decide +kernel
example : I.fromStrRadix 4 (ascii "-255") 10 =
    .ok (.ok (num 64 4 (-255))) := by decide +kernel
example : I.fromStrRadix 4 (ascii "+FF") 16 =
    .ok (.ok (num 64 4 (255))) := by decide +kernel
example : I.fmtDisplay true plain (num 64 4 (255)) = .ok (ascii "255") := by decide +kernel
example : I.fromStrRadix 4 (ascii "255") 10 =
    .ok (.ok (num 64 4 (255))) := by decide +kernel
example : rejects (w := 64) (I.fromStrRadix 4 (ascii "-0xFF") 16) = true := by decide +kernel
example : rejects (w := 64) (I.fromStrRadix 4 (ascii "+0xFF") 16) = true := by decide +kernel
example : rejects (w := 64) (I.fromStrRadix 4 (ascii "0xFF") 16) = true := by decide +kernel
example : rejects (w := 64) (I.fromStrRadix 4 (ascii "FF") 10) = true := by decide +kernel
example : rejects (w := 64) (I.fromStrRadix 4 (ascii "a9") 10) = true := by decide +kernel
example : rejects (w := 64) (I.fromStrRadix 4 (ascii "12.34") 10) = true := by decide +kernel
example : rejects (w := 64) (I.fromStrRadix 4 (ascii "1234_67") 10) = true := by decide +kernel
example : rejects (w := 64) (I.fromStrRadix 4 (ascii "57896044618658097711785492504343953926634992332820282019728792003956564819968") 10) = true := by decide +kernel
example : rejects (w := 64) (I.fromStrRadix 4 (ascii "115792089237316195423570985008687907853269984665640564039457584007913129639935") 10) = true := by decide +kernel
example : rejects (w := 64) (I.fromStrRadix 4 (ascii "115792089237316195423570985008687907853269984665640564039457584007913129639936") 10) = true := by decide +kernel
example : rejects (w := 64) (I.fromStrRadix 4 (ascii "+ffffffffffffffffffffffffffffffffffffffffffffffffffffffffffffffff") 16) = true := by decide +kernel
example : rejects (w := 64) (I.fromStrRadix 4 (ascii "-1F") 10) = true := by decide +kernel

/-! ### The single tests of devel/tests/ops.rs L1388-1616 -/


/-! 64-bit limbs -/

example : ∀ be : Bool, Raw.Sub.sOverflowingFull be (mem be (num 64 4 (0))) (mem be (num 64 4 (-57896044618658097711785492504343953926634992332820282019728792003956564819968))) = .ok ((mem be (num 64 4 (57896044618658097711785492504343953926634992332820282019728792003956564819968))), true) := by decide +kernel
example : ∀ be : Bool, Raw.Sub.sOverflowingFull be (mem be (num 64 4 (0))) (mem be (num 64 4 (-57896044618658097711785492504343953926634992332820282019728792003956564819967))) = .ok ((mem be (num 64 4 (57896044618658097711785492504343953926634992332820282019728792003956564819967))), false) := by decide +kernel
example : ∀ be : Bool, gives be 4 0 (Raw.I.wrappingNeg dev be (mem be (num 64 4 (0)))) := by decide +kernel
example : ∀ be : Bool, gives be 4 (0) (Raw.I.saturatingNeg be (mem be (num 64 4 (0)))) := by decide +kernel
example : ∀ be : Bool, gives be 4 (340282366920938463463374607431768211456) (Raw.I.saturatingNeg be (mem be (num 64 4 (-340282366920938463463374607431768211456)))) := by decide +kernel
example : ∀ be : Bool, Raw.I.checkedNeg dev be (mem be (num 64 4 (-340282366920938463463374607431768211456))) = .ok (some (mem be (num 64 4 (340282366920938463463374607431768211456)))) := by decide +kernel
example : ∀ be : Bool, gives be 4 (0) (Raw.I.saturatingAbs dev be (mem be (num 64 4 (0)))) := by decide +kernel
example : ∀ be : Bool, gives be 4 (340282366920938463463374607431768211456) (Raw.I.saturatingAbs dev be (mem be (num 64 4 (-340282366920938463463374607431768211456)))) := by decide +kernel
example : ∀ be : Bool, gives be 4 (1) (Raw.I.saturatingAbs dev be (mem be (num 64 4 (-1)))) := by decide +kernel
example : ∀ be : Bool, gives be 4 0 (Raw.I.abs dev be (mem be (num 64 4 (0)))) := by decide +kernel
example : ∀ be : Bool, Raw.I.checkedAbs dev be (mem be (num 64 4 (-57896044618658097711785492504343953926634992332820282019728792003956564819968))) = .ok none := by decide +kernel
example : ∀ be : Bool, Raw.I.checkedAbs dev be (mem be (num 64 4 (-1))) = .ok (some (mem be (num 64 4 (1)))) := by decide +kernel
example : ∀ be : Bool, gives be 4 (340282366920938463463374607431768211456) (Raw.I.absDiff be (mem be (num 64 4 (0))) (mem be (num 64 4 (-340282366920938463463374607431768211456)))) := by decide +kernel
example : ∀ be : Bool, gives be 4 (-170141183460469231731687303715884105726) (Raw.I.midpoint be (mem be (num 64 4 (3))) (mem be (num 64 4 (-340282366920938463463374607431768211456)))) := by decide +kernel
example : ∀ be : Bool, gives be 4 (1) (Raw.U.wrappingNextPowerOfTwo be (mem be (num 64 4 (0)))) := by decide +kernel
example : ∀ be : Bool, gives be 4 (1) (Raw.U.wrappingNextPowerOfTwo be (mem be (num 64 4 (1)))) := by decide +kernel
example : ∀ be : Bool, gives be 4 (2) (Raw.U.wrappingNextPowerOfTwo be (mem be (num 64 4 (2)))) := by decide +kernel
example : ∀ be : Bool, gives be 4 (4) (Raw.U.wrappingNextPowerOfTwo be (mem be (num 64 4 (3)))) := by decide +kernel
example : ∀ be : Bool, gives be 4 (36893488147419103232) (Raw.U.wrappingNextPowerOfTwo be (mem be (num 64 4 (36893488147419103232)))) := by decide +kernel
example : ∀ be : Bool, gives be 4 (73786976294838206464) (Raw.U.wrappingNextPowerOfTwo be (mem be (num 64 4 (55340232221128654848)))) := by decide +kernel
example : ∀ be : Bool, gives be 4 (-1) (Raw.I.wrappingAddILimb be (mem be (num 64 4 (0))) (-1)) := by decide +kernel
example : ∀ be : Bool, gives be 4 (18446744073709551616) (Raw.I.wrappingMulULimb be (mem be (num 64 4 (2))) 9223372036854775808) := by decide +kernel
example : ∀ be : Bool, gives be 4 (-340282366920938463463374607431768211456) (Raw.I.wrappingMulILimb be (mem be (num 64 4 (340282366920938463463374607431768211456))) (-1)) := by decide +kernel
example : ∀ be : Bool, Raw.I.wrappingDivRem dev be (mem be (num 64 4 (-340282366920938463463374607431768211456))) (mem be (num 64 4 (340282366920938463463374607431768211457))) = .ok ((mem be (num 64 4 (0))), (mem be (num 64 4 (-340282366920938463463374607431768211456)))) := by decide +kernel
example : ∀ be : Bool, Raw.I.wrappingDivRemULimb dev be (mem be (num 64 4 (-340282366920938463463374607431768211456))) 18446744073709551615 =
    .ok ((mem be (num 64 4 (-18446744073709551618))), 18446744073709551614) := by decide +kernel
example : ∀ be : Bool, Raw.U.wideningMul be (mem be (num 64 4 (340282366920938463463374607431768211456))) (mem be (num 64 4 (1))) = .ok ((mem be (num 64 4 (340282366920938463463374607431768211456))), (mem be (num 64 4 (0)))) := by decide +kernel
example : ∀ be : Bool, gives be 4 (340282366920938463463374607431768211456) (Raw.U.wrappingMul be (mem be (num 64 4 (340282366920938463463374607431768211456))) (mem be (num 64 4 (1)))) := by decide +kernel
example : ∀ be : Bool, gives be 4 0 (Raw.U.highMul be (mem be (num 64 4 (340282366920938463463374607431768211456))) (mem be (num 64 4 (1)))) := by decide +kernel
example : ∀ be : Bool, gives be 4 2147483648 (Raw.I.wrappingAddFixI be .b64 (mem be (num 64 4 (0))) (2147483648 : BitVec 64)) := by decide +kernel
example : ∀ be : Bool, gives be 4 (170141183460469231731687303715884105728) (Raw.rotateRight be (mem be (num 64 4 (340282366920938463463374607431768211456))) 1) := by decide +kernel

/-! 32-bit limbs -/

example : ∀ be : Bool, gives be 8 0 (Raw.I.wrappingNeg dev be (mem be (num 32 8 (0)))) := by decide +kernel
example : ∀ be : Bool, gives be 8 (0) (Raw.I.saturatingNeg be (mem be (num 32 8 (0)))) := by decide +kernel
example : ∀ be : Bool, gives be 8 (340282366920938463463374607431768211456) (Raw.I.saturatingNeg be (mem be (num 32 8 (-340282366920938463463374607431768211456)))) := by decide +kernel
example : ∀ be : Bool, Raw.I.checkedNeg dev be (mem be (num 32 8 (-340282366920938463463374607431768211456))) = .ok (some (mem be (num 32 8 (340282366920938463463374607431768211456)))) := by decide +kernel
example : ∀ be : Bool, gives be 8 (0) (Raw.I.saturatingAbs dev be (mem be (num 32 8 (0)))) := by decide +kernel
example : ∀ be : Bool, gives be 8 (340282366920938463463374607431768211456) (Raw.I.saturatingAbs dev be (mem be (num 32 8 (-340282366920938463463374607431768211456)))) := by decide +kernel
example : ∀ be : Bool, gives be 8 (1) (Raw.I.saturatingAbs dev be (mem be (num 32 8 (-1)))) := by decide +kernel
example : ∀ be : Bool, gives be 8 0 (Raw.I.abs dev be (mem be (num 32 8 (0)))) := by decide +kernel
example : ∀ be : Bool, Raw.I.checkedAbs dev be (mem be (num 32 8 (-57896044618658097711785492504343953926634992332820282019728792003956564819968))) = .ok none := by decide +kernel
example : ∀ be : Bool, Raw.I.checkedAbs dev be (mem be (num 32 8 (-1))) = .ok (some (mem be (num 32 8 (1)))) := by decide +kernel
example : ∀ be : Bool, gives be 8 (340282366920938463463374607431768211456) (Raw.I.absDiff be (mem be (num 32 8 (0))) (mem be (num 32 8 (-340282366920938463463374607431768211456)))) := by decide +kernel
example : ∀ be : Bool, gives be 8 (-170141183460469231731687303715884105726) (Raw.I.midpoint be (mem be (num 32 8 (3))) (mem be (num 32 8 (-340282366920938463463374607431768211456)))) := by decide +kernel
example : ∀ be : Bool, gives be 8 (1) (Raw.U.wrappingNextPowerOfTwo be (mem be (num 32 8 (0)))) := by decide +kernel
example : ∀ be : Bool, gives be 8 (1) (Raw.U.wrappingNextPowerOfTwo be (mem be (num 32 8 (1)))) := by decide +kernel
example : ∀ be : Bool, gives be 8 (2) (Raw.U.wrappingNextPowerOfTwo be (mem be (num 32 8 (2)))) := by decide +kernel
example : ∀ be : Bool, gives be 8 (4) (Raw.U.wrappingNextPowerOfTwo be (mem be (num 32 8 (3)))) := by decide +kernel
example : ∀ be : Bool, gives be 8 (36893488147419103232) (Raw.U.wrappingNextPowerOfTwo be (mem be (num 32 8 (36893488147419103232)))) := by decide +kernel
example : ∀ be : Bool, gives be 8 (73786976294838206464) (Raw.U.wrappingNextPowerOfTwo be (mem be (num 32 8 (55340232221128654848)))) := by decide +kernel
example : ∀ be : Bool, gives be 8 (-1) (Raw.I.wrappingAddILimb be (mem be (num 32 8 (0))) (-1)) := by decide +kernel
example : ∀ be : Bool, gives be 8 (-340282366920938463463374607431768211456) (Raw.I.wrappingMulILimb be (mem be (num 32 8 (340282366920938463463374607431768211456))) (-1)) := by decide +kernel
example : ∀ be : Bool, Raw.I.wrappingDivRem dev be (mem be (num 32 8 (-340282366920938463463374607431768211456))) (mem be (num 32 8 (340282366920938463463374607431768211457))) = .ok ((mem be (num 32 8 (0))), (mem be (num 32 8 (-340282366920938463463374607431768211456)))) := by decide +kernel
example : ∀ be : Bool, Raw.U.wideningMul be (mem be (num 32 8 (340282366920938463463374607431768211456))) (mem be (num 32 8 (1))) = .ok ((mem be (num 32 8 (340282366920938463463374607431768211456))), (mem be (num 32 8 (0)))) := by decide +kernel
example : ∀ be : Bool, gives be 8 (340282366920938463463374607431768211456) (Raw.U.wrappingMul be (mem be (num 32 8 (340282366920938463463374607431768211456))) (mem be (num 32 8 (1)))) := by decide +kernel
example : ∀ be : Bool, gives be 8 0 (Raw.U.highMul be (mem be (num 32 8 (340282366920938463463374607431768211456))) (mem be (num 32 8 (1)))) := by decide +kernel
example : ∀ be : Bool, gives be 8 2147483648 (Raw.I.wrappingAddFixI be .b64 (mem be (num 32 8 (0))) (2147483648 : BitVec 64)) := by decide +kernel
example : ∀ be : Bool, gives be 8 (170141183460469231731687303715884105728) (Raw.rotateRight be (mem be (num 32 8 (340282366920938463463374607431768211456))) 1) := by decide +kernel

/-! ### Documentation of `leading_zeros`, src/shared/bitops.rs L44-58, and of `BITS`, src/shared/constants.rs L31 -/

example : ∀ be : Bool, Raw.Bits.leadingZeros be (mem be (num 64 4 (14474011154664524427946373126085988481658748083205070504932198000989141204991))) = .ok 3 := by decide +kernel
example : ∀ be : Bool, Raw.Bits.leadingZeros be (mem be (num 64 4 (-57896044618658097711785492504343953926634992332820282019728792003956564819968))) = .ok 0 := by decide +kernel
example : ∀ be : Bool, Raw.Bits.leadingZeros be (mem be (num 64 4 (0))) = .ok 256 := by decide +kernel
example : ∀ be : Bool, Raw.Bits.leadingZeros be (mem be (num 64 4 (57896044618658097711785492504343953926634992332820282019728792003956564819967))) = .ok 1 := by decide +kernel
example : ∀ be : Bool, Raw.Bits.leadingZeros be (mem be (num 32 8 (14474011154664524427946373126085988481658748083205070504932198000989141204991))) = .ok 3 := by decide +kernel
example : ∀ be : Bool, Raw.Bits.leadingZeros be (mem be (num 32 8 (-57896044618658097711785492504343953926634992332820282019728792003956564819968))) = .ok 0 := by decide +kernel
example : ∀ be : Bool, Raw.Bits.leadingZeros be (mem be (num 32 8 (0))) = .ok 256 := by decide +kernel
example : ∀ be : Bool, Raw.Bits.leadingZeros be (mem be (num 32 8 (57896044618658097711785492504343953926634992332820282019728792003956564819967))) = .ok 1 := by decide +kernel

end CrateTests

end I256
