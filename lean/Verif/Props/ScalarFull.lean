import Verif.Lemmas.ScalarFull
import Verif.Props.DivForms
import Verif.Props.DivZero
import Verif.Props.FormsAgree
import Verif.Props.FormsScalar
import Verif.Props.Scalar
import Verif.Props.Samples

/-!
# C98: an operation with a scalar is the operation with the converted scalar

`u256::wrapping_add_ulimb(x, n)` and `u256::wrapping_add(x, u256::from(n))` return the same, and so on
for every operation with a scalar operand.  The developer tests compare exactly these pairs
(devel/tests/ops.rs L236-920, devel/tests/util.rs L272-353).
-/

namespace I256

open Sample

variable {w : Nat} {x : Limbs w}

/-! ### Addition, subtraction and multiplication -/

section arith
variable (hw : w = 32 ∨ w = 64) (h4 : 4 ≤ x.length) (hB : 128 < w * x.length)
include hw h4 hB

/-- C98: unsigned addition of a limb or a double limb, in the wrapping, overflowing, checked and operator
forms. -/
theorem C98_uint_add (n : BitVec w) (m : BitVec (w + w)) (oc : Bool) :
    (U.wrappingAddULimb x n = U.wrappingAdd x (Cast.fromULimb x.length n) ∧
      U.overflowingAddULimb x n = U.overflowingAdd x (Cast.fromULimb x.length n) ∧
      U.checkedAddULimb x n = U.checkedAdd x (Cast.fromULimb x.length n) ∧
      U.addULimb oc x n = U.add oc x (Cast.fromULimb x.length n)) ∧
    U.wrappingAddUWide x m = .ok (U.wrappingAdd x (Cast.fromUWide x.length m)) ∧
      U.overflowingAddUWide x m = .ok (U.overflowingAdd x (Cast.fromUWide x.length m)) ∧
      U.checkedAddUWide x m = .ok (U.checkedAdd x (Cast.fromUWide x.length m)) ∧
      U.addUWide oc x m = U.add oc x (Cast.fromUWide x.length m) := by
  have h1 : 1 < w := by omega
  obtain ⟨⟨c1, -⟩, ⟨c2, -⟩, -⟩ := C27_limb hw h4 hB n m
  exact ⟨formsU_eq (C05_uint_add_ulimb (by omega) (by rintro rfl; simp at h4) n oc) (fullAddU h1 c1),
    FormsU.eq (C05_uint_add_uwide (by omega) (by omega) m oc) (fullAddU h1 c2)⟩

/-- C98: unsigned subtraction. -/
theorem C98_uint_sub (n : BitVec w) (m : BitVec (w + w)) (oc : Bool) :
    (U.wrappingSubULimb x n = U.wrappingSub x (Cast.fromULimb x.length n) ∧
      U.overflowingSubULimb x n = U.overflowingSub x (Cast.fromULimb x.length n) ∧
      U.checkedSubULimb x n = U.checkedSub x (Cast.fromULimb x.length n) ∧
      U.subULimb oc x n = U.sub oc x (Cast.fromULimb x.length n)) ∧
    U.wrappingSubUWide x m = .ok (U.wrappingSub x (Cast.fromUWide x.length m)) ∧
      U.overflowingSubUWide x m = .ok (U.overflowingSub x (Cast.fromUWide x.length m)) ∧
      U.checkedSubUWide x m = .ok (U.checkedSub x (Cast.fromUWide x.length m)) ∧
      U.subUWide oc x m = U.sub oc x (Cast.fromUWide x.length m) := by
  have h1 : 1 < w := by omega
  obtain ⟨⟨c1, -⟩, ⟨c2, -⟩, -⟩ := C27_limb hw h4 hB n m
  exact ⟨formsU_eq (C05_uint_sub_ulimb (by omega) (by rintro rfl; simp at h4) n oc) (fullSubU h1 c1),
    FormsU.eq (C05_uint_sub_uwide (by omega) (by omega) m oc) (fullSubU h1 c2)⟩

/-- C98: unsigned multiplication. -/
theorem C98_uint_mul (he : x.length % 2 = 0) (n : BitVec w) (m : BitVec (w + w)) (oc : Bool) :
    (U.wrappingMulULimb x n = U.wrappingMul x (Cast.fromULimb x.length n) ∧
      U.overflowingMulULimb x n = U.overflowingMul x (Cast.fromULimb x.length n) ∧
      U.checkedMulULimb x n = U.checkedMul x (Cast.fromULimb x.length n) ∧
      U.mulULimb oc x n = U.mul oc x (Cast.fromULimb x.length n)) ∧
    U.wrappingMulUWide x m = U.wrappingMul x (Cast.fromUWide x.length m) ∧
      U.overflowingMulUWide x m = U.overflowingMul x (Cast.fromUWide x.length m) ∧
      U.checkedMulUWide x m = U.checkedMul x (Cast.fromUWide x.length m) ∧
      U.mulUWide oc x m = U.mul oc x (Cast.fromUWide x.length m) := by
  have h1 : 1 < w := by omega
  obtain ⟨⟨c1, -⟩, ⟨c2, -⟩, -⟩ := C27_limb hw h4 hB n m
  obtain ⟨w1, w2⟩ := C06_uint_wrapping_mul_scalar (x := x) n m
  obtain ⟨s1, s2⟩ := C07_uint_mul_scalar (x := x) n m oc
  exact ⟨formsU_eq ⟨w1, s1⟩ (fullMulU h1 h4 he c1), formsU_eq ⟨w2, s2⟩ (fullMulU h1 h4 he c2)⟩

/-- C98: signed addition of an unsigned or signed limb or double limb. -/
theorem C98_int_add (n : BitVec w) (m : BitVec (w + w)) (oc : Bool) :
    (I.wrappingAddULimb x n = I.wrappingAdd x (Cast.fromULimb x.length n) ∧
      I.overflowingAddULimb x n = I.overflowingAdd x (Cast.fromULimb x.length n) ∧
      I.checkedAddULimb x n = I.checkedAdd x (Cast.fromULimb x.length n) ∧
      I.addULimb oc x n = I.add oc x (Cast.fromULimb x.length n)) ∧
    (I.wrappingAddUWide x m = I.wrappingAdd x (Cast.fromUWide x.length m) ∧
      I.overflowingAddUWide x m = I.overflowingAdd x (Cast.fromUWide x.length m) ∧
      I.checkedAddUWide x m = I.checkedAdd x (Cast.fromUWide x.length m) ∧
      I.addUWide oc x m = I.add oc x (Cast.fromUWide x.length m)) ∧
    (I.wrappingAddILimb x n = I.wrappingAdd x (Cast.fromILimb x.length n) ∧
      I.overflowingAddILimb x n = I.overflowingAdd x (Cast.fromILimb x.length n) ∧
      I.checkedAddILimb x n = I.checkedAdd x (Cast.fromILimb x.length n) ∧
      I.addILimb oc x n = I.add oc x (Cast.fromILimb x.length n)) ∧
    I.wrappingAddIWide x m = I.wrappingAdd x (Cast.fromIWide x.length m) ∧
      I.overflowingAddIWide x m = I.overflowingAdd x (Cast.fromIWide x.length m) ∧
      I.checkedAddIWide x m = I.checkedAdd x (Cast.fromIWide x.length m) ∧
      I.addIWide oc x m = I.add oc x (Cast.fromIWide x.length m) := by
  have h1 : 1 < w := by omega
  obtain ⟨⟨-, c1⟩, ⟨-, c2⟩, c3, c4⟩ := C27_limb hw h4 hB n m
  exact ⟨formsS_eq (C05_int_add_ulimb h1 (by omega) n oc) (fullAddS h1 h4 c1),
    formsS_eq (C05_int_add_uwide h1 (by omega) m oc) (fullAddS h1 h4 c2),
    formsS_eq (C05_int_add_ilimb h1 (by omega) n oc) (fullAddS h1 h4 c3),
    formsS_eq (C05_int_add_iwide h1 (by omega) m oc) (fullAddS h1 h4 c4)⟩

/-- C98: signed subtraction. -/
theorem C98_int_sub (n : BitVec w) (m : BitVec (w + w)) (oc : Bool) :
    (I.wrappingSubULimb x n = I.wrappingSub x (Cast.fromULimb x.length n) ∧
      I.overflowingSubULimb x n = I.overflowingSub x (Cast.fromULimb x.length n) ∧
      I.checkedSubULimb x n = I.checkedSub x (Cast.fromULimb x.length n) ∧
      I.subULimb oc x n = I.sub oc x (Cast.fromULimb x.length n)) ∧
    (I.wrappingSubUWide x m = I.wrappingSub x (Cast.fromUWide x.length m) ∧
      I.overflowingSubUWide x m = I.overflowingSub x (Cast.fromUWide x.length m) ∧
      I.checkedSubUWide x m = I.checkedSub x (Cast.fromUWide x.length m) ∧
      I.subUWide oc x m = I.sub oc x (Cast.fromUWide x.length m)) ∧
    (I.wrappingSubILimb x n = I.wrappingSub x (Cast.fromILimb x.length n) ∧
      I.overflowingSubILimb x n = I.overflowingSub x (Cast.fromILimb x.length n) ∧
      I.checkedSubILimb x n = I.checkedSub x (Cast.fromILimb x.length n) ∧
      I.subILimb oc x n = I.sub oc x (Cast.fromILimb x.length n)) ∧
    I.wrappingSubIWide x m = I.wrappingSub x (Cast.fromIWide x.length m) ∧
      I.overflowingSubIWide x m = I.overflowingSub x (Cast.fromIWide x.length m) ∧
      I.checkedSubIWide x m = I.checkedSub x (Cast.fromIWide x.length m) ∧
      I.subIWide oc x m = I.sub oc x (Cast.fromIWide x.length m) := by
  have h1 : 1 < w := by omega
  obtain ⟨⟨-, c1⟩, ⟨-, c2⟩, c3, c4⟩ := C27_limb hw h4 hB n m
  exact ⟨formsS_eq (C05_int_sub_ulimb h1 (by omega) n oc) (fullSubS h1 h4 c1),
    formsS_eq (C05_int_sub_uwide h1 (by omega) m oc) (fullSubS h1 h4 c2),
    formsS_eq (C05_int_sub_ilimb h1 (by omega) n oc) (fullSubS h1 h4 c3),
    formsS_eq (C05_int_sub_iwide h1 (by omega) m oc) (fullSubS h1 h4 c4)⟩

/-- C98: signed multiplication.  The two agree also where both miss an overflow (B1). -/
theorem C98_int_mul (n : BitVec w) (m : BitVec (w + w)) (oc : Bool) :
    (I.wrappingMulULimb x n = I.wrappingMul x (Cast.fromULimb x.length n) ∧
      I.overflowingMulULimb x n = I.overflowingMul x (Cast.fromULimb x.length n) ∧
      I.checkedMulULimb x n = I.checkedMul x (Cast.fromULimb x.length n) ∧
      I.mulULimb oc x n = I.mul oc x (Cast.fromULimb x.length n)) ∧
    (I.wrappingMulUWide x m = I.wrappingMul x (Cast.fromUWide x.length m) ∧
      I.overflowingMulUWide x m = I.overflowingMul x (Cast.fromUWide x.length m) ∧
      I.checkedMulUWide x m = I.checkedMul x (Cast.fromUWide x.length m) ∧
      I.mulUWide oc x m = I.mul oc x (Cast.fromUWide x.length m)) ∧
    (I.wrappingMulILimb x n = I.wrappingMul x (Cast.fromILimb x.length n) ∧
      I.overflowingMulILimb x n = I.overflowingMul x (Cast.fromILimb x.length n) ∧
      I.checkedMulILimb x n = I.checkedMul x (Cast.fromILimb x.length n) ∧
      I.mulILimb oc x n = I.mul oc x (Cast.fromILimb x.length n)) ∧
    I.wrappingMulIWide x m = I.wrappingMul x (Cast.fromIWide x.length m) ∧
      I.overflowingMulIWide x m = I.overflowingMul x (Cast.fromIWide x.length m) ∧
      I.checkedMulIWide x m = I.checkedMul x (Cast.fromIWide x.length m) ∧
      I.mulIWide oc x m = I.mul oc x (Cast.fromIWide x.length m) := by
  have h1 : 1 < w := by omega
  obtain ⟨⟨-, c1⟩, ⟨-, c2⟩, c3, c4⟩ := C27_limb hw h4 hB n m
  obtain ⟨w1, w2⟩ := C06_int_wrapping_mul_uscalar (x := x) n m
  obtain ⟨w3, w4⟩ := C06_int_wrapping_mul_iscalar (x := x) (by omega) n m
  obtain ⟨s1, s3, s2, s4⟩ := C08_int_mul_scalar_all_partial (x := x) (by omega) (by omega) n m oc
  exact ⟨formsG_eq ⟨w1, s1⟩ (fullMulS h1 h4 c1), formsG_eq ⟨w2, s2⟩ (fullMulS h1 h4 c2),
    formsG_eq ⟨w3, s3⟩ (fullMulS h1 h4 c3), formsG_eq ⟨w4, s4⟩ (fullMulS h1 h4 c4)⟩

end arith

example := C98_uint_add (x := a) (by decide) (by decide) (by decide) 7 (2 ^ 100) true
example := C98_uint_sub (x := b32) (by decide) (by decide) (by decide) 7 (2 ^ 40) false
example := C98_uint_mul (x := a) (by decide) (by decide) (by decide) (by decide) 7 (2 ^ 100) true
example := C98_int_add (x := top) (by decide) (by decide) (by decide) 7 (2 ^ 100) true
example := C98_int_sub (x := top) (by decide) (by decide) (by decide) 7 (2 ^ 100) true
example := C98_int_mul (x := maxS) (by decide) (by decide) (by decide) 7 (2 ^ 100) true
/-- A carry through every limb. -/
example : U.overflowingAddULimb ones 1 = (zero, true) ∧
    U.overflowingAdd ones (Cast.fromULimb 4 1) = (zero, true) := by decide +kernel
/-- A negative scalar, converted with its sign. -/
example : I.checkedMulILimb (w := 64) [5, 0, 0, 0] (-3) =
      some [-15, -1, -1, -1] ∧
    I.checkedMul (w := 64) [5, 0, 0, 0] (Cast.fromILimb 4 (-3)) = some [-15, -1, -1, -1] := by
  decide +kernel

/-! ### Scalars of fixed width -/

/-- `From<u32>`, `From<u64>`, `From<u128>`. -/
def Cast.ofFixU (N : Nat) : (k : Fix) → BitVec k.n → Limbs w
  | .b32, v => Cast.fromU N .b32 v
  | .b64, v => Cast.fromU N .b64 v
  | .b128, v => Cast.fromU N .b128 v

/-- `From<i32>`, `From<i64>`, `From<i128>`. -/
def Cast.ofFixI (N : Nat) : (k : Fix) → BitVec k.n → Limbs w
  | .b32, v => Cast.fromI N .b32 v
  | .b64, v => Cast.fromI N .b64 v
  | .b128, v => Cast.fromI N .b128 v

theorem ofFixU_spec {N : Nat} (hw : w = 32 ∨ w = 64) (hN : 4 ≤ N) (hB : 128 < w * N) (k : Fix) (v : BitVec k.n) :
    ExactU N v.toNat (Cast.ofFixU N k v : Limbs w) ∧ ExactS N v.toNat (Cast.ofFixU N k v : Limbs w) := by
  cases k
  · exact C27_from_unsigned hw hN hB .b32 v
  · exact C27_from_unsigned hw hN hB .b64 v
  · exact C27_from_unsigned hw hN hB .b128 v

theorem ofFixI_spec {N : Nat} (hw : w = 32 ∨ w = 64) (hN : 4 ≤ N) (k : Fix) (v : BitVec k.n) :
    ExactS N v.toInt (Cast.ofFixI N k v : Limbs w) := by
  cases k
  · exact (C27_from_signed hw hN .b32 v).1
  · exact (C27_from_signed hw hN .b64 v).1
  · exact (C27_from_signed hw hN .b128 v).1

theorem four_le (hw : w = 32 ∨ w = 64) (hx : 256 ≤ w * x.length) : 4 ≤ x.length := by
  rcases hw with rfl | rfl <;> omega

section fixed
variable (hw : w = 32 ∨ w = 64) (hx : 256 ≤ w * x.length)
include hw hx

/-- C98: unsigned operations with `u32`, `u64` and `u128`. -/
theorem C98_uint_fixed (he : x.length % 2 = 0) (k : Fix) (n : BitVec k.n) (oc : Bool) :
    (U.wrappingAddFix k x n = .ok (U.wrappingAdd x (Cast.ofFixU x.length k n)) ∧
      U.overflowingAddFix k x n = .ok (U.overflowingAdd x (Cast.ofFixU x.length k n)) ∧
      U.checkedAddFix k x n = .ok (U.checkedAdd x (Cast.ofFixU x.length k n)) ∧
      U.addFix oc k x n = U.add oc x (Cast.ofFixU x.length k n)) ∧
    (U.wrappingSubFix k x n = .ok (U.wrappingSub x (Cast.ofFixU x.length k n)) ∧
      U.overflowingSubFix k x n = .ok (U.overflowingSub x (Cast.ofFixU x.length k n)) ∧
      U.checkedSubFix k x n = .ok (U.checkedSub x (Cast.ofFixU x.length k n)) ∧
      U.subFix oc k x n = U.sub oc x (Cast.ofFixU x.length k n)) ∧
    U.wrappingMulFix k x n = .ok (U.wrappingMul x (Cast.ofFixU x.length k n)) ∧
      U.overflowingMulFix k x n = .ok (U.overflowingMul x (Cast.ofFixU x.length k n)) ∧
      U.checkedMulFix k x n = .ok (U.checkedMul x (Cast.ofFixU x.length k n)) ∧
      U.mulFix oc k x n = U.mul oc x (Cast.ofFixU x.length k n) := by
  have h1 : 1 < w := by omega
  have h4 := four_le hw hx
  have c := (ofFixU_spec hw h4 (by omega) k n).1
  obtain ⟨s1, s2⟩ := C53_uint_add_sub_fixed hw hx k n oc
  exact ⟨s1.eq (fullAddU h1 c), s2.eq (fullSubU h1 c),
    (C54_uint_mul_fixed hw hx k n oc).eq (fullMulU h1 h4 he c)⟩

/-- C98: signed operations with `u32`, `u64` and `u128`, except 128-bit scalars with 32-bit limbs
(`C98_int_fixed_false`). -/
theorem C98_int_fixed_unsigned_partial (k : Fix) (hk : ¬ (w = 32 ∧ k = .b128)) (n : BitVec k.n) (oc : Bool) :
    (I.wrappingAddFixU k x n = .ok (I.wrappingAdd x (Cast.ofFixU x.length k n)) ∧
      I.overflowingAddFixU k x n = .ok (I.overflowingAdd x (Cast.ofFixU x.length k n)) ∧
      I.checkedAddFixU k x n = .ok (I.checkedAdd x (Cast.ofFixU x.length k n)) ∧
      I.addFixU oc k x n = I.add oc x (Cast.ofFixU x.length k n)) ∧
    (I.wrappingSubFixU k x n = .ok (I.wrappingSub x (Cast.ofFixU x.length k n)) ∧
      I.overflowingSubFixU k x n = .ok (I.overflowingSub x (Cast.ofFixU x.length k n)) ∧
      I.checkedSubFixU k x n = .ok (I.checkedSub x (Cast.ofFixU x.length k n)) ∧
      I.subFixU oc k x n = I.sub oc x (Cast.ofFixU x.length k n)) ∧
    I.wrappingMulFixU k x n = .ok (I.wrappingMul x (Cast.ofFixU x.length k n)) ∧
      I.overflowingMulFixU k x n = .ok (I.overflowingMul x (Cast.ofFixU x.length k n)) ∧
      I.checkedMulFixU k x n = .ok (I.checkedMul x (Cast.ofFixU x.length k n)) ∧
      I.mulFixU oc k x n = I.mul oc x (Cast.ofFixU x.length k n) := by
  have h1 : 1 < w := by omega
  have h4 := four_le hw hx
  have c := (ofFixU_spec hw h4 (by omega) k n).2
  obtain ⟨s1, s2⟩ := C53_int_add_sub_fixed_unsigned hw hx k hk n oc
  exact ⟨s1.eq (fullAddS h1 h4 c), s2.eq (fullSubS h1 h4 c),
    (C54_int_mul_fixed_all_partial hw hx k hk n oc).1.eq (fullMulS h1 h4 c)⟩

/-- C98: signed operations with `i32`, `i64` and `i128`, with the same exception. -/
theorem C98_int_fixed_signed_partial (k : Fix) (hk : ¬ (w = 32 ∧ k = .b128)) (n : BitVec k.n) (oc : Bool) :
    (I.wrappingAddFixI k x n = .ok (I.wrappingAdd x (Cast.ofFixI x.length k n)) ∧
      I.overflowingAddFixI k x n = .ok (I.overflowingAdd x (Cast.ofFixI x.length k n)) ∧
      I.checkedAddFixI k x n = .ok (I.checkedAdd x (Cast.ofFixI x.length k n)) ∧
      I.addFixI oc k x n = I.add oc x (Cast.ofFixI x.length k n)) ∧
    (I.wrappingSubFixI k x n = .ok (I.wrappingSub x (Cast.ofFixI x.length k n)) ∧
      I.overflowingSubFixI k x n = .ok (I.overflowingSub x (Cast.ofFixI x.length k n)) ∧
      I.checkedSubFixI k x n = .ok (I.checkedSub x (Cast.ofFixI x.length k n)) ∧
      I.subFixI oc k x n = I.sub oc x (Cast.ofFixI x.length k n)) ∧
    I.wrappingMulFixI k x n = .ok (I.wrappingMul x (Cast.ofFixI x.length k n)) ∧
      I.overflowingMulFixI k x n = .ok (I.overflowingMul x (Cast.ofFixI x.length k n)) ∧
      I.checkedMulFixI k x n = .ok (I.checkedMul x (Cast.ofFixI x.length k n)) ∧
      I.mulFixI oc k x n = I.mul oc x (Cast.ofFixI x.length k n) := by
  have h1 : 1 < w := by omega
  have h4 := four_le hw hx
  have c := ofFixI_spec hw h4 k n
  obtain ⟨s1, s2⟩ := C53_int_add_sub_fixed_signed hw hx k hk n oc
  exact ⟨s1.eq (fullAddS h1 h4 c), s2.eq (fullSubS h1 h4 c),
    (C54_int_mul_fixed_all_partial hw hx k hk n oc).2.eq (fullMulS h1 h4 c)⟩

end fixed

example := C98_uint_fixed (x := b32) (by decide) (by decide) (by decide) .b128 (2 ^ 100) true
example := C98_int_fixed_unsigned_partial (x := a) (by decide) (by decide) .b128 (by decide) (2 ^ 100) true
example := C98_int_fixed_signed_partial (x := b32) (by decide) (by decide) .b64 (by decide) (-5) true

/-- C98 is false for signed operations with 128-bit scalars and 32-bit limbs: addition and subtraction
panic, multiplication exchanges two limbs of the scalar. -/
theorem C98_int_fixed_false :
    (∃ (x : Limbs 32) (n : BitVec 128), x.length = 8 ∧
      I.wrappingAddFixI .b128 x n ≠ .ok (I.wrappingAdd x (Cast.ofFixI 8 .b128 n))) ∧
    ∃ (x : Limbs 32) (n : BitVec 128), x.length = 8 ∧
      I.wrappingMulFixU .b128 x n ≠ .ok (I.wrappingMul x (Cast.ofFixU 8 .b128 n)) :=
  ⟨⟨[0, 0, 0, 0, 0, 0, 0, 0], 0x100000000, by decide +kernel⟩,
    ⟨[1, 0, 0, 0, 0, 0, 0, 0], 0x100000000, by decide +kernel⟩⟩

/-! ### Unsigned division -/

section udiv
variable (hw : w = 32 ∨ w = 64) (h4 : 4 ≤ x.length) (he : x.length % 2 = 0) (hB : 128 < w * x.length)
include hw h4 he hB

/-- C98: unsigned division by a limb other than zero, as quotient and remainder, quotient, and
remainder.  The remainder of the scalar form is a limb; converted it is the remainder of the full
form. -/
theorem C98_uint_div_ulimb {n : BitVec w} (hn : n ≠ 0) (oc : Bool) :
    let y := Cast.fromULimb x.length n
    let c := Cast.fromULimb (w := w) x.length
    SameForms (fun p => (p.1, c p.2)) (U.wrappingDivRem x y) (U.overflowingDivRem x y) (U.checkedDivRem x y)
      (U.divRem oc x y) (U.wrappingDivRemULimb x n) (U.overflowingDivRemULimb x n)
      (U.checkedDivRemULimb x n) (U.divRemULimb oc x n) ∧
    SameForms id (U.wrappingDiv x y) (U.overflowingDiv x y) (U.checkedDiv x y) (U.div oc x y)
      (U.wrappingDivULimb x n) (U.overflowingDivULimb x n) (U.checkedDivULimb x n) (U.divULimb oc x n) ∧
    SameForms c (U.wrappingRem x y) (U.overflowingRem x y) (U.checkedRem x y) (U.rem oc x y)
      (U.wrappingRemULimb x n) (U.overflowingRemULimb x n) (U.checkedRemULimb x n) (U.remULimb oc x n) := by
  intro y c
  have h0 : 0 < w := by omega
  have cs : ∀ v : BitVec w, ExactU x.length v.toNat (c v) := fun v => (C27_limb hw h4 hB v 0).1.1
  have hn0 : n.toNat ≠ 0 := fun h => hn (BitVec.eq_of_toNat_eq (by simpa using h))
  have hy0 : toNat y ≠ 0 := by
    have := (cs n).2
    show toNat (c n) ≠ 0
    omega
  obtain ⟨a1, a2, -, -, a3, -⟩ := C80_uint_div (x := x) (y := y) (by omega) he (cs n).1.symm hy0
  obtain ⟨b3, b1, b2, -⟩ := C80_uint_div_scalar (x := x) (n := n) (m := 1) hn (by
    rcases hw with rfl | rfl <;> decide) oc
  obtain ⟨q, r, e, hq, hr⟩ := fullDivU h0 h4 he (cs n) hn0 (C13_exact_cases h0 _ (.inl n.isLt))
  obtain ⟨⟨q', r'⟩, e', hq', hr'⟩ := (C16_uint_div_ulimb (x := x) hn oc).1 U.wrappingDivRemULimb (by simp)
  obtain rfl : q = q' := hq.unique (by simpa using hq')
  obtain rfl : r = c r' := hr.unique (by rw [← hr']; exact cs r')
  refine ⟨a3.sameForms _ b3 ?_, a1.sameForms _ b1 ?_, a2.sameForms _ b2 ?_⟩
  · rw [U.overflowingDivRem, U.overflowingDivRemULimb, e, e']; rfl
  · rw [U.overflowingDiv, U.wrappingDiv, U.overflowingDivULimb, U.overflowingDivRemULimb, e, e']; rfl
  · rw [U.overflowingRem, U.wrappingRem, U.overflowingRemULimb, U.overflowingDivRemULimb, e, e']; rfl

/-- C98: unsigned division by a double limb other than zero, if it does not panic. -/
theorem C98_uint_div_uwide_partial {n : BitVec (w + w)} (hn : n ≠ 0)
    (hp : ¬ DivPanics w 2 (toNat x) n.toNat) (oc : Bool) :
    let y := Cast.fromUWide x.length n
    let c := Cast.fromUWide (w := w) x.length
    SameForms (fun p => (p.1, c p.2)) (U.wrappingDivRem x y) (U.overflowingDivRem x y) (U.checkedDivRem x y)
      (U.divRem oc x y) (U.wrappingDivRemUWide x n) (U.overflowingDivRemUWide x n)
      (U.checkedDivRemUWide x n) (U.divRemUWide oc x n) ∧
    SameForms id (U.wrappingDiv x y) (U.overflowingDiv x y) (U.checkedDiv x y) (U.div oc x y)
      (U.wrappingDivUWide x n) (U.overflowingDivUWide x n) (U.checkedDivUWide x n) (U.divUWide oc x n) ∧
    SameForms c (U.wrappingRem x y) (U.overflowingRem x y) (U.checkedRem x y) (U.rem oc x y)
      (U.wrappingRemUWide x n) (U.overflowingRemUWide x n) (U.checkedRemUWide x n) (U.remUWide oc x n) := by
  intro y c
  have h0 : 0 < w := by omega
  have cs : ∀ v : BitVec (w + w), ExactU x.length v.toNat (c v) := fun v => (C27_limb hw h4 hB 0 v).2.1.1
  have hn0 : n.toNat ≠ 0 := fun h => hn (BitVec.eq_of_toNat_eq (by simpa using h))
  have hy0 : toNat y ≠ 0 := by
    have := (cs n).2
    show toNat (c n) ≠ 0
    omega
  obtain ⟨a1, a2, -, -, a3, -⟩ := C80_uint_div (x := x) (y := y) (by omega) he (cs n).1.symm hy0
  obtain ⟨-, -, -, b3, b1, b2⟩ := C80_uint_div_scalar (x := x) (n := 1) (m := n) (by
    rcases hw with rfl | rfl <;> decide) hn oc
  obtain ⟨q, r, e, hq, hr⟩ := fullDivU h0 h4 he (cs n) hn0 ⟨noPanic_of_two h0 (by omega) n.isLt,
    stray_of_two h0 n.isLt hp⟩
  obtain ⟨⟨q', r'⟩, e', hq', hr'⟩ := ((C16_uint_div_uwide (x := x) h0 (by omega) hn oc).1 U.wrappingDivRemUWide
    (by simp)).2 hp
  obtain rfl : q = q' := hq.unique (by simpa using hq')
  obtain rfl : r = c r' := hr.unique (by rw [← hr']; exact cs r')
  refine ⟨a3.sameForms _ b3 ?_, a1.sameForms _ b1 ?_, a2.sameForms _ b2 ?_⟩
  · rw [U.overflowingDivRem, U.overflowingDivRemUWide, e, e']; rfl
  · rw [U.overflowingDiv, U.wrappingDiv, U.overflowingDivUWide, U.overflowingDivRemUWide, e, e']; rfl
  · rw [U.overflowingRem, U.wrappingRem, U.overflowingRemUWide, U.overflowingDivRemUWide, e, e']; rfl

/-- C98: in the remaining cases every form with the double limb panics, while the full forms return the
quotient. -/
theorem C98_uint_div_uwide_panics {n : BitVec (w + w)} (hn : n ≠ 0) (hp : DivPanics w 2 (toNat x) n.toNat)
    (oc : Bool) :
    (U.wrappingDivRemUWide x n = .panic ∧ U.overflowingDivRemUWide x n = .panic ∧
      U.checkedDivRemUWide x n = .panic ∧ U.divRemUWide oc x n = .panic) ∧
    ∃ q, U.wrappingDiv x (Cast.fromUWide x.length n) = .ok q ∧
      U.overflowingDiv x (Cast.fromUWide x.length n) = .ok (q, false) ∧
      U.checkedDiv x (Cast.fromUWide x.length n) = .ok (some q) ∧
      U.div oc x (Cast.fromUWide x.length n) = .ok q ∧ ExactU x.length (toNat x / n.toNat) q := by
  have h0 : 0 < w := by omega
  have hy : ExactU x.length n.toNat (Cast.fromUWide x.length n : Limbs w) := (C27_limb hw h4 hB 0 n).2.1.1
  have hn0 : n.toNat ≠ 0 := fun h => hn (BitVec.eq_of_toNat_eq (by simpa using h))
  generalize Cast.fromUWide x.length n = y at hy ⊢
  have hv : toNat y = n.toNat := by exact_mod_cast hy.2
  have hy0 : toNat y ≠ 0 := by omega
  have hl := hy.1.symm
  obtain ⟨s1, s2, s3, -⟩ := C16_uint_div_uwide (x := x) h0 (by omega) hn oc
  refine ⟨⟨(s1 _ (by simp)).1 hp, s3.1 hp, s2.1 hp, (s1 _ (by simp)).1 hp⟩, ?_⟩
  have np : ¬ DivPanics w x.length (toNat x) (toNat y) := by
    rw [hv]; exact noPanic_of_two h0 (by omega) n.isLt
  obtain ⟨q, e, hq⟩ := (C12_uint_div h0 hl (by omega) he hy0 oc U.wrappingDiv (by simp)).2 np
  have hz : U.isDivNone y = false := isDivNoneU (by omega) (by omega) hy0
  refine ⟨q, e, by rw [U.overflowingDiv, e]; rfl, by rw [U.checkedDiv, hz, e]; rfl, ?_, by rwa [hv] at hq⟩
  rw [U.div, U.checkedDiv, hz, e]
  cases oc <;> rfl

end udiv

example := C98_uint_div_ulimb (x := a) (by decide) (by decide) (by decide) (by decide) (n := 10) (by decide) true
example := C98_uint_div_uwide_partial (x := a) (by decide) (by decide) (by decide) (by decide)
  (n := 0x1000000000000000000000000) (by decide +kernel) (by decide +kernel) true
example := C98_uint_div_uwide_panics (x := ([0, 0, 0x8000000000000000, 0] : Limbs 64)) (by decide) (by decide)
  (by decide) (by decide) (n := 0x80000000000000010000000000000000 - 1)
  (by decide +kernel) (by decide +kernel) true

/-- C98 is false for the division by a double limb: the scalar form panics where the full form returns. -/
theorem C98_uint_div_uwide_false :
    ∃ (x : Limbs 64) (n : BitVec (64 + 64)), x.length = 4 ∧ n ≠ 0 ∧ U.checkedDivUWide x n = .panic ∧
      U.checkedDiv x (Cast.fromUWide 4 n) = .ok (some [0xfffffffffffffffe, 0, 0, 0]) :=
  ⟨[0, 0, 0x8000000000000000, 0], 2 ^ 127 + 2 ^ 64 - 1, by decide +kernel⟩

/-! ### Signed division by signed scalars -/

section sdiv
variable (hw : w = 32 ∨ w = 64) (h4 : 4 ≤ x.length) (he : x.length % 2 = 0) (hB : 128 < w * x.length)
include hw h4 he hB

/-- C98: signed division by a signed limb other than zero. -/
theorem C98_int_div_ilimb {n : BitVec w} (hn : n ≠ 0) (oc : Bool) :
    let y := Cast.fromILimb x.length n
    let c := Cast.fromILimb (w := w) x.length
    SameForms (fun p => (p.1, c p.2)) (I.wrappingDivRem x y) (I.overflowingDivRem x y) (I.checkedDivRem x y)
      (I.divRem oc x y) (I.wrappingDivRemILimb x n) (I.overflowingDivRemILimb x n)
      (I.checkedDivRemILimb x n) (I.divRemILimb oc x n) ∧
    SameForms id (I.wrappingDiv x y) (I.overflowingDiv x y) (I.checkedDiv x y) (I.div oc x y)
      (I.wrappingDivILimb x n) (I.overflowingDivILimb x n) (I.checkedDivILimb x n) (I.divILimb oc x n) ∧
    SameForms c (I.wrappingRem x y) (I.overflowingRem x y) (I.checkedRem x y) (I.rem oc x y)
      (I.wrappingRemILimb x n) (I.overflowingRemILimb x n) (I.checkedRemILimb x n) (I.remILimb oc x n) := by
  intro y c
  have h1 : 1 < w := by omega
  have cs : ∀ v : BitVec w, ExactS x.length v.toInt (c v) := fun v => (C27_limb hw h4 hB v 0).2.2.1
  have hn0 : n.toInt ≠ 0 := fun h => hn (BitVec.eq_of_toInt_eq (by simpa using h))
  have hy0 : toInt y ≠ 0 := by
    rw [show toInt y = n.toInt from (cs n).2]; exact hn0
  obtain ⟨a1, a2, -, -, a3, -⟩ := C80_int_div (x := x) (y := y) h1 (by omega) he (cs n).1.symm hy0
  obtain ⟨b3, b1, b2, -⟩ := C80_int_div_iscalar (x := x) (n := n) (m := 1) h1 (by omega) he hn (by
    rcases hw with rfl | rfl <;> decide) oc
  obtain ⟨q, r, f, e1, e2, e3, ho, hr⟩ := fullDivS h1 h4 he (cs n) hn0
    (C13_exact_cases (by omega) _ (.inl (natAbs_toInt_lt n)))
  obtain ⟨-, q', r', f', e1', e2', e3', -, -, -, -, ho', hr'⟩ := C51_int_div_ilimb (x := x) h1 (by omega) he hn
  obtain ⟨rfl, rfl⟩ := Prod.ext_iff.1 (OverS.unique ho ho')
  obtain rfl : r = c r' := hr.unique (by rw [← hr']; exact cs r')
  refine ⟨a3.sameForms _ b3 ?_, a1.sameForms _ b1 ?_, a2.sameForms _ b2 ?_⟩
  · rw [e1, e1']; rfl
  · rw [e2, e2']; rfl
  · rw [e3, e3']; rfl

/-- C98: signed division by a signed double limb other than zero, if it does not panic. -/
theorem C98_int_div_iwide_partial {n : BitVec (w + w)} (hn : n ≠ 0)
    (hp : ¬ DivPanics w 2 (toInt x).natAbs n.toInt.natAbs) (oc : Bool) :
    let y := Cast.fromIWide x.length n
    let c := Cast.fromIWide (w := w) x.length
    SameForms (fun p => (p.1, c p.2)) (I.wrappingDivRem x y) (I.overflowingDivRem x y) (I.checkedDivRem x y)
      (I.divRem oc x y) (I.wrappingDivRemIWide x n) (I.overflowingDivRemIWide x n)
      (I.checkedDivRemIWide x n) (I.divRemIWide oc x n) ∧
    SameForms id (I.wrappingDiv x y) (I.overflowingDiv x y) (I.checkedDiv x y) (I.div oc x y)
      (I.wrappingDivIWide x n) (I.overflowingDivIWide x n) (I.checkedDivIWide x n) (I.divIWide oc x n) ∧
    SameForms c (I.wrappingRem x y) (I.overflowingRem x y) (I.checkedRem x y) (I.rem oc x y)
      (I.wrappingRemIWide x n) (I.overflowingRemIWide x n) (I.checkedRemIWide x n) (I.remIWide oc x n) := by
  intro y c
  have h1 : 1 < w := by omega
  have cs : ∀ v : BitVec (w + w), ExactS x.length v.toInt (c v) := fun v => (C27_limb hw h4 hB 0 v).2.2.2
  have hn0 : n.toInt ≠ 0 := fun h => hn (BitVec.eq_of_toInt_eq (by simpa using h))
  have hy0 : toInt y ≠ 0 := by
    rw [show toInt y = n.toInt from (cs n).2]; exact hn0
  have hlt := natAbs_toInt_lt n
  obtain ⟨a1, a2, -, -, a3, -⟩ := C80_int_div (x := x) (y := y) h1 (by omega) he (cs n).1.symm hy0
  obtain ⟨-, -, -, b3, b1, b2⟩ := C80_int_div_iscalar (x := x) (n := 1) (m := n) h1 (by omega) he (by
    rcases hw with rfl | rfl <;> decide) hn oc
  obtain ⟨q, r, f, e1, e2, e3, ho, hr⟩ := fullDivS h1 h4 he (cs n) hn0
    ⟨noPanic_of_two (by omega) (by omega) hlt, stray_of_two (by omega) hlt hp⟩
  obtain ⟨⟨⟨q', r'⟩, f'⟩, e', ho', hr'⟩ := (C51_int_div_iwide (x := x) h1 (by omega) he hn).2.1.2 hp
  obtain ⟨rfl, rfl⟩ := Prod.ext_iff.1 (OverS.unique ho ho')
  obtain rfl : r = c r' := hr.unique (by rw [← hr']; exact cs r')
  refine ⟨a3.sameForms _ b3 ?_, a1.sameForms _ b1 ?_, a2.sameForms _ b2 ?_⟩
  · rw [e1, e']; rfl
  · rw [e2, I.overflowingDivIWide, e']; rfl
  · rw [e3, I.overflowingRemIWide, e']; rfl

/-- C98: in the remaining cases every form with the double limb panics, while the full forms return. -/
theorem C98_int_div_iwide_panics {n : BitVec (w + w)} (hn : n ≠ 0)
    (hp : DivPanics w 2 (toInt x).natAbs n.toInt.natAbs) :
    (I.wrappingDivRemIWide x n = .panic ∧ I.overflowingDivRemIWide x n = .panic ∧
      I.checkedDivRemIWide x n = .panic) ∧
    ∃ r, I.overflowingDiv x (Cast.fromIWide x.length n) = .ok r ∧
      OverS x.length ((toInt x).tdiv n.toInt) r := by
  have h1 : 1 < w := by omega
  have hy : ExactS x.length n.toInt (Cast.fromIWide x.length n : Limbs w) := (C27_limb hw h4 hB 0 n).2.2.2
  have hn0 : n.toInt ≠ 0 := fun h => hn (BitVec.eq_of_toInt_eq (by simpa using h))
  generalize Cast.fromIWide x.length n = y at hy ⊢
  obtain ⟨s1, s2, s3⟩ := C51_int_div_iwide (x := x) h1 (by omega) he hn
  refine ⟨⟨s1.1 hp, s2.1 hp, s3.1 hp⟩, ?_⟩
  obtain ⟨r, e, hr, -⟩ := (C17_int_overflowing_div h1 hy.1.symm (by omega) he (by rw [hy.2]; exact hn0)).2 (by
    rw [hy.2]; exact noPanic_of_two (by omega) (by omega) (natAbs_toInt_lt n))
  exact ⟨r, e, by rwa [hy.2] at hr⟩

end sdiv

example := C98_int_div_ilimb (x := top) (by decide) (by decide) (by decide) (by decide) (n := -1) (by decide) true
example := C98_int_div_iwide_partial (x := top) (by decide) (by decide) (by decide) (by decide)
  (n := -1) (by decide) (by decide +kernel) true
example := C98_int_div_iwide_panics (x := ([0, 0, 0x2000000000000000, 0] : Limbs 64)) (by decide) (by decide)
  (by decide) (by decide) (n := 2 ^ 125 + 2 ^ 62 - 1) (by decide +kernel) (by decide +kernel)
/-- The only overflow, found by both. -/
example : I.overflowingDivILimb top (-1) = .ok (top, true) ∧
    I.overflowingDiv top (Cast.fromILimb 4 (-1)) = .ok (top, true) := by decide +kernel

/-! ### Signed division by unsigned scalars -/

section mixed
variable (hw : w = 32 ∨ w = 64) (h4 : 4 ≤ x.length) (he : x.length % 2 = 0) (hB : 128 < w * x.length)
include hw h4 he hB

/-- C98: signed division by an unsigned limb rounds down, the full division rounds to zero; they agree
exactly when the quotient needs no rounding or the numerator is not negative. -/
theorem C98_int_div_ulimb_partial {n : BitVec w} (hn : n ≠ 0) (oc : Bool) :
    (I.wrappingDiv x (Cast.fromULimb x.length n) = I.wrappingDivULimb oc x n ↔
      0 ≤ toInt x ∨ (n.toNat : Int) ∣ toInt x) ∧
    (I.wrappingRem x (Cast.fromULimb x.length n) =
        (I.wrappingRemULimb oc x n).map (Cast.fromULimb x.length) ↔
      0 ≤ toInt x ∨ (n.toNat : Int) ∣ toInt x) := by
  have h1 : 1 < w := by omega
  have cs : ∀ v : BitVec w, ExactS x.length v.toNat (Cast.fromULimb x.length v) := fun v => (C27_limb hw h4 hB v 0).1.2
  have hn0 : n.toNat ≠ 0 := fun h => hn (BitVec.eq_of_toNat_eq (by simpa using h))
  have hnz : (n.toNat : Int) ≠ 0 := by omega
  obtain ⟨a1, a2, -⟩ := C80_int_div (x := x) h1 (by omega) he (cs n).1.symm (by rw [(cs n).2]; exact hnz)
  obtain ⟨q, r, f, -, e2, e3, ho, hr⟩ := fullDivS h1 h4 he (cs n) hnz
    (C13_exact_cases (by omega) _ (.inl (by simpa using n.isLt)))
  obtain ⟨q', r', hq', hr', -, -, -, -, -, -, e2', e3', -⟩ := C51_int_div_ulimb (x := x) h1 (by omega) he hn oc
  have wd : I.wrappingDiv x (Cast.fromULimb x.length n) = .ok q := by
    rw [e2] at a1; cases f <;> exact a1.1
  have wr : I.wrappingRem x (Cast.fromULimb x.length n) = .ok r := by
    rw [e3] at a2; cases f <;> exact a2.1
  have hi : InS (w * x.length) (n.toNat : Int) := by
    have := toInt_InS (Cast.fromULimb x.length n : Limbs w)
    rwa [(cs n).2, bits, (cs n).1] at this
  have hq : ExactS x.length ((toInt x).tdiv n.toNat) q := by
    refine ho.1.exact ?_
    refine (tdiv_InS (by positivity) (toInt_InS x) hi).2 ?_
    omega
  have key : (toInt x).tdiv n.toNat = toInt x / n.toNat ↔ 0 ≤ toInt x ∨ (n.toNat : Int) ∣ toInt x := by
    rw [Int.tdiv_eq_ediv]
    by_cases c : 0 ≤ toInt x ∨ (n.toNat : Int) ∣ toInt x
    · simp [c]
    · rw [if_neg c, Int.sign_eq_one_of_pos (Int.natCast_pos.2 (Nat.pos_of_ne_zero hn0))]
      simp [c]
  have key' : (toInt x).tmod n.toNat = toInt x % n.toNat ↔ 0 ≤ toInt x ∨ (n.toNat : Int) ∣ toInt x := by
    rw [Int.tmod_eq_emod]
    by_cases c : 0 ≤ toInt x ∨ (n.toNat : Int) ∣ toInt x
    · simp [c]
    · rw [if_neg c]
      simp only [c, iff_false]
      omega
  constructor
  · rw [wd, e2', Res.ok.injEq, ← key]
    constructor
    · rintro rfl; exact hq.2.symm.trans hq'.2
    · intro e; exact hq.unique (by rwa [e])
  · rw [wr, e3', ← key']
    show Res.ok r = Res.ok _ ↔ _
    rw [Res.ok.injEq]
    constructor
    · rintro rfl; rw [← hr.2, ← hr', (cs r').2]
    · intro e; refine hr.unique ?_; rw [e, ← hr']; exact cs r'

/-- C98: the same for an unsigned double limb, if the division does not panic. -/
theorem C98_int_div_uwide_partial {n : BitVec (w + w)} (hn : n ≠ 0)
    (hp : ¬ DivPanics w 2 (toInt x).natAbs n.toNat) (oc : Bool) :
    (I.wrappingDiv x (Cast.fromUWide x.length n) = I.wrappingDivUWide oc x n ↔
      0 ≤ toInt x ∨ (n.toNat : Int) ∣ toInt x) ∧
    (I.wrappingRem x (Cast.fromUWide x.length n) =
        (I.wrappingRemUWide oc x n).map (Cast.fromUWide x.length) ↔
      0 ≤ toInt x ∨ (n.toNat : Int) ∣ toInt x) := by
  have h1 : 1 < w := by omega
  have cs : ∀ v : BitVec (w + w), ExactS x.length v.toNat (Cast.fromUWide x.length v) := fun v => (C27_limb hw h4 hB 0 v).2.1.2
  have hn0 : n.toNat ≠ 0 := fun h => hn (BitVec.eq_of_toNat_eq (by simpa using h))
  have hnz : (n.toNat : Int) ≠ 0 := by omega
  obtain ⟨a1, a2, -⟩ := C80_int_div (x := x) h1 (by omega) he (cs n).1.symm (by rw [(cs n).2]; exact hnz)
  obtain ⟨q, r, f, -, e2, e3, ho, hr⟩ := fullDivS h1 h4 he (cs n) hnz
    ⟨noPanic_of_two (by omega) (by omega) (by simpa using n.isLt),
      stray_of_two (by omega) (by simpa using n.isLt) (by simpa using hp)⟩
  obtain ⟨-, -, -, s1, s2⟩ := C51_int_div_uwide (x := x) h1 (by omega) he hn oc
  obtain ⟨q', e2', hq'⟩ := (s1 (I.wrappingDivUWide oc) (by simp)).2 hp
  obtain ⟨r', e3', hr'⟩ := (s2 (I.wrappingRemUWide oc) (by simp)).2 hp
  have wd : I.wrappingDiv x (Cast.fromUWide x.length n) = .ok q := by
    rw [e2] at a1; cases f <;> exact a1.1
  have wr : I.wrappingRem x (Cast.fromUWide x.length n) = .ok r := by
    rw [e3] at a2; cases f <;> exact a2.1
  have hi : InS (w * x.length) (n.toNat : Int) := by
    have := toInt_InS (Cast.fromUWide x.length n : Limbs w)
    rwa [(cs n).2, bits, (cs n).1] at this
  have hq : ExactS x.length ((toInt x).tdiv n.toNat) q := by
    refine ho.1.exact ?_
    refine (tdiv_InS (by positivity) (toInt_InS x) hi).2 ?_
    omega
  have key : (toInt x).tdiv n.toNat = toInt x / n.toNat ↔ 0 ≤ toInt x ∨ (n.toNat : Int) ∣ toInt x := by
    rw [Int.tdiv_eq_ediv]
    by_cases c : 0 ≤ toInt x ∨ (n.toNat : Int) ∣ toInt x
    · simp [c]
    · rw [if_neg c, Int.sign_eq_one_of_pos (Int.natCast_pos.2 (Nat.pos_of_ne_zero hn0))]
      simp [c]
  have key' : (toInt x).tmod n.toNat = toInt x % n.toNat ↔ 0 ≤ toInt x ∨ (n.toNat : Int) ∣ toInt x := by
    rw [Int.tmod_eq_emod]
    by_cases c : 0 ≤ toInt x ∨ (n.toNat : Int) ∣ toInt x
    · simp [c]
    · rw [if_neg c]
      simp only [c, iff_false]
      omega
  constructor
  · rw [wd, e2', Res.ok.injEq, ← key]
    constructor
    · rintro rfl; exact hq.2.symm.trans hq'.2
    · intro e; exact hq.unique (by rwa [e])
  · rw [wr, e3', ← key']
    show Res.ok r = Res.ok _ ↔ _
    rw [Res.ok.injEq]
    constructor
    · rintro rfl; rw [← hr.2, ← hr', (cs r').2]
    · intro e; refine hr.unique ?_; rw [e, ← hr']; exact cs r'

end mixed

example := C98_int_div_ulimb_partial (x := ones) (by decide) (by decide) (by decide) (by decide) (n := 2)
  (by decide) true
example := C98_int_div_uwide_partial (x := ones) (by decide) (by decide) (by decide) (by decide)
  (n := 0x1000000000000000000000000) (by decide +kernel) (by decide +kernel) true

/-- C98 is false for signed division by unsigned scalars: `-1 / 2` is `-1` with the scalar and `0` with the
converted scalar; the remainders are `1` and `-1`. -/
theorem C98_int_div_ulimb_false :
    I.wrappingDivULimb true ones 2 = .ok ones ∧ I.wrappingDiv ones (Cast.fromULimb 4 2) = .ok zero ∧
      I.wrappingRemULimb true ones 2 = .ok 1 ∧ I.wrappingRem ones (Cast.fromULimb 4 2) = .ok ones := by
  decide +kernel

/-! ### Division by scalars of fixed width -/

section divfixed
variable (hw : w = 32 ∨ w = 64) (hx : 256 ≤ w * x.length) (he : x.length % 2 = 0)
include hw hx he

/-- C98: unsigned division by `u32`, `u64` and `u128` other than zero, if neither division has to correct
an estimate in a way that shows (see C13, C14 and C55). -/
theorem C98_uint_div_fixed_partial (k : Fix) {n : BitVec k.n} (hn : n ≠ 0)
    (hp : ¬ ScalarPanics w k.n (toNat x) n.toNat) (hd : DivExact w x.length (toNat x) n.toNat) (oc : Bool) :
    let y := Cast.ofFixU (w := w) x.length k n
    let c := Cast.ofFixU (w := w) x.length k
    SameForms (fun p => (p.1, c p.2)) (U.wrappingDivRem x y) (U.overflowingDivRem x y) (U.checkedDivRem x y)
      (U.divRem oc x y) (U.wrappingDivRemFix k x n) (U.overflowingDivRemFix k x n)
      (U.checkedDivRemFix k x n) (U.divRemFix oc k x n) ∧
    SameForms id (U.wrappingDiv x y) (U.overflowingDiv x y) (U.checkedDiv x y) (U.div oc x y)
      (U.wrappingDivFix k x n) (U.overflowingDivFix k x n) (U.checkedDivFix k x n) (U.divFix oc k x n) ∧
    SameForms c (U.wrappingRem x y) (U.overflowingRem x y) (U.checkedRem x y) (U.rem oc x y)
      (U.wrappingRemFix k x n) (U.overflowingRemFix k x n) (U.checkedRemFix k x n) (U.remFix oc k x n) := by
  intro y c
  have h0 : 0 < w := by omega
  have h4 := four_le hw hx
  have cs : ∀ v : BitVec k.n, ExactU x.length v.toNat (c v) := fun v => (ofFixU_spec hw h4 (by omega) k v).1
  have hn0 : n.toNat ≠ 0 := fun h => hn (BitVec.eq_of_toNat_eq (by simpa using h))
  have hy0 : toNat y ≠ 0 := by
    have := (cs n).2
    show toNat (c n) ≠ 0
    omega
  have h0s : scalarStray w x.length k.n (toNat x) n.toNat = 0 := by
    rw [scalarStray, hd.2, Nat.zero_mod, ite_self]
  obtain ⟨a1, a2, -, -, a3, -⟩ := C80_uint_div (x := x) (y := y) (by omega) he (cs n).1.symm hy0
  obtain ⟨b3, b1, b2, -⟩ := C80_fixed_div hw hx he k hn oc
  obtain ⟨q, r, e, hq, hr⟩ := fullDivU h0 h4 he (cs n) hn0 hd
  obtain ⟨-, -, s3, -, -, -, -, s1, s2⟩ := C55_uint_div_fixed_partial hw hx k hn oc
  have rem : ∀ t : BitVec k.n, t.toNat = (toNat x % n.toNat + scalarStray w x.length k.n (toNat x) n.toNat) %
      2 ^ k.n → r = c t := by
    intro t ht
    rw [h0s, Nat.add_zero, Nat.mod_eq_of_lt ((Nat.mod_lt _ (by omega)).trans n.isLt)] at ht
    exact hr.unique (by rw [← ht]; exact cs t)
  refine ⟨a3.sameForms _ b3 ?_, a1.sameForms _ b1 ?_, a2.sameForms _ b2 ?_⟩
  · obtain ⟨⟨⟨q', r'⟩, f⟩, e', rfl, h1, h2⟩ := s3.2 hp
    rw [U.overflowingDivRem, e, e', hq.unique (by simpa using h1), rem _ h2]; rfl
  · obtain ⟨⟨q', f⟩, e', rfl, h1⟩ := s1.2 hp
    rw [U.overflowingDiv, U.wrappingDiv, e, e', hq.unique (by simpa using h1)]; rfl
  · obtain ⟨⟨r', f⟩, e', rfl, h1⟩ := s2.2 hp
    rw [U.overflowingRem, U.wrappingRem, e, e', rem _ h1]; rfl

/-- C98: signed division by `i32`, `i64` and `i128` other than zero, under the same condition. -/
theorem C98_int_div_fixed_partial (k : Fix) {n : BitVec k.n} (hn : n ≠ 0)
    (hp : ¬ ScalarPanics w k.n (toInt x).natAbs n.toInt.natAbs)
    (hd : DivExact w x.length (toInt x).natAbs n.toInt.natAbs) (oc : Bool) :
    let y := Cast.ofFixI (w := w) x.length k n
    let c := Cast.ofFixI (w := w) x.length k
    SameForms (fun p => (p.1, c p.2)) (I.wrappingDivRem x y) (I.overflowingDivRem x y) (I.checkedDivRem x y)
      (I.divRem oc x y) (I.wrappingDivRemFixI k x n) (I.overflowingDivRemFixI k x n)
      (I.checkedDivRemFixI k x n) (I.divRemFixI oc k x n) ∧
    SameForms id (I.wrappingDiv x y) (I.overflowingDiv x y) (I.checkedDiv x y) (I.div oc x y)
      (I.wrappingDivFixI k x n) (I.overflowingDivFixI k x n) (I.checkedDivFixI k x n) (I.divFixI oc k x n) ∧
    SameForms c (I.wrappingRem x y) (I.overflowingRem x y) (I.checkedRem x y) (I.rem oc x y)
      (I.wrappingRemFixI k x n) (I.overflowingRemFixI k x n) (I.checkedRemFixI k x n) (I.remFixI oc k x n) := by
  intro y c
  have h1 : 1 < w := by omega
  have h4 := four_le hw hx
  have cs : ∀ v : BitVec k.n, ExactS x.length v.toInt (c v) := fun v => ofFixI_spec hw h4 k v
  have hn0 : n.toInt ≠ 0 := fun h => hn (BitVec.eq_of_toInt_eq (by simpa using h))
  have hy0 : toInt y ≠ 0 := by
    rw [show toInt y = n.toInt from (cs n).2]; exact hn0
  have h0s : scalarStray w x.length k.n (toInt x).natAbs n.toInt.natAbs = 0 := by
    rw [scalarStray, hd.2, Nat.zero_mod, ite_self]
  obtain ⟨a1, a2, -, -, a3, -⟩ := C80_int_div (x := x) (y := y) h1 (by omega) he (cs n).1.symm hy0
  obtain ⟨-, -, -, -, -, -, b3, b1, b2⟩ := C80_fixed_div hw hx he k hn oc
  obtain ⟨q, r, f, e1, e2, e3, ho, hr⟩ := fullDivS h1 h4 he (cs n) hn0 hd
  obtain ⟨-, s3, -, -, -, -, s1, s2, -⟩ := C55_int_div_fixed_signed_partial hw hx he k hn h0s
  have rem : ∀ t : BitVec k.n, t.toInt = (toInt x).tmod n.toInt → r = c t := fun t ht =>
    hr.unique (by rw [← ht]; exact cs t)
  refine ⟨a3.sameForms _ b3 ?_, a1.sameForms _ b1 ?_, a2.sameForms _ b2 ?_⟩
  · obtain ⟨⟨⟨q', r'⟩, f'⟩, e', ho', h2⟩ := s3.2 hp
    obtain ⟨rfl, rfl⟩ := Prod.ext_iff.1 (OverS.unique ho ho')
    rw [e1, e', rem _ h2]; rfl
  · obtain ⟨⟨q', f'⟩, e', ho'⟩ := s1.2 hp
    obtain ⟨rfl, rfl⟩ := Prod.ext_iff.1 (OverS.unique ho ho')
    rw [e2, e']; rfl
  · obtain ⟨⟨r', f'⟩, e', hf, h2⟩ := s2.2 hp
    have ef : f = f' := Bool.eq_iff_iff.2 (ho.2.trans hf.symm)
    rw [e3, e', rem _ h2, ef]; rfl

end divfixed

example := C98_uint_div_fixed_partial (x := b32) (by decide) (by decide) (by decide) .b32 (n := 10) (by decide)
  (by decide +kernel) (by decide +kernel) true
example := C98_int_div_fixed_partial (x := top) (by decide) (by decide) (by decide) .b64 (n := -1) (by decide)
  (by decide +kernel) (by decide +kernel) true

/-! ### Zero divisors -/

/-- C98: division by the scalar zero.  The checked forms agree; the wrapping forms agree (both panic)
exactly for the numerators other than zero. -/
theorem C98_div_zero_partial (hw : w = 32 ∨ w = 64) (h4 : 4 ≤ x.length) (he : x.length % 2 = 0)
    (hB : 128 < w * x.length) :
    (U.checkedDivULimb x 0 = U.checkedDiv x (Cast.fromULimb x.length 0) ∧
      U.checkedDivUWide x 0 = U.checkedDiv x (Cast.fromUWide x.length 0) ∧
      I.checkedDivILimb x 0 = I.checkedDiv x (Cast.fromILimb x.length 0) ∧
      I.checkedDivIWide x 0 = I.checkedDiv x (Cast.fromIWide x.length 0)) ∧
    (U.wrappingDivULimb x 0 = U.wrappingDiv x (Cast.fromULimb x.length 0) ↔ toNat x ≠ 0) ∧
    (U.wrappingDivUWide x 0 = U.wrappingDiv x (Cast.fromUWide x.length 0) ↔ toNat x ≠ 0) ∧
    (I.wrappingDivILimb x 0 = I.wrappingDiv x (Cast.fromILimb x.length 0) ↔ toInt x ≠ 0) ∧
    (I.wrappingDivIWide x 0 = I.wrappingDiv x (Cast.fromIWide x.length 0) ↔ toInt x ≠ 0) := by
  have h1 : 1 < w := by omega
  obtain ⟨⟨c1, -⟩, ⟨c2, -⟩, c3, c4⟩ := C27_limb hw h4 hB (0 : BitVec w) (0 : BitVec (w + w))
  generalize Cast.fromULimb x.length (0 : BitVec w) = y1 at c1 ⊢
  generalize Cast.fromUWide x.length (0 : BitVec (w + w)) = y2 at c2 ⊢
  generalize Cast.fromILimb x.length (0 : BitVec w) = y3 at c3 ⊢
  generalize Cast.fromIWide x.length (0 : BitVec (w + w)) = y4 at c4 ⊢
  have v1 : toNat y1 = 0 := by simpa using c1.2
  have v2 : toNat y2 = 0 := by simpa using c2.2
  have v3 : toInt y3 = 0 := by simpa using c3.2
  have v4 : toInt y4 = 0 := by simpa using c4.2
  have hx : x ≠ [] := by rintro rfl; simp at h4
  have f1 := (C15_uint_div_zero_all_partial (by omega) c1.1.symm (by omega) he v1).1 U.wrappingDiv (by simp)
  have f2 := (C15_uint_div_zero_all_partial (by omega) c2.1.symm (by omega) he v2).1 U.wrappingDiv (by simp)
  have f3 := (C15_int_div_zero_all_partial h1 c3.1.symm (by omega) he v3).1 I.wrappingDiv (by simp)
  have f4 := (C15_int_div_zero_all_partial h1 c4.1.symm (by omega) he v4).1 I.wrappingDiv (by simp)
  have s1 := (C16_uint_div_ulimb_zero_forms hx true).1 U.wrappingDivULimb (by simp)
  obtain ⟨-, k2, -, -, -, -, -, s2, -⟩ := C16_uint_div_uwide_zero_forms (x := x) (by omega) (by omega)
  replace s2 := s2 U.wrappingDivUWide (by simp)
  obtain ⟨-, -, -, -, k3, -, k4, -, s3, -, -, -, -, -, s4, -⟩ :=
    C51_int_div_zero_forms (x := x) h1 (by omega) he true
  replace s3 := s3 I.wrappingDivILimb (by simp)
  replace s4 := s4 I.wrappingDivIWide (by simp)
  have one_ne : ∀ {P : Prop} {r s : Res (Limbs w)} {Q Q' : Limbs w → Prop}, Yields P Q r → Yields P Q' s →
      (∀ v, Q v → ¬ Q' v) → (r = s ↔ P) := by
    intro P r s Q Q' h h' hq
    refine ⟨fun e => ?_, fun p => by rw [h.1 p, h'.1 p]⟩
    by_contra p
    obtain ⟨v, e1, hv⟩ := h.2 p
    obtain ⟨v', e2, hv'⟩ := h'.2 p
    rw [e1, e2, Res.ok.injEq] at e
    exact hq v hv (e ▸ hv')
  refine ⟨⟨?_, ?_, ?_, ?_⟩, ?_, ?_, ?_, ?_⟩
  · rw [(C15_uint_div_zero_partial (by omega) c1.1.symm (by omega) he v1).2.1 U.checkedDiv (by simp)]
    exact (C16_uint_div_ulimb_zero hx true).2.2.2.2.2.1
  · rw [(C15_uint_div_zero_partial (by omega) c2.1.symm (by omega) he v2).2.1 U.checkedDiv (by simp), k2]
  · rw [(C15_int_div_zero_partial h1 c3.1.symm (by omega) he v3).2.1 I.checkedDiv (by simp), k3]
  · rw [(C15_int_div_zero_partial h1 c4.1.symm (by omega) he v4).2.1 I.checkedDiv (by simp), k4]
  · rw [s1, eq_comm]; exact f1.panic_iff
  · exact one_ne s2 f2 fun v h h' => by have := h.2.symm.trans h'.2; omega
  · rw [s3, eq_comm]; exact f3.panic_iff
  · exact one_ne s4 f4 fun v h h' => by have := h.2.symm.trans h'.2; omega

example := C98_div_zero_partial (x := a) (by decide) (by decide) (by decide) (by decide)

/-- C98 is false for `0 / 0`: the full form returns 1, the form with a limb panics, and the form with a
double limb returns 0. -/
theorem C98_div_zero_false :
    U.wrappingDiv zero (Cast.fromULimb 4 0) = .ok one ∧ U.wrappingDivULimb zero 0 = .panic ∧
      U.wrappingDivUWide zero 0 = .ok zero := by
  decide +kernel

end I256
