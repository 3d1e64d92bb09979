import Verif.Lemmas.Same
import Verif.Props.Samples
import Verif.Props.AddSub
import Verif.Props.Sign
import Verif.Props.Mul
import Verif.Props.Pow

/-!
# Limb size independence (C40): arithmetic

`x`, `y` are operands in one build and `x'`, `y'` the same operands in the other (`Twins`).
-/

namespace I256

open Sample

variable {w v : Nat} {x y : Limbs w} {x' y' : Limbs v}

/-- The 256-bit number `2^32 - 1 + 7 * 2^224` on 64-bit limbs. -/
def Sample.b64 : Limbs 64 := [0xffffffff, 0, 0, 0x700000000]

theorem Sample.twins_b : Twins b32 b64 := ⟨⟨.inl rfl, .inr rfl, by decide, by decide, by decide, by decide⟩, by decide⟩
theorem Sample.twins_ones : Twins ones32 ones := ⟨⟨.inl rfl, .inr rfl, by decide, by decide, by decide, by decide⟩, by decide⟩

/-! ### Addition and subtraction -/

/-- C40: every form of unsigned addition and subtraction. -/
theorem C40_uint_add_sub (hx : Twins x x') (hy : Twins y y') (hl : x.length = y.length) (oc : Bool) :
    Same (U.wrappingAdd x y) (U.wrappingAdd x' y') ∧
    Same (U.wrappingSub x y) (U.wrappingSub x' y') ∧
    SameFlag (U.overflowingAdd x y) (U.overflowingAdd x' y') ∧
    SameFlag (U.overflowingSub x y) (U.overflowingSub x' y') ∧
    SameOpt (U.checkedAdd x y) (U.checkedAdd x' y') ∧
    SameOpt (U.checkedSub x y) (U.checkedSub x' y') ∧
    Same (U.saturatingAdd x y) (U.saturatingAdd x' y') ∧
    Same (U.saturatingSub x y) (U.saturatingSub x' y') ∧
    SameRes Same (U.strictAdd x y) (U.strictAdd x' y') ∧
    SameRes Same (U.strictSub x y) (U.strictSub x' y') ∧
    SameRes Same (U.add oc x y) (U.add oc x' y') ∧
    SameRes Same (U.sub oc x y) (U.sub oc x' y') := by
  have e := hx.builds.width
  have hl' := hx.len hy hl
  have gx := hx.symm
  exact ⟨Same.wrapU e (C01_uint_wrapping_add hx.pos hl) (C01_uint_wrapping_add gx.pos hl') (by simp only [hx.value, hy.value, hx.int, hy.int]),
    Same.wrapU e (C01_uint_wrapping_sub hx.pos hl) (C01_uint_wrapping_sub gx.pos hl') (by simp only [hx.value, hy.value, hx.int, hy.int]),
    Same.overU e (C02_uint_overflowing_add hx.pos hl) (C02_uint_overflowing_add gx.pos hl') (by simp only [hx.value, hy.value, hx.int, hy.int]),
    Same.overU e ((C02_uint_overflowing_sub hx.pos hl).1) ((C02_uint_overflowing_sub gx.pos hl').1) (by simp only [hx.value, hy.value, hx.int, hy.int]),
    Same.checkU e (C02_uint_checked_add hx.pos hl) (C02_uint_checked_add gx.pos hl') (by simp only [hx.value, hy.value, hx.int, hy.int]),
    Same.checkU e (C02_uint_checked_sub hx.pos hl) (C02_uint_checked_sub gx.pos hl') (by simp only [hx.value, hy.value, hx.int, hy.int]),
    Same.satU e (C02_uint_saturating_add hx.pos hl) (C02_uint_saturating_add gx.pos hl') (by simp only [hx.value, hy.value, hx.int, hy.int]),
    Same.satU e (C02_uint_saturating_sub hx.pos hl) (C02_uint_saturating_sub gx.pos hl') (by simp only [hx.value, hy.value, hx.int, hy.int]),
    Same.strictU e (C02_uint_strict_add hx.pos hl) (C02_uint_strict_add gx.pos hl') (by simp only [hx.value, hy.value, hx.int, hy.int]),
    Same.strictU e (C02_uint_strict_sub hx.pos hl) (C02_uint_strict_sub gx.pos hl') (by simp only [hx.value, hy.value, hx.int, hy.int]),
    Same.opU e ((C42_uint_add_sub hx.pos hl oc).1) ((C42_uint_add_sub gx.pos hl' oc).1) (by simp only [hx.value, hy.value, hx.int, hy.int]),
    Same.opU e ((C42_uint_add_sub hx.pos hl oc).2) ((C42_uint_add_sub gx.pos hl' oc).2) (by simp only [hx.value, hy.value, hx.int, hy.int])⟩

example := C40_uint_add_sub twins_b twins_ones rfl true
example : Same (U.wrappingAdd b32 ones32) (U.wrappingAdd b64 ones) := by decide


/-- C40: every form of signed addition and subtraction. -/
theorem C40_int_add_sub (hx : Twins x x') (hy : Twins y y') (hl : x.length = y.length) (oc : Bool) :
    Same (I.wrappingAdd x y) (I.wrappingAdd x' y') ∧
    Same (I.wrappingSub x y) (I.wrappingSub x' y') ∧
    SameFlag (I.overflowingAdd x y) (I.overflowingAdd x' y') ∧
    SameFlag (I.overflowingSub x y) (I.overflowingSub x' y') ∧
    SameOpt (I.checkedAdd x y) (I.checkedAdd x' y') ∧
    SameOpt (I.checkedSub x y) (I.checkedSub x' y') ∧
    Same (I.saturatingAdd x y) (I.saturatingAdd x' y') ∧
    Same (I.saturatingSub x y) (I.saturatingSub x' y') ∧
    SameRes Same (I.strictAdd x y) (I.strictAdd x' y') ∧
    SameRes Same (I.strictSub x y) (I.strictSub x' y') ∧
    SameRes Same (I.add oc x y) (I.add oc x' y') ∧
    SameRes Same (I.sub oc x y) (I.sub oc x' y') := by
  have e := hx.builds.width
  have hl' := hx.len hy hl
  have gx := hx.symm
  exact ⟨Same.wrapS e (C03_int_wrapping_add hx.pos hl) (C03_int_wrapping_add gx.pos hl') (by simp only [hx.value, hy.value, hx.int, hy.int]),
    Same.wrapS e (C03_int_wrapping_sub hx.pos hl) (C03_int_wrapping_sub gx.pos hl') (by simp only [hx.value, hy.value, hx.int, hy.int]),
    Same.overS e (C03_int_overflowing_add hx.one hx.ne hl) (C03_int_overflowing_add gx.one gx.ne hl') (by simp only [hx.value, hy.value, hx.int, hy.int]),
    Same.overS e (C03_int_overflowing_sub hx.one hx.ne hl) (C03_int_overflowing_sub gx.one gx.ne hl') (by simp only [hx.value, hy.value, hx.int, hy.int]),
    Same.checkS e (C03_int_checked_add hx.one hx.ne hl) (C03_int_checked_add gx.one gx.ne hl') (by simp only [hx.value, hy.value, hx.int, hy.int]),
    Same.checkS e (C03_int_checked_sub hx.one hx.ne hl) (C03_int_checked_sub gx.one gx.ne hl') (by simp only [hx.value, hy.value, hx.int, hy.int]),
    Same.satS e (C03_int_saturating_add hx.one hx.ne hl) (C03_int_saturating_add gx.one gx.ne hl') (by simp only [hx.value, hy.value, hx.int, hy.int]),
    Same.satS e (C03_int_saturating_sub hx.one hx.ne hl) (C03_int_saturating_sub gx.one gx.ne hl') (by simp only [hx.value, hy.value, hx.int, hy.int]),
    Same.strictS e ((C03_int_strict_add_sub hx.one hx.ne hl).1) ((C03_int_strict_add_sub gx.one gx.ne hl').1) (by simp only [hx.value, hy.value, hx.int, hy.int]),
    Same.strictS e ((C03_int_strict_add_sub hx.one hx.ne hl).2) ((C03_int_strict_add_sub gx.one gx.ne hl').2) (by simp only [hx.value, hy.value, hx.int, hy.int]),
    Same.opS e ((C42_int_add_sub hx.one hx.ne hl oc).1) ((C42_int_add_sub gx.one gx.ne hl' oc).1) (by simp only [hx.value, hy.value, hx.int, hy.int]),
    Same.opS e ((C42_int_add_sub hx.one hx.ne hl oc).2) ((C42_int_add_sub gx.one gx.ne hl' oc).2) (by simp only [hx.value, hy.value, hx.int, hy.int])⟩

example := C40_int_add_sub twins_b twins_ones rfl true
example : SameFlag (I.overflowingSub b32 ones32) (I.overflowingSub b64 ones) := by decide


/-- C40: addition of signed to unsigned values and subtraction. -/
theorem C40_uint_add_signed (hx : Twins x x') (hy : Twins y y') (hl : x.length = y.length) :
    Same (U.wrappingAddSigned x y) (U.wrappingAddSigned x' y') ∧
    SameFlag (U.overflowingAddSigned x y) (U.overflowingAddSigned x' y') ∧
    SameFlag (U.overflowingSubSigned x y) (U.overflowingSubSigned x' y') ∧
    SameOpt (U.checkedAddSigned x y) (U.checkedAddSigned x' y') ∧
    SameRes Same (U.strictAddSigned x y) (U.strictAddSigned x' y') ∧
    Same (U.saturatingAddSigned x y) (U.saturatingAddSigned x' y') ∧
    SameOpt (U.checkedSignedDiff x y) (U.checkedSignedDiff x' y') := by
  have e := hx.builds.width
  have hl' := hx.len hy hl
  have gx := hx.symm
  exact ⟨Same.wrapU e (C04_uint_wrapping_add_signed hx.pos hx.ne hl) (C04_uint_wrapping_add_signed gx.pos gx.ne hl') (by simp only [hx.value, hy.value, hx.int, hy.int]),
    Same.overU e (C04_uint_overflowing_add_signed hx.pos hx.ne hl) (C04_uint_overflowing_add_signed gx.pos gx.ne hl') (by simp only [hx.value, hy.value, hx.int, hy.int]),
    Same.overU e (C04_uint_overflowing_sub_signed hx.pos hx.ne hl) (C04_uint_overflowing_sub_signed gx.pos gx.ne hl') (by simp only [hx.value, hy.value, hx.int, hy.int]),
    Same.checkU e ((C04_uint_checked_add_signed hx.pos hx.ne hl).1) ((C04_uint_checked_add_signed gx.pos gx.ne hl').1) (by simp only [hx.value, hy.value, hx.int, hy.int]),
    Same.strictU e ((C04_uint_checked_add_signed hx.pos hx.ne hl).2) ((C04_uint_checked_add_signed gx.pos gx.ne hl').2) (by simp only [hx.value, hy.value, hx.int, hy.int]),
    Same.satU e (C04_uint_saturating_add_signed hx.pos hx.ne hl) (C04_uint_saturating_add_signed gx.pos gx.ne hl') (by simp only [hx.value, hy.value, hx.int, hy.int]),
    Same.checkS e (C45_checked_signed_diff hx.pos hl hx.even hx.two) (C45_checked_signed_diff gx.pos hl' gx.even gx.two) (by simp only [hx.value, hy.value, hx.int, hy.int])⟩

example := C40_uint_add_signed twins_b twins_ones rfl


/-- C40: addition of unsigned to signed values and subtraction. -/
theorem C40_int_add_unsigned (hx : Twins x x') (hy : Twins y y') (hl : x.length = y.length) :
    SameFlag (I.overflowingAddUnsigned x y) (I.overflowingAddUnsigned x' y') ∧
    SameFlag (I.overflowingSubUnsigned x y) (I.overflowingSubUnsigned x' y') ∧
    SameOpt (I.checkedAddUnsigned x y) (I.checkedAddUnsigned x' y') ∧
    SameOpt (I.checkedSubUnsigned x y) (I.checkedSubUnsigned x' y') ∧
    SameRes Same (I.strictAddUnsigned x y) (I.strictAddUnsigned x' y') ∧
    SameRes Same (I.strictSubUnsigned x y) (I.strictSubUnsigned x' y') ∧
    Same (I.saturatingAddUnsigned x y) (I.saturatingAddUnsigned x' y') ∧
    Same (I.saturatingSubUnsigned x y) (I.saturatingSubUnsigned x' y') := by
  have e := hx.builds.width
  have hl' := hx.len hy hl
  have gx := hx.symm
  exact ⟨Same.overS e (C04_int_overflowing_add_unsigned hx.one hx.ne hl) (C04_int_overflowing_add_unsigned gx.one gx.ne hl') (by simp only [hx.value, hy.value, hx.int, hy.int]),
    Same.overS e ((C04_int_overflowing_sub_unsigned hx.one hx.ne hl).1) ((C04_int_overflowing_sub_unsigned gx.one gx.ne hl').1) (by simp only [hx.value, hy.value, hx.int, hy.int]),
    Same.checkS e ((C04_int_checked_unsigned hx.one hx.ne hl).1) ((C04_int_checked_unsigned gx.one gx.ne hl').1) (by simp only [hx.value, hy.value, hx.int, hy.int]),
    Same.checkS e ((C04_int_checked_unsigned hx.one hx.ne hl).2.1) ((C04_int_checked_unsigned gx.one gx.ne hl').2.1) (by simp only [hx.value, hy.value, hx.int, hy.int]),
    Same.strictS e ((C04_int_checked_unsigned hx.one hx.ne hl).2.2.1) ((C04_int_checked_unsigned gx.one gx.ne hl').2.2.1) (by simp only [hx.value, hy.value, hx.int, hy.int]),
    Same.strictS e ((C04_int_checked_unsigned hx.one hx.ne hl).2.2.2) ((C04_int_checked_unsigned gx.one gx.ne hl').2.2.2) (by simp only [hx.value, hy.value, hx.int, hy.int]),
    Same.satS e (C04_int_saturating_add_unsigned hx.one hx.ne hl) (C04_int_saturating_add_unsigned gx.one gx.ne hl') (by simp only [hx.value, hy.value, hx.int, hy.int]),
    Same.satS e (C04_int_saturating_sub_unsigned hx.one hx.ne hl) (C04_int_saturating_sub_unsigned gx.one gx.ne hl') (by simp only [hx.value, hy.value, hx.int, hy.int])⟩

example := C40_int_add_unsigned twins_b twins_ones rfl


/-- C40: one word of multi-word addition and subtraction, unsigned. -/
theorem C40_carrying (hx : Twins x x') (hy : Twins y y') (hl : x.length = y.length) (c : Bool) :
    SameFlag (U.carryingAdd x y c) (U.carryingAdd x' y' c) ∧
    SameFlag (U.borrowingSub x y c) (U.borrowingSub x' y' c) := by
  have e := hx.builds.width
  have hl' := hx.len hy hl
  have gx := hx.symm
  exact ⟨Same.overU e ((C37_uint_carrying hx.pos hx.ne hl c).1) ((C37_uint_carrying gx.pos gx.ne hl' c).1) (by simp only [hx.value, hy.value, hx.int, hy.int]),
    Same.overU e ((C37_uint_carrying hx.pos hx.ne hl c).2) ((C37_uint_carrying gx.pos gx.ne hl' c).2) (by simp only [hx.value, hy.value, hx.int, hy.int])⟩

example := C40_carrying twins_b twins_ones rfl true


/-- C40: negation, absolute value and sign of signed values. -/
theorem C40_int_neg_abs (hx : Twins x x') (oc : Bool) :
    Same (I.wrappingNeg x) (I.wrappingNeg x') ∧
    SameFlag (I.overflowingNeg x) (I.overflowingNeg x') ∧
    SameOpt (I.checkedNeg x) (I.checkedNeg x') ∧
    SameRes Same (I.strictNeg x) (I.strictNeg x') ∧
    SameRes Same (I.neg oc x) (I.neg oc x') ∧
    Same (I.saturatingNeg x) (I.saturatingNeg x') ∧
    Same (I.wrappingAbs x) (I.wrappingAbs x') ∧
    SameFlag (I.overflowingAbs x) (I.overflowingAbs x') ∧
    SameOpt (I.checkedAbs x) (I.checkedAbs x') ∧
    SameRes Same (I.abs x) (I.abs x') ∧
    Same (I.saturatingAbs x) (I.saturatingAbs x') ∧
    Same (I.unsignedAbs x) (I.unsignedAbs x') ∧
    Same (I.signum x) (I.signum x') := by
  have e := hx.builds.width
  have gx := hx.symm
  exact ⟨Same.wrapS e (C36_int_wrapping_neg hx.pos hx.two) (C36_int_wrapping_neg gx.pos gx.two) (by simp only [hx.int]),
    Same.overS e ((C36_int_neg hx.pos hx.two hx.even oc).1) ((C36_int_neg gx.pos gx.two gx.even oc).1) (by simp only [hx.int]),
    Same.checkS e ((C36_int_neg hx.pos hx.two hx.even oc).2.2.1) ((C36_int_neg gx.pos gx.two gx.even oc).2.2.1) (by simp only [hx.int]),
    Same.strictS e ((C36_int_neg hx.pos hx.two hx.even oc).2.2.2.1) ((C36_int_neg gx.pos gx.two gx.even oc).2.2.2.1) (by simp only [hx.int]),
    Same.opS e ((C36_int_neg hx.pos hx.two hx.even oc).2.2.2.2) ((C36_int_neg gx.pos gx.two gx.even oc).2.2.2.2) (by simp only [hx.int]),
    Same.satS e (C36_int_saturating_neg hx.one hx.two) (C36_int_saturating_neg gx.one gx.two) (by simp only [hx.int]),
    Same.wrapS e ((C36_int_abs hx.pos hx.two hx.even).1) ((C36_int_abs gx.pos gx.two gx.even).1) (by simp only [hx.int]),
    Same.overS e ((C36_int_abs hx.pos hx.two hx.even).2.1) ((C36_int_abs gx.pos gx.two gx.even).2.1) (by simp only [hx.int]),
    Same.checkS e ((C36_int_abs hx.pos hx.two hx.even).2.2.2.1) ((C36_int_abs gx.pos gx.two gx.even).2.2.2.1) (by simp only [hx.int]),
    Same.strictS e ((C36_int_abs hx.pos hx.two hx.even).2.2.2.2.1) ((C36_int_abs gx.pos gx.two gx.even).2.2.2.2.1) (by simp only [hx.int]),
    Same.satS e ((C36_int_abs hx.pos hx.two hx.even).2.2.2.2.2) ((C36_int_abs gx.pos gx.two gx.even).2.2.2.2.2) (by simp only [hx.int]),
    Same.exactU e (C36_int_unsigned_abs hx.pos hx.two hx.even) (C36_int_unsigned_abs gx.pos gx.two gx.even) (by simp only [hx.int]),
    Same.exactS e (C36_int_signum hx.one hx.two hx.even) (C36_int_signum gx.one gx.two gx.even) (by simp only [hx.int])⟩

example := C40_int_neg_abs twins_ones true


/-- C40: absolute difference and unsigned negation. -/
theorem C40_abs_diff (hx : Twins x x') (hy : Twins y y') (hl : x.length = y.length) :
    Same (U.absDiff x y) (U.absDiff x' y') ∧
    Same (I.absDiff x y) (I.absDiff x' y') ∧
    Same (U.wrappingNeg x) (U.wrappingNeg x') ∧
    SameOpt (U.checkedNeg x) (U.checkedNeg x') := by
  have e := hx.builds.width
  have hl' := hx.len hy hl
  have gx := hx.symm
  exact ⟨Same.exactU e (C35_uint_abs_diff hx.pos hl hx.even hx.two) (C35_uint_abs_diff gx.pos hl' gx.even gx.two) (by simp only [hx.value, hy.value, hx.int, hy.int]),
    Same.exactU e (C36_int_abs_diff hx.pos hl hx.even hx.two) (C36_int_abs_diff gx.pos hl' gx.even gx.two) (by simp only [hx.value, hy.value, hx.int, hy.int]),
    Same.wrapU e ((C45_uint_neg hx.pos hx.even).1) ((C45_uint_neg gx.pos gx.even).1) (by simp only [hx.value, hy.value, hx.int, hy.int]),
    Same.checkU e ((C45_uint_neg hx.pos hx.even).2.1) ((C45_uint_neg gx.pos gx.even).2.1) (by simp only [hx.value, hy.value, hx.int, hy.int])⟩

example := C40_abs_diff twins_b twins_ones rfl


/-! ### Multiplication and powers -/

/-- C40: every form of unsigned multiplication. -/
theorem C40_uint_mul (hx : Twins x x') (hy : Twins y y') (hl : x.length = y.length) (oc : Bool) :
    Same (U.wrappingMul x y) (U.wrappingMul x' y') ∧
    SameFlag (U.overflowingMul x y) (U.overflowingMul x' y') ∧
    SameOpt (U.checkedMul x y) (U.checkedMul x' y') ∧
    Same (U.saturatingMul x y) (U.saturatingMul x' y') ∧
    SameRes Same (U.strictMul x y) (U.strictMul x' y') ∧
    SameRes Same (U.mul oc x y) (U.mul oc x' y') := by
  have e := hx.builds.width
  have hl' := hx.len hy hl
  have gx := hx.symm
  exact ⟨Same.wrapU e (C06_uint_wrapping_mul hx.ne hl) (C06_uint_wrapping_mul gx.ne hl') (by simp only [hx.value, hy.value, hx.int, hy.int]),
    Same.overU e (C07_uint_overflowing_mul hx.ne hl) (C07_uint_overflowing_mul gx.ne hl') (by simp only [hx.value, hy.value, hx.int, hy.int]),
    Same.checkU e (C07_uint_checked_mul hx.pos hl hx.even hx.four) (C07_uint_checked_mul gx.pos hl' gx.even gx.four) (by simp only [hx.value, hy.value, hx.int, hy.int]),
    Same.satU e ((C07_uint_saturating_strict_mul hx.pos hl hx.even hx.four).1) ((C07_uint_saturating_strict_mul gx.pos hl' gx.even gx.four).1) (by simp only [hx.value, hy.value, hx.int, hy.int]),
    Same.strictU e ((C07_uint_saturating_strict_mul hx.pos hl hx.even hx.four).2) ((C07_uint_saturating_strict_mul gx.pos hl' gx.even gx.four).2) (by simp only [hx.value, hy.value, hx.int, hy.int]),
    Same.opU e (C42_uint_mul hx.pos hl hx.even hx.four oc) (C42_uint_mul gx.pos hl' gx.even gx.four oc) (by simp only [hx.value, hy.value, hx.int, hy.int])⟩

example := C40_uint_mul twins_b twins_ones rfl true


/-- C40: signed wrapping multiplication. -/
theorem C40_int_wrapping_mul (hx : Twins x x') (hy : Twins y y') (hl : x.length = y.length) :
    Same (I.wrappingMul x y) (I.wrappingMul x' y') := by
  have e := hx.builds.width
  have hl' := hx.len hy hl
  have gx := hx.symm
  exact Same.wrapS e (C06_int_wrapping_mul hx.ne hl) (C06_int_wrapping_mul gx.ne hl') (by simp only [hx.value, hy.value, hx.int, hy.int])

example := C40_int_wrapping_mul twins_b twins_ones rfl
example : Same (I.wrappingMul b32 b32) (I.wrappingMul b64 b64) := by decide


/-- C40 (partial): the other forms of signed multiplication. Full statement: the same without `hg` and
`hg'`. It is false (`C40_int_mul_false`): which products just below the minimum the overflow test
misjudges (`Mul.Gap`) depends on the limb size. -/
theorem C40_int_mul_partial (hx : Twins x x') (hy : Twins y y') (hl : x.length = y.length)
    (hg : ¬ Mul.Gap w x.length (toInt x * toInt y)) (hg' : ¬ Mul.Gap v x'.length (toInt x' * toInt y')) (oc : Bool) :
    SameFlag (I.overflowingMul x y) (I.overflowingMul x' y') ∧
    SameOpt (I.checkedMul x y) (I.checkedMul x' y') ∧
    Same (I.saturatingMul x y) (I.saturatingMul x' y') ∧
    SameRes Same (I.strictMul x y) (I.strictMul x' y') ∧
    SameRes Same (I.mul oc x y) (I.mul oc x' y') := by
  have e := hx.builds.width
  have hl' := hx.len hy hl
  have gx := hx.symm
  exact ⟨Same.overS e ((C08_int_mul_partial hx.pos hx.ne hl oc hg).1) ((C08_int_mul_partial gx.pos gx.ne hl' oc hg').1) (by simp only [hx.value, hy.value, hx.int, hy.int]),
    Same.checkS e ((C08_int_mul_partial hx.pos hx.ne hl oc hg).2.1) ((C08_int_mul_partial gx.pos gx.ne hl' oc hg').2.1) (by simp only [hx.value, hy.value, hx.int, hy.int]),
    Same.satS e ((C08_int_mul_partial hx.pos hx.ne hl oc hg).2.2.1) ((C08_int_mul_partial gx.pos gx.ne hl' oc hg').2.2.1) (by simp only [hx.value, hy.value, hx.int, hy.int]),
    Same.strictS e ((C08_int_mul_partial hx.pos hx.ne hl oc hg).2.2.2.1) ((C08_int_mul_partial gx.pos gx.ne hl' oc hg').2.2.2.1) (by simp only [hx.value, hy.value, hx.int, hy.int]),
    Same.opS e ((C08_int_mul_partial hx.pos hx.ne hl oc hg).2.2.2.2) ((C08_int_mul_partial gx.pos gx.ne hl' oc hg').2.2.2.2) (by simp only [hx.value, hy.value, hx.int, hy.int])⟩

example := C40_int_mul_partial twins_b twins_ones rfl (by decide) (by decide) true


/-- C40 (partial): exactly when the two builds agree on `overflowing_mul` of signed
numbers: when both or neither misjudge the product. The full statement has no condition. -/
theorem C40_int_overflowing_mul_partial (hx : Twins x x') (hy : Twins y y') (hl : x.length = y.length) :
    SameFlag (I.overflowingMul x y) (I.overflowingMul x' y') ↔
      (Mul.Gap w x.length (toInt x * toInt y) ↔ Mul.Gap v x'.length (toInt x * toInt y)) := by
  have gx := hx.symm
  have hl' := hx.len hy hl
  have e := hx.builds.width
  have h := C08_int_overflowing_mul_partial hx.pos hx.ne hl
  have h' := C08_int_overflowing_mul_partial gx.pos gx.ne hl'
  rw [← hx.int, ← hy.int, ← e] at h'
  have g : ∀ {u K : Nat} {z : Int}, 0 < u * K → Mul.Gap u K z → ¬ InS (u * K) z := by
    intro u K z hp hg hi
    have : (2 : Int) ^ (u * K) = 2 * 2 ^ (u * K - 1) := by
      rw [← pow_succ', show u * K - 1 + 1 = u * K by omega]
    have a := hg.1
    have b := hi.1
    omega
  have hp : 0 < w * x.length := lt_of_lt_of_le (by decide) hx.builds.large
  have g1 := g (z := toInt x * toInt y) hp
  have g2 := g (z := toInt x * toInt y) (u := v) (K := x'.length) (e ▸ hp)
  rw [← e] at g2
  constructor
  · rintro ⟨-, hf⟩
    rw [Bool.eq_iff_iff, h.2, h'.2] at hf
    tauto
  · intro hg
    refine ⟨Same.wrapS e h.1 (by rw [e] at h'; exact h'.1) rfl, Bool.eq_iff_iff.2 ?_⟩
    rw [h.2, h'.2]
    tauto

example := C40_int_overflowing_mul_partial twins_b twins_ones rfl

/-- C40: every form of unsigned exponentiation, and signed wrapping exponentiation. -/
theorem C40_uint_pow (hx : Twins x x') {n : Nat} (he : n < 2 ^ 32) (oc : Bool) :
    Same (U.wrappingPow x n) (U.wrappingPow x' n) ∧
    SameFlag (U.overflowingPow x n) (U.overflowingPow x' n) ∧
    SameOpt (U.checkedPow x n) (U.checkedPow x' n) ∧
    Same (U.saturatingPow x n) (U.saturatingPow x' n) ∧
    SameRes Same (U.strictPow x n) (U.strictPow x' n) ∧
    SameRes Same (U.pow oc x n) (U.pow oc x' n) ∧
    Same (I.wrappingPow x n) (I.wrappingPow x' n) := by
  have e := hx.builds.width
  have gx := hx.symm
  exact ⟨Same.wrapU e (C10_uint_wrapping_pow hx.pos hx.ne he) (C10_uint_wrapping_pow gx.pos gx.ne he) (by simp only [hx.value, hx.int]),
    Same.overU e (C11_uint_overflowing_pow hx.pos hx.ne he) (C11_uint_overflowing_pow gx.pos gx.ne he) (by simp only [hx.value, hx.int]),
    Same.checkU e ((C11_uint_pow hx.pos hx.ne he).1) ((C11_uint_pow gx.pos gx.ne he).1) (by simp only [hx.value, hx.int]),
    Same.satU e ((C11_uint_pow hx.pos hx.ne he).2.1) ((C11_uint_pow gx.pos gx.ne he).2.1) (by simp only [hx.value, hx.int]),
    Same.strictU e ((C11_uint_pow hx.pos hx.ne he).2.2) ((C11_uint_pow gx.pos gx.ne he).2.2) (by simp only [hx.value, hx.int]),
    Same.opU e (C42_uint_pow hx.pos hx.ne he oc) (C42_uint_pow gx.pos gx.ne he oc) (by simp only [hx.value, hx.int]),
    Same.wrapS e (C10_int_wrapping_pow hx.pos hx.ne he) (C10_int_wrapping_pow gx.pos gx.ne he) (by simp only [hx.value, hx.int])⟩

example := C40_uint_pow twins_b (n := 5) (by decide) true
example : SameFlag (U.overflowingPow b32 3) (U.overflowingPow b64 3) := by decide


/-- C40 (partial): the other forms of signed exponentiation. Full statement: the same without `hg` and
`hg'`, false for the same reason as multiplication. -/
theorem C40_int_pow_partial (hx : Twins x x') {n : Nat} (he : n < 2 ^ 32) (hg : ¬ Mul.Gap w x.length (toInt x ^ n))
    (hg' : ¬ Mul.Gap v x'.length (toInt x' ^ n)) (oc : Bool) :
    SameFlag (I.overflowingPow x n) (I.overflowingPow x' n) ∧
    SameOpt (I.checkedPow x n) (I.checkedPow x' n) ∧
    Same (I.saturatingPow x n) (I.saturatingPow x' n) ∧
    SameRes Same (I.strictPow x n) (I.strictPow x' n) ∧
    SameRes Same (I.pow oc x n) (I.pow oc x' n) := by
  have e := hx.builds.width
  have gx := hx.symm
  exact ⟨Same.overS e ((C11_int_pow_partial hx.one hx.four hx.even he hg).1) ((C11_int_pow_partial gx.one gx.four gx.even he hg').1) (by simp only [hx.int]),
    Same.checkS e ((C11_int_pow_partial hx.one hx.four hx.even he hg).2.1) ((C11_int_pow_partial gx.one gx.four gx.even he hg').2.1) (by simp only [hx.int]),
    Same.satS e ((C11_int_pow_partial hx.one hx.four hx.even he hg).2.2.1) ((C11_int_pow_partial gx.one gx.four gx.even he hg').2.2.1) (by simp only [hx.int]),
    Same.strictS e ((C11_int_pow_partial hx.one hx.four hx.even he hg).2.2.2) ((C11_int_pow_partial gx.one gx.four gx.even he hg').2.2.2) (by simp only [hx.int]),
    Same.opS e (C42_int_pow_partial hx.one hx.four hx.even he oc fun _ => hg) (C42_int_pow_partial gx.one gx.four gx.even he oc fun _ => hg') (by simp only [hx.int])⟩

example := C40_int_pow_partial twins_ones (n := 3) (by decide) (by decide) (by decide) true


end I256
