import Verif.Lemmas.Widen
import Verif.Props.LimbSize

/-!
# Types of different widths (C99): arithmetic

`x`, `y` are operands of one type and `x'`, `y'` the same numbers in a type with at least as many bits,
for example `U256` and `U512`.
-/

namespace I256

open Sample

variable {w v : Nat} {x y : Limbs w} {x' y' : Limbs v}

/-- `2^32 - 1 + 7 * 2^224` as a number of 512 bits on 64-bit limbs. -/
def Sample.b512 : Limbs 64 := [0xffffffff, 0, 0, 0x700000000, 0, 0, 0, 0]
/-- `2^256 - 1` as a number of 512 bits. -/
def Sample.max512 : Limbs 64 := [-1, -1, -1, -1, 0, 0, 0, 0]
/-- `-1` as a number of 512 bits. -/
def Sample.neg512 : Limbs 64 := [-1, -1, -1, -1, -1, -1, -1, -1]

theorem Sample.wide_b : WidenU b32 b512 := by decide +kernel
theorem Sample.wide_max : WidenU ones32 max512 := by decide +kernel
theorem Sample.wideS_b : WidenS b32 b512 := by decide +kernel
theorem Sample.wideS_neg : WidenS ones32 neg512 := by decide +kernel

/-! ### Addition and subtraction -/

/-- C99: every form of unsigned addition and subtraction. -/
theorem C99_uint_add_sub (hx : WidenU x x') (hy : WidenU y y') (hl : x.length = y.length) (hl' : x'.length = y'.length) (oc : Bool) :
    Cuts (U.wrappingAdd x y) (U.wrappingAdd x' y') ∧
    Cuts (U.wrappingSub x y) (U.wrappingSub x' y') ∧
    NarrowFlag (FitsU (bits x)) (U.overflowingAdd x y) (U.overflowingAdd x' y') ∧
    NarrowFlag (FitsU (bits x)) (U.overflowingSub x y) (U.overflowingSub x' y') ∧
    NarrowOpt EqU (FitsU (bits x)) (U.checkedAdd x y) (U.checkedAdd x' y') ∧
    NarrowOpt EqU (FitsU (bits x)) (U.checkedSub x y) (U.checkedSub x' y') ∧
    CapsU (U.saturatingAdd x y) (U.saturatingAdd x' y') ∧
    CapsU (U.saturatingSub x y) (U.saturatingSub x' y') ∧
    NarrowRes EqU (FitsU (bits x)) (U.strictAdd x y) (U.strictAdd x' y') ∧
    NarrowRes EqU (FitsU (bits x)) (U.strictSub x y) (U.strictSub x' y') ∧
    NarrowOp oc EqU (FitsU (bits x)) (U.add oc x y) (U.add oc x' y') ∧
    NarrowOp oc EqU (FitsU (bits x)) (U.sub oc x y) (U.sub oc x' y') := by
  exact ⟨Widen.wrapU hx.le (C01_uint_wrapping_add hx.l.pos hl) (C01_uint_wrapping_add hx.r.pos hl') (by simp only [hx.value, hy.value]),
    Widen.wrapU hx.le (C01_uint_wrapping_sub hx.l.pos hl) (C01_uint_wrapping_sub hx.r.pos hl') (by simp only [hx.value, hy.value]),
    Widen.overU hx.le (C02_uint_overflowing_add hx.l.pos hl) (C02_uint_overflowing_add hx.r.pos hl') (by simp only [hx.value, hy.value]),
    Widen.overU hx.le ((C02_uint_overflowing_sub hx.l.pos hl).1) ((C02_uint_overflowing_sub hx.r.pos hl').1) (by simp only [hx.value, hy.value]),
    Widen.checkU hx.le (C02_uint_checked_add hx.l.pos hl) (C02_uint_checked_add hx.r.pos hl') (by simp only [hx.value, hy.value]),
    Widen.checkU hx.le (C02_uint_checked_sub hx.l.pos hl) (C02_uint_checked_sub hx.r.pos hl') (by simp only [hx.value, hy.value]),
    Widen.satU hx.le (C02_uint_saturating_add hx.l.pos hl) (C02_uint_saturating_add hx.r.pos hl') (by simp only [hx.value, hy.value]),
    Widen.satU hx.le (C02_uint_saturating_sub hx.l.pos hl) (C02_uint_saturating_sub hx.r.pos hl') (by simp only [hx.value, hy.value]),
    Widen.strictU hx.le (C02_uint_strict_add hx.l.pos hl) (C02_uint_strict_add hx.r.pos hl') (by simp only [hx.value, hy.value]),
    Widen.strictU hx.le (C02_uint_strict_sub hx.l.pos hl) (C02_uint_strict_sub hx.r.pos hl') (by simp only [hx.value, hy.value]),
    Widen.opU hx.le ((C42_uint_add_sub hx.l.pos hl oc).1) ((C42_uint_add_sub hx.r.pos hl' oc).1) (by simp only [hx.value, hy.value]),
    Widen.opU hx.le ((C42_uint_add_sub hx.l.pos hl oc).2) ((C42_uint_add_sub hx.r.pos hl' oc).2) (by simp only [hx.value, hy.value])⟩

example := C99_uint_add_sub wide_b wide_max rfl rfl true
/-- The narrow sum overflows, the wide one does not. -/
example : U.checkedAdd b32 ones32 = none ∧ U.checkedAdd b512 max512 = some [0xfffffffe, 0, 0, 0x700000000, 1, 0, 0, 0] := by
  decide

/-- C99: every form of signed addition and subtraction. -/
theorem C99_int_add_sub (hx : WidenS x x') (hy : WidenS y y') (hl : x.length = y.length) (hl' : x'.length = y'.length) (oc : Bool) :
    Cuts (I.wrappingAdd x y) (I.wrappingAdd x' y') ∧
    Cuts (I.wrappingSub x y) (I.wrappingSub x' y') ∧
    NarrowFlag (FitsS (bits x)) (I.overflowingAdd x y) (I.overflowingAdd x' y') ∧
    NarrowFlag (FitsS (bits x)) (I.overflowingSub x y) (I.overflowingSub x' y') ∧
    NarrowOpt EqS (FitsS (bits x)) (I.checkedAdd x y) (I.checkedAdd x' y') ∧
    NarrowOpt EqS (FitsS (bits x)) (I.checkedSub x y) (I.checkedSub x' y') ∧
    CapsS (I.saturatingAdd x y) (I.saturatingAdd x' y') ∧
    CapsS (I.saturatingSub x y) (I.saturatingSub x' y') ∧
    NarrowRes EqS (FitsS (bits x)) (I.strictAdd x y) (I.strictAdd x' y') ∧
    NarrowRes EqS (FitsS (bits x)) (I.strictSub x y) (I.strictSub x' y') ∧
    NarrowOp oc EqS (FitsS (bits x)) (I.add oc x y) (I.add oc x' y') ∧
    NarrowOp oc EqS (FitsS (bits x)) (I.sub oc x y) (I.sub oc x' y') := by
  exact ⟨Widen.wrapS hx.le (C03_int_wrapping_add hx.l.pos hl) (C03_int_wrapping_add hx.r.pos hl') (by simp only [hx.value, hy.value]),
    Widen.wrapS hx.le (C03_int_wrapping_sub hx.l.pos hl) (C03_int_wrapping_sub hx.r.pos hl') (by simp only [hx.value, hy.value]),
    Widen.overS hx.le (C03_int_overflowing_add hx.l.one hx.l.ne hl) (C03_int_overflowing_add hx.r.one hx.r.ne hl') (by simp only [hx.value, hy.value]),
    Widen.overS hx.le (C03_int_overflowing_sub hx.l.one hx.l.ne hl) (C03_int_overflowing_sub hx.r.one hx.r.ne hl') (by simp only [hx.value, hy.value]),
    Widen.checkS hx.le (C03_int_checked_add hx.l.one hx.l.ne hl) (C03_int_checked_add hx.r.one hx.r.ne hl') (by simp only [hx.value, hy.value]),
    Widen.checkS hx.le (C03_int_checked_sub hx.l.one hx.l.ne hl) (C03_int_checked_sub hx.r.one hx.r.ne hl') (by simp only [hx.value, hy.value]),
    Widen.satS hx.le (C03_int_saturating_add hx.l.one hx.l.ne hl) (C03_int_saturating_add hx.r.one hx.r.ne hl') (by simp only [hx.value, hy.value]),
    Widen.satS hx.le (C03_int_saturating_sub hx.l.one hx.l.ne hl) (C03_int_saturating_sub hx.r.one hx.r.ne hl') (by simp only [hx.value, hy.value]),
    Widen.strictS hx.le ((C03_int_strict_add_sub hx.l.one hx.l.ne hl).1) ((C03_int_strict_add_sub hx.r.one hx.r.ne hl').1) (by simp only [hx.value, hy.value]),
    Widen.strictS hx.le ((C03_int_strict_add_sub hx.l.one hx.l.ne hl).2) ((C03_int_strict_add_sub hx.r.one hx.r.ne hl').2) (by simp only [hx.value, hy.value]),
    Widen.opS hx.le ((C42_int_add_sub hx.l.one hx.l.ne hl oc).1) ((C42_int_add_sub hx.r.one hx.r.ne hl' oc).1) (by simp only [hx.value, hy.value]),
    Widen.opS hx.le ((C42_int_add_sub hx.l.one hx.l.ne hl oc).2) ((C42_int_add_sub hx.r.one hx.r.ne hl' oc).2) (by simp only [hx.value, hy.value])⟩

example := C99_int_add_sub wideS_b wideS_neg rfl rfl true
example : I.checkedSub b32 ones32 = some [0, 1, 0, 0, 0, 0, 0, 7] ∧
    I.checkedSub b512 neg512 = some [0x100000000, 0, 0, 0x700000000, 0, 0, 0, 0] := by decide

/-- C99: addition of signed to unsigned values and subtraction. -/
theorem C99_uint_add_signed (hx : WidenU x x') (hy : WidenS y y') (hl : x.length = y.length) (hl' : x'.length = y'.length) :
    Cuts (U.wrappingAddSigned x y) (U.wrappingAddSigned x' y') ∧
    NarrowFlag (FitsU (bits x)) (U.overflowingAddSigned x y) (U.overflowingAddSigned x' y') ∧
    NarrowFlag (FitsU (bits x)) (U.overflowingSubSigned x y) (U.overflowingSubSigned x' y') ∧
    NarrowOpt EqU (FitsU (bits x)) (U.checkedAddSigned x y) (U.checkedAddSigned x' y') ∧
    NarrowRes EqU (FitsU (bits x)) (U.strictAddSigned x y) (U.strictAddSigned x' y') ∧
    CapsU (U.saturatingAddSigned x y) (U.saturatingAddSigned x' y') := by
  exact ⟨Widen.wrapU hx.le (C04_uint_wrapping_add_signed hx.l.pos hx.l.ne hl) (C04_uint_wrapping_add_signed hx.r.pos hx.r.ne hl') (by simp only [hx.value, hy.value]),
    Widen.overU hx.le (C04_uint_overflowing_add_signed hx.l.pos hx.l.ne hl) (C04_uint_overflowing_add_signed hx.r.pos hx.r.ne hl') (by simp only [hx.value, hy.value]),
    Widen.overU hx.le (C04_uint_overflowing_sub_signed hx.l.pos hx.l.ne hl) (C04_uint_overflowing_sub_signed hx.r.pos hx.r.ne hl') (by simp only [hx.value, hy.value]),
    Widen.checkU hx.le ((C04_uint_checked_add_signed hx.l.pos hx.l.ne hl).1) ((C04_uint_checked_add_signed hx.r.pos hx.r.ne hl').1) (by simp only [hx.value, hy.value]),
    Widen.strictU hx.le ((C04_uint_checked_add_signed hx.l.pos hx.l.ne hl).2) ((C04_uint_checked_add_signed hx.r.pos hx.r.ne hl').2) (by simp only [hx.value, hy.value]),
    Widen.satU hx.le (C04_uint_saturating_add_signed hx.l.pos hx.l.ne hl) (C04_uint_saturating_add_signed hx.r.pos hx.r.ne hl') (by simp only [hx.value, hy.value])⟩

example := C99_uint_add_signed wide_b wideS_neg rfl rfl

/-- C99: addition of unsigned to signed values and subtraction. -/
theorem C99_int_add_unsigned (hx : WidenS x x') (hy : WidenU y y') (hl : x.length = y.length) (hl' : x'.length = y'.length) :
    NarrowFlag (FitsS (bits x)) (I.overflowingAddUnsigned x y) (I.overflowingAddUnsigned x' y') ∧
    NarrowFlag (FitsS (bits x)) (I.overflowingSubUnsigned x y) (I.overflowingSubUnsigned x' y') ∧
    NarrowOpt EqS (FitsS (bits x)) (I.checkedAddUnsigned x y) (I.checkedAddUnsigned x' y') ∧
    NarrowOpt EqS (FitsS (bits x)) (I.checkedSubUnsigned x y) (I.checkedSubUnsigned x' y') ∧
    NarrowRes EqS (FitsS (bits x)) (I.strictAddUnsigned x y) (I.strictAddUnsigned x' y') ∧
    NarrowRes EqS (FitsS (bits x)) (I.strictSubUnsigned x y) (I.strictSubUnsigned x' y') ∧
    CapsS (I.saturatingAddUnsigned x y) (I.saturatingAddUnsigned x' y') ∧
    CapsS (I.saturatingSubUnsigned x y) (I.saturatingSubUnsigned x' y') := by
  exact ⟨Widen.overS hx.le (C04_int_overflowing_add_unsigned hx.l.one hx.l.ne hl) (C04_int_overflowing_add_unsigned hx.r.one hx.r.ne hl') (by simp only [hx.value, hy.value]),
    Widen.overS hx.le ((C04_int_overflowing_sub_unsigned hx.l.one hx.l.ne hl).1) ((C04_int_overflowing_sub_unsigned hx.r.one hx.r.ne hl').1) (by simp only [hx.value, hy.value]),
    Widen.checkS hx.le ((C04_int_checked_unsigned hx.l.one hx.l.ne hl).1) ((C04_int_checked_unsigned hx.r.one hx.r.ne hl').1) (by simp only [hx.value, hy.value]),
    Widen.checkS hx.le ((C04_int_checked_unsigned hx.l.one hx.l.ne hl).2.1) ((C04_int_checked_unsigned hx.r.one hx.r.ne hl').2.1) (by simp only [hx.value, hy.value]),
    Widen.strictS hx.le ((C04_int_checked_unsigned hx.l.one hx.l.ne hl).2.2.1) ((C04_int_checked_unsigned hx.r.one hx.r.ne hl').2.2.1) (by simp only [hx.value, hy.value]),
    Widen.strictS hx.le ((C04_int_checked_unsigned hx.l.one hx.l.ne hl).2.2.2) ((C04_int_checked_unsigned hx.r.one hx.r.ne hl').2.2.2) (by simp only [hx.value, hy.value]),
    Widen.satS hx.le (C04_int_saturating_add_unsigned hx.l.one hx.l.ne hl) (C04_int_saturating_add_unsigned hx.r.one hx.r.ne hl') (by simp only [hx.value, hy.value]),
    Widen.satS hx.le (C04_int_saturating_sub_unsigned hx.l.one hx.l.ne hl) (C04_int_saturating_sub_unsigned hx.r.one hx.r.ne hl') (by simp only [hx.value, hy.value])⟩

example := C99_int_add_unsigned wideS_neg wide_b rfl rfl

/-- C99: differences of unsigned values. -/
theorem C99_uint_diff (hx : WidenU x x') (hy : WidenU y y') (hl : x.length = y.length) (hl' : x'.length = y'.length) :
    NarrowOpt EqS (FitsS (bits x)) (U.checkedSignedDiff x y) (U.checkedSignedDiff x' y') ∧
    EqU (U.absDiff x y) (U.absDiff x' y') ∧
    Cuts (U.wrappingNeg x) (U.wrappingNeg x') ∧
    NarrowOpt EqU (FitsU (bits x)) (U.checkedNeg x) (U.checkedNeg x') := by
  exact ⟨Widen.checkS hx.le (C45_checked_signed_diff hx.l.pos hl hx.l.even hx.l.two) (C45_checked_signed_diff hx.r.pos hl' hx.r.even hx.r.two) (by simp only [hx.value, hy.value]),
    Widen.exactU (C35_uint_abs_diff hx.l.pos hl hx.l.even hx.l.two) (C35_uint_abs_diff hx.r.pos hl' hx.r.even hx.r.two) (by simp only [hx.value, hy.value]),
    Widen.wrapU hx.le ((C45_uint_neg hx.l.pos hx.l.even).1) ((C45_uint_neg hx.r.pos hx.r.even).1) (by simp only [hx.value, hy.value]),
    Widen.checkU hx.le ((C45_uint_neg hx.l.pos hx.l.even).2.1) ((C45_uint_neg hx.r.pos hx.r.even).2.1) (by simp only [hx.value, hy.value])⟩

example := C99_uint_diff wide_b wide_max rfl rfl

/-- C99: negation, absolute value and sign of signed values. -/
theorem C99_int_neg_abs (hx : WidenS x x') (oc : Bool) :
    Cuts (I.wrappingNeg x) (I.wrappingNeg x') ∧
    NarrowFlag (FitsS (bits x)) (I.overflowingNeg x) (I.overflowingNeg x') ∧
    NarrowOpt EqS (FitsS (bits x)) (I.checkedNeg x) (I.checkedNeg x') ∧
    NarrowRes EqS (FitsS (bits x)) (I.strictNeg x) (I.strictNeg x') ∧
    NarrowOp oc EqS (FitsS (bits x)) (I.neg oc x) (I.neg oc x') ∧
    CapsS (I.saturatingNeg x) (I.saturatingNeg x') ∧
    Cuts (I.wrappingAbs x) (I.wrappingAbs x') ∧
    NarrowFlag (FitsS (bits x)) (I.overflowingAbs x) (I.overflowingAbs x') ∧
    NarrowOpt EqS (FitsS (bits x)) (I.checkedAbs x) (I.checkedAbs x') ∧
    NarrowRes EqS (FitsS (bits x)) (I.abs x) (I.abs x') ∧
    CapsS (I.saturatingAbs x) (I.saturatingAbs x') ∧
    EqU (I.unsignedAbs x) (I.unsignedAbs x') ∧
    EqS (I.signum x) (I.signum x') := by
  exact ⟨Widen.wrapS hx.le (C36_int_wrapping_neg hx.l.pos hx.l.two) (C36_int_wrapping_neg hx.r.pos hx.r.two) (by simp only [hx.value]),
    Widen.overS hx.le ((C36_int_neg hx.l.pos hx.l.two hx.l.even oc).1) ((C36_int_neg hx.r.pos hx.r.two hx.r.even oc).1) (by simp only [hx.value]),
    Widen.checkS hx.le ((C36_int_neg hx.l.pos hx.l.two hx.l.even oc).2.2.1) ((C36_int_neg hx.r.pos hx.r.two hx.r.even oc).2.2.1) (by simp only [hx.value]),
    Widen.strictS hx.le ((C36_int_neg hx.l.pos hx.l.two hx.l.even oc).2.2.2.1) ((C36_int_neg hx.r.pos hx.r.two hx.r.even oc).2.2.2.1) (by simp only [hx.value]),
    Widen.opS hx.le ((C36_int_neg hx.l.pos hx.l.two hx.l.even oc).2.2.2.2) ((C36_int_neg hx.r.pos hx.r.two hx.r.even oc).2.2.2.2) (by simp only [hx.value]),
    Widen.satS hx.le (C36_int_saturating_neg hx.l.one hx.l.two) (C36_int_saturating_neg hx.r.one hx.r.two) (by simp only [hx.value]),
    Widen.wrapS hx.le ((C36_int_abs hx.l.pos hx.l.two hx.l.even).1) ((C36_int_abs hx.r.pos hx.r.two hx.r.even).1) (by simp only [hx.value]),
    Widen.overS hx.le ((C36_int_abs hx.l.pos hx.l.two hx.l.even).2.1) ((C36_int_abs hx.r.pos hx.r.two hx.r.even).2.1) (by simp only [hx.value]),
    Widen.checkS hx.le ((C36_int_abs hx.l.pos hx.l.two hx.l.even).2.2.2.1) ((C36_int_abs hx.r.pos hx.r.two hx.r.even).2.2.2.1) (by simp only [hx.value]),
    Widen.strictS hx.le ((C36_int_abs hx.l.pos hx.l.two hx.l.even).2.2.2.2.1) ((C36_int_abs hx.r.pos hx.r.two hx.r.even).2.2.2.2.1) (by simp only [hx.value]),
    Widen.satS hx.le ((C36_int_abs hx.l.pos hx.l.two hx.l.even).2.2.2.2.2) ((C36_int_abs hx.r.pos hx.r.two hx.r.even).2.2.2.2.2) (by simp only [hx.value]),
    Widen.exactU (C36_int_unsigned_abs hx.l.pos hx.l.two hx.l.even) (C36_int_unsigned_abs hx.r.pos hx.r.two hx.r.even) (by simp only [hx.value]),
    Widen.exactS (C36_int_signum hx.l.one hx.l.two hx.l.even) (C36_int_signum hx.r.one hx.r.two hx.r.even) (by simp only [hx.value])⟩

example := C99_int_neg_abs wideS_neg true

/-- C99: the absolute difference of signed values. -/
theorem C99_int_abs_diff (hx : WidenS x x') (hy : WidenS y y') (hl : x.length = y.length) (hl' : x'.length = y'.length) :
    EqU (I.absDiff x y) (I.absDiff x' y') := by
  exact Widen.exactU (C36_int_abs_diff hx.l.pos hl hx.l.even hx.l.two) (C36_int_abs_diff hx.r.pos hl' hx.r.even hx.r.two) (by simp only [hx.value, hy.value])

example := C99_int_abs_diff wideS_b wideS_neg rfl rfl

/-! ### Multiplication and powers -/

/-- C99: every form of unsigned multiplication. -/
theorem C99_uint_mul (hx : WidenU x x') (hy : WidenU y y') (hl : x.length = y.length) (hl' : x'.length = y'.length) (oc : Bool) :
    Cuts (U.wrappingMul x y) (U.wrappingMul x' y') ∧
    NarrowFlag (FitsU (bits x)) (U.overflowingMul x y) (U.overflowingMul x' y') ∧
    NarrowOpt EqU (FitsU (bits x)) (U.checkedMul x y) (U.checkedMul x' y') ∧
    CapsU (U.saturatingMul x y) (U.saturatingMul x' y') ∧
    NarrowRes EqU (FitsU (bits x)) (U.strictMul x y) (U.strictMul x' y') ∧
    NarrowOp oc EqU (FitsU (bits x)) (U.mul oc x y) (U.mul oc x' y') := by
  exact ⟨Widen.wrapU hx.le (C06_uint_wrapping_mul hx.l.ne hl) (C06_uint_wrapping_mul hx.r.ne hl') (by simp only [hx.value, hy.value]),
    Widen.overU hx.le (C07_uint_overflowing_mul hx.l.ne hl) (C07_uint_overflowing_mul hx.r.ne hl') (by simp only [hx.value, hy.value]),
    Widen.checkU hx.le (C07_uint_checked_mul hx.l.pos hl hx.l.even hx.l.four) (C07_uint_checked_mul hx.r.pos hl' hx.r.even hx.r.four) (by simp only [hx.value, hy.value]),
    Widen.satU hx.le ((C07_uint_saturating_strict_mul hx.l.pos hl hx.l.even hx.l.four).1) ((C07_uint_saturating_strict_mul hx.r.pos hl' hx.r.even hx.r.four).1) (by simp only [hx.value, hy.value]),
    Widen.strictU hx.le ((C07_uint_saturating_strict_mul hx.l.pos hl hx.l.even hx.l.four).2) ((C07_uint_saturating_strict_mul hx.r.pos hl' hx.r.even hx.r.four).2) (by simp only [hx.value, hy.value]),
    Widen.opU hx.le (C42_uint_mul hx.l.pos hl hx.l.even hx.l.four oc) (C42_uint_mul hx.r.pos hl' hx.r.even hx.r.four oc) (by simp only [hx.value, hy.value])⟩

example := C99_uint_mul wide_b wide_max rfl rfl true
example : U.checkedMul b32 b32 = none ∧ (U.checkedMul b512 b512).map toNat = some ((2 ^ 32 - 1 + 7 * 2 ^ 224) ^ 2) := by
  decide +kernel

/-- C99: signed wrapping multiplication. -/
theorem C99_int_wrapping_mul (hx : WidenS x x') (hy : WidenS y y') (hl : x.length = y.length) (hl' : x'.length = y'.length) :
    Cuts (I.wrappingMul x y) (I.wrappingMul x' y') := by
  exact Widen.wrapS hx.le (C06_int_wrapping_mul hx.l.ne hl) (C06_int_wrapping_mul hx.r.ne hl') (by simp only [hx.value, hy.value])

example := C99_int_wrapping_mul wideS_b wideS_neg rfl rfl

/-- C99: (partial) the other forms of signed multiplication. Full statement: the same without `hg` and
`hg'`. It is false (`C99_int_mul_false`): the overflow test misjudges products just below the minimum
(`Mul.Gap`), which is another number in every type. -/
theorem C99_int_mul_partial (hx : WidenS x x') (hy : WidenS y y') (hl : x.length = y.length) (hl' : x'.length = y'.length)
    (hg : ¬ Mul.Gap w x.length (toInt x * toInt y)) (hg' : ¬ Mul.Gap v x'.length (toInt x' * toInt y')) (oc : Bool) :
    NarrowFlag (FitsS (bits x)) (I.overflowingMul x y) (I.overflowingMul x' y') ∧
    NarrowOpt EqS (FitsS (bits x)) (I.checkedMul x y) (I.checkedMul x' y') ∧
    CapsS (I.saturatingMul x y) (I.saturatingMul x' y') ∧
    NarrowRes EqS (FitsS (bits x)) (I.strictMul x y) (I.strictMul x' y') ∧
    NarrowOp oc EqS (FitsS (bits x)) (I.mul oc x y) (I.mul oc x' y') := by
  exact ⟨Widen.overS hx.le ((C08_int_mul_partial hx.l.pos hx.l.ne hl oc hg).1) ((C08_int_mul_partial hx.r.pos hx.r.ne hl' oc hg').1) (by simp only [hx.value, hy.value]),
    Widen.checkS hx.le ((C08_int_mul_partial hx.l.pos hx.l.ne hl oc hg).2.1) ((C08_int_mul_partial hx.r.pos hx.r.ne hl' oc hg').2.1) (by simp only [hx.value, hy.value]),
    Widen.satS hx.le ((C08_int_mul_partial hx.l.pos hx.l.ne hl oc hg).2.2.1) ((C08_int_mul_partial hx.r.pos hx.r.ne hl' oc hg').2.2.1) (by simp only [hx.value, hy.value]),
    Widen.strictS hx.le ((C08_int_mul_partial hx.l.pos hx.l.ne hl oc hg).2.2.2.1) ((C08_int_mul_partial hx.r.pos hx.r.ne hl' oc hg').2.2.2.1) (by simp only [hx.value, hy.value]),
    Widen.opS hx.le ((C08_int_mul_partial hx.l.pos hx.l.ne hl oc hg).2.2.2.2) ((C08_int_mul_partial hx.r.pos hx.r.ne hl' oc hg').2.2.2.2) (by simp only [hx.value, hy.value])⟩

example := C99_int_mul_partial wideS_b wideS_neg rfl rfl (by decide +kernel) (by decide +kernel) true

/-- C99: every form of unsigned exponentiation. -/
theorem C99_uint_pow (hx : WidenU x x') {n : Nat} (he : n < 2 ^ 32) (oc : Bool) :
    Cuts (U.wrappingPow x n) (U.wrappingPow x' n) ∧
    NarrowFlag (FitsU (bits x)) (U.overflowingPow x n) (U.overflowingPow x' n) ∧
    NarrowOpt EqU (FitsU (bits x)) (U.checkedPow x n) (U.checkedPow x' n) ∧
    CapsU (U.saturatingPow x n) (U.saturatingPow x' n) ∧
    NarrowRes EqU (FitsU (bits x)) (U.strictPow x n) (U.strictPow x' n) ∧
    NarrowOp oc EqU (FitsU (bits x)) (U.pow oc x n) (U.pow oc x' n) := by
  exact ⟨Widen.wrapU hx.le (C10_uint_wrapping_pow hx.l.pos hx.l.ne he) (C10_uint_wrapping_pow hx.r.pos hx.r.ne he) (by simp only [hx.value]),
    Widen.overU hx.le (C11_uint_overflowing_pow hx.l.pos hx.l.ne he) (C11_uint_overflowing_pow hx.r.pos hx.r.ne he) (by simp only [hx.value]),
    Widen.checkU hx.le ((C11_uint_pow hx.l.pos hx.l.ne he).1) ((C11_uint_pow hx.r.pos hx.r.ne he).1) (by simp only [hx.value]),
    Widen.satU hx.le ((C11_uint_pow hx.l.pos hx.l.ne he).2.1) ((C11_uint_pow hx.r.pos hx.r.ne he).2.1) (by simp only [hx.value]),
    Widen.strictU hx.le ((C11_uint_pow hx.l.pos hx.l.ne he).2.2) ((C11_uint_pow hx.r.pos hx.r.ne he).2.2) (by simp only [hx.value]),
    Widen.opU hx.le (C42_uint_pow hx.l.pos hx.l.ne he oc) (C42_uint_pow hx.r.pos hx.r.ne he oc) (by simp only [hx.value])⟩

example := C99_uint_pow wide_b (n := 5) (by decide) true

/-- C99: signed wrapping exponentiation. -/
theorem C99_int_wrapping_pow (hx : WidenS x x') {n : Nat} (he : n < 2 ^ 32) :
    Cuts (I.wrappingPow x n) (I.wrappingPow x' n) := by
  exact Widen.wrapS hx.le (C10_int_wrapping_pow hx.l.pos hx.l.ne he) (C10_int_wrapping_pow hx.r.pos hx.r.ne he) (by simp only [hx.value])

example := C99_int_wrapping_pow wideS_neg (n := 5) (by decide)

/-- C99: (partial) the other forms of signed exponentiation. Full statement: the same without `hg` and
`hg'`, false for the same reason as multiplication. -/
theorem C99_int_pow_partial (hx : WidenS x x') {n : Nat} (he : n < 2 ^ 32) (hg : ¬ Mul.Gap w x.length (toInt x ^ n))
    (hg' : ¬ Mul.Gap v x'.length (toInt x' ^ n)) (oc : Bool) :
    NarrowFlag (FitsS (bits x)) (I.overflowingPow x n) (I.overflowingPow x' n) ∧
    NarrowOpt EqS (FitsS (bits x)) (I.checkedPow x n) (I.checkedPow x' n) ∧
    CapsS (I.saturatingPow x n) (I.saturatingPow x' n) ∧
    NarrowRes EqS (FitsS (bits x)) (I.strictPow x n) (I.strictPow x' n) ∧
    NarrowOp oc EqS (FitsS (bits x)) (I.pow oc x n) (I.pow oc x' n) := by
  exact ⟨Widen.overS hx.le ((C11_int_pow_partial hx.l.one hx.l.four hx.l.even he hg).1) ((C11_int_pow_partial hx.r.one hx.r.four hx.r.even he hg').1) (by simp only [hx.value]),
    Widen.checkS hx.le ((C11_int_pow_partial hx.l.one hx.l.four hx.l.even he hg).2.1) ((C11_int_pow_partial hx.r.one hx.r.four hx.r.even he hg').2.1) (by simp only [hx.value]),
    Widen.satS hx.le ((C11_int_pow_partial hx.l.one hx.l.four hx.l.even he hg).2.2.1) ((C11_int_pow_partial hx.r.one hx.r.four hx.r.even he hg').2.2.1) (by simp only [hx.value]),
    Widen.strictS hx.le ((C11_int_pow_partial hx.l.one hx.l.four hx.l.even he hg).2.2.2) ((C11_int_pow_partial hx.r.one hx.r.four hx.r.even he hg').2.2.2) (by simp only [hx.value]),
    Widen.opS hx.le (C42_int_pow_partial hx.l.one hx.l.four hx.l.even he oc fun _ => hg) (C42_int_pow_partial hx.r.one hx.r.four hx.r.even he oc fun _ => hg') (by simp only [hx.value])⟩

example := C99_int_pow_partial wideS_neg (n := 3) (by decide) (by decide +kernel) (by decide +kernel) true

/-- C99 is false for signed products without `Mul.Gap`: `I256` does not report the overflow of this product,
`I512` returns it exactly. -/
theorem C99_int_mul_false : ∃ x y x' y' : Limbs 64, WidenS x x' ∧ WidenS y y' ∧
    x.length = 4 ∧ y.length = 4 ∧ x'.length = 8 ∧ y'.length = 8 ∧
    ¬ NarrowFlag (FitsS (bits x)) (I.overflowingMul x y) (I.overflowingMul x' y') ∧
    ¬ NarrowOpt EqS (FitsS (bits x)) (I.checkedMul x y) (I.checkedMul x' y') ∧
    ¬ NarrowRes EqS (FitsS (bits x)) (I.strictMul x y) (I.strictMul x' y') ∧
    I.checkedMul x y = some maxS ∧ (I.checkedMul x' y').map toInt = some (toInt x * toInt y) :=
  ⟨[0xaaaaaaaaaaaaaaab, 0xaaaaaaaaaaaaaaaa, 0xaaaaaaaaaaaaaaaa, 0x2aaaaaaaaaaaaaaa],
    [0xfffffffffffffffd, 0xffffffffffffffff, 0xffffffffffffffff, 0xffffffffffffffff],
    [0xaaaaaaaaaaaaaaab, 0xaaaaaaaaaaaaaaaa, 0xaaaaaaaaaaaaaaaa, 0x2aaaaaaaaaaaaaaa, 0, 0, 0, 0],
    [0xfffffffffffffffd, 0xffffffffffffffff, 0xffffffffffffffff, 0xffffffffffffffff,
      0xffffffffffffffff, 0xffffffffffffffff, 0xffffffffffffffff, 0xffffffffffffffff],
    by decide +kernel⟩

end I256
