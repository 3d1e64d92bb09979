import Verif.Lemmas.NegAbs
import Verif.Props.Samples

/-!
# C01-C04: addition and subtraction of full-width numbers

`x` and `y` are the limb arrays of the operands, of equal length (the `LIMBS` constant of the type);
`w` is the limb width.  The result contracts (`WrapU`, `OverU`, ...) are defined in `Spec.lean`.
-/

namespace I256

open Sample

variable {w : Nat} {x y : Limbs w}

/-! ## C01 -/

/-- C01: unsigned `wrapping_add` is `(x + y) mod 2^BITS`. -/
theorem C01_uint_wrapping_add (hw : 0 < w) (hl : x.length = y.length) :
    WrapU x.length (toNat x + toNat y) (U.wrappingAdd x y) := Add.wrapU hw hl

example := C01_uint_wrapping_add (x := ones) (y := a) (by decide) (by decide)
example : U.wrappingAdd ones a = [0xfffffffffffffffe, 0, 5, 0] := by decide

/-- C01: unsigned `wrapping_sub` is `(x - y) mod 2^BITS`. -/
theorem C01_uint_wrapping_sub (hw : 0 < w) (hl : x.length = y.length) :
    WrapU x.length (toNat x - toNat y) (U.wrappingSub x y) := Sub.wrapU hw hl

example := C01_uint_wrapping_sub (x := zero) (y := one) (by decide) (by decide)
example : U.wrappingSub zero one = ones := by decide

/-- C01: `wrapping_sub` undoes `wrapping_add`, on representations. -/
theorem C01_uint_sub_add_cancel (hw : 0 < w) (hl : x.length = y.length) :
    U.wrappingSub (U.wrappingAdd x y) y = x := by
  have h1 := C01_uint_wrapping_add hw hl
  have h2 := C01_uint_wrapping_sub hw (x := U.wrappingAdd x y) (y := y) (h1.1.trans hl)
  apply toNat_inj (h2.1.trans h1.1)
  have h3 := InU_toNat x
  have := h2.2
  rw [h1.1, h1.2, Int.emod_sub_emod, add_sub_cancel_right] at this
  rw [show w * x.length = bits x from rfl, emod_of_InU h3] at this
  exact_mod_cast this

example := C01_uint_sub_add_cancel (x := ones) (y := a) (by decide) (by decide)

/-! ## C02 -/

/-- C02: unsigned `overflowing_add`: flag iff `x + y ≥ 2^BITS`. -/
theorem C02_uint_overflowing_add (hw : 0 < w) (hl : x.length = y.length) :
    OverU x.length (toNat x + toNat y) (U.overflowingAdd x y) := Add.overU hw hl

example := C02_uint_overflowing_add (x := ones) (y := a) (by decide) (by decide)
example : (U.overflowingAdd ones one) = (zero, true) := by decide

/-- C02: unsigned `overflowing_sub`: flag iff `x < y`. -/
theorem C02_uint_overflowing_sub (hw : 0 < w) (hl : x.length = y.length) :
    OverU x.length (toNat x - toNat y) (U.overflowingSub x y) ∧
      ((U.overflowingSub x y).2 = true ↔ toNat x < toNat y) := by
  have h := Sub.overU hw hl
  refine ⟨h, h.2.trans ?_⟩
  have := toNat_lt_int x
  rw [show bits x = w * x.length from rfl] at this
  unfold InU
  omega

example := C02_uint_overflowing_sub (x := zero) (y := a) (by decide) (by decide)
example : (U.overflowingSub zero one) = (ones, true) := by decide

/-- C02: unsigned `checked_add`. -/
theorem C02_uint_checked_add (hw : 0 < w) (hl : x.length = y.length) :
    CheckU x.length (toNat x + toNat y) (U.checkedAdd x y) := (Add.overU hw hl).check

example := C02_uint_checked_add (x := ones) (y := a) (by decide) (by decide)
example : U.checkedAdd ones one = none ∧ U.checkedAdd one one = some [2, 0, 0, 0] := by decide

/-- C02: unsigned `checked_sub`. -/
theorem C02_uint_checked_sub (hw : 0 < w) (hl : x.length = y.length) :
    CheckU x.length (toNat x - toNat y) (U.checkedSub x y) := (Sub.overU hw hl).check

example := C02_uint_checked_sub (x := ones) (y := a) (by decide) (by decide)

/-- C02: unsigned `saturating_add` clamps to the maximum. -/
theorem C02_uint_saturating_add (hw : 0 < w) (hl : x.length = y.length) :
    SatU x.length (toNat x + toNat y) (U.saturatingAdd x y) :=
  (Add.overU hw hl).check.satMax (by omega)

example := C02_uint_saturating_add (x := ones) (y := a) (by decide) (by decide)
example : U.saturatingAdd ones a = ones := by decide

/-- C02: unsigned `saturating_sub` clamps to zero. -/
theorem C02_uint_saturating_sub (hw : 0 < w) (hl : x.length = y.length) :
    SatU x.length (toNat x - toNat y) (U.saturatingSub x y) :=
  (Sub.overU hw hl).check.satMin (by
    have := toNat_lt_int x
    rw [show bits x = w * x.length from rfl] at this
    omega)

example := C02_uint_saturating_sub (x := one) (y := a) (by decide) (by decide)
example : U.saturatingSub one a = zero := by decide

/-- C02: unsigned `strict_add` panics iff the sum is not representable. -/
theorem C02_uint_strict_add (hw : 0 < w) (hl : x.length = y.length) :
    StrictU x.length (toNat x + toNat y) (U.strictAdd x y) := (Add.overU hw hl).check.strict

example := C02_uint_strict_add (x := one) (y := a) (by decide) (by decide)
example : U.strictAdd ones one = .panic := by decide

/-- C02: unsigned `strict_sub` panics iff `x < y`. -/
theorem C02_uint_strict_sub (hw : 0 < w) (hl : x.length = y.length) :
    StrictU x.length (toNat x - toNat y) (U.strictSub x y) := (Sub.overU hw hl).check.strict

example := C02_uint_strict_sub (x := one) (y := a) (by decide) (by decide)
example : U.strictSub one a = .panic := by decide

/-! ## C03 -/

/-- C03: signed `wrapping_add` is the two's complement reduction of `x + y`. -/
theorem C03_int_wrapping_add (hw : 0 < w) (hl : x.length = y.length) :
    WrapS x.length (toInt x + toInt y) (I.wrappingAdd x y) := Add.wrapS hw hl

example := C03_int_wrapping_add (x := maxS) (y := one) (by decide) (by decide)
example : I.wrappingAdd maxS one = top := by decide

/-- C03: signed `wrapping_sub`. -/
theorem C03_int_wrapping_sub (hw : 0 < w) (hl : x.length = y.length) :
    WrapS x.length (toInt x - toInt y) (I.wrappingSub x y) := Sub.wrapS hw hl

example := C03_int_wrapping_sub (x := top) (y := one) (by decide) (by decide)
example : I.wrappingSub top one = maxS := by decide

/-- C03: signed `overflowing_add`: flag iff `x + y` is outside `[MIN, MAX]`. -/
theorem C03_int_overflowing_add (hw : 1 < w) (hx : x ≠ []) (hl : x.length = y.length) :
    OverS x.length (toInt x + toInt y) (I.overflowingAdd x y) := Add.overS hw hx hl

example := C03_int_overflowing_add (x := maxS) (y := one) (by decide) (by decide) (by decide)
example : I.overflowingAdd maxS one = (top, true) ∧ I.overflowingAdd ones one = (zero, false) := by
  decide

/-- C03: signed `overflowing_sub`. -/
theorem C03_int_overflowing_sub (hw : 1 < w) (hx : x ≠ []) (hl : x.length = y.length) :
    OverS x.length (toInt x - toInt y) (I.overflowingSub x y) := Sub.overS hw hx hl

example := C03_int_overflowing_sub (x := top) (y := one) (by decide) (by decide) (by decide)
example : I.overflowingSub top one = (maxS, true) ∧ I.overflowingSub zero one = (ones, false) := by
  decide

/-- C03: signed `checked_add`. -/
theorem C03_int_checked_add (hw : 1 < w) (hx : x ≠ []) (hl : x.length = y.length) :
    CheckS x.length (toInt x + toInt y) (I.checkedAdd x y) := (Add.overS hw hx hl).check

example := C03_int_checked_add (x := top) (y := one) (by decide) (by decide) (by decide)

/-- C03: signed `checked_sub`. -/
theorem C03_int_checked_sub (hw : 1 < w) (hx : x ≠ []) (hl : x.length = y.length) :
    CheckS x.length (toInt x - toInt y) (I.checkedSub x y) := (Sub.overS hw hx hl).check

example := C03_int_checked_sub (x := top) (y := one) (by decide) (by decide) (by decide)

/-- C03: signed `saturating_add` clamps on the side of the exact sum. -/
theorem C03_int_saturating_add (hw : 1 < w) (hx : x ≠ []) (hl : x.length = y.length) :
    SatS x.length (toInt x + toInt y) (I.saturatingAdd x y) := by
  refine (Add.overS hw hx hl).check.saturate (by omega) hx ?_
  have h1 := toInt_InS x
  have h2 := toInt_InS y
  rw [show bits y = w * x.length by simp [bits, hl]] at h2
  rw [show bits x = w * x.length from rfl] at h1
  unfold InS at *
  omega

example := C03_int_saturating_add (x := maxS) (y := one) (by decide) (by decide) (by decide)
example : I.saturatingAdd maxS one = maxS ∧ I.saturatingAdd top ones = top := by decide

/-- C03: signed `saturating_sub`. -/
theorem C03_int_saturating_sub (hw : 1 < w) (hx : x ≠ []) (hl : x.length = y.length) :
    SatS x.length (toInt x - toInt y) (I.saturatingSub x y) := by
  refine (Sub.overS hw hx hl).check.saturate (by omega) hx ?_
  have h1 := toInt_InS x
  have h2 := toInt_InS y
  rw [show bits y = w * x.length by simp [bits, hl]] at h2
  rw [show bits x = w * x.length from rfl] at h1
  unfold InS at *
  omega

example := C03_int_saturating_sub (x := top) (y := one) (by decide) (by decide) (by decide)
example : I.saturatingSub top one = top ∧ I.saturatingSub zero top = maxS := by decide

/-- C03: signed `strict_add`, `strict_sub` panic iff the exact result is out of range. -/
theorem C03_int_strict_add_sub (hw : 1 < w) (hx : x ≠ []) (hl : x.length = y.length) :
    StrictS x.length (toInt x + toInt y) (I.strictAdd x y) ∧
      StrictS x.length (toInt x - toInt y) (I.strictSub x y) :=
  ⟨(Add.overS hw hx hl).check.strict, (Sub.overS hw hx hl).check.strict⟩

example := C03_int_strict_add_sub (x := top) (y := one) (by decide) (by decide) (by decide)
example : I.strictAdd maxS one = .panic ∧ I.strictSub top one = .panic := by decide

/-! ## C04 -/

/-- C04: `wrapping_add_signed` (unsigned + signed). -/
theorem C04_uint_wrapping_add_signed (hw : 0 < w) (hx : x ≠ []) (hl : x.length = y.length) :
    WrapU x.length (toNat x + toInt y) (U.wrappingAddSigned x y) := by
  have := (addSigned_over hw hx hl).1
  have e : (U.overflowingAddSigned x y).1 = U.wrappingAddSigned x y := by
    unfold U.overflowingAddSigned U.wrappingAddSigned U.wrappingAdd U.overflowingAdd
    rw [Add.wrappingFull, Add.wrappingLoop_eq _ _ _ hl]
    rfl
  rwa [e] at this

example := C04_uint_wrapping_add_signed (x := one) (y := m2) (by decide) (by decide) (by decide)
example : U.wrappingAddSigned one m2 = ones := by decide

/-- C04: `overflowing_add_signed`. -/
theorem C04_uint_overflowing_add_signed (hw : 0 < w) (hx : x ≠ []) (hl : x.length = y.length) :
    OverU x.length (toNat x + toInt y) (U.overflowingAddSigned x y) := addSigned_over hw hx hl

example := C04_uint_overflowing_add_signed (x := one) (y := m2) (by decide) (by decide) (by decide)
example : U.overflowingAddSigned one m2 = (ones, true) ∧
    U.overflowingAddSigned a ones = ([0xfffffffffffffffe, 0, 5, 0], false) := by decide

/-- C04: `overflowing_sub_signed`. -/
theorem C04_uint_overflowing_sub_signed (hw : 0 < w) (hx : x ≠ []) (hl : x.length = y.length) :
    OverU x.length (toNat x - toInt y) (U.overflowingSubSigned x y) := subSigned_over hw hx hl

example := C04_uint_overflowing_sub_signed (x := one) (y := m2) (by decide) (by decide) (by decide)
example : U.overflowingSubSigned one m2 = ([3, 0, 0, 0], false) := by decide

/-- C04: `checked_add_signed` and `strict_add_signed`. -/
theorem C04_uint_checked_add_signed (hw : 0 < w) (hx : x ≠ []) (hl : x.length = y.length) :
    CheckU x.length (toNat x + toInt y) (U.checkedAddSigned x y) ∧
      StrictU x.length (toNat x + toInt y) (U.strictAddSigned x y) :=
  ⟨(addSigned_over hw hx hl).check, (addSigned_over hw hx hl).check.strict⟩

example := C04_uint_checked_add_signed (x := one) (y := m2) (by decide) (by decide) (by decide)
example : U.checkedAddSigned one m2 = none := by decide

/-- C04: `saturating_add_signed` clamps on the side of the exact result. -/
theorem C04_uint_saturating_add_signed (hw : 0 < w) (hx : x ≠ []) (hl : x.length = y.length) :
    SatU x.length (toNat x + toInt y) (U.saturatingAddSigned x y) := by
  have ho := addSigned_over hw hx hl
  obtain ⟨_, hby, hy⟩ := toInt_pair hw hx hl
  have hxU := toNat_lt_int x
  have hyS := toInt_InS y
  rw [hby] at hyS
  rw [show bits x = w * x.length from rfl] at hxU
  unfold U.overflowingAddSigned at ho
  unfold U.saturatingAddSigned
  simp only at *
  generalize U.overflowingAdd x y = r at *
  obtain ⟨v, f⟩ := r
  rw [isNegative_eq hw hy] at *
  obtain ⟨h1, h2⟩ := ho
  simp only at *
  have hmax := maxValueU w x.length
  have hmin := minValueU w x.length
  have hn : (decide (toInt y < 0) = true) ↔ toInt y < 0 := by simp
  generalize decide (toInt y < 0) = n at *
  have hP : (0 : Int) < 2 ^ (w * x.length) := by positivity
  cases f <;> cases n
  · simp at *
    refine ⟨h1.1, ?_⟩
    rw [(h1.exact h2).2]
    unfold InU at h2
    omega
  · simp at *
    refine ⟨hmin.1, ?_⟩
    rw [hmin.2]
    unfold InU InS at *
    omega
  · simp at *
    refine ⟨hmax.1, ?_⟩
    rw [hmax.2]
    unfold InU InS at *
    omega
  · simp at *
    refine ⟨h1.1, ?_⟩
    rw [(h1.exact h2).2]
    unfold InU at h2
    omega

example := C04_uint_saturating_add_signed (x := one) (y := m2) (by decide) (by decide) (by decide)
example : U.saturatingAddSigned one m2 = zero ∧ U.saturatingAddSigned ones one = ones := by decide

/-- C04: `overflowing_add_unsigned` (signed + unsigned). -/
theorem C04_int_overflowing_add_unsigned (hw : 1 < w) (hx : x ≠ []) (hl : x.length = y.length) :
    OverS x.length (toInt x + toNat y) (I.overflowingAddUnsigned x y) := addUnsigned_over hw hx hl

example := C04_int_overflowing_add_unsigned (x := top) (y := ones) (by decide) (by decide)
  (by decide)
example : I.overflowingAddUnsigned top ones = (maxS, false) ∧
    I.overflowingAddUnsigned one ones = (zero, true) := by decide

/-- C04: `overflowing_sub_unsigned` and `wrapping_sub_unsigned`. -/
theorem C04_int_overflowing_sub_unsigned (hw : 1 < w) (hx : x ≠ []) (hl : x.length = y.length) :
    OverS x.length (toInt x - toNat y) (I.overflowingSubUnsigned x y) ∧
      WrapS x.length (toInt x - toNat y) (I.wrappingSubUnsigned x y) := by
  have h := subUnsigned_over hw hx hl
  refine ⟨h, ?_⟩
  have e : (I.overflowingSubUnsigned x y).1 = I.wrappingSubUnsigned x y := by
    unfold I.overflowingSubUnsigned I.wrappingSubUnsigned I.wrappingSub I.overflowingSub
    exact Sub.sOverflowingLoop_fst _ _ _ hl
  rw [← e]
  exact h.1

example := C04_int_overflowing_sub_unsigned (x := maxS) (y := ones) (by decide) (by decide)
  (by decide)
example : I.overflowingSubUnsigned maxS ones = (top, false) := by decide

/-- C04: `checked_add_unsigned`, `checked_sub_unsigned` and the strict forms. -/
theorem C04_int_checked_unsigned (hw : 1 < w) (hx : x ≠ []) (hl : x.length = y.length) :
    CheckS x.length (toInt x + toNat y) (I.checkedAddUnsigned x y) ∧
      CheckS x.length (toInt x - toNat y) (I.checkedSubUnsigned x y) ∧
      StrictS x.length (toInt x + toNat y) (I.strictAddUnsigned x y) ∧
      StrictS x.length (toInt x - toNat y) (I.strictSubUnsigned x y) :=
  ⟨(addUnsigned_over hw hx hl).check, (subUnsigned_over hw hx hl).check,
    (addUnsigned_over hw hx hl).check.strict, (subUnsigned_over hw hx hl).check.strict⟩

example := C04_int_checked_unsigned (x := maxS) (y := ones) (by decide) (by decide) (by decide)

/-- C04: `saturating_add_unsigned` clamps to `MAX`. -/
theorem C04_int_saturating_add_unsigned (hw : 1 < w) (hx : x ≠ []) (hl : x.length = y.length) :
    SatS x.length (toInt x + toNat y) (I.saturatingAddUnsigned x y) := by
  have hN : 0 < x.length := List.length_pos_iff.2 hx
  have h := (addUnsigned_over hw hx hl).check
  unfold I.saturatingAddUnsigned I.checkedAddUnsigned
  by_cases hi : InS (w * x.length) (toInt x + toNat y)
  · obtain ⟨v, hv, hv2⟩ := h.1 hi
    rw [hv]
    exact SatS.some (by omega) hN hi hv2
  · rw [h.2 hi]
    refine SatS.max (by omega) hN hi ?_
    have := toInt_InS x
    rw [show bits x = w * x.length from rfl] at this
    unfold InS at *
    omega

example := C04_int_saturating_add_unsigned (x := one) (y := ones) (by decide) (by decide)
  (by decide)
example : I.saturatingAddUnsigned one ones = maxS := by decide

/-- C04: `saturating_sub_unsigned` clamps to `MIN`. -/
theorem C04_int_saturating_sub_unsigned (hw : 1 < w) (hx : x ≠ []) (hl : x.length = y.length) :
    SatS x.length (toInt x - toNat y) (I.saturatingSubUnsigned x y) := by
  have hN : 0 < x.length := List.length_pos_iff.2 hx
  have h := (subUnsigned_over hw hx hl).check
  unfold I.saturatingSubUnsigned I.checkedSubUnsigned
  by_cases hi : InS (w * x.length) (toInt x - toNat y)
  · obtain ⟨v, hv, hv2⟩ := h.1 hi
    rw [hv]
    exact SatS.some (by omega) hN hi hv2
  · rw [h.2 hi]
    refine SatS.min (by omega) hN hi ?_
    have := toInt_InS x
    rw [show bits x = w * x.length from rfl] at this
    unfold InS at *
    omega

example := C04_int_saturating_sub_unsigned (x := m2) (y := ones) (by decide) (by decide)
  (by decide)
example : I.saturatingSubUnsigned m2 ones = top := by decide

end I256
