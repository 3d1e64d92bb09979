import Verif.Lemmas.FormsAgree
import Verif.Props.Scalar
import Verif.Props.Pow
import Verif.Props.Sign

/-!
# The forms of one operation agree (C80)

Whatever the overflowing form returns determines what the wrapping, checked, strict and saturating
forms and the operator return.  This holds for all operands, also where the overflow flag itself is
wrong (`Mul.Gap`, C08), where the remainder is wrong (`strayRem`, C13) and where the division panics
(`DivPanics`, C14).
-/

namespace I256

open Sample

variable {w k : Nat} {x y : Limbs w} {e : Nat}

/-- C80: unsigned addition, subtraction, multiplication and powers. `checked_mul` decides part of its
cases by the logarithms of the operands, the overflowing form by the product. -/
theorem C80_uint (hw : 0 < w) (h2 : x.length % 2 = 0) (hx : 4 ≤ x.length) (hl : x.length = y.length)
    (he : e < 2 ^ 32) :
    Agree (.ok (U.wrappingAdd x y)) (.ok (U.overflowingAdd x y)) (.ok (U.checkedAdd x y))
      (U.strictAdd x y) (U.add · x y) ∧
    Agree (.ok (U.wrappingSub x y)) (.ok (U.overflowingSub x y)) (.ok (U.checkedSub x y))
      (U.strictSub x y) (U.sub · x y) ∧
    Agree (.ok (U.wrappingMul x y)) (.ok (U.overflowingMul x y)) (.ok (U.checkedMul x y))
      (U.strictMul x y) (U.mul · x y) ∧
    Agree (.ok (U.wrappingPow x e)) (.ok (U.overflowingPow x e)) (.ok (U.checkedPow x e))
      (U.strictPow x e) (U.pow · x e) := by
  have hx0 : x ≠ [] := List.length_pos_iff.1 (by omega)
  refine ⟨Agree.mk ?_ rfl, Agree.mk ?_ rfl, Agree.mk ?_ ?_, Agree.mk ?_ rfl⟩
  · exact (C01_uint_wrapping_add hw hl).unique (C02_uint_overflowing_add hw hl).1 rfl
  · exact (C01_uint_wrapping_sub hw hl).unique (C02_uint_overflowing_sub hw hl).1.1 rfl
  · exact (C06_uint_wrapping_mul hx0 hl).unique (C07_uint_overflowing_mul hx0 hl).1 rfl
  · exact (C07_uint_checked_mul hw hl h2 hx).unique (C07_uint_overflowing_mul hx0 hl).check
  · exact (C10_uint_wrapping_pow hw hx0 he).unique (C11_uint_overflowing_pow hw hx0 he).1 rfl

example := C80_uint (x := ones) (y := m2) (e := 5) (by decide) (by decide) (by decide) (by decide) (by decide)
/-- An overflow that the logarithms do not show: `3 * 2^190 * 3 * 2^63`. -/
example : let x : Limbs 64 := [0, 0, 0xc000000000000000, 0]
    let y : Limbs 64 := [0x8000000000000000, 1, 0, 0]
    U.overflowingMul x y = ([0, 0, 0, 0x2000000000000000], true) ∧ U.checkedMul x y = none := by
  decide +kernel

/-- C80: signed addition, subtraction, multiplication, powers, negation and absolute values. For the
absolute value, `abs` is the strict form in every build. -/
theorem C80_int (hw : 1 < w) (h2 : x.length % 2 = 0) (hx : 4 ≤ x.length) (hl : x.length = y.length)
    (he : e < 2 ^ 32) :
    Agree (.ok (I.wrappingAdd x y)) (.ok (I.overflowingAdd x y)) (.ok (I.checkedAdd x y))
      (I.strictAdd x y) (I.add · x y) ∧
    Agree (.ok (I.wrappingSub x y)) (.ok (I.overflowingSub x y)) (.ok (I.checkedSub x y))
      (I.strictSub x y) (I.sub · x y) ∧
    Agree (.ok (I.wrappingMul x y)) (.ok (I.overflowingMul x y)) (.ok (I.checkedMul x y))
      (I.strictMul x y) (I.mul · x y) ∧
    Agree (.ok (I.wrappingPow x e)) (.ok (I.overflowingPow x e)) (.ok (I.checkedPow x e))
      (I.strictPow x e) (I.pow · x e) ∧
    Agree (.ok (I.wrappingNeg x)) (.ok (I.overflowingNeg x)) (.ok (I.checkedNeg x))
      (I.strictNeg x) (I.neg · x) ∧
    Agree (.ok (I.wrappingAbs x)) (.ok (I.overflowingAbs x)) (.ok (I.checkedAbs x))
      (I.abs x) (fun oc => if oc then I.abs x else .ok (I.wrappingAbs x)) := by
  have hx0 : x ≠ [] := List.length_pos_iff.1 (by omega)
  refine ⟨Agree.mk ?_ rfl, Agree.mk ?_ rfl, Agree.mk ?_ rfl, Agree.mk ?_ rfl, Agree.mk ?_ rfl, ?_⟩
  · exact (C03_int_wrapping_add (by omega) hl).unique (C03_int_overflowing_add hw hx0 hl).1
  · exact (C03_int_wrapping_sub (by omega) hl).unique (C03_int_overflowing_sub hw hx0 hl).1
  · exact (C06_int_wrapping_mul hx0 hl).unique (C08_int_mul_all_partial (by omega) hx0 hl true).1.1
  · exact (C10_int_wrapping_pow (by omega) hx0 he).unique (C11_int_pow_all_partial hw hx h2 he).1.1
  · exact (C36_int_wrapping_neg (by omega) (by omega)).unique
      (C36_int_neg (by omega) (by omega) h2 true).1.1
  · have h := Agree.mk (wr := I.wrappingAbs x) (ov := I.overflowingAbs x) (ch := I.checkedAbs x) rfl rfl
    have : (fun oc => if oc then I.abs x else .ok (I.wrappingAbs x)) =
        fun oc => opOf oc (I.wrappingAbs x) (I.checkedAbs x) := by
      funext oc; cases oc <;> rfl
    rw [this]
    exact h

example := C80_int (x := top) (y := ones) (e := 3) (by decide) (by decide) (by decide) (by decide) (by decide)
/-- A product whose overflow goes unnoticed: all forms return the same value. -/
example : let x : Limbs 64 := [0xaaaaaaaaaaaaaaab, 0xaaaaaaaaaaaaaaaa, 0xaaaaaaaaaaaaaaaa,
      0x2aaaaaaaaaaaaaaa]
    let y : Limbs 64 := [0xfffffffffffffffd, 0xffffffffffffffff, 0xffffffffffffffff, 0xffffffffffffffff]
    I.overflowingMul x y = (maxS, false) ∧ I.strictMul x y = .ok maxS ∧ I.wrappingMul x y = maxS := by
  decide +kernel

/-- C80: sums and differences of mixed signedness. There is no operator, and no `checked_sub_signed`
for the unsigned type. -/
theorem C80_mixed (hw : 1 < w) (hx : x ≠ []) (hl : x.length = y.length) :
    Agree (.ok (U.wrappingAddSigned x y)) (.ok (U.overflowingAddSigned x y)) (.ok (U.checkedAddSigned x y))
      (U.strictAddSigned x y) (fun oc => if oc then U.strictAddSigned x y else .ok (U.wrappingAddSigned x y)) ∧
    U.wrappingSub x y = (U.overflowingSubSigned x y).1 ∧
    Agree (.ok (I.wrappingAdd x y)) (.ok (I.overflowingAddUnsigned x y)) (.ok (I.checkedAddUnsigned x y))
      (I.strictAddUnsigned x y) (fun oc => if oc then I.strictAddUnsigned x y else .ok (I.wrappingAdd x y)) ∧
    Agree (.ok (I.wrappingSubUnsigned x y)) (.ok (I.overflowingSubUnsigned x y)) (.ok (I.checkedSubUnsigned x y))
      (I.strictSubUnsigned x y)
      (fun oc => if oc then I.strictSubUnsigned x y else .ok (I.wrappingSubUnsigned x y)) := by
  have key : ∀ {wr : Limbs w} {ov : Limbs w × Bool}, wr = ov.1 →
      Agree (.ok wr) (.ok ov) (.ok (mkChecked ov)) (unwrapOrPanic (mkChecked ov))
        (fun oc => if oc then unwrapOrPanic (mkChecked ov) else .ok wr) := by
    intro wr ov h
    have := Agree.mk h rfl
    have e : (fun oc => if oc then unwrapOrPanic (mkChecked ov) else .ok wr) =
        fun oc => opOf oc wr (mkChecked ov) := by
      funext oc; cases oc <;> rfl
    rw [e]
    exact this
  refine ⟨key ?_, ?_, key ?_, key ?_⟩
  · exact (C01_uint_wrapping_add (by omega) hl).unique (C02_uint_overflowing_add (by omega) hl).1 rfl
  · exact (C01_uint_wrapping_sub (by omega) hl).unique (C02_uint_overflowing_sub (by omega) hl).1.1 rfl
  · exact (C03_int_wrapping_add (by omega) hl).unique (C03_int_overflowing_add hw hx hl).1
  · exact (C03_int_wrapping_sub (by omega) hl).unique (C03_int_overflowing_sub hw hx hl).1

example := C80_mixed (x := maxS) (y := ones) (by decide) (by decide) (by decide)
example : I.overflowingAddUnsigned maxS ones = ([0xfffffffffffffffe, 0xffffffffffffffff,
    0xffffffffffffffff, 0x7fffffffffffffff], true) := by decide

/-- C80: shifts of the signed type by an amount of type `u32`. -/
theorem C80_shift (hB : bits x < 2 ^ 32) (n : BitVec 32) :
    Agree (.ok (wrappingShl x n.toNat)) (.ok (I.overflowingShl x n.toNat)) (.ok (checkedShl x n.toNat))
      (strictShl x n.toNat) (shlPrim · false x n) ∧
    Agree (.ok (wrappingShr true x n.toNat)) (.ok (I.overflowingShr x n.toNat))
      (.ok (checkedShr true x n.toNat)) (strictShr true x n.toNat) (shrPrim · false true x n) := by
  have e : primAsU32 false n = n.toNat := by simp [primAsU32]
  constructor
  · unfold shlPrim
    rw [e]
    exact Agree.shift hB n
  · unfold shrPrim
    rw [e]
    exact Agree.shift hB n

example := C80_shift (x := top) (by decide) 256
example : I.overflowingShl one 257 = ([2, 0, 0, 0], true) ∧ shlPrim (n := 32) true false one 257 = .panic ∧
    shlPrim (n := 32) false false one 257 = .ok [2, 0, 0, 0] := by decide

/-- C80: the bound that the saturating forms return when the flag is set. -/
theorem C80_saturating (hw : 1 < w) (h2 : x.length % 2 = 0) (hx : 4 ≤ x.length) (hl : x.length = y.length) :
    Clamps (U.overflowingAdd x y) (U.saturatingAdd x y) (U.maxValue w x.length) ∧
    Clamps (U.overflowingSub x y) (U.saturatingSub x y) (U.minValue w x.length) ∧
    Clamps (U.overflowingMul x y) (U.saturatingMul x y) (U.maxValue w x.length) ∧
    Clamps (U.overflowingPow x e) (U.saturatingPow x e) (U.maxValue w x.length) ∧
    Clamps (I.overflowingAdd x y) (I.saturatingAdd x y)
      (if toInt x < 0 then I.minValue w x.length else I.maxValue w x.length) ∧
    Clamps (I.overflowingSub x y) (I.saturatingSub x y)
      (if toInt x < 0 then I.minValue w x.length else I.maxValue w x.length) ∧
    Clamps (I.overflowingMul x y) (I.saturatingMul x y)
      (if toInt x < 0 ↔ toInt y < 0 then I.maxValue w x.length else I.minValue w x.length) ∧
    Clamps (I.overflowingPow x e) (I.saturatingPow x e)
      (if toInt x < 0 ∧ e % 2 = 1 then I.minValue w x.length else I.maxValue w x.length) ∧
    Clamps (I.overflowingAbs x) (I.saturatingAbs x) (I.maxValue w x.length) := by
  have hx0 : x ≠ [] := List.length_pos_iff.1 (by omega)
  have hy0 : y ≠ [] := List.length_pos_iff.1 (by omega)
  have hn := isNegative_eq (x := x) (by omega) hx0
  have hm := isNegative_eq (x := y) (by omega) hy0
  have hz := ofU8S (w := w) (N := x.length) (v := 0) (by omega) (by omega) (by positivity)
  refine ⟨Clamps.mk, Clamps.mk, ?_, Clamps.mk, ?_, ?_, ?_, ?_, Clamps.mk⟩
  · rw [U.saturatingMul, (C07_uint_checked_mul (by omega) hl h2 hx).unique
      (C07_uint_overflowing_mul hx0 hl).check]
    exact Clamps.mk
  · rw [I.saturatingAdd, I.checkedAdd]
    cases h : I.overflowingAdd x y with | mk v f => ?_
    cases f
    · exact ⟨fun _ => rfl, nofun⟩
    · refine ⟨nofun, fun _ => ?_⟩
      change (if I.isNegative x then _ else _) = _
      rw [hn]; simp
  · rw [I.saturatingSub, I.checkedSub]
    cases h : I.overflowingSub x y with | mk v f => ?_
    cases f
    · exact ⟨fun _ => rfl, nofun⟩
    · refine ⟨nofun, fun _ => ?_⟩
      change (if I.isNegative x then _ else _) = _
      rw [hn]; simp
  · rw [I.saturatingMul, I.checkedMul]
    cases h : I.overflowingMul x y with | mk v f => ?_
    cases f
    · exact ⟨fun _ => rfl, nofun⟩
    · refine ⟨nofun, fun _ => ?_⟩
      change (if I.isNegative x == I.isNegative y then _ else _) = _
      rw [hn, hm]
      by_cases c : toInt x < 0 <;> by_cases d : toInt y < 0 <;> simp [c, d]
  · rw [I.saturatingPow, I.checkedPow]
    cases h : I.overflowingPow x e with | mk v f => ?_
    cases f
    · exact ⟨fun _ => rfl, nofun⟩
    · refine ⟨nofun, fun _ => ?_⟩
      change (if Ord.lt true x (ofU8 x.length 0) && e % 2 == 1 then _ else _) = _
      have hlt := Ord.lt_iff (x := x) (y := ofU8 x.length 0) (by omega) true hz.1.symm h2 (by omega)
      simp only [Ord.val, if_true, hz.2] at hlt
      by_cases c : toInt x < 0
      · rw [hlt.2 c]
        by_cases d : e % 2 = 1 <;> simp [c, d]
      · rw [Bool.eq_false_iff.2 (fun t => c (hlt.1 t))]
        simp [c]

example := C80_saturating (x := top) (y := m2) (e := 3) (by decide) (by decide) (by decide) (by decide)
example : I.saturatingPow top 3 = top ∧ I.saturatingPow top 2 = maxS ∧ I.saturatingMul top m2 = maxS := by
  decide +kernel

/-- C80: additions and subtractions of limbs and double limbs. There is no strict form; the operator
in a build with overflow checks stands for it. -/
theorem C80_scalar (hw : 1 < w) (hx : 3 ≤ x.length) (n : BitVec w) (m : BitVec (w + w)) :
    Agree (.ok (U.wrappingAddULimb x n)) (.ok (U.overflowingAddULimb x n)) (.ok (U.checkedAddULimb x n))
      (U.addULimb true x n) (U.addULimb · x n) ∧
    Agree (.ok (U.wrappingSubULimb x n)) (.ok (U.overflowingSubULimb x n)) (.ok (U.checkedSubULimb x n))
      (U.subULimb true x n) (U.subULimb · x n) ∧
    Agree (.ok (U.wrappingMulULimb x n)) (.ok (U.overflowingMulULimb x n)) (.ok (U.checkedMulULimb x n))
      (U.mulULimb true x n) (U.mulULimb · x n) ∧
    Agree (U.wrappingAddUWide x m) (U.overflowingAddUWide x m) (U.checkedAddUWide x m)
      (U.addUWide true x m) (U.addUWide · x m) ∧
    Agree (U.wrappingSubUWide x m) (U.overflowingSubUWide x m) (U.checkedSubUWide x m)
      (U.subUWide true x m) (U.subUWide · x m) ∧
    Agree (.ok (U.wrappingMulUWide x m)) (.ok (U.overflowingMulUWide x m)) (.ok (U.checkedMulUWide x m))
      (U.mulUWide true x m) (U.mulUWide · x m) ∧
    Agree (.ok (I.wrappingAddULimb x n)) (.ok (I.overflowingAddULimb x n)) (.ok (I.checkedAddULimb x n))
      (I.addULimb true x n) (I.addULimb · x n) ∧
    Agree (.ok (I.wrappingAddILimb x n)) (.ok (I.overflowingAddILimb x n)) (.ok (I.checkedAddILimb x n))
      (I.addILimb true x n) (I.addILimb · x n) ∧
    Agree (.ok (I.wrappingSubULimb x n)) (.ok (I.overflowingSubULimb x n)) (.ok (I.checkedSubULimb x n))
      (I.subULimb true x n) (I.subULimb · x n) ∧
    Agree (.ok (I.wrappingSubILimb x n)) (.ok (I.overflowingSubILimb x n)) (.ok (I.checkedSubILimb x n))
      (I.subILimb true x n) (I.subILimb · x n) ∧
    Agree (.ok (I.wrappingMulULimb x n)) (.ok (I.overflowingMulULimb x n)) (.ok (I.checkedMulULimb x n))
      (I.mulULimb true x n) (I.mulULimb · x n) ∧
    Agree (.ok (I.wrappingMulILimb x n)) (.ok (I.overflowingMulILimb x n)) (.ok (I.checkedMulILimb x n))
      (I.mulILimb true x n) (I.mulILimb · x n) ∧
    Agree (.ok (I.wrappingAddUWide x m)) (.ok (I.overflowingAddUWide x m)) (.ok (I.checkedAddUWide x m))
      (I.addUWide true x m) (I.addUWide · x m) ∧
    Agree (.ok (I.wrappingAddIWide x m)) (.ok (I.overflowingAddIWide x m)) (.ok (I.checkedAddIWide x m))
      (I.addIWide true x m) (I.addIWide · x m) ∧
    Agree (.ok (I.wrappingSubUWide x m)) (.ok (I.overflowingSubUWide x m)) (.ok (I.checkedSubUWide x m))
      (I.subUWide true x m) (I.subUWide · x m) ∧
    Agree (.ok (I.wrappingSubIWide x m)) (.ok (I.overflowingSubIWide x m)) (.ok (I.checkedSubIWide x m))
      (I.subIWide true x m) (I.subIWide · x m) ∧
    Agree (.ok (I.wrappingMulUWide x m)) (.ok (I.overflowingMulUWide x m)) (.ok (I.checkedMulUWide x m))
      (I.mulUWide true x m) (I.mulUWide · x m) ∧
    Agree (.ok (I.wrappingMulIWide x m)) (.ok (I.overflowingMulIWide x m)) (.ok (I.checkedMulIWide x m))
      (I.mulIWide true x m) (I.mulIWide · x m) := by
  have hx0 : x ≠ [] := List.length_pos_iff.1 (by omega)
  have hg := C08_int_mul_scalar_all_partial (x := x) (by omega) hx n m true
  have mu := C06_int_wrapping_mul_uscalar (x := x) n m
  have mi := C06_int_wrapping_mul_iscalar (x := x) (by omega) n m
  have um := C07_uint_mul_scalar (x := x) n m true
  have uw := C06_uint_wrapping_mul_scalar (x := x) n m
  have w1 : U.wrappingAddUWide x m = (U.overflowingAddUWide x m).map (·.1) := by
    obtain ⟨⟨v, e1, h1⟩, ⟨r, e2, h2⟩, -⟩ := C05_uint_add_uwide (by omega) hx m true
    rw [e1, e2, h1.unique h2.1 rfl]
    rfl
  have w2 : U.wrappingSubUWide x m = (U.overflowingSubUWide x m).map (·.1) := by
    obtain ⟨⟨v, e1, h1⟩, ⟨r, e2, h2⟩, -⟩ := C05_uint_sub_uwide (by omega) hx m true
    rw [e1, e2, h1.unique h2.1 rfl]
    rfl
  refine ⟨Agree.mk ?_ rfl, Agree.mk ?_ rfl, Agree.mk ?_ rfl, Agree.mkR w1, Agree.mkR w2, Agree.mk ?_ rfl,
    Agree.mk ?_ rfl, Agree.mk ?_ rfl, Agree.mk ?_ rfl, Agree.mk ?_ rfl, Agree.mk ?_ rfl, Agree.mk ?_ rfl,
    Agree.mk ?_ rfl, Agree.mk ?_ rfl, Agree.mk ?_ rfl, Agree.mk ?_ rfl, Agree.mk ?_ rfl, Agree.mk ?_ rfl⟩
  · have h := C05_uint_add_ulimb (by omega) hx0 n true
    exact h.1.unique h.2.1.1 rfl
  · have h := C05_uint_sub_ulimb (by omega) hx0 n true
    exact h.1.unique h.2.1.1 rfl
  · exact uw.1.unique um.1.1.1 rfl
  · exact uw.2.unique um.2.1.1 rfl
  · have h := C05_int_add_ulimb (x := x) hw (by omega) n true
    exact h.1.unique h.2.1.1
  · have h := C05_int_add_ilimb (x := x) hw (by omega) n true
    exact h.1.unique h.2.1.1
  · have h := C05_int_sub_ulimb (x := x) hw (by omega) n true
    exact h.1.unique h.2.1.1
  · have h := C05_int_sub_ilimb (x := x) hw (by omega) n true
    exact h.1.unique h.2.1.1
  · exact mu.1.unique hg.1.1.1
  · exact mi.1.unique hg.2.1.1.1
  · have h := C05_int_add_uwide (x := x) hw hx m true
    exact h.1.unique h.2.1.1
  · have h := C05_int_add_iwide (x := x) hw (by omega) m true
    exact h.1.unique h.2.1.1
  · have h := C05_int_sub_uwide (x := x) hw hx m true
    exact h.1.unique h.2.1.1
  · have h := C05_int_sub_iwide (x := x) hw (by omega) m true
    exact h.1.unique h.2.1.1
  · exact mu.2.unique hg.2.2.1.1.1
  · exact mi.2.unique hg.2.2.2.1.1

example := C80_scalar (x := maxS) (by decide) (by decide) 7 (-7)
example : I.overflowingMulILimb top (-1) = (top, true) ∧ I.mulILimb true top (-1) = .panic ∧
    I.mulILimb false top (-1) = .ok top := by decide +kernel

/-- C80: unsigned division. -/
theorem C80_uint_div (h2 : 2 ≤ x.length) (he : x.length % 2 = 0) (hl : x.length = y.length)
    (hy : toNat y ≠ 0) :
    Agree (U.wrappingDiv x y) (U.overflowingDiv x y) (U.checkedDiv x y) (U.strictDiv x y) (U.div · x y) ∧
    Agree (U.wrappingRem x y) (U.overflowingRem x y) (U.checkedRem x y) (U.strictRem x y) (U.rem · x y) ∧
    Agree (U.wrappingDivEuclid x y) (U.overflowingDivEuclid x y) (U.checkedDivEuclid x y)
      (U.strictDivEuclid x y) (U.divEuclid · x y) ∧
    Agree (U.wrappingRemEuclid x y) (U.overflowingRemEuclid x y) (U.checkedRemEuclid x y)
      (U.strictRemEuclid x y) (U.remEuclid · x y) ∧
    Agree (U.wrappingDivRem x y) (U.overflowingDivRem x y) (U.checkedDivRem x y)
      (U.divRem true x y) (U.divRem · x y) ∧
    U.saturatingDiv x y = U.wrappingDiv x y := by
  have hn := isDivNoneU (y := y) (by omega) (by omega) hy
  exact ⟨Agree.div hn, Agree.div hn, Agree.div hn, Agree.div hn, Agree.div hn, rfl⟩

example := C80_uint_div (x := ones) (y := d7) (by decide) (by decide) (by decide) (by decide)
/-- Also where the division panics. -/
example := C80_uint_div (x := n3) (y := d3) (by decide) (by decide) (by decide) (by decide)
example : U.overflowingDiv n3 d3 = .panic := by decide +kernel

/-- C80: signed division. -/
theorem C80_int_div (hw : 1 < w) (h2 : 2 ≤ x.length) (he : x.length % 2 = 0) (hl : x.length = y.length)
    (hy : toInt y ≠ 0) :
    Agree (I.wrappingDiv x y) (I.overflowingDiv x y) (I.checkedDiv x y) (I.strictDiv x y) (I.div · x y) ∧
    Agree (I.wrappingRem x y) (I.overflowingRem x y) (I.checkedRem x y) (I.strictRem x y) (I.rem · x y) ∧
    Agree (I.wrappingDivEuclid x y) (I.overflowingDivEuclid x y) (I.checkedDivEuclid x y)
      (I.strictDivEuclid x y) (I.divEuclid · x y) ∧
    Agree (I.wrappingRemEuclid x y) (I.overflowingRemEuclid x y) (I.checkedRemEuclid x y)
      (I.strictRemEuclid x y) (I.remEuclid · x y) ∧
    Agree (I.wrappingDivRem x y) (I.overflowingDivRem x y) (I.checkedDivRem x y)
      (I.divRem true x y) (I.divRem · x y) ∧
    (∀ r, I.overflowingDiv x y = .ok r → ∃ v, I.saturatingDiv x y = .ok v ∧
      Clamps r v (I.maxValue w x.length)) := by
  have hx0 : x ≠ [] := List.length_pos_iff.1 (by omega)
  have hz := ofU8S (w := w) (N := y.length) (v := 0) (by omega) (by omega) (by positivity)
  have hn : I.isDivNone x y = I.isDivOverflow x y := by
    have : Ord.eqConst y (ofU8 y.length 0) = false := by
      rw [Bool.eq_false_iff, Ne, Ord.eqConst_iff hz.1.symm (by omega)]
      intro h
      rw [h, hz.2] at hy
      exact hy rfl
    rw [I.isDivNone, this, Bool.false_or]
  have ov := wrappingDivRem_overflow hw hl h2 he
  have hneg : I.isNegative (ofU8 (w := w) x.length 0) = false := by
    rw [isNegative_eq (by omega) (List.length_pos_iff.1 (by
      rw [(ofU8S (w := w) (N := x.length) (v := 0) (by omega) (by omega) (by positivity)).1]; omega)),
      (ofU8S (w := w) (N := x.length) (v := 0) (by omega) (by omega) (by positivity)).2]
    simp
  have hmin : I.isDivOverflow x y = true → Ord.eqConst x (I.minValue w x.length) = true := by
    intro h
    rw [I.isDivOverflow, Bool.and_eq_true] at h
    exact h.1
  refine ⟨Agree.divS hn fun h => ?_, ?_, Agree.divS hn fun h => ?_, ?_, Agree.divS hn ov, ?_⟩
  · rw [I.wrappingDiv, ov h]; rfl
  · have e : I.overflowingRem x y = if I.isDivOverflow x y then .ok (ofU8 x.length 0, true)
        else (I.wrappingRem x y).map (·, false) := by
      unfold I.overflowingRem
      by_cases c : I.isDivOverflow x y = true
      · simp only [c, if_true, hmin c]
      · simp only [c, Bool.false_eq_true, if_false]
    rw [e]
    exact Agree.divS hn fun h => by rw [I.wrappingRem, ov h]; rfl
  · rw [I.wrappingDivEuclid, ov h]
    simp only [Res.map_ok, hneg, Bool.false_eq_true, if_false]
  · have e : I.overflowingRemEuclid x y = if I.isDivOverflow x y then .ok (ofU8 x.length 0, true)
        else (I.wrappingRemEuclid x y).map (·, false) := by
      unfold I.overflowingRemEuclid
      by_cases c : I.isDivOverflow x y = true
      · simp only [c, if_true, hmin c]
      · simp only [c, Bool.false_eq_true, if_false]
    rw [e]
    exact Agree.divS hn fun h => by
      rw [I.wrappingRemEuclid, I.wrappingRem, ov h]
      simp only [Res.map_ok, hneg, Bool.false_eq_true, if_false]
  · rintro ⟨v, f⟩ h
    rw [I.saturatingDiv, h]
    cases f
    · exact ⟨_, rfl, fun _ => rfl, nofun⟩
    · exact ⟨_, rfl, nofun, fun _ => rfl⟩

example := C80_int_div (x := top) (y := ones) (by decide) (by decide) (by decide) (by decide) (by decide)
example : I.overflowingRem top ones = .ok (zero, true) ∧ I.checkedRem top ones = .ok none ∧
    I.wrappingRem top ones = .ok zero ∧ I.rem true top ones = .panic := by decide +kernel

/-- C80: division by zero. -/
theorem C80_div_zero (hw : 1 < w) (h2 : 2 ≤ x.length) (he : x.length % 2 = 0) (hl : x.length = y.length)
    (hy : toNat y = 0) :
    (AgreeZero (U.wrappingDiv x y) (U.overflowingDiv x y) (U.checkedDiv x y) (U.strictDiv x y)
      (U.div · x y) ∧
    AgreeZero (U.wrappingRem x y) (U.overflowingRem x y) (U.checkedRem x y) (U.strictRem x y)
      (U.rem · x y) ∧
    AgreeZero (U.wrappingDivEuclid x y) (U.overflowingDivEuclid x y) (U.checkedDivEuclid x y)
      (U.strictDivEuclid x y) (U.divEuclid · x y) ∧
    AgreeZero (U.wrappingRemEuclid x y) (U.overflowingRemEuclid x y) (U.checkedRemEuclid x y)
      (U.strictRemEuclid x y) (U.remEuclid · x y) ∧
    AgreeZero (U.wrappingDivRem x y) (U.overflowingDivRem x y) (U.checkedDivRem x y)
      (U.divRem true x y) (U.divRem · x y)) ∧
    AgreeZero (I.wrappingDiv x y) (I.overflowingDiv x y) (I.checkedDiv x y) (I.strictDiv x y)
      (I.div · x y) ∧
    AgreeZero (I.wrappingRem x y) (I.overflowingRem x y) (I.checkedRem x y) (I.strictRem x y)
      (I.rem · x y) ∧
    AgreeZero (I.wrappingDivEuclid x y) (I.overflowingDivEuclid x y) (I.checkedDivEuclid x y)
      (I.strictDivEuclid x y) (I.divEuclid · x y) ∧
    AgreeZero (I.wrappingRemEuclid x y) (I.overflowingRemEuclid x y) (I.checkedRemEuclid x y)
      (I.strictRemEuclid x y) (I.remEuclid · x y) ∧
    AgreeZero (I.wrappingDivRem x y) (I.overflowingDivRem x y) (I.checkedDivRem x y)
      (I.divRem true x y) (I.divRem · x y) := by
  have hn := isDivNoneU_zero (y := y) (by omega) (by omega) hy
  have hm : I.isDivNone x y = true := by
    rw [I.isDivNone, show Ord.eqConst y (ofU8 y.length 0) = true from hn, Bool.true_or]
  have ho : I.isDivOverflow x y = false := by
    rw [Bool.eq_false_iff, Ne, isDivOverflow_iff hw hl h2 he]
    rintro ⟨-, h⟩
    have h1 := toInt_cases y
    have h3 := toNat_lt_int y
    rw [hy, h] at h1
    have : (1:Int) < 2 ^ bits y := by
      rw [bits]
      exact one_lt_pow₀ (by norm_num) (Nat.mul_pos (by omega) (by omega)).ne'
    omega
  refine ⟨⟨AgreeZero.mk hn rfl, AgreeZero.mk hn rfl, AgreeZero.mk hn rfl, AgreeZero.mk hn rfl,
    AgreeZero.mk hn rfl⟩, AgreeZero.mk hm ?_, AgreeZero.mk hm ?_, AgreeZero.mk hm ?_, AgreeZero.mk hm ?_,
    AgreeZero.mk hm ?_⟩
  · rw [I.overflowingDiv, ho]; rfl
  · rw [I.overflowingRem, ho]; rfl
  · rw [I.overflowingDivEuclid, ho]; rfl
  · rw [I.overflowingRemEuclid, ho]; rfl
  · rw [I.overflowingDivRem, ho]; rfl

example := C80_div_zero (x := top) (y := zero) (by decide) (by decide) (by decide) (by decide) (by decide)
/-- `0 / 0` (disagreement B4). -/
example : U.overflowingDiv zero zero = .ok (one, false) ∧ U.div false zero zero = .ok one ∧
    U.div true zero zero = .panic ∧ U.checkedDiv zero zero = .ok none := by decide +kernel

end I256
