import Verif.Lemmas.BitVecCounts
import Verif.Props.AddSub
import Verif.Props.GapAll
import Verif.Props.Sign
import Verif.Props.ShiftAll
import Verif.Props.Bitops
import Verif.Props.Endian
import Verif.Props.Ord
import Verif.Props.Casts
import Verif.Props.DivForms
import Verif.Props.Samples

/-!
# C97: the operations agree with the bit vectors of Lean's core library

`devel/tests/ops.rs` compares the operations with those of another crate on random inputs.  Here the
reference is Lean's `BitVec`, whose definitions are independent of this project.  `a` and `b` are bit
vectors of `n` bits, `x` and `y` the limb arrays with the same bits.
-/

namespace I256

open Sample

variable {w n k : Nat} {a b : BitVec n} {x y : Limbs w}

/-- Every limb array has the bits of a bit vector. -/
theorem C97_total (x : Limbs w) : SameBits (BitVec.ofNat (bits x) (toNat x)) x :=
  ⟨rfl, by rw [BitVec.toNat_ofNat, Nat.mod_eq_of_lt (toNat_lt x)]⟩

section binary
variable (hw : 1 < w) (h4 : 4 ≤ x.length) (h2 : x.length % 2 = 0) (hx : SameBits a x) (hy : SameBits b y)
include hw h4 h2 hx hy

/-! ### Sums, differences and products -/

/-- C97: unsigned sums. -/
theorem C97_uint_add (oc : Bool) :
    SameBits (a + b) (U.wrappingAdd x y) ∧
      FlagBits (a + b) (a.uaddOverflow b) (U.overflowingAdd x y) ∧
      SomeBits (a + b) (a.uaddOverflow b) (U.checkedAdd x y) ∧
      OkBits (a + b) (a.uaddOverflow b) (U.strictAdd x y) ∧
      OkBits (a + b) (oc && a.uaddOverflow b) (U.add oc x y) ∧
      SameBits (if a.uaddOverflow b then BitVec.allOnes n else a + b) (U.saturatingAdd x y) := by
  have hl := hx.length_eq (by omega) hy
  have hN := hx.length_mul
  have hc := SameBits.ofInt_toNat_add (a := a) (b := b)
  have ho := SameBits.uaddOverflow_iff (a := a) (b := b)
  have e1 := C01_uint_wrapping_add (x := x) (y := y) (by omega) hl
  have e2 := C02_uint_overflowing_add (x := x) (y := y) (by omega) hl
  have e3 := C02_uint_checked_add (x := x) (y := y) (by omega) hl
  have e4 := C02_uint_strict_add (x := x) (y := y) (by omega) hl
  have e5 := (C42_uint_add_sub (x := x) (y := y) (by omega) hl oc).1
  have e6 := C02_uint_saturating_add (x := x) (y := y) (by omega) hl
  rw [hx.toNat, hy.toNat] at e1 e2 e3 e4 e5 e6
  have e7 := SameBits.satU hN hc ho e6
  rw [if_neg (show ¬ ((a.toNat : Int) + b.toNat < 0) by omega)] at e7
  exact ⟨.wU hN hc e1, SameBits.flagU hN hc ho e2, SameBits.someU hN hc ho e3, SameBits.okU hN hc ho e4, SameBits.opU hN hc ho e5, e7⟩

/-- C97: unsigned differences. -/
theorem C97_uint_sub (oc : Bool) :
    SameBits (a - b) (U.wrappingSub x y) ∧
      FlagBits (a - b) (a.usubOverflow b) (U.overflowingSub x y) ∧
      SomeBits (a - b) (a.usubOverflow b) (U.checkedSub x y) ∧
      OkBits (a - b) (a.usubOverflow b) (U.strictSub x y) ∧
      OkBits (a - b) (oc && a.usubOverflow b) (U.sub oc x y) ∧
      SameBits (if a.usubOverflow b then 0 else a - b) (U.saturatingSub x y) := by
  have hl := hx.length_eq (by omega) hy
  have hN := hx.length_mul
  have hc := SameBits.ofInt_toNat_sub (a := a) (b := b)
  have ho := SameBits.usubOverflow_iff (a := a) (b := b)
  have e1 := C01_uint_wrapping_sub (x := x) (y := y) (by omega) hl
  have e2 := (C02_uint_overflowing_sub (x := x) (y := y) (by omega) hl).1
  have e3 := C02_uint_checked_sub (x := x) (y := y) (by omega) hl
  have e4 := C02_uint_strict_sub (x := x) (y := y) (by omega) hl
  have e5 := (C42_uint_add_sub (x := x) (y := y) (by omega) hl oc).2
  have e6 := C02_uint_saturating_sub (x := x) (y := y) (by omega) hl
  rw [hx.toNat, hy.toNat] at e1 e2 e3 e4 e5 e6
  refine ⟨.wU hN hc e1, SameBits.flagU hN hc ho e2, SameBits.someU hN hc ho e3, SameBits.okU hN hc ho e4, SameBits.opU hN hc ho e5, ?_⟩
  have e7 := SameBits.satU hN hc ho e6
  split
  · rename_i h
    rw [if_pos h, if_pos] at e7
    · exact e7
    · rw [BitVec.usubOverflow, decide_eq_true_eq] at h
      omega
  · rename_i h
    rwa [if_neg h] at e7

/-- C97: unsigned products. -/
theorem C97_uint_mul (oc : Bool) :
    SameBits (a * b) (U.wrappingMul x y) ∧
      FlagBits (a * b) (a.umulOverflow b) (U.overflowingMul x y) ∧
      SomeBits (a * b) (a.umulOverflow b) (U.checkedMul x y) ∧
      OkBits (a * b) (a.umulOverflow b) (U.strictMul x y) ∧
      OkBits (a * b) (oc && a.umulOverflow b) (U.mul oc x y) ∧
      SameBits (if a.umulOverflow b then BitVec.allOnes n else a * b) (U.saturatingMul x y) := by
  have hl := hx.length_eq (by omega) hy
  have hx0 : x ≠ [] := by rintro rfl; simp at h4
  have hN := hx.length_mul
  have hc := SameBits.ofInt_toNat_mul (a := a) (b := b)
  have ho := SameBits.umulOverflow_iff (a := a) (b := b)
  have e1 := C06_uint_wrapping_mul (x := x) (y := y) hx0 hl
  have e2 := C07_uint_overflowing_mul (x := x) (y := y) hx0 hl
  have e3 := C07_uint_checked_mul (x := x) (y := y) (by omega) hl h2 h4
  have e4 := (C07_uint_saturating_strict_mul (x := x) (y := y) (by omega) hl h2 h4).2
  have e5 := C42_uint_mul (x := x) (y := y) (by omega) hl h2 h4 oc
  have e6 := (C07_uint_saturating_strict_mul (x := x) (y := y) (by omega) hl h2 h4).1
  rw [hx.toNat, hy.toNat] at e1 e2 e3 e4 e5 e6
  have e7 := SameBits.satU hN hc ho e6
  rw [if_neg (show ¬ ((a.toNat : Int) * b.toNat < 0) from not_lt.2 (by positivity))] at e7
  exact ⟨.wU hN hc e1, SameBits.flagU hN hc ho e2, SameBits.someU hN hc ho e3, SameBits.okU hN hc ho e4, SameBits.opU hN hc ho e5, e7⟩

/-- C97: the two halves of the full product are those of the product of `2 n` bits. -/
theorem C97_widening_mul :
    ∃ lo hi : BitVec n, SameBits lo (U.wideningMul x y).1 ∧ SameBits hi (U.wideningMul x y).2 ∧
      SameBits hi (U.highMul x y) ∧ hi ++ lo = a.setWidth (n + n) * b.setWidth (n + n) := by
  have hl := hx.length_eq (by omega) hy
  have hx0 : x ≠ [] := by rintro rfl; simp at h4
  have hN := hx.length_mul
  obtain ⟨e1, e2, e3⟩ := C09_widening_mul (x := x) (y := y) hx0 hl
  have e4 := (C48_high_mul (x := x) (y := y) (by omega) hx0 hl h2).2.2
  rw [hx.toNat, hy.toNat, hx.1] at e3
  have hb1 : bits (U.wideningMul x y).1 = n := by rw [bits, e1, hN]
  have hb2 : bits (U.wideningMul x y).2 = n := by rw [bits, e2, hN]
  have l1 := toNat_lt (U.wideningMul x y).1
  have l2 := toNat_lt (U.wideningMul x y).2
  rw [hb1] at l1
  rw [hb2] at l2
  refine ⟨BitVec.ofNat n (toNat (U.wideningMul x y).1), BitVec.ofNat n (toNat (U.wideningMul x y).2),
    ⟨hb1, by rw [BitVec.toNat_ofNat, Nat.mod_eq_of_lt l1]⟩, ⟨hb2, by rw [BitVec.toNat_ofNat, Nat.mod_eq_of_lt l2]⟩,
    by rw [e4]; exact ⟨hb2, by rw [BitVec.toNat_ofNat, Nat.mod_eq_of_lt l2]⟩, ?_⟩
  apply BitVec.eq_of_toNat_eq
  have hp : 2 ^ n ≤ 2 ^ (n + n) := Nat.pow_le_pow_right (by decide) (by omega)
  have ha := a.isLt
  have hb := b.isLt
  have hm : a.toNat * b.toNat < 2 ^ (n + n) := by
    rw [pow_add]; exact Nat.mul_lt_mul_of_lt_of_lt ha hb
  rw [BitVec.toNat_append, BitVec.toNat_mul, BitVec.toNat_setWidth, BitVec.toNat_setWidth, BitVec.toNat_ofNat,
    BitVec.toNat_ofNat, Nat.mod_eq_of_lt l1, Nat.mod_eq_of_lt l2, Nat.mod_eq_of_lt (a := a.toNat) (by omega),
    Nat.mod_eq_of_lt (a := b.toNat) (by omega), Nat.mod_eq_of_lt hm, ← Nat.shiftLeft_add_eq_or_of_lt l1,
    Nat.shiftLeft_eq]
  nlinarith [e3]

/-- C97: signed sums. -/
theorem C97_int_add (oc : Bool) :
    SameBits (a + b) (I.wrappingAdd x y) ∧
      FlagBits (a + b) (a.saddOverflow b) (I.overflowingAdd x y) ∧
      SomeBits (a + b) (a.saddOverflow b) (I.checkedAdd x y) ∧
      OkBits (a + b) (a.saddOverflow b) (I.strictAdd x y) ∧
      OkBits (a + b) (oc && a.saddOverflow b) (I.add oc x y) ∧
      SameBits (if a.saddOverflow b then (if a.msb then BitVec.intMin n else BitVec.intMax n) else a + b)
        (I.saturatingAdd x y) := by
  have hl := hx.length_eq (by omega) hy
  have hx0 : x ≠ [] := by rintro rfl; simp at h4
  have hN := hx.length_mul
  have hn := hx.pos (by omega) hx0
  have hc := SameBits.ofInt_toInt_add (a := a) (b := b)
  have ho := SameBits.saddOverflow_iff (a := a) (b := b) hn
  have e1 := C03_int_wrapping_add (x := x) (y := y) (by omega) hl
  have e2 := C03_int_overflowing_add (x := x) (y := y) hw hx0 hl
  have e3 := C03_int_checked_add (x := x) (y := y) hw hx0 hl
  have e4 := (C03_int_strict_add_sub (x := x) (y := y) hw hx0 hl).1
  have e5 := (C42_int_add_sub (x := x) (y := y) hw hx0 hl oc).1
  have e6 := C03_int_saturating_add (x := x) (y := y) hw hx0 hl
  rw [hx.toInt, hy.toInt] at e1 e2 e3 e4 e5 e6
  refine ⟨.wS hN hc e1, SameBits.flagS hN hc ho e2, SameBits.someS hN hc ho e3, SameBits.okS hN hc ho e4, SameBits.opS hN hc ho e5, ?_⟩
  have e7 := SameBits.satS hN hc hn ho e6
  split
  · rename_i h
    simpa only [if_pos h, SameBits.add_sign hn h] using e7
  · rename_i h
    rwa [if_neg h] at e7

/-- C97: signed differences. -/
theorem C97_int_sub (oc : Bool) :
    SameBits (a - b) (I.wrappingSub x y) ∧
      FlagBits (a - b) (a.ssubOverflow b) (I.overflowingSub x y) ∧
      SomeBits (a - b) (a.ssubOverflow b) (I.checkedSub x y) ∧
      OkBits (a - b) (a.ssubOverflow b) (I.strictSub x y) ∧
      OkBits (a - b) (oc && a.ssubOverflow b) (I.sub oc x y) ∧
      SameBits (if a.ssubOverflow b then (if a.msb then BitVec.intMin n else BitVec.intMax n) else a - b)
        (I.saturatingSub x y) := by
  have hl := hx.length_eq (by omega) hy
  have hx0 : x ≠ [] := by rintro rfl; simp at h4
  have hN := hx.length_mul
  have hn := hx.pos (by omega) hx0
  have hc := SameBits.ofInt_toInt_sub (a := a) (b := b)
  have ho := SameBits.ssubOverflow_iff (a := a) (b := b) hn
  have e1 := C03_int_wrapping_sub (x := x) (y := y) (by omega) hl
  have e2 := C03_int_overflowing_sub (x := x) (y := y) hw hx0 hl
  have e3 := C03_int_checked_sub (x := x) (y := y) hw hx0 hl
  have e4 := (C03_int_strict_add_sub (x := x) (y := y) hw hx0 hl).2
  have e5 := (C42_int_add_sub (x := x) (y := y) hw hx0 hl oc).2
  have e6 := C03_int_saturating_sub (x := x) (y := y) hw hx0 hl
  rw [hx.toInt, hy.toInt] at e1 e2 e3 e4 e5 e6
  refine ⟨.wS hN hc e1, SameBits.flagS hN hc ho e2, SameBits.someS hN hc ho e3, SameBits.okS hN hc ho e4, SameBits.opS hN hc ho e5, ?_⟩
  have e7 := SameBits.satS hN hc hn ho e6
  split
  · rename_i h
    simpa only [if_pos h, SameBits.sub_sign hn h] using e7
  · rename_i h
    rwa [if_neg h] at e7

/-- C97: signed products, wrapped to the width. -/
theorem C97_int_wrapping_mul : SameBits (a * b) (I.wrappingMul x y) := by
  have hx0 : x ≠ [] := by rintro rfl; simp at h4
  have e1 := C06_int_wrapping_mul (x := x) (y := y) hx0 (hx.length_eq (by omega) hy)
  rw [hx.toInt, hy.toInt] at e1
  exact .wS hx.length_mul SameBits.ofInt_toInt_mul e1

/-- C97, partial: overflow of signed products is that of the bit vectors, except that the products in
`Mul.Gap` are not reported.  Full claim: the flag is `a.smulOverflow b`. -/
theorem C97_int_mul_partial (oc : Bool) {g : Bool} (hg : g = decide (Mul.Gap w x.length (a.toInt * b.toInt))) :
    FlagBits (a * b) (a.smulOverflow b && !g) (I.overflowingMul x y) ∧
      SomeBits (a * b) (a.smulOverflow b && !g) (I.checkedMul x y) ∧
      OkBits (a * b) (a.smulOverflow b && !g) (I.strictMul x y) ∧
      OkBits (a * b) (oc && (a.smulOverflow b && !g)) (I.mul oc x y) ∧
      SameBits (if a.smulOverflow b && !g then
        (if a.msb ^^ b.msb then BitVec.intMin n else BitVec.intMax n) else a * b) (I.saturatingMul x y) := by
  have hl := hx.length_eq (by omega) hy
  have hx0 : x ≠ [] := by rintro rfl; simp at h4
  have hN := hx.length_mul
  have hn := hx.pos (by omega) hx0
  have hc := SameBits.ofInt_toInt_mul (a := a) (b := b)
  have ho := SameBits.smulOverflow_iff (a := a) (b := b) hn
  have e := C08_int_mul_all_partial (x := x) (y := y) (by omega) hx0 hl oc
  rw [hx.toInt, hy.toInt] at e
  obtain ⟨e1, e2, e3, e4, e5⟩ := e
  refine ⟨SameBits.flagG hN hc ho hg e1, SameBits.someG hN hc ho hg e2, SameBits.okG hN hc ho hg e4, SameBits.opG hN hc ho hg e5, ?_⟩
  have e7 := SameBits.satG hN hc ho hg hn e3
  split
  · rename_i h
    rw [if_pos h] at e7
    have h' : a.toInt * b.toInt ≠ 0 := by
      rw [ho, Bool.and_eq_true, decide_eq_true_eq, SameBits.not_InS_iff hn] at h
      have : (0 : Int) < 2 ^ (n - 1) := by positivity
      omega
    simpa only [SameBits.mul_sign h'] using e7
  · rename_i h
    rwa [if_neg h] at e7

/-! ### Bits and order -/

/-- C97: and, or, exclusive or. -/
theorem C97_bitwise :
    SameBits (a &&& b) (Bits.and x y) ∧ SameBits (a ||| b) (Bits.or x y) ∧ SameBits (a ^^^ b) (Bits.xor x y) := by
  have hl := hx.length_eq (by omega) hy
  have hN := hx.length_mul
  have e1 := C23_and hl
  have e2 := C23_or hl
  have e3 := C23_xor hl
  rw [hx.toNat, hy.toNat] at e1 e2 e3
  refine ⟨.of_testBit (by rw [bits, e1.1, hN]) fun i _ => ?_, .of_testBit (by rw [bits, e2.1, hN]) fun i _ => ?_,
    .of_testBit (by rw [bits, e3.1, hN]) fun i _ => ?_⟩
  · rw [e1.2, BitVec.getLsbD_and, BitVec.testBit_toNat, BitVec.testBit_toNat]
  · rw [e2.2, BitVec.getLsbD_or, BitVec.testBit_toNat, BitVec.testBit_toNat]
  · rw [e3.2, BitVec.getLsbD_xor, BitVec.testBit_toNat, BitVec.testBit_toNat]

/-- C97: the order and the comparison for equality. -/
theorem C97_order :
    (Ord.lt false x y = a.ult b ∧ Ord.le false x y = a.ule b ∧ Ord.gt false x y = b.ult a ∧
      Ord.ge false x y = b.ule a) ∧
    (Ord.lt true x y = a.slt b ∧ Ord.le true x y = a.sle b ∧ Ord.gt true x y = b.slt a ∧
      Ord.ge true x y = b.sle a) ∧
    Ord.eqConst x y = (a == b) := by
  have hl := hx.length_eq (by omega) hy
  have e1 := C26_uint_order (by omega) hl h2 h4
  have e2 := C26_int_order (by omega) hl h2 h4
  have e3 := (C26_eq hl h2).1
  rw [hx.toNat, hy.toNat] at e1 e3
  rw [hx.toInt, hy.toInt] at e2
  have t : ∀ {p q : Bool} {P : Prop}, (p = true ↔ P) → (q = true ↔ P) → p = q := fun hp hq =>
    Bool.eq_iff_iff.2 (hp.trans hq.symm)
  refine ⟨⟨t e1.1 BitVec.ult_iff_toNat_lt, t e1.2.1 BitVec.ule_iff_toNat_le, t e1.2.2.1 BitVec.ult_iff_toNat_lt,
    t e1.2.2.2.1 BitVec.ule_iff_toNat_le⟩, ⟨t e2.1 BitVec.slt_iff_toInt_lt, t e2.2.1 BitVec.sle_iff_toInt_le,
    t e2.2.2.1 BitVec.slt_iff_toInt_lt, t e2.2.2.2.1 BitVec.sle_iff_toInt_le⟩, t e3 ?_⟩
  rw [beq_iff_eq, BitVec.toNat_eq]

/-! ### Division -/

/-- C97: unsigned quotients by a divisor other than zero. -/
theorem C97_uint_div (hb : b ≠ 0) (oc : Bool) :
    (∀ f ∈ [U.wrappingDiv, U.wrappingDivEuclid, U.saturatingDiv, U.divFloor, U.strictDiv, U.strictDivEuclid,
      U.div oc, U.divEuclid oc], Yields (DivPanics w x.length a.toNat b.toNat) (SameBits (a / b)) (f x y)) ∧
    (∀ f ∈ [U.overflowingDiv, U.overflowingDivEuclid],
      Yields (DivPanics w x.length a.toNat b.toNat) (FlagBits (a / b) false) (f x y)) ∧
    ∀ f ∈ [U.checkedDiv, U.checkedDivEuclid],
      Yields (DivPanics w x.length a.toNat b.toNat) (SomeBits (a / b) false) (f x y) := by
  have hl := hx.length_eq (by omega) hy
  have hN := hx.length_mul
  have hy0 : toNat y ≠ 0 := by
    rw [hy.toNat]; exact fun h => hb (BitVec.eq_of_toNat_eq (by simpa using h))
  have hc : BitVec.ofInt n ((a.toNat : Int) / b.toNat) = a / b := by
    rw [← SameBits.ofInt_udiv]; push_cast; rfl
  have e1 := C12_uint_div (x := x) (y := y) (by omega) hl (by omega) h2 hy0 oc
  have e2 := C12_uint_overflowing_div (x := x) (y := y) (by omega) hl (by omega) h2 hy0
  have e3 := C12_uint_checked_div (x := x) (y := y) (by omega) hl (by omega) h2 hy0
  rw [hx.toNat, hy.toNat] at e1 e2 e3
  refine ⟨fun f hf => (e1 f hf).mono fun v hv => .xU hN hc hv,
    fun f hf => (e2 f hf).mono fun v hv => ⟨.xU hN hc hv.1, hv.2⟩, fun f hf => (e3 f hf).mono ?_⟩
  rintro _ ⟨v, rfl, hv⟩
  exact ⟨rfl, .xU hN hc hv⟩

/-- C97, partial: unsigned remainders by a divisor other than zero, when long division is exact. Full
claim: without `hd`. -/
theorem C97_uint_rem_partial (hb : b ≠ 0) (hd : DivExact w x.length a.toNat b.toNat) (oc : Bool) :
    ∀ f ∈ [U.wrappingRem, U.wrappingRemEuclid, U.strictRem, U.strictRemEuclid, U.rem oc, U.remEuclid oc],
      OkBits (a % b) false (f x y) := by
  have hl := hx.length_eq (by omega) hy
  have hN := hx.length_mul
  have hy0 : toNat y ≠ 0 := by
    rw [hy.toNat]; exact fun h => hb (BitVec.eq_of_toNat_eq (by simpa using h))
  have hc : BitVec.ofInt n ((a.toNat : Int) % b.toNat) = a % b := by
    rw [← SameBits.ofInt_umod]; push_cast; rfl
  intro f hf
  have e1 := C13_uint_rem_exact_partial (x := x) (y := y) (by omega) hl (by omega) h2 hy0 oc f hf
  rw [hx.toNat, hy.toNat] at e1
  obtain ⟨v, hv, hv'⟩ := e1.2 hd
  rw [hv]
  exact ⟨rfl, .xU hN hc hv'⟩

/-- C97: signed quotients by a divisor other than zero. -/
theorem C97_int_div (hb : b ≠ 0) (oc : Bool) :
    Yields (DivPanics w x.length a.toInt.natAbs b.toInt.natAbs) (SameBits (a.sdiv b)) (I.wrappingDiv x y) ∧
    Yields (DivPanics w x.length a.toInt.natAbs b.toInt.natAbs) (FlagBits (a.sdiv b) (a.sdivOverflow b))
      (I.overflowingDiv x y) ∧
    Yields (DivPanics w x.length a.toInt.natAbs b.toInt.natAbs) (SomeBits (a.sdiv b) (a.sdivOverflow b))
      (I.checkedDiv x y) ∧
    Yields (DivPanics w x.length a.toInt.natAbs b.toInt.natAbs)
      (SameBits (if a.sdivOverflow b then BitVec.intMax n else a.sdiv b)) (I.saturatingDiv x y) ∧
    (DivPanics w x.length a.toInt.natAbs b.toInt.natAbs → I.div oc x y = .panic ∧ I.strictDiv x y = .panic) ∧
    (¬ DivPanics w x.length a.toInt.natAbs b.toInt.natAbs →
      OkBits (a.sdiv b) (oc && a.sdivOverflow b) (I.div oc x y) ∧
        OkBits (a.sdiv b) (a.sdivOverflow b) (I.strictDiv x y)) := by
  have hl := hx.length_eq (by omega) hy
  have hx0 : x ≠ [] := by rintro rfl; simp at h4
  have hN := hx.length_mul
  have hn := hx.pos (by omega) hx0
  have hy0 : toInt y ≠ 0 := by
    rw [hy.toInt]; exact fun h => hb (BitVec.eq_of_toInt_eq (by simpa using h))
  have hc := SameBits.ofInt_sdiv (a := a) (b := b)
  have ho := SameBits.sdivOverflow_iff (a := a) (b := b) hn
  have e1 := C17_int_wrapping_div (x := x) (y := y) hw hl (by omega) h2 hy0
  have e2 := C17_int_overflowing_div (x := x) (y := y) hw hl (by omega) h2 hy0
  have e3 := C17_int_checked_div (x := x) (y := y) hw hl (by omega) h2 hy0
  have e4 := C17_int_saturating_div (x := x) (y := y) hw hl (by omega) h2 hy0
  have e5 := C17_int_div (x := x) (y := y) hw hl (by omega) h2 hy0 oc
  rw [hx.toInt, hy.toInt] at e1 e2 e3 e4 e5
  refine ⟨e1.mono fun v hv => .wS hN hc hv, e2.mono fun v hv => SameBits.flagS hN hc ho hv.1,
    e3.mono fun v hv => SameBits.someS hN hc ho hv.1, e4.mono fun v hv => ?_, e5.1,
    fun h => ⟨SameBits.opS hN hc ho (e5.2 h).1, SameBits.okS hN hc ho (e5.2 h).2⟩⟩
  have e7 := SameBits.satS hN hc hn ho hv
  split
  · rename_i h
    rw [if_pos h, if_neg] at e7
    · exact e7
    · obtain ⟨h5, h6⟩ := (SameBits.sdivOverflow_eq hn).1 h
      have : (0 : Int) < 2 ^ (n - 1) := by positivity
      rw [h5, h6, Int.tdiv_neg, Int.tdiv_one]
      omega
  · rename_i h
    rwa [if_neg h] at e7

/-- C97, partial: signed remainders by a divisor other than zero, when long division is exact. Full
claim: without `hd`. -/
theorem C97_int_rem_partial (hb : b ≠ 0) (hd : DivExact w x.length a.toInt.natAbs b.toInt.natAbs) (oc : Bool) :
    OkBits (a.srem b) false (I.wrappingRem x y) ∧
      (∃ r, I.overflowingRem x y = .ok r ∧ FlagBits (a.srem b) (a.sdivOverflow b) r) ∧
      (∃ r, I.checkedRem x y = .ok r ∧ SomeBits (a.srem b) (a.sdivOverflow b) r) ∧
      OkBits (a.srem b) (a.sdivOverflow b) (I.strictRem x y) ∧
      OkBits (a.srem b) (oc && a.sdivOverflow b) (I.rem oc x y) := by
  have hl := hx.length_eq (by omega) hy
  have hx0 : x ≠ [] := by rintro rfl; simp at h4
  have hN := hx.length_mul
  have hn := hx.pos (by omega) hx0
  have hy0 : toInt y ≠ 0 := by
    rw [hy.toInt]; exact fun h => hb (BitVec.eq_of_toInt_eq (by simpa using h))
  have hc := SameBits.ofInt_srem (a := a) (b := b)
  have e := C17_int_rem_forms_partial (x := x) (y := y) hw hl (by omega) h2 hy0
    (by rwa [hx.toInt, hy.toInt]) oc
  rw [hx.toInt, hy.toInt, hN, ← SameBits.sdivOverflow_eq hn] at e
  obtain ⟨⟨v1, e1, f1⟩, ⟨v2, fl, e2, f2, g2⟩, e3, e4⟩ := e
  refine ⟨by rw [e1]; exact ⟨rfl, .xS hN hc f1⟩,
    ⟨_, e2, .xS hN hc f2, by cases fl <;> cases h : a.sdivOverflow b <;> simp_all⟩, ?_⟩
  cases h : a.sdivOverflow b
  · obtain ⟨v, p1, p2, p3, p4⟩ := e3 (by rw [h]; decide)
    rw [p2, p3]
    exact ⟨⟨_, p1, rfl, .xS hN hc p4⟩, ⟨rfl, .xS hN hc p4⟩, by cases oc <;> rfl, .xS hN hc p4⟩
  · obtain ⟨p1, p2, p3, v, p4, p5⟩ := e4 h
    rw [p2]
    refine ⟨⟨_, p1, rfl⟩, rfl, ?_⟩
    cases oc
    · rw [p4]
      refine ⟨rfl, .xS hN ?_ p5⟩
      rw [← hc]
      obtain ⟨h5, h6⟩ := (SameBits.sdivOverflow_eq hn).1 h
      rw [h5, h6, Int.tmod_neg, Int.tmod_one]
    · rw [p3]
      rfl

end binary

/-- The bits of `Sample.a`. -/
private def sa : BitVec 256 := 0x50000000000000000ffffffffffffffff
/-- The bits of `Sample.m2`. -/
private def sm : BitVec 256 := 0xfffffffffffffffffffffffffffffffffffffffffffffffffffffffffffffffe

example := C97_uint_add (w := 64) (a := sa) (b := sm) (x := Sample.a) (y := m2) (by decide) (by decide) (by decide) (by decide) (by decide) true
example := C97_uint_sub (w := 64) (a := sa) (b := sm) (x := Sample.a) (y := m2) (by decide) (by decide) (by decide) (by decide) (by decide) true
example := C97_uint_mul (w := 64) (a := sa) (b := sm) (x := Sample.a) (y := m2) (by decide) (by decide) (by decide) (by decide) (by decide) true
example := C97_widening_mul (w := 64) (a := sa) (b := sm) (x := Sample.a) (y := m2) (by decide) (by decide) (by decide) (by decide) (by decide)
example := C97_int_add (w := 64) (a := sa) (b := sm) (x := Sample.a) (y := m2) (by decide) (by decide) (by decide) (by decide) (by decide) true
example := C97_int_sub (w := 64) (a := sa) (b := sm) (x := Sample.a) (y := m2) (by decide) (by decide) (by decide) (by decide) (by decide) true
example := C97_int_wrapping_mul (w := 64) (a := sa) (b := sm) (x := Sample.a) (y := m2) (by decide) (by decide) (by decide) (by decide) (by decide)
example := C97_int_mul_partial (w := 64) (a := sa) (b := sm) (x := Sample.a) (y := m2) (by decide) (by decide) (by decide) (by decide) (by decide) true rfl
example := C97_bitwise (w := 64) (a := sa) (b := sm) (x := Sample.a) (y := m2) (by decide) (by decide) (by decide) (by decide) (by decide)
example := C97_order (w := 64) (a := sa) (b := sm) (x := Sample.a) (y := m2) (by decide) (by decide) (by decide) (by decide) (by decide)
example := C97_uint_div (w := 64) (a := sa) (b := sm) (x := Sample.a) (y := m2) (by decide) (by decide) (by decide) (by decide) (by decide) (by decide) true
example := C97_uint_rem_partial (w := 64) (a := sa) (b := sm) (x := Sample.a) (y := m2) (by decide) (by decide) (by decide) (by decide) (by decide) (by decide) (by decide +kernel) true
example := C97_int_div (w := 64) (a := sa) (b := sm) (x := Sample.a) (y := m2) (by decide) (by decide) (by decide) (by decide) (by decide) (by decide) true
example := C97_int_rem_partial (w := 64) (a := sa) (b := sm) (x := Sample.a) (y := m2) (by decide) (by decide) (by decide) (by decide) (by decide) (by decide) (by decide +kernel) true

example : sa.uaddOverflow sm = true ∧ sa.saddOverflow sm = false ∧ sa.umulOverflow sm = true ∧
    sa.smulOverflow sm = false ∧ sa.slt sm = false ∧ sa.ult sm = true := by decide

/-- C97 is false for the overflow flag of signed products. -/
theorem C97_int_mul_false : ∃ (a b : BitVec 256) (x y : Limbs 64), SameBits a x ∧ SameBits b y ∧
    a.smulOverflow b = true ∧ (I.overflowingMul x y).2 = false ∧ I.saturatingMul x y = maxS :=
  ⟨0x2aaaaaaaaaaaaaaaaaaaaaaaaaaaaaaaaaaaaaaaaaaaaaaaaaaaaaaaaaaaaaab,
    0xfffffffffffffffffffffffffffffffffffffffffffffffffffffffffffffffd,
    [0xaaaaaaaaaaaaaaab, 0xaaaaaaaaaaaaaaaa, 0xaaaaaaaaaaaaaaaa, 0x2aaaaaaaaaaaaaaa],
    [0xfffffffffffffffd, 0xffffffffffffffff, 0xffffffffffffffff, 0xffffffffffffffff], by decide +kernel⟩

/-- C97 is false for remainders. -/
theorem C97_rem_false : ∃ (a b : BitVec 256) (x y r : Limbs 64), SameBits a x ∧ SameBits b y ∧ b ≠ 0 ∧
    U.wrappingRem x y = .ok r ∧ I.wrappingRem x y = .ok r ∧ ¬ SameBits (a % b) r ∧ ¬ SameBits (a.srem b) r :=
  ⟨BitVec.ofNat 256 (toNat n2), BitVec.ofNat 256 (toNat d2), n2, d2,
    [0xfffffffffffffffe, 0xffffffffffffffff, 0x5fffffffffffffff, 0], by decide +kernel⟩

section unary
variable (hw : 1 < w) (h4 : 4 ≤ x.length) (h2 : x.length % 2 = 0) (hx : SameBits a x)
include hw h4 h2 hx

/-! ### Negation, absolute value, powers -/

/-- C97: negation and absolute value. -/
theorem C97_neg_abs (oc : Bool) :
    SameBits (-a) (U.wrappingNeg x) ∧ SomeBits (-a) (a != 0) (U.checkedNeg x) ∧
    (SameBits (-a) (I.wrappingNeg x) ∧ FlagBits (-a) a.negOverflow (I.overflowingNeg x) ∧
      SomeBits (-a) a.negOverflow (I.checkedNeg x) ∧ OkBits (-a) a.negOverflow (I.strictNeg x) ∧
      OkBits (-a) (oc && a.negOverflow) (I.neg oc x) ∧
      SameBits (if a.negOverflow then BitVec.intMax n else -a) (I.saturatingNeg x)) ∧
    (SameBits a.abs (I.wrappingAbs x) ∧ SameBits a.abs (I.unsignedAbs x) ∧
      FlagBits a.abs a.negOverflow (I.overflowingAbs x) ∧ SomeBits a.abs a.negOverflow (I.checkedAbs x) ∧
      OkBits a.abs a.negOverflow (I.abs x) ∧
      SameBits (if a.negOverflow then BitVec.intMax n else a.abs) (I.saturatingAbs x)) ∧
    I.isNegative x = a.msb := by
  have hx0 : x ≠ [] := by rintro rfl; simp at h4
  have hN := hx.length_mul
  have hn := hx.pos (by omega) hx0
  have hc := SameBits.ofInt_neg_toInt (a := a)
  have ho := SameBits.negOverflow_iff (a := a) hn
  have hc' := SameBits.ofInt_abs (a := a)
  have ho' := SameBits.absOverflow_iff (a := a) hn
  have e0 := C45_uint_neg (x := x) (by omega) h2
  have e1 := C36_int_wrapping_neg (x := x) (by omega) (by omega)
  have e2 := C36_int_neg (x := x) (by omega) (by omega) h2 oc
  have e3 := C36_int_saturating_neg (x := x) hw (by omega)
  have e4 := C36_int_abs (x := x) (by omega) (by omega) h2
  have e5 := C36_int_unsigned_abs (x := x) (by omega) (by omega) h2
  have e6 := (C36_int_sign_tests (x := x) (by omega) hx0).1
  rw [hx.toNat] at e0
  rw [hx.toInt] at e1 e2 e3 e4 e5 e6
  have hsat : ∀ z : Int, a.negOverflow = decide (¬ InS n z) → (z = -a.toInt ∨ 0 ≤ z) →
      ∀ {c : BitVec n} {v : Limbs w}, BitVec.ofInt n z = c → SatS x.length z v →
      SameBits (if a.negOverflow then BitVec.intMax n else c) v := by
    intro z hz hs c v hcz hv
    have e7 := SameBits.satS hN hcz hn hz hv
    split
    · rename_i h
      rw [if_pos h, if_neg] at e7
      · exact e7
      · have h9 := h
        rw [BitVec.negOverflow, beq_iff_eq] at h9
        have : (0 : Int) < 2 ^ (n - 1) := by positivity
        omega
    · rename_i h
      rwa [if_neg h] at e7
  refine ⟨.wU hN SameBits.ofInt_neg_toNat e0.1, SameBits.someU hN SameBits.ofInt_neg_toNat ?_ e0.2.1,
    ⟨.wS hN hc e1, SameBits.flagS hN hc ho e2.1, SameBits.someS hN hc ho e2.2.2.1, SameBits.okS hN hc ho e2.2.2.2.1,
      SameBits.opS hN hc ho e2.2.2.2.2, hsat _ ho (Or.inl rfl) hc e3⟩,
    ⟨.wS hN hc' e4.1, .xU hN hc' e5, SameBits.flagS hN hc' ho' e4.2.1, SameBits.someS hN hc' ho' e4.2.2.2.1,
      SameBits.okS hN hc' ho' e4.2.2.2.2.1, hsat _ ho' (Or.inr (abs_nonneg _)) hc' e4.2.2.2.2.2⟩, ?_⟩
  · have h1 := a.isLt
    have h3 : ((2 ^ n : Nat) : Int) = 2 ^ n := by push_cast; rfl
    rw [Bool.eq_iff_iff, decide_eq_true_eq, InU, bne_iff_ne, Ne, BitVec.toNat_eq]
    simp only [BitVec.ofNat_eq_ofNat, BitVec.toNat_ofNat, Nat.zero_mod]
    omega
  · rw [Bool.eq_iff_iff, e6, SameBits.msb_iff]

/-- C97: powers. -/
theorem C97_pow {e : Nat} (he : e < 2 ^ 32) :
    SameBits (a ^ e) (U.wrappingPow x e) ∧ SameBits (a ^ e) (I.wrappingPow x e) := by
  have hx0 : x ≠ [] := by rintro rfl; simp at h4
  have hN := hx.length_mul
  have e1 := C10_uint_wrapping_pow (x := x) (by omega) hx0 he
  have e2 := C10_int_wrapping_pow (x := x) (by omega) hx0 he
  rw [hx.toNat] at e1
  rw [hx.toInt] at e2
  exact ⟨.wU hN (SameBits.ofInt_toNat_pow e) e1, .wS hN (SameBits.ofInt_toInt_pow e) e2⟩

/-! ### Bits -/

/-- C97: complement, reversal and counts. -/
theorem C97_counts (be : Bool) :
    SameBits (~~~ a) (Bits.not x) ∧ SameBits a.reverse (Endian.reverseBits be x) ∧
      Bits.countOnes x = a.cpop.toNat ∧ Bits.countZeros x = (~~~ a).cpop.toNat ∧
      Bits.leadingZeros x = a.clz.toNat ∧ Bits.trailingZeros x = a.ctz.toNat ∧
      Bits.leadingOnes x = (~~~ a).clz.toNat ∧ Bits.trailingOnes x = (~~~ a).ctz.toNat := by
  have hN := hx.length_mul
  have e1 := C23_not (x := x) (by omega)
  have e2 := C24_reverse_bits (x := x) (be := be) (by omega)
  have e3 := C22_count_ones (x := x)
  have e4 := (C22_count_zeros (x := x)).1
  have e5 := C22_leading_zeros (x := x)
  have e6 := C22_trailing_zeros (x := x)
  have e7 := C22_leading_ones (x := x)
  have e8 := C22_trailing_ones (x := x)
  rw [hx.1, hx.toNat] at e1 e2 e3 e4 e5 e6 e7 e8
  simp only [BitVec.testBit_toNat] at e1 e2 e3 e4 e5 e6 e7 e8
  have hnot : ∀ i < n, (~~~ a).getLsbD i = !a.getLsbD i := fun i hi => by
    rw [BitVec.getLsbD_not, decide_eq_true hi, Bool.true_and]
  refine ⟨.of_testBit (by rw [bits, e1.1, hN]) fun i hi => by rw [e1.2.1 i hi, hnot i hi],
    .of_testBit (by rw [bits, e2.1, hN]) fun i hi => ?_, ?_, ?_, ?_, ?_, ?_, ?_⟩
  · rw [e2.2 i hi, BitVec.getLsbD_reverse, BitVec.getMsbD_eq_getLsbD, decide_eq_true hi, Bool.true_and]
  · rw [e3, SameBits.cpop_toNat]
  · rw [e4, SameBits.cpop_toNat]
    refine List.countP_congr fun i hi => ?_
    rw [hnot i (List.mem_range.1 hi)]
  · exact (SameBits.clz_unique e5.1 e5.2.1 e5.2.2.1).symm
  · exact (SameBits.ctz_unique e6.1 e6.2.1 e6.2.2.1).symm
  · refine (SameBits.clz_unique e7.1 (fun i hi => ?_) fun h => ?_).symm
    · rw [hnot _ (by omega), e7.2.1 i hi]; rfl
    · rw [hnot _ (by omega), e7.2.2 h]; rfl
  · refine (SameBits.ctz_unique e8.1 (fun i hi => ?_) fun h => ?_).symm
    · rw [hnot _ (by omega), e8.2.1 i hi]; rfl
    · rw [hnot _ h, e8.2.2 h]; rfl

/-- C97: shifts and rotations. -/
theorem C97_shift (hk : w = 2 ^ k) (s : Nat) :
    SameBits (a <<< (s % n)) (wrappingShl x s) ∧ SameBits (a >>> (s % n)) (wrappingShr false x s) ∧
      SameBits (a.sshiftRight (s % n)) (wrappingShr true x s) ∧
      SomeBits (a <<< s) (decide (n ≤ s)) (checkedShl x s) ∧
      SomeBits (a >>> s) (decide (n ≤ s)) (checkedShr false x s) ∧
      SomeBits (a.sshiftRight s) (decide (n ≤ s)) (checkedShr true x s) ∧
      SameBits (a <<< s) (unboundedShl x s) ∧ SameBits (a >>> s) (unboundedShr false x s) ∧
      SameBits (a.rotateLeft s) (rotateLeft x s) ∧ SameBits (a.rotateRight s) (rotateRight x s) := by
  have hx0 : x ≠ [] := by rintro rfl; simp at h4
  have hN := hx.length_mul
  have e1 := C20_uint_wrapping_shl (x := x) hk h2 hx0 s
  have e2 := C20_uint_wrapping_shr (x := x) hk h2 hx0 s
  have e3 := C20_int_wrapping_shr (x := x) hk h2 hx0 s
  have e4 := C20_checked_shl (x := x) hk h2 hx0 s
  have e5 := C20_uint_checked_shr (x := x) hk h2 hx0 s
  have e6 := C20_int_checked_shr (x := x) hk h2 hx0 s
  have e7 := C39_unbounded_shl (x := x) hk h2 hx0 s
  have e8 := C39_uint_unbounded_shr (x := x) hk h2 hx0 s
  have e9 := C21_rotate_left (x := x) hk h2 h4 s
  have e10 := C21_rotate_right (x := x) hk h2 h4 s
  rw [hx.toNat, hN] at e1 e2 e4 e5
  rw [hx.toNat] at e7 e8
  rw [hx.toInt, hN] at e3 e6
  rw [hx.1, hx.toNat] at e9 e10
  refine ⟨.wU hN (SameBits.ofInt_shl _) e1, .xU hN (SameBits.ofInt_ushr _) e2, .xS hN (SameBits.ofInt_sshr _) e3,
    ?_, ?_, ?_, .wU hN (SameBits.ofInt_shl _) e7, .xU hN (SameBits.ofInt_ushr _) e8,
    .of_rotl (by rw [bits, e9.1, hN]) e9.2, .of_rotr (by rw [bits, e10.1, hN]) e10.2⟩
  · by_cases hs : n ≤ s
    · rw [e4.2 hs]; exact decide_eq_true hs
    · obtain ⟨v, hv, hv', _⟩ := e4.1 (by omega)
      rw [hv]; exact ⟨decide_eq_false hs, .wU hN (SameBits.ofInt_shl _) hv'⟩
  · by_cases hs : n ≤ s
    · rw [e5.2 hs]; exact decide_eq_true hs
    · obtain ⟨v, hv, hv'⟩ := e5.1 (by omega)
      rw [hv]; exact ⟨decide_eq_false hs, .xU hN (SameBits.ofInt_ushr _) hv'⟩
  · by_cases hs : n ≤ s
    · rw [e6.2 hs]; exact decide_eq_true hs
    · obtain ⟨v, hv, hv'⟩ := e6.1 (by omega)
      rw [hv]; exact ⟨decide_eq_false hs, .xS hN (SameBits.ofInt_sshr _) hv'⟩

end unary

example := C97_neg_abs (w := 64) (a := sm) (x := m2) (by decide) (by decide) (by decide) (by decide) true
example := C97_pow (w := 64) (a := sm) (x := m2) (by decide) (by decide) (by decide) (by decide) (e := 5) (by decide)
example := C97_counts (w := 64) (a := sm) (x := m2) (by decide) (by decide) (by decide) (by decide) true
example := C97_shift (w := 64) (a := sm) (x := m2) (by decide) (by decide) (by decide) (by decide) (k := 6) (by decide) 300

example : sm.clz.toNat = 0 ∧ sm.ctz.toNat = 1 ∧ sm.cpop.toNat = 255 ∧ sm.abs = 2 ∧ sm ^ 3 = -8 ∧
    sm.negOverflow = false := by decide +kernel

/-- C97, partial: the unbounded right shift of the signed types, which leaves zero instead of the sign
once all bits are shifted out.  Full claim: `SameBits (a.sshiftRight s) (unboundedShr true x s)`. -/
theorem C97_int_unbounded_shr_partial (hk : w = 2 ^ k) (h2 : x.length % 2 = 0) (hx0 : x ≠ [])
    (hx : SameBits a x) (s : Nat) :
    SameBits (if s < n then a.sshiftRight s else 0) (unboundedShr true x s) := by
  have hN := hx.length_mul
  have e := (C39_int_unbounded_shr_all_partial (x := x) hk h2 hx0 s).1
  rw [hx.toInt, hN] at e
  refine SameBits.xS hN ?_ e
  split
  · exact SameBits.ofInt_sshr s
  · simp

example := C97_int_unbounded_shr_partial (w := 64) (k := 6) (a := sm) (x := m2) (by decide) (by decide) (by decide)
  (by decide) 256

/-- C97 is false for the unbounded right shift of the signed types. -/
theorem C97_int_unbounded_shr_false :
    SameBits sm m2 ∧ ¬ SameBits (sm.sshiftRight 256) (unboundedShr true m2 256) := by decide +kernel

/-! ### Conversions -/

/-- C97: conversions from and to the primitive integers. -/
theorem C97_cast (hw : w = 32 ∨ w = 64) {N : Nat} (hN : 4 ≤ N) (hB : 128 < w * N) (p : Prim) (v : BitVec p.n) :
    SameBits (v.setWidth (w * N)) (Cast.fromU N p v : Limbs w) ∧
      SameBits (v.signExtend (w * N)) (Cast.fromI N p v : Limbs w) ∧
      ∀ {a : BitVec (w * N)} {x : Limbs w}, SameBits a x → Cast.asP x p = a.setWidth p.n := by
  refine ⟨.xU rfl (SameBits.ofInt_setWidth v) (C27_from_unsigned hw hN hB p v).1,
    .xS rfl (SameBits.ofInt_signExtend v) (C27_from_signed hw hN p v).1, fun {a x} hx => ?_⟩
  have hl : x.length = N := Nat.eq_of_mul_eq_mul_left (by omega) hx.1
  subst hl
  have e := (C27_as (x := x) hw hN (by omega) p).1
  rw [hx.toNat] at e
  apply BitVec.eq_of_toNat_eq
  rw [BitVec.toNat_setWidth]
  exact_mod_cast e

example := C97_cast (w := 64) (N := 4) (by decide) (by decide) (by decide) .b32 0x80000000
example : Cast.asP Sample.a .b32 = 0xffffffff := by decide

end I256
