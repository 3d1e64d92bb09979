import Verif.SpecRaw
import Verif.SpecGap
import Verif.Lemmas.RawForms
import Verif.Props.AddSub
import Verif.Props.Mul
import Verif.Props.Pow
import Verif.Props.Sign
import Verif.Props.GapAll
import Verif.Props.Traits

/-!
# C85: the forms of the arithmetic operations in memory

The theorems are about the literal transcription of the methods of the two types above the kernels: the
wrapping, overflowing, checked, saturating and strict forms and the operators.  The limbs are in memory
order, `cf` is the kind of build.
-/

namespace I256

open Sample
open Raw (Fit)
open Raw.Div (Cfg)

variable {w : Nat} {cf : Cfg} {be : Bool} {a b c : Limbs w}

section
variable (F : Fit w a.length) (hl : a.length = b.length)
include F

section
include hl

/-- C85: unsigned addition: all forms yield the exact sum as their contracts say. -/
theorem C85_uint_add :
    let z := (memNat be a : Int) + memNat be b
    Holds be (WrapU a.length z) (Raw.U.wrappingAdd be a b) ∧
      HoldsO be (OverU a.length z) (Raw.U.overflowingAdd be a b) ∧
      HoldsC be (CheckU a.length z) (Raw.U.checkedAdd be a b) ∧
      Holds be (SatU a.length z) (Raw.U.saturatingAdd be a b) ∧
      Ends be (StrictU a.length z) (Raw.U.strictAdd be a b) ∧
      Ends be (OpU cf.oc a.length z) (Raw.U.add cf be a b) := by
  obtain ⟨x, rfl⟩ := Raw.exists_mem be a
  obtain ⟨y, rfl⟩ := Raw.exists_mem be b
  simp only [Raw.mem_length, Raw.memNat_mem] at *
  rw [Raw.U.wrappingAdd_ok be F hl, Raw.U.overflowingAdd_ok be F hl, Raw.U.checkedAdd_ok be F hl,
    Raw.U.saturatingAdd_ok be F hl, Raw.U.strictAdd_ok be F hl, Raw.U.add_ok cf be F hl]
  have hw := Raw.w0 F
  have h := C02_uint_checked_add hw hl
  exact ⟨Raw.holds (C01_uint_wrapping_add hw hl), Raw.holdsO (C02_uint_overflowing_add hw hl),
    Raw.holdsC h, Raw.holds (C02_uint_saturating_add hw hl), Raw.ends (C02_uint_strict_add hw hl),
    Raw.ends (h.op (C01_uint_wrapping_add hw hl) cf.oc)⟩

/-- C85: unsigned subtraction. -/
theorem C85_uint_sub :
    let z := (memNat be a : Int) - memNat be b
    Holds be (WrapU a.length z) (Raw.U.wrappingSub be a b) ∧
      HoldsO be (OverU a.length z) (Raw.U.overflowingSub be a b) ∧
      HoldsC be (CheckU a.length z) (Raw.U.checkedSub be a b) ∧
      Holds be (SatU a.length z) (Raw.U.saturatingSub be a b) ∧
      Ends be (StrictU a.length z) (Raw.U.strictSub be a b) ∧
      Ends be (OpU cf.oc a.length z) (Raw.U.sub cf be a b) := by
  obtain ⟨x, rfl⟩ := Raw.exists_mem be a
  obtain ⟨y, rfl⟩ := Raw.exists_mem be b
  simp only [Raw.mem_length, Raw.memNat_mem] at *
  rw [Raw.U.wrappingSub_ok be F hl, Raw.U.overflowingSub_ok be F hl, Raw.U.checkedSub_ok be F hl,
    Raw.U.saturatingSub_ok be F hl, Raw.U.strictSub_ok be F hl, Raw.U.sub_ok cf be F hl]
  have hw := Raw.w0 F
  have h := C02_uint_checked_sub hw hl
  exact ⟨Raw.holds (C01_uint_wrapping_sub hw hl), Raw.holdsO (C02_uint_overflowing_sub hw hl).1,
    Raw.holdsC h, Raw.holds (C02_uint_saturating_sub hw hl), Raw.ends (C02_uint_strict_sub hw hl),
    Raw.ends (h.op (C01_uint_wrapping_sub hw hl) cf.oc)⟩

/-- C85: unsigned addition and subtraction of a signed number. -/
theorem C85_uint_signed_rhs :
    let z := (memNat be a : Int) + memInt be b
    Holds be (WrapU a.length z) (Raw.U.wrappingAddSigned be a b) ∧
      HoldsO be (OverU a.length z) (Raw.U.overflowingAddSigned be a b) ∧
      HoldsC be (CheckU a.length z) (Raw.U.checkedAddSigned be a b) ∧
      Holds be (SatU a.length z) (Raw.U.saturatingAddSigned be a b) ∧
      Ends be (StrictU a.length z) (Raw.U.strictAddSigned be a b) ∧
      HoldsO be (OverU a.length ((memNat be a : Int) - memInt be b)) (Raw.U.overflowingSubSigned be a b) := by
  obtain ⟨x, rfl⟩ := Raw.exists_mem be a
  obtain ⟨y, rfl⟩ := Raw.exists_mem be b
  simp only [Raw.mem_length, Raw.memNat_mem, Raw.memInt_mem] at *
  rw [Raw.U.wrappingAddSigned_ok be F hl, Raw.U.overflowingAddSigned_ok be F hl,
    Raw.U.checkedAddSigned_ok be F hl, Raw.U.saturatingAddSigned_ok be F hl,
    Raw.U.strictAddSigned_ok be F hl, Raw.U.overflowingSubSigned_ok be F hl]
  have hw := Raw.w0 F
  have h := C04_uint_checked_add_signed hw F.nil hl
  exact ⟨Raw.holds (C04_uint_wrapping_add_signed hw F.nil hl),
    Raw.holdsO (C04_uint_overflowing_add_signed hw F.nil hl), Raw.holdsC h.1,
    Raw.holds (C04_uint_saturating_add_signed hw F.nil hl), Raw.ends h.2,
    Raw.holdsO (C04_uint_overflowing_sub_signed hw F.nil hl)⟩

/-- C85: unsigned multiplication, for all factors: `checked_mul` compares logarithms first. -/
theorem C85_uint_mul :
    let z := (memNat be a : Int) * memNat be b
    Holds be (WrapU a.length z) (Raw.U.wrappingMul be a b) ∧
      HoldsO be (OverU a.length z) (Raw.U.overflowingMul be a b) ∧
      HoldsC be (CheckU a.length z) (Raw.U.checkedMul be a b) ∧
      Holds be (SatU a.length z) (Raw.U.saturatingMul be a b) ∧
      Ends be (StrictU a.length z) (Raw.U.strictMul be a b) ∧
      Ends be (OpU cf.oc a.length z) (Raw.U.mul cf be a b) := by
  obtain ⟨x, rfl⟩ := Raw.exists_mem be a
  obtain ⟨y, rfl⟩ := Raw.exists_mem be b
  simp only [Raw.mem_length, Raw.memNat_mem] at *
  have hw := Raw.w0 F
  rw [(Raw.U.wrappingMul_ok be hw F.pos F.n128 x y rfl hl.symm).1,
    (Raw.U.overflowingMul_ok be hw F.pos F.n128 x y rfl hl.symm).1,
    Raw.U.checkedMul_ok be hw F.w8 hl F.even F.n4 F.n128, Raw.U.saturatingMul_ok be F hl,
    Raw.U.strictMul_ok be F hl, Raw.U.mul_ok cf be hw F.w8 hl F.even F.n4 F.n128]
  have h := C07_uint_checked_mul hw hl F.even F.n4
  have hs := C07_uint_saturating_strict_mul hw hl F.even F.n4
  have ho := C07_uint_overflowing_mul F.nil hl
  have hwr : WrapU x.length ((toNat x : Int) * toNat y) (U.wrappingMul x y) :=
    Mul.wrapU x y (by have := F.pos; omega)
  exact ⟨Raw.holds hwr, Raw.holdsO ho, Raw.holdsC h, Raw.holds hs.1, Raw.ends hs.2,
    Raw.ends (h.op hwr cf.oc)⟩

/-- C85: the double-width product, its upper half, and the product with a carry, which does not panic in
builds with overflow checks. -/
theorem C85_uint_widening (hc : a.length = c.length) :
    (∃ lo hi, Raw.U.wideningMul be a b = .ok (lo, hi) ∧ lo.length = a.length ∧ hi.length = a.length ∧
      memNat be lo + 2 ^ bits a * memNat be hi = memNat be a * memNat be b) ∧
    (∃ hi, Raw.U.highMul be a b = .ok hi ∧ hi.length = a.length ∧
      memNat be hi = memNat be a * memNat be b / 2 ^ bits a) ∧
    (∃ lo hi, Raw.U.carryingMul cf be a b c = .ok (lo, hi) ∧ lo.length = a.length ∧
      hi.length = a.length ∧
      memNat be lo + 2 ^ bits a * memNat be hi = memNat be a * memNat be b + memNat be c) := by
  obtain ⟨x, rfl⟩ := Raw.exists_mem be a
  obtain ⟨y, rfl⟩ := Raw.exists_mem be b
  obtain ⟨z, rfl⟩ := Raw.exists_mem be c
  simp only [Raw.mem_length, Raw.memNat_mem] at *
  have hw := Raw.w0 F
  have hb : bits (Raw.mem be x) = bits x := by simp [bits]
  rw [Raw.U.wideningMul_ok be F hl, Raw.U.highMul_ok be F hl, Raw.U.carryingMul_ok cf be F hl hc, hb]
  obtain ⟨h1, h2, h3⟩ := C09_widening_mul F.nil hl
  obtain ⟨h4, h5, -⟩ := C48_high_mul hw F.nil hl F.even
  obtain ⟨lo, hi, h6, h7, h8, h9⟩ := C09_carrying_mul hw F.nil hl hc cf.oc
  rw [h6]
  exact ⟨⟨_, _, rfl, by simp [h1], by simp [h2], by simpa using h3⟩, ⟨_, rfl, by simp [h4], by simpa using h5⟩,
    ⟨_, _, rfl, by simp [h7], by simp [h8], by simpa using h9⟩⟩

/-- C85: the steps of a sum and a difference of several words. -/
theorem C85_uint_carrying (k : Bool) :
    HoldsO be (OverU a.length ((memNat be a : Int) + memNat be b + k.toNat)) (Raw.U.carryingAdd be a b k) ∧
      HoldsO be (OverU a.length ((memNat be a : Int) - memNat be b - k.toNat))
        (Raw.U.borrowingSub be a b k) := by
  obtain ⟨x, rfl⟩ := Raw.exists_mem be a
  obtain ⟨y, rfl⟩ := Raw.exists_mem be b
  simp only [Raw.mem_length, Raw.memNat_mem] at *
  rw [Raw.U.carryingAdd_ok be F hl, Raw.U.borrowingSub_ok be F hl]
  have h := C37_uint_carrying (Raw.w0 F) F.nil hl k
  exact ⟨Raw.holdsO h.1, Raw.holdsO h.2⟩

/-- C85: the absolute difference of unsigned numbers, and their difference as a signed number. -/
theorem C85_uint_diff :
    Holds be (ExactU a.length |(memNat be a : Int) - memNat be b|) (Raw.U.absDiff be a b) ∧
      HoldsC be (CheckS a.length ((memNat be a : Int) - memNat be b))
        (Raw.U.checkedSignedDiff be a b) := by
  obtain ⟨x, rfl⟩ := Raw.exists_mem be a
  obtain ⟨y, rfl⟩ := Raw.exists_mem be b
  simp only [Raw.mem_length, Raw.memNat_mem] at *
  rw [Raw.U.absDiff_ok be F hl, Raw.U.checkedSignedDiff_ok be F hl]
  exact ⟨Raw.holds (C35_uint_abs_diff (Raw.w0 F) hl F.even F.two),
    Raw.holdsC (C45_checked_signed_diff (Raw.w0 F) hl F.even F.two)⟩

end

/-- C85: the negation of unsigned numbers, which is representable for 0 only. -/
theorem C85_uint_neg :
    Holds be (WrapU a.length (-(memNat be a : Int))) (Raw.U.wrappingNeg be a) ∧
      HoldsC be (CheckU a.length (-(memNat be a : Int))) (Raw.U.checkedNeg be a) ∧
      Ends be (StrictU a.length (-(memNat be a : Int))) (Raw.U.strictNeg be a) := by
  obtain ⟨x, rfl⟩ := Raw.exists_mem be a
  simp only [Raw.mem_length, Raw.memNat_mem] at *
  rw [Raw.U.wrappingNeg_ok be F, Raw.U.checkedNeg_ok be F, Raw.U.strictNeg_ok be F]
  have h := C45_uint_neg (x := x) (Raw.w0 F) F.even
  exact ⟨Raw.holds h.1, Raw.holdsC h.2.1, Raw.ends (C72_uint_strict_neg (Raw.w0 F) F.even).1⟩

/-- C85: the saturating and the strict power of unsigned numbers (see C71 for the other forms). -/
theorem C85_uint_pow (e : BitVec 32) :
    let z := (memNat be a : Int) ^ e.toNat
    Holds be (SatU a.length z) (Raw.U.saturatingPow cf be a e) ∧
      Ends be (StrictU a.length z) (Raw.U.strictPow cf be a e) := by
  obtain ⟨x, rfl⟩ := Raw.exists_mem be a
  simp only [Raw.mem_length, Raw.memNat_mem] at *
  rw [Raw.U.saturatingPow_ok cf be F, Raw.U.strictPow_ok cf be F]
  have h := C11_uint_pow (Raw.w0 F) F.nil e.isLt
  exact ⟨Raw.holds h.2.1, Raw.ends h.2.2⟩

section
include hl

/-- C85: signed addition. -/
theorem C85_int_add :
    let z := memInt be a + memInt be b
    Holds be (WrapS a.length z) (Raw.I.wrappingAdd be a b) ∧
      HoldsO be (OverS a.length z) (Raw.I.overflowingAdd be a b) ∧
      HoldsC be (CheckS a.length z) (Raw.I.checkedAdd be a b) ∧
      Holds be (SatS a.length z) (Raw.I.saturatingAdd be a b) ∧
      Ends be (StrictS a.length z) (Raw.I.strictAdd be a b) ∧
      Ends be (OpS cf.oc a.length z) (Raw.I.add cf be a b) := by
  obtain ⟨x, rfl⟩ := Raw.exists_mem be a
  obtain ⟨y, rfl⟩ := Raw.exists_mem be b
  simp only [Raw.mem_length, Raw.memInt_mem] at *
  rw [Raw.I.wrappingAdd_ok be F hl, Raw.I.overflowingAdd_ok be F hl, Raw.I.checkedAdd_ok be F hl,
    Raw.I.saturatingAdd_ok be F hl, Raw.I.strictAdd_ok be F hl, Raw.I.add_ok cf be F hl]
  have hw := Raw.w0 F
  have h := C03_int_checked_add F.w1 F.nil hl
  exact ⟨Raw.holds (C03_int_wrapping_add hw hl), Raw.holdsO (C03_int_overflowing_add F.w1 F.nil hl),
    Raw.holdsC h, Raw.holds (C03_int_saturating_add F.w1 F.nil hl), Raw.ends h.strict,
    Raw.ends (h.op (C03_int_wrapping_add hw hl) cf.oc)⟩

/-- C85: signed subtraction. -/
theorem C85_int_sub :
    let z := memInt be a - memInt be b
    Holds be (WrapS a.length z) (Raw.I.wrappingSub be a b) ∧
      HoldsO be (OverS a.length z) (Raw.I.overflowingSub be a b) ∧
      HoldsC be (CheckS a.length z) (Raw.I.checkedSub be a b) ∧
      Holds be (SatS a.length z) (Raw.I.saturatingSub be a b) ∧
      Ends be (StrictS a.length z) (Raw.I.strictSub be a b) ∧
      Ends be (OpS cf.oc a.length z) (Raw.I.sub cf be a b) := by
  obtain ⟨x, rfl⟩ := Raw.exists_mem be a
  obtain ⟨y, rfl⟩ := Raw.exists_mem be b
  simp only [Raw.mem_length, Raw.memInt_mem] at *
  rw [Raw.I.wrappingSub_ok be F hl, Raw.I.overflowingSub_ok be F hl, Raw.I.checkedSub_ok be F hl,
    Raw.I.saturatingSub_ok be F hl, Raw.I.strictSub_ok be F hl, Raw.I.sub_ok cf be hl F.two F.n128 F.w1]
  have hw := Raw.w0 F
  have h := C03_int_checked_sub F.w1 F.nil hl
  exact ⟨Raw.holds (C03_int_wrapping_sub hw hl), Raw.holdsO (C03_int_overflowing_sub F.w1 F.nil hl),
    Raw.holdsC h, Raw.holds (C03_int_saturating_sub F.w1 F.nil hl), Raw.ends h.strict,
    Raw.ends (h.op (C03_int_wrapping_sub hw hl) cf.oc)⟩

/-- C85: signed addition of an unsigned number. -/
theorem C85_int_add_unsigned :
    let z := memInt be a + memNat be b
    HoldsO be (OverS a.length z) (Raw.I.overflowingAddUnsigned be a b) ∧
      HoldsC be (CheckS a.length z) (Raw.I.checkedAddUnsigned be a b) ∧
      Holds be (SatS a.length z) (Raw.I.saturatingAddUnsigned be a b) ∧
      Ends be (StrictS a.length z) (Raw.I.strictAddUnsigned be a b) := by
  obtain ⟨x, rfl⟩ := Raw.exists_mem be a
  obtain ⟨y, rfl⟩ := Raw.exists_mem be b
  simp only [Raw.mem_length, Raw.memInt_mem, Raw.memNat_mem] at *
  rw [Raw.I.overflowingAddUnsigned_ok be F hl, Raw.I.checkedAddUnsigned_ok be F hl,
    Raw.I.saturatingAddUnsigned_ok be F hl, Raw.I.strictAddUnsigned_ok be F hl]
  have h := C04_int_checked_unsigned F.w1 F.nil hl
  exact ⟨Raw.holdsO (C04_int_overflowing_add_unsigned F.w1 F.nil hl), Raw.holdsC h.1,
    Raw.holds (C04_int_saturating_add_unsigned F.w1 F.nil hl), Raw.ends h.2.2.1⟩

/-- C85: signed subtraction of an unsigned number. -/
theorem C85_int_sub_unsigned :
    let z := memInt be a - memNat be b
    Holds be (WrapS a.length z) (Raw.I.wrappingSubUnsigned be a b) ∧
      HoldsO be (OverS a.length z) (Raw.I.overflowingSubUnsigned be a b) ∧
      HoldsC be (CheckS a.length z) (Raw.I.checkedSubUnsigned be a b) ∧
      Holds be (SatS a.length z) (Raw.I.saturatingSubUnsigned be a b) ∧
      Ends be (StrictS a.length z) (Raw.I.strictSubUnsigned be a b) := by
  obtain ⟨x, rfl⟩ := Raw.exists_mem be a
  obtain ⟨y, rfl⟩ := Raw.exists_mem be b
  simp only [Raw.mem_length, Raw.memInt_mem, Raw.memNat_mem] at *
  rw [Raw.I.wrappingSubUnsigned_ok be F hl, Raw.I.overflowingSubUnsigned_ok be F hl,
    Raw.I.checkedSubUnsigned_ok be F hl, Raw.I.saturatingSubUnsigned_ok be F hl,
    Raw.I.strictSubUnsigned_ok be F hl]
  have h := C04_int_checked_unsigned F.w1 F.nil hl
  have ho := C04_int_overflowing_sub_unsigned F.w1 F.nil hl
  exact ⟨Raw.holds ho.2, Raw.holdsO ho.1, Raw.holdsC h.2.1,
    Raw.holds (C04_int_saturating_sub_unsigned F.w1 F.nil hl), Raw.ends h.2.2.2⟩

/-- C85: signed multiplication.  The claim with `OverS`, `CheckS`, `SatS`, `StrictS` and `OpS` is false
(`C08_int_overflowing_mul_false`); the contracts here have the gap of C08 in the overflow test. -/
theorem C85_int_mul_partial :
    let z := memInt be a * memInt be b
    Holds be (WrapS a.length z) (Raw.I.wrappingMul be a b) ∧
      HoldsO be (OverG a.length z) (Raw.I.overflowingMul be a b) ∧
      HoldsC be (CheckG a.length z) (Raw.I.checkedMul be a b) ∧
      Holds be (SatG a.length z) (Raw.I.saturatingMul be a b) ∧
      Ends be (StrictG a.length z) (Raw.I.strictMul be a b) ∧
      Ends be (OpG cf.oc a.length z) (Raw.I.mul cf be a b) := by
  obtain ⟨x, rfl⟩ := Raw.exists_mem be a
  obtain ⟨y, rfl⟩ := Raw.exists_mem be b
  simp only [Raw.mem_length, Raw.memInt_mem] at *
  have hw := Raw.w0 F
  have e : Raw.I.wrappingMul be (Raw.mem be x) (Raw.mem be y) = .ok (Raw.mem be (I.wrappingMul x y)) :=
    (Raw.U.wrappingMul_ok be hw F.pos F.n128 x y rfl hl.symm).1
  rw [e, (Raw.I.overflowingMul_ok be hw F.pos F.n128 F.two x y rfl hl.symm).1,
    Raw.I.checkedMul_ok be F hl, Raw.I.saturatingMul_ok be F hl, Raw.I.strictMul_ok be F hl,
    Raw.I.mul_ok cf be F hl]
  obtain ⟨ho, hc, hsa, hst, hop⟩ := C08_int_mul_all_partial hw F.nil hl cf.oc
  exact ⟨Raw.holds (Mul.wrapS x y (hl ▸ F.pos) hl), Raw.holdsO ho, Raw.holdsC hc, Raw.holds hsa, Raw.ends hst,
    Raw.ends hop⟩

/-- C85: the steps of a signed sum and difference of several words.  The claim with `OverS` is false
(`C37_int_carrying_add_false`): the flag is also set if only the sum without the carry overflows. -/
theorem C85_int_carrying_partial (k : Bool) :
    HoldsO be (fun r => WrapS a.length (memInt be a + memInt be b + k.toNat) r.1 ∧
      (r.2 = true ↔ ¬ InS (bits a) (memInt be a + memInt be b) ∨
        ¬ InS (bits a) (memInt be a + memInt be b + k.toNat))) (Raw.I.carryingAdd be a b k) ∧
    HoldsO be (fun r => WrapS a.length (memInt be a - memInt be b - k.toNat) r.1 ∧
      (r.2 = true ↔ ¬ InS (bits a) (memInt be a - memInt be b) ∨
        ¬ InS (bits a) (memInt be a - memInt be b - k.toNat))) (Raw.I.borrowingSub be a b k) := by
  obtain ⟨x, rfl⟩ := Raw.exists_mem be a
  obtain ⟨y, rfl⟩ := Raw.exists_mem be b
  simp only [Raw.mem_length, Raw.memInt_mem] at *
  have hb : bits (Raw.mem be x) = bits x := by simp [bits]
  rw [Raw.I.carryingAdd_ok be F hl, Raw.I.borrowingSub_ok be F hl, hb]
  have h := C37_int_carrying_partial F.w1 F.two hl k
  exact ⟨Raw.holdsO h.1, Raw.holdsO h.2⟩

/-- C85: the absolute difference of signed numbers. -/
theorem C85_int_abs_diff :
    Holds be (ExactU a.length |memInt be a - memInt be b|) (Raw.I.absDiff be a b) := by
  obtain ⟨x, rfl⟩ := Raw.exists_mem be a
  obtain ⟨y, rfl⟩ := Raw.exists_mem be b
  simp only [Raw.mem_length, Raw.memInt_mem] at *
  rw [Raw.I.absDiff_ok be F hl]
  exact Raw.holds (C36_int_abs_diff (Raw.w0 F) hl F.even F.two)

end

/-- C85: the saturating and the strict power of signed numbers (see C71 for the other forms).  The claim
with `SatS` and `StrictS` is false (`C11_int_overflowing_pow_false`); the contracts here have the gap. -/
theorem C85_int_pow_partial (e : BitVec 32) :
    let z := memInt be a ^ e.toNat
    Holds be (SatG a.length z) (Raw.I.saturatingPow cf be a e) ∧
      Ends be (StrictG a.length z) (Raw.I.strictPow cf be a e) := by
  obtain ⟨x, rfl⟩ := Raw.exists_mem be a
  simp only [Raw.mem_length, Raw.memInt_mem] at *
  rw [Raw.I.saturatingPow_ok cf be F, Raw.I.strictPow_ok cf be F]
  have h := C11_int_pow_all_partial F.w1 F.n4 F.even e.isLt
  exact ⟨Raw.holds h.2.2.1, Raw.ends h.2.2.2⟩

/-- C85: the negation of signed numbers. -/
theorem C85_int_neg :
    let z := -memInt be a
    Holds be (WrapS a.length z) (Raw.I.wrappingNeg cf be a) ∧
      HoldsO be (OverS a.length z) (Raw.I.overflowingNeg cf be a) ∧
      HoldsC be (CheckS a.length z) (Raw.I.checkedNeg cf be a) ∧
      Holds be (SatS a.length z) (Raw.I.saturatingNeg be a) ∧
      Ends be (StrictS a.length z) (Raw.I.strictNeg cf be a) ∧
      Ends be (OpS cf.oc a.length z) (Raw.I.neg cf be a) := by
  obtain ⟨x, rfl⟩ := Raw.exists_mem be a
  simp only [Raw.mem_length, Raw.memInt_mem] at *
  have hw := Raw.w0 F
  rw [Raw.I.wrappingNeg_ok cf be hw F.w8 F.two F.even F.n128,
    Raw.I.overflowingNeg_ok cf be hw F.w8 F.two F.even F.n128, Raw.I.checkedNeg_ok cf be F,
    Raw.I.saturatingNeg_ok be F, Raw.I.strictNeg_ok cf be F, Raw.I.neg_ok cf be F]
  obtain ⟨ho, -, hc, hst, hop⟩ := C36_int_neg hw F.two F.even cf.oc
  exact ⟨Raw.holds (C36_int_wrapping_neg hw F.two), Raw.holdsO ho, Raw.holdsC hc,
    Raw.holds (C36_int_saturating_neg F.w1 F.two), Raw.ends hst, Raw.ends hop⟩

/-- C85: the absolute value; `abs` panics for the least number in builds of both kinds (compare C36). -/
theorem C85_int_abs :
    let z := |memInt be a|
    Holds be (WrapS a.length z) (Raw.I.wrappingAbs cf be a) ∧
      HoldsO be (OverS a.length z) (Raw.I.overflowingAbs cf be a) ∧
      HoldsC be (CheckS a.length z) (Raw.I.checkedAbs cf be a) ∧
      Holds be (SatS a.length z) (Raw.I.saturatingAbs cf be a) ∧
      Ends be (StrictS a.length z) (Raw.I.abs cf be a) ∧
      Holds be (ExactU a.length z) (Raw.I.unsignedAbs cf be a) := by
  obtain ⟨x, rfl⟩ := Raw.exists_mem be a
  simp only [Raw.mem_length, Raw.memInt_mem] at *
  have hw := Raw.w0 F
  rw [Raw.I.wrappingAbs_ok cf be F, Raw.I.overflowingAbs_ok cf be hw F.w8 F.two F.even F.n128,
    Raw.I.checkedAbs_ok cf be F, Raw.I.saturatingAbs_ok cf be F, Raw.I.abs_ok cf be F,
    Raw.I.unsignedAbs_ok cf be hw F.w8 F.two F.even F.n128]
  obtain ⟨hwr, ho, -, hc, hst, hsa⟩ := C36_int_abs hw F.two F.even
  exact ⟨Raw.holds hwr, Raw.holdsO ho, Raw.holdsC hc, Raw.holds hsa, Raw.ends hst,
    Raw.holds (C36_int_unsigned_abs hw F.two F.even)⟩

/-- C85: the sign as a number. -/
theorem C85_int_signum (hw : w = 32 ∨ w = 64) :
    Holds be (ExactS a.length (memInt be a).sign) (Raw.I.signum be a) := by
  obtain ⟨x, rfl⟩ := Raw.exists_mem be a
  simp only [Raw.mem_length, Raw.memInt_mem] at *
  rw [Raw.I.signum_ok be F hw]
  exact Raw.holds (C36_int_signum F.w1 F.two F.even)

end

/-! ### The hypotheses hold for the types of the crate, and concrete runs -/

example := C85_uint_add (cf := ⟨true, true, false⟩) (be := true) (a := Sample.a) (b := ones) Raw.fit4 rfl
example := C85_uint_sub (cf := ⟨true, true, false⟩) (be := true) (a := Sample.a) (b := ones) Raw.fit4 rfl
example := C85_uint_signed_rhs (be := true) (a := ones32) (b := b32) Raw.fit8 rfl
example := C85_uint_mul (cf := ⟨true, true, false⟩) (be := true) (a := Sample.a) (b := ones) Raw.fit4 rfl
example := C85_uint_widening (cf := ⟨true, true, false⟩) (be := true) (a := Sample.a) (b := ones) (c := top)
  Raw.fit4 rfl rfl
example := C85_uint_carrying (be := true) (a := Sample.a) (b := ones) Raw.fit4 rfl true
example := C85_uint_diff (be := true) (a := Sample.a) (b := ones) Raw.fit4 rfl
example := C85_uint_neg (be := true) (a := Sample.a) Raw.fit4
example := C85_uint_pow (cf := ⟨true, true, false⟩) (be := true) (a := Sample.a) Raw.fit4 4294967295
example := C85_int_add (cf := ⟨true, true, false⟩) (be := true) (a := top) (b := ones) Raw.fit4 rfl
example := C85_int_sub (cf := ⟨true, true, false⟩) (be := true) (a := top) (b := one) Raw.fit4 rfl
example := C85_int_add_unsigned (be := true) (a := top) (b := ones) Raw.fit4 rfl
example := C85_int_sub_unsigned (be := true) (a := maxS) (b := ones) Raw.fit4 rfl
example := C85_int_mul_partial (cf := ⟨true, true, false⟩) (be := true) (a := ones32) (b := b32) Raw.fit8 rfl
example := C85_int_carrying_partial (be := true) (a := top) (b := ones) Raw.fit4 rfl true
example := C85_int_abs_diff (be := true) (a := top) (b := maxS) Raw.fit4 rfl
example := C85_int_pow_partial (cf := ⟨true, true, false⟩) (be := true) (a := m2) Raw.fit4 255
example := C85_int_neg (cf := ⟨true, true, false⟩) (be := true) (a := top) Raw.fit4
example := C85_int_abs (cf := ⟨true, true, false⟩) (be := true) (a := m2) Raw.fit4
example := C85_int_signum (be := true) (a := m2) Raw.fit4 (.inr rfl)

example : Raw.U.overflowingAdd true ([1, 0, 0, 2] : Limbs 64) ones = .ok ([1, 0, 0, 1], true) ∧
    Raw.U.saturatingAdd true ([1, 0, 0, 2] : Limbs 64) ones = .ok ones ∧
    Raw.U.strictAdd true ([1, 0, 0, 2] : Limbs 64) ones = .panic ∧
    Raw.U.add ⟨false, true, false⟩ true ([1, 0, 0, 2] : Limbs 64) ones = .ok [1, 0, 0, 1] ∧
    Raw.U.saturatingSub true ([0, 0, 0, 2] : Limbs 64) ones = .ok zero ∧
    Raw.U.checkedSub true ([1, 0, 0, 0] : Limbs 64) [0, 0, 0, 1] = .ok (some
      [0, 0xffffffffffffffff, 0xffffffffffffffff, 0xffffffffffffffff]) := by decide +kernel
example : Raw.U.overflowingAddSigned true ([0, 0, 0, 2] : Limbs 64) ones = .ok ([0, 0, 0, 1], false) ∧
    Raw.U.saturatingAddSigned true zero ones = .ok zero ∧
    Raw.U.overflowingSubSigned true ones ones = .ok (zero, true) := by decide +kernel
example : Raw.U.checkedMul true ([0, 0, 1, 0] : Limbs 64) [0, 1, 0, 0] = .ok (some [1, 0, 0, 0]) ∧
    Raw.U.checkedMul true ([0, 0, 1, 0] : Limbs 64) [1, 0, 0, 0] = .ok none ∧
    Raw.U.checkedMul true zero ones = .ok (some zero) ∧
    Raw.U.saturatingMul true ([0, 0, 1, 0] : Limbs 64) [1, 0, 0, 0] = .ok ones := by decide +kernel
example : Raw.U.wideningMul true ([0, 0, 1, 0] : Limbs 64) [1, 0, 0, 0] = .ok (zero, [0, 0, 0, 1]) ∧
    Raw.U.highMul true ([0, 0, 1, 0] : Limbs 64) [1, 0, 0, 0] = .ok [0, 0, 0, 1] ∧
    Raw.U.carryingMul ⟨true, true, false⟩ true ones ones ones =
      .ok (zero, ones) := by decide +kernel
example : Raw.U.carryingAdd true ones zero true = .ok (zero, true) ∧
    Raw.U.borrowingSub true zero zero true = .ok (ones, true) ∧
    Raw.U.absDiff true ([0, 0, 0, 2] : Limbs 64) [0, 0, 0, 5] = .ok [0, 0, 0, 3] ∧
    Raw.U.checkedSignedDiff true zero ones = .ok none ∧
    Raw.U.checkedSignedDiff true zero ([0, 0, 0, 1] : Limbs 64) = .ok (some ones) := by decide +kernel
example : Raw.U.wrappingNeg true ([0, 0, 0, 1] : Limbs 64) = .ok ones ∧
    Raw.U.checkedNeg true ones = .ok none ∧ Raw.U.strictNeg true zero = .ok zero ∧
    Raw.U.saturatingPow ⟨true, true, false⟩ true ([0, 0, 0, 2] : Limbs 64) 256 = .ok ones := by decide +kernel
example : Raw.I.saturatingAdd true ([0x8000000000000000, 0, 0, 0] : Limbs 64) ones =
      .ok [0x8000000000000000, 0, 0, 0] ∧
    Raw.I.overflowingSub true ([0x8000000000000000, 0, 0, 0] : Limbs 64) [0, 0, 0, 1] =
      .ok ([0x7fffffffffffffff, 0xffffffffffffffff, 0xffffffffffffffff, 0xffffffffffffffff], true) ∧
    Raw.I.overflowingAddUnsigned true ones ([0, 0, 0, 3] : Limbs 64) = .ok ([0, 0, 0, 2], false) ∧
    Raw.I.strictSubUnsigned true ([0x8000000000000000, 0, 0, 0] : Limbs 64) [0, 0, 0, 1] = .panic := by
  decide +kernel
example : Raw.I.checkedMul true ones ([0, 0, 0, 3] : Limbs 64) = .ok (some
      [0xffffffffffffffff, 0xffffffffffffffff, 0xffffffffffffffff, 0xfffffffffffffffd]) ∧
    Raw.I.strictMul true ([0x4000000000000000, 0, 0, 0] : Limbs 64) [0, 0, 0, 2] = .panic ∧
    Raw.I.saturatingMul true ([0xc000000000000000, 0, 0, 0] : Limbs 64) [0, 0, 0, 4] =
      .ok [0x8000000000000000, 0, 0, 0] ∧
    Raw.I.saturatingPow ⟨true, true, false⟩ true ([0xc000000000000000, 0, 0, 0] : Limbs 64) 3 =
      .ok [0x8000000000000000, 0, 0, 0] := by decide +kernel
example : Raw.I.carryingAdd true ([0x8000000000000000, 0, 0, 0] : Limbs 64) ones true =
      .ok ([0x8000000000000000, 0, 0, 0], true) ∧
    Raw.I.absDiff true ones ([0, 0, 0, 3] : Limbs 64) = .ok [0, 0, 0, 4] := by decide +kernel
example : Raw.I.saturatingNeg true ([0x8000000000000000, 0, 0, 0] : Limbs 64) =
      .ok [0x7fffffffffffffff, 0xffffffffffffffff, 0xffffffffffffffff, 0xffffffffffffffff] ∧
    Raw.I.neg ⟨true, true, false⟩ true ([0x8000000000000000, 0, 0, 0] : Limbs 64) = .panic ∧
    Raw.I.checkedAbs ⟨true, true, false⟩ true ones = .ok (some [0, 0, 0, 1]) ∧
    Raw.I.signum true ones = .ok ones ∧ Raw.I.signum true ([0, 1, 0, 0] : Limbs 64) = .ok [0, 0, 0, 1] := by
  decide +kernel

end I256
