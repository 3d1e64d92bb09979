import Verif.SpecRawForms
import Verif.Lemmas.RawScalarForms
import Verif.Props.Scalar
import Verif.Props.Mul
import Verif.Props.GapAll

/-!
# C88: addition, subtraction and multiplication with a scalar in memory

The theorems are about the literal transcription of the methods that take a scalar of one limb (`ulimb`,
`ilimb`) or of two limbs (`uwide`, `iwide`).  The limbs of the big integer are in memory order, `cf` is the
kind of build.
-/

namespace I256

open Sample
open Raw (Fit)
open Raw.Div (Cfg)

section
variable {w : Nat} {a : Limbs w} (cf : Cfg) (be : Bool) (F : Fit w a.length)
include F

/-- C88: unsigned addition of an unsigned limb. -/
theorem C88_uint_add_ulimb (n : BitVec w) :
    MemFormsU cf.oc be a.length ((memNat be a : Int) + n.toNat) (Raw.U.wrappingAddULimb be a n)
      (Raw.U.overflowingAddULimb be a n) (Raw.U.checkedAddULimb be a n)
      (Raw.U.addULimb cf be a n) := by
  obtain ⟨x, rfl⟩ := Raw.exists_mem be a
  simp only [Raw.mem_length, Raw.memNat_mem, Raw.memInt_mem] at *
  obtain ⟨h1, h2, -⟩ := C05_uint_add_ulimb (Raw.w0 F) F.nil n cf.oc
  exact Raw.formsU (Raw.Add.wrappingLimb_ok be x n F.two) (Raw.Add.overflowingLimb_ok be x n F.two) F.n128
    h1 h2

/-- C88: unsigned subtraction of an unsigned limb. -/
theorem C88_uint_sub_ulimb (n : BitVec w) :
    MemFormsU cf.oc be a.length ((memNat be a : Int) - n.toNat) (Raw.U.wrappingSubULimb be a n)
      (Raw.U.overflowingSubULimb be a n) (Raw.U.checkedSubULimb be a n)
      (Raw.U.subULimb cf be a n) := by
  obtain ⟨x, rfl⟩ := Raw.exists_mem be a
  simp only [Raw.mem_length, Raw.memNat_mem, Raw.memInt_mem] at *
  obtain ⟨h1, h2, -⟩ := C05_uint_sub_ulimb (Raw.w0 F) F.nil n cf.oc
  exact Raw.formsU (Raw.Sub.wrappingLimb_ok be x n F.two) (Raw.Sub.overflowingLimb_ok be x n F.two) F.n128
    h1 h2

/-- C88: unsigned multiplication by an unsigned limb. -/
theorem C88_uint_mul_ulimb (n : BitVec w) :
    MemFormsU cf.oc be a.length ((memNat be a : Int) * n.toNat) (Raw.U.wrappingMulULimb be a n)
      (Raw.U.overflowingMulULimb be a n) (Raw.U.checkedMulULimb be a n)
      (Raw.U.mulULimb cf be a n) := by
  obtain ⟨x, rfl⟩ := Raw.exists_mem be a
  simp only [Raw.mem_length, Raw.memNat_mem, Raw.memInt_mem] at *
  exact Raw.formsU (Raw.Mul.wrappingLimb_ok be (Raw.w0 F) x n F.pos)
    (Raw.Mul.overflowingLimb_ok be (Raw.w0 F) x n F.pos) F.n128
    (C06_uint_wrapping_mul_scalar n 0).1 (C07_uint_mul_scalar n 0 cf.oc).1.1

/-- C88: unsigned addition of an unsigned double limb. -/
theorem C88_uint_add_uwide (n : BitVec (w + w)) :
    MemFormsU cf.oc be a.length ((memNat be a : Int) + n.toNat) (Raw.U.wrappingAddUWide be a n)
      (Raw.U.overflowingAddUWide be a n) (Raw.U.checkedAddUWide be a n)
      (Raw.U.addUWide cf be a n) := by
  obtain ⟨x, rfl⟩ := Raw.exists_mem be a
  simp only [Raw.mem_length, Raw.memNat_mem, Raw.memInt_mem] at *
  have h3 : 2 < x.length := by have := F.n4; omega
  obtain ⟨⟨v, e1, h1⟩, ⟨r, e2, h2⟩, -⟩ := C05_uint_add_uwide (Raw.w0 F) h3 n cf.oc
  refine Raw.formsU ((Raw.Add.wrappingWide_ok be (Raw.w0 F) x n h3).trans ?_)
    ((Raw.Add.overflowingWide_ok be (Raw.w0 F) x n h3).trans ?_) F.n128 h1 h2
  · rw [show I256.Add.wrappingWide x n = .ok v from e1]; rfl
  · rw [show I256.Add.overflowingWide x n = .ok r from e2]; rfl

/-- C88: unsigned subtraction of an unsigned double limb. -/
theorem C88_uint_sub_uwide (n : BitVec (w + w)) :
    MemFormsU cf.oc be a.length ((memNat be a : Int) - n.toNat) (Raw.U.wrappingSubUWide be a n)
      (Raw.U.overflowingSubUWide be a n) (Raw.U.checkedSubUWide be a n)
      (Raw.U.subUWide cf be a n) := by
  obtain ⟨x, rfl⟩ := Raw.exists_mem be a
  simp only [Raw.mem_length, Raw.memNat_mem, Raw.memInt_mem] at *
  have h3 : 2 < x.length := by have := F.n4; omega
  obtain ⟨⟨v, e1, h1⟩, ⟨r, e2, h2⟩, -⟩ := C05_uint_sub_uwide (Raw.w0 F) h3 n cf.oc
  refine Raw.formsU ((Raw.Sub.wrappingWide_ok be (Raw.w0 F) x n h3).trans ?_)
    ((Raw.Sub.overflowingWide_ok be (Raw.w0 F) x n h3).trans ?_) F.n128 h1 h2
  · rw [show I256.Sub.wrappingWide x n = .ok v from e1]; rfl
  · rw [show I256.Sub.overflowingWide x n = .ok r from e2]; rfl

/-- C88: unsigned multiplication by an unsigned double limb. -/
theorem C88_uint_mul_uwide (n : BitVec (w + w)) :
    MemFormsU cf.oc be a.length ((memNat be a : Int) * n.toNat) (Raw.U.wrappingMulUWide be a n)
      (Raw.U.overflowingMulUWide be a n) (Raw.U.checkedMulUWide be a n)
      (Raw.U.mulUWide cf be a n) := by
  obtain ⟨x, rfl⟩ := Raw.exists_mem be a
  simp only [Raw.mem_length, Raw.memNat_mem, Raw.memInt_mem] at *
  exact Raw.formsU (Raw.Mul.wrappingWide_ok be (Raw.w0 F) x n F.two)
    (Raw.Mul.overflowingWide_ok be (Raw.w0 F) x n F.two) F.n128
    (C06_uint_wrapping_mul_scalar 0 n).2 (C07_uint_mul_scalar 0 n cf.oc).2.1

/-- C88: signed addition of an unsigned limb. -/
theorem C88_int_add_ulimb (n : BitVec w) :
    MemFormsS cf.oc be a.length (memInt be a + n.toNat) (Raw.I.wrappingAddULimb be a n)
      (Raw.I.overflowingAddULimb be a n) (Raw.I.checkedAddULimb be a n)
      (Raw.I.addULimb cf be a n) := by
  obtain ⟨x, rfl⟩ := Raw.exists_mem be a
  simp only [Raw.mem_length, Raw.memNat_mem, Raw.memInt_mem] at *
  obtain ⟨h1, h2, -⟩ := C05_int_add_ulimb (x := x) F.w1 F.two n cf.oc
  exact Raw.formsS (Raw.Add.wrappingLimb_ok be x n F.two)
    (Raw.Add.sOverflowingULimb_ok be x n F.two) F.n128 h1 h2

/-- C88: signed subtraction of an unsigned limb. -/
theorem C88_int_sub_ulimb (n : BitVec w) :
    MemFormsS cf.oc be a.length (memInt be a - n.toNat) (Raw.I.wrappingSubULimb be a n)
      (Raw.I.overflowingSubULimb be a n) (Raw.I.checkedSubULimb be a n)
      (Raw.I.subULimb cf be a n) := by
  obtain ⟨x, rfl⟩ := Raw.exists_mem be a
  simp only [Raw.mem_length, Raw.memNat_mem, Raw.memInt_mem] at *
  obtain ⟨h1, h2, -⟩ := C05_int_sub_ulimb (x := x) F.w1 F.two n cf.oc
  exact Raw.formsS (Raw.Sub.wrappingLimb_ok be x n F.two)
    (Raw.Sub.sOverflowingULimb_ok be x n F.two) F.n128 h1 h2

/-- C88, partial: signed multiplication by an unsigned limb.  The products in the gap pass for
representable; the full claim is `MemFormsS` (`C88_int_mul_false`). -/
theorem C88_int_mul_ulimb_partial (n : BitVec w) :
    MemFormsG cf.oc be a.length (memInt be a * n.toNat) (Raw.I.wrappingMulULimb be a n)
      (Raw.I.overflowingMulULimb be a n) (Raw.I.checkedMulULimb be a n)
      (Raw.I.mulULimb cf be a n) := by
  obtain ⟨x, rfl⟩ := Raw.exists_mem be a
  simp only [Raw.mem_length, Raw.memNat_mem, Raw.memInt_mem] at *
  exact Raw.formsG (Raw.Mul.wrappingLimb_ok be (Raw.w0 F) x n F.pos)
    (Raw.Mul.overflowingULimbS_ok be (Raw.w0 F) x n F.two) F.n128
    (C06_int_wrapping_mul_uscalar n 0).1
    (C08_int_mul_scalar_all_partial (Raw.w0 F) (by have := F.n4; omega) n 0 cf.oc).1.1

/-- C88: signed addition of a signed limb. -/
theorem C88_int_add_ilimb (n : BitVec w) :
    MemFormsS cf.oc be a.length (memInt be a + n.toInt) (Raw.I.wrappingAddILimb be a n)
      (Raw.I.overflowingAddILimb be a n) (Raw.I.checkedAddILimb be a n)
      (Raw.I.addILimb cf be a n) := by
  obtain ⟨x, rfl⟩ := Raw.exists_mem be a
  simp only [Raw.mem_length, Raw.memNat_mem, Raw.memInt_mem] at *
  obtain ⟨h1, h2, -⟩ := C05_int_add_ilimb (x := x) F.w1 F.pos n cf.oc
  exact Raw.formsS (Raw.Add.sWrappingILimb_ok be x n F.two)
    (Raw.Add.sOverflowingILimb_ok be x n F.two) F.n128 h1 h2

/-- C88: signed subtraction of a signed limb. -/
theorem C88_int_sub_ilimb (n : BitVec w) :
    MemFormsS cf.oc be a.length (memInt be a - n.toInt) (Raw.I.wrappingSubILimb be a n)
      (Raw.I.overflowingSubILimb be a n) (Raw.I.checkedSubILimb be a n)
      (Raw.I.subILimb cf be a n) := by
  obtain ⟨x, rfl⟩ := Raw.exists_mem be a
  simp only [Raw.mem_length, Raw.memNat_mem, Raw.memInt_mem] at *
  obtain ⟨h1, h2, -⟩ := C05_int_sub_ilimb (x := x) F.w1 F.pos n cf.oc
  exact Raw.formsS (Raw.Sub.sWrappingILimb_ok be x n F.two)
    (Raw.Sub.sOverflowingILimb_ok be x n F.two) F.n128 h1 h2

/-- C88, partial: signed multiplication by a signed limb.  The products in the gap pass for representable;
the full claim is `MemFormsS` (`C88_int_mul_false`). -/
theorem C88_int_mul_ilimb_partial (n : BitVec w) :
    MemFormsG cf.oc be a.length (memInt be a * n.toInt) (Raw.I.wrappingMulILimb be a n)
      (Raw.I.overflowingMulILimb be a n) (Raw.I.checkedMulILimb be a n)
      (Raw.I.mulILimb cf be a n) := by
  obtain ⟨x, rfl⟩ := Raw.exists_mem be a
  simp only [Raw.mem_length, Raw.memNat_mem, Raw.memInt_mem] at *
  exact Raw.formsG (Raw.Mul.wrappingILimb_ok be (Raw.w0 F) x n F.pos)
    (Raw.Mul.overflowingILimbS_ok be (Raw.w0 F) x n F.two) F.n128
    (C06_int_wrapping_mul_iscalar F.two n 0).1
    (C08_int_mul_scalar_all_partial (Raw.w0 F) (by have := F.n4; omega) n 0 cf.oc).2.1.1

/-- C88: signed addition of an unsigned double limb. -/
theorem C88_int_add_uwide (n : BitVec (w + w)) :
    MemFormsS cf.oc be a.length (memInt be a + n.toNat) (Raw.I.wrappingAddUWide be a n)
      (Raw.I.overflowingAddUWide be a n) (Raw.I.checkedAddUWide be a n)
      (Raw.I.addUWide cf be a n) := by
  obtain ⟨x, rfl⟩ := Raw.exists_mem be a
  simp only [Raw.mem_length, Raw.memNat_mem, Raw.memInt_mem] at *
  obtain ⟨h1, h2, -⟩ := C05_int_add_uwide (x := x) F.w1 (by have := F.n4; omega) n cf.oc
  exact Raw.formsS (Raw.Add.sWrappingUWide_ok be (Raw.w0 F) x n F.two)
    (Raw.Add.sOverflowingUWide_ok be (Raw.w0 F) x n F.two) F.n128 h1 h2

/-- C88: signed subtraction of an unsigned double limb. -/
theorem C88_int_sub_uwide (n : BitVec (w + w)) :
    MemFormsS cf.oc be a.length (memInt be a - n.toNat) (Raw.I.wrappingSubUWide be a n)
      (Raw.I.overflowingSubUWide be a n) (Raw.I.checkedSubUWide be a n)
      (Raw.I.subUWide cf be a n) := by
  obtain ⟨x, rfl⟩ := Raw.exists_mem be a
  simp only [Raw.mem_length, Raw.memNat_mem, Raw.memInt_mem] at *
  obtain ⟨h1, h2, -⟩ := C05_int_sub_uwide (x := x) F.w1 (by have := F.n4; omega) n cf.oc
  exact Raw.formsS (Raw.Sub.sWrappingUWide_ok be (Raw.w0 F) x n F.two)
    (Raw.Sub.sOverflowingUWide_ok be (Raw.w0 F) x n F.two) F.n128 h1 h2

/-- C88, partial: signed multiplication by an unsigned double limb.  The products in the gap pass for
representable; the full claim is `MemFormsS` (`C88_int_mul_false`). -/
theorem C88_int_mul_uwide_partial (n : BitVec (w + w)) :
    MemFormsG cf.oc be a.length (memInt be a * n.toNat) (Raw.I.wrappingMulUWide be a n)
      (Raw.I.overflowingMulUWide be a n) (Raw.I.checkedMulUWide be a n)
      (Raw.I.mulUWide cf be a n) := by
  obtain ⟨x, rfl⟩ := Raw.exists_mem be a
  simp only [Raw.mem_length, Raw.memNat_mem, Raw.memInt_mem] at *
  exact Raw.formsG (Raw.Mul.wrappingWide_ok be (Raw.w0 F) x n F.two)
    (Raw.Mul.overflowingUWideS_ok be (Raw.w0 F) x n F.two) F.n128
    (C06_int_wrapping_mul_uscalar 0 n).2
    (C08_int_mul_scalar_all_partial (Raw.w0 F) (by have := F.n4; omega) 0 n cf.oc).2.2.1.1

/-- C88: signed addition of a signed double limb. -/
theorem C88_int_add_iwide (n : BitVec (w + w)) :
    MemFormsS cf.oc be a.length (memInt be a + n.toInt) (Raw.I.wrappingAddIWide be a n)
      (Raw.I.overflowingAddIWide be a n) (Raw.I.checkedAddIWide be a n)
      (Raw.I.addIWide cf be a n) := by
  obtain ⟨x, rfl⟩ := Raw.exists_mem be a
  simp only [Raw.mem_length, Raw.memNat_mem, Raw.memInt_mem] at *
  obtain ⟨h1, h2, -⟩ := C05_int_add_iwide (x := x) F.w1 F.two n cf.oc
  exact Raw.formsS (Raw.Add.sWrappingIWide_ok be (Raw.w0 F) x n F.two)
    (Raw.Add.sOverflowingIWide_ok be (Raw.w0 F) x n F.two) F.n128 h1 h2

/-- C88: signed subtraction of a signed double limb. -/
theorem C88_int_sub_iwide (n : BitVec (w + w)) :
    MemFormsS cf.oc be a.length (memInt be a - n.toInt) (Raw.I.wrappingSubIWide be a n)
      (Raw.I.overflowingSubIWide be a n) (Raw.I.checkedSubIWide be a n)
      (Raw.I.subIWide cf be a n) := by
  obtain ⟨x, rfl⟩ := Raw.exists_mem be a
  simp only [Raw.mem_length, Raw.memNat_mem, Raw.memInt_mem] at *
  obtain ⟨h1, h2, -⟩ := C05_int_sub_iwide (x := x) F.w1 F.two n cf.oc
  exact Raw.formsS (Raw.Sub.sWrappingIWide_ok be (Raw.w0 F) x n F.two)
    (Raw.Sub.sOverflowingIWide_ok be (Raw.w0 F) x n F.two) F.n128 h1 h2

/-- C88, partial: signed multiplication by a signed double limb.  The products in the gap pass for
representable; the full claim is `MemFormsS` (`C88_int_mul_false`). -/
theorem C88_int_mul_iwide_partial (n : BitVec (w + w)) :
    MemFormsG cf.oc be a.length (memInt be a * n.toInt) (Raw.I.wrappingMulIWide be a n)
      (Raw.I.overflowingMulIWide be a n) (Raw.I.checkedMulIWide be a n)
      (Raw.I.mulIWide cf be a n) := by
  obtain ⟨x, rfl⟩ := Raw.exists_mem be a
  simp only [Raw.mem_length, Raw.memNat_mem, Raw.memInt_mem] at *
  exact Raw.formsG (Raw.Mul.wrappingIWide_ok be (Raw.w0 F) x n F.two)
    (Raw.Mul.overflowingIWideS_ok be (Raw.w0 F) x n F.two) F.n128
    (C06_int_wrapping_mul_iscalar F.two 0 n).2
    (C08_int_mul_scalar_all_partial (Raw.w0 F) (by have := F.n4; omega) 0 n cf.oc).2.2.2.1

end

/-- C88 is false for signed products: `(2^255 + 1) / 3 * (-3)` is out of range, but `checked_mul_ilimb` returns
a positive number. -/
theorem C88_int_mul_false : ∃ a m : Limbs 64, a.length = 4 ∧ Raw.I.checkedMulILimb true a (-3) = .ok (some m) ∧
    0 < memInt true a ∧ 0 < memInt true m :=
  ⟨[0x2aaaaaaaaaaaaaaa, 0xaaaaaaaaaaaaaaaa, 0xaaaaaaaaaaaaaaaa, 0xaaaaaaaaaaaaaaab],
    [0x7fffffffffffffff, 0xffffffffffffffff, 0xffffffffffffffff, 0xffffffffffffffff], by decide +kernel⟩

/-! ### The hypotheses are met -/

section examples
variable (cf : Cfg) (be : Bool)

example := C88_uint_add_ulimb (a := Sample.a) cf be Raw.fit4 7
example := C88_uint_sub_ulimb (a := Sample.a) cf be Raw.fit4 7
example := C88_uint_mul_ulimb (a := Sample.a) cf be Raw.fit4 7
example := C88_uint_add_uwide (a := Sample.a) cf be Raw.fit4 7
example := C88_uint_sub_uwide (a := Sample.a) cf be Raw.fit4 7
example := C88_uint_mul_uwide (a := Sample.a) cf be Raw.fit4 7
example := C88_int_add_ulimb (a := m2) cf be Raw.fit4 7
example := C88_int_sub_ulimb (a := m2) cf be Raw.fit4 7
example := C88_int_mul_ulimb_partial (a := m2) cf be Raw.fit4 7
example := C88_int_add_ilimb (a := m2) cf be Raw.fit4 (-7)
example := C88_int_sub_ilimb (a := m2) cf be Raw.fit4 (-7)
example := C88_int_mul_ilimb_partial (a := m2) cf be Raw.fit4 (-7)
example := C88_int_add_uwide (a := m2) cf be Raw.fit4 7
example := C88_int_sub_uwide (a := m2) cf be Raw.fit4 7
example := C88_int_mul_uwide_partial (a := m2) cf be Raw.fit4 7
example := C88_int_add_iwide (a := m2) cf be Raw.fit4 (-7)
example := C88_int_sub_iwide (a := m2) cf be Raw.fit4 (-7)
example := C88_int_mul_iwide_partial (a := m2) cf be Raw.fit4 (-7)

end examples

example : Raw.U.checkedAddULimb true ([1, 0, 0, 0xffffffffffffffff] : Limbs 64) 1 = .ok (some [1, 0, 1, 0]) ∧
    Raw.U.checkedAddULimb true ones 1 = .ok none ∧ Raw.U.addUWide ⟨true, true, false⟩ true ones 1 = .panic ∧
    Raw.U.subUWide ⟨false, true, false⟩ true zero 1 = .ok ones ∧
    Raw.U.overflowingMulUWide true ([0, 0, 1, 0] : Limbs 64) 0x20000000000000003 =
      .ok ([0, 2, 3, 0], false) := by decide +kernel
example : Raw.I.addILimb ⟨true, true, false⟩ true ([0, 0, 1, 0] : Limbs 64) (-1) =
      .ok [0, 0, 0, 0xffffffffffffffff] ∧
    Raw.I.subIWide ⟨true, true, false⟩ true ([0x8000000000000000, 0, 0, 0] : Limbs 64) 1 = .panic ∧
    Raw.I.mulILimb ⟨true, true, false⟩ true ([0, 0, 1, 0] : Limbs 64) (-1) =
      .ok [0xffffffffffffffff, 0xffffffffffffffff, 0xffffffffffffffff, 0] ∧
    Raw.I.overflowingMulUWide true ones 0x10000000000000000 =
      .ok ([0xffffffffffffffff, 0xffffffffffffffff, 0xffffffffffffffff, 0], false) := by decide +kernel

end I256
