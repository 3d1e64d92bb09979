import Verif.SpecRawForms
import Verif.Lemmas.RawFixed
import Verif.Props.Fixed
import Verif.Props.GapAll

/-!
# C89: addition, subtraction and multiplication with a fixed-width scalar in memory

The theorems are about the literal transcription of the methods that take a `u32`, `u64` or `u128` and, for the
signed types, an `i32`, `i64` or `i128`.  The limbs of the big integer are in memory order, `k` is the size of
the scalar and `cf` the kind of build.
-/

namespace I256

open Sample
open Raw (Fit)
open Raw.Div (Cfg)

section
variable {w : Nat} {a : Limbs w} (cf : Cfg) (be : Bool) (hw : w = 32 ∨ w = 64) (F : Fit w a.length)
  (h4 : 256 ≤ w * a.length)
include hw F h4

/-- C89: unsigned addition. -/
theorem C89_uint_add_fixed (k : Fix) (n : BitVec k.n) :
    MemFormsU cf.oc be a.length ((memNat be a : Int) + n.toNat) (Raw.U.wrappingAddFix be k a n)
      (Raw.U.overflowingAddFix be k a n) (Raw.U.checkedAddFix be k a n) (Raw.U.addFix cf be k a n) := by
  obtain ⟨x, rfl⟩ := Raw.exists_mem be a
  simp only [Raw.mem_length, Raw.memNat_mem] at *
  obtain ⟨⟨v, e1, h1⟩, ⟨r, e2, h2⟩, -⟩ := (C53_uint_add_sub_fixed hw h4 k n cf.oc).1
  exact Raw.fixU (Raw.U.wrappingAddFix_ok be hw F h4 k n e1 h1.1)
    (Raw.U.overflowingAddFix_ok be hw F h4 k n e2 h2.1.1) h1 h2

/-- C89: unsigned subtraction. -/
theorem C89_uint_sub_fixed (k : Fix) (n : BitVec k.n) :
    MemFormsU cf.oc be a.length ((memNat be a : Int) - n.toNat) (Raw.U.wrappingSubFix be k a n)
      (Raw.U.overflowingSubFix be k a n) (Raw.U.checkedSubFix be k a n) (Raw.U.subFix cf be k a n) := by
  obtain ⟨x, rfl⟩ := Raw.exists_mem be a
  simp only [Raw.mem_length, Raw.memNat_mem] at *
  obtain ⟨⟨v, e1, h1⟩, ⟨r, e2, h2⟩, -⟩ := (C53_uint_add_sub_fixed hw h4 k n cf.oc).2
  exact Raw.fixU (Raw.U.wrappingSubFix_ok be hw F h4 k n e1 h1.1)
    (Raw.U.overflowingSubFix_ok be hw F h4 k n e2 h2.1.1) h1 h2

/-- C89: unsigned multiplication. -/
theorem C89_uint_mul_fixed (k : Fix) (n : BitVec k.n) :
    MemFormsU cf.oc be a.length ((memNat be a : Int) * n.toNat) (Raw.U.wrappingMulFix be k a n)
      (Raw.U.overflowingMulFix be k a n) (Raw.U.checkedMulFix be k a n) (Raw.U.mulFix cf be k a n) := by
  obtain ⟨x, rfl⟩ := Raw.exists_mem be a
  simp only [Raw.mem_length, Raw.memNat_mem] at *
  obtain ⟨⟨v, e1, h1⟩, ⟨r, e2, h2⟩, -⟩ := C54_uint_mul_fixed (x := x) hw h4 k n cf.oc
  exact Raw.fixU (Raw.U.wrappingMulFix_ok be hw F h4 k n e1 h1.1)
    (Raw.U.overflowingMulFix_ok be hw F h4 k n e2 h2.1.1) h1 h2

/-- C89, partial: signed addition, unsigned scalar, except for 128-bit scalars on 32-bit limbs, for which the
methods panic (`C89_int_add_sub_u128_panics`, `C89_int_add_false`). -/
theorem C89_int_add_fixed_unsigned_partial (k : Fix) (hk : ¬ (w = 32 ∧ k = .b128)) (n : BitVec k.n) :
    MemFormsS cf.oc be a.length (memInt be a + n.toNat) (Raw.I.wrappingAddFixU be k a n)
      (Raw.I.overflowingAddFixU be k a n) (Raw.I.checkedAddFixU be k a n)
      (Raw.I.addFixU cf be k a n) := by
  obtain ⟨x, rfl⟩ := Raw.exists_mem be a
  simp only [Raw.mem_length, Raw.memInt_mem] at *
  obtain ⟨⟨v, e1, h1⟩, ⟨r, e2, h2⟩, -⟩ := (C53_int_add_sub_fixed_unsigned hw h4 k hk n cf.oc).1
  have e : Raw.I.checkedAddFixU be k (Raw.mem be x) n =
      Raw.Pow.checked (Raw.I.overflowingAddFixU be k (Raw.mem be x) n) := by cases k <;> rfl
  rw [Raw.I.addFixU, e]
  exact Raw.fixS (Raw.I.wrappingAddFixU_ok be hw F h4 k hk n e1 h1.1)
    (Raw.I.overflowingAddFixU_ok be hw F h4 k hk n e2 h2.1.1) h1 h2

/-- C89, partial: signed addition, signed scalar, except for 128-bit scalars on 32-bit limbs, for which the
methods panic (`C89_int_add_sub_u128_panics`, `C89_int_add_false`). -/
theorem C89_int_add_fixed_signed_partial (k : Fix) (hk : ¬ (w = 32 ∧ k = .b128)) (n : BitVec k.n) :
    MemFormsS cf.oc be a.length (memInt be a + n.toInt) (Raw.I.wrappingAddFixI be k a n)
      (Raw.I.overflowingAddFixI be k a n) (Raw.I.checkedAddFixI be k a n)
      (Raw.I.addFixI cf be k a n) := by
  obtain ⟨x, rfl⟩ := Raw.exists_mem be a
  simp only [Raw.mem_length, Raw.memInt_mem] at *
  obtain ⟨⟨v, e1, h1⟩, ⟨r, e2, h2⟩, -⟩ := (C53_int_add_sub_fixed_signed hw h4 k hk n cf.oc).1
  have e : Raw.I.checkedAddFixI be k (Raw.mem be x) n =
      Raw.Pow.checked (Raw.I.overflowingAddFixI be k (Raw.mem be x) n) := by cases k <;> rfl
  rw [Raw.I.addFixI, e]
  exact Raw.fixS (Raw.I.wrappingAddFixI_ok be hw F h4 k hk n e1 h1.1)
    (Raw.I.overflowingAddFixI_ok be hw F h4 k hk n e2 h2.1.1) h1 h2

/-- C89, partial: signed subtraction, unsigned scalar, except for 128-bit scalars on 32-bit limbs, for which the
methods panic (`C89_int_add_sub_u128_panics`, `C89_int_add_false`). -/
theorem C89_int_sub_fixed_unsigned_partial (k : Fix) (hk : ¬ (w = 32 ∧ k = .b128)) (n : BitVec k.n) :
    MemFormsS cf.oc be a.length (memInt be a - n.toNat) (Raw.I.wrappingSubFixU be k a n)
      (Raw.I.overflowingSubFixU be k a n) (Raw.I.checkedSubFixU be k a n)
      (Raw.I.subFixU cf be k a n) := by
  obtain ⟨x, rfl⟩ := Raw.exists_mem be a
  simp only [Raw.mem_length, Raw.memInt_mem] at *
  obtain ⟨⟨v, e1, h1⟩, ⟨r, e2, h2⟩, -⟩ := (C53_int_add_sub_fixed_unsigned hw h4 k hk n cf.oc).2
  have e : Raw.I.checkedSubFixU be k (Raw.mem be x) n =
      Raw.Pow.checked (Raw.I.overflowingSubFixU be k (Raw.mem be x) n) := by cases k <;> rfl
  rw [Raw.I.subFixU, e]
  exact Raw.fixS (Raw.I.wrappingSubFixU_ok be hw F h4 k hk n e1 h1.1)
    (Raw.I.overflowingSubFixU_ok be hw F h4 k hk n e2 h2.1.1) h1 h2

/-- C89, partial: signed subtraction, signed scalar, except for 128-bit scalars on 32-bit limbs, for which the
methods panic (`C89_int_add_sub_u128_panics`, `C89_int_add_false`). -/
theorem C89_int_sub_fixed_signed_partial (k : Fix) (hk : ¬ (w = 32 ∧ k = .b128)) (n : BitVec k.n) :
    MemFormsS cf.oc be a.length (memInt be a - n.toInt) (Raw.I.wrappingSubFixI be k a n)
      (Raw.I.overflowingSubFixI be k a n) (Raw.I.checkedSubFixI be k a n)
      (Raw.I.subFixI cf be k a n) := by
  obtain ⟨x, rfl⟩ := Raw.exists_mem be a
  simp only [Raw.mem_length, Raw.memInt_mem] at *
  obtain ⟨⟨v, e1, h1⟩, ⟨r, e2, h2⟩, -⟩ := (C53_int_add_sub_fixed_signed hw h4 k hk n cf.oc).2
  have e : Raw.I.checkedSubFixI be k (Raw.mem be x) n =
      Raw.Pow.checked (Raw.I.overflowingSubFixI be k (Raw.mem be x) n) := by cases k <;> rfl
  rw [Raw.I.subFixI, e]
  exact Raw.fixS (Raw.I.wrappingSubFixI_ok be hw F h4 k hk n e1 h1.1)
    (Raw.I.overflowingSubFixI_ok be hw F h4 k hk n e2 h2.1.1) h1 h2

/-- C89, partial: signed multiplication, unsigned scalar, except for 128-bit scalars on 32-bit limbs
(`C89_int_mul_128_partial`).  The products in the gap pass for representable; the full claim is `MemFormsS`
(`C89_int_mul_false`). -/
theorem C89_int_mul_fixed_unsigned_partial (k : Fix) (hk : ¬ (w = 32 ∧ k = .b128)) (n : BitVec k.n) :
    MemFormsG cf.oc be a.length (memInt be a * n.toNat) (Raw.I.wrappingMulFixU be k a n)
      (Raw.I.overflowingMulFixU be k a n) (Raw.I.checkedMulFixU be k a n)
      (Raw.I.mulFixU cf be k a n) := by
  obtain ⟨x, rfl⟩ := Raw.exists_mem be a
  simp only [Raw.mem_length, Raw.memInt_mem] at *
  obtain ⟨⟨v, e1, h1⟩, ⟨r, e2, h2⟩, -⟩ := (C54_int_mul_fixed_all_partial hw h4 k hk n cf.oc).1
  have e : Raw.I.checkedMulFixU be k (Raw.mem be x) n =
      Raw.Pow.checked (Raw.I.overflowingMulFixU be k (Raw.mem be x) n) := by cases k <;> rfl
  rw [Raw.I.mulFixU, e]
  exact Raw.fixG (Raw.I.wrappingMulFixU_ok be hw F h4 k n e1 h1.1)
    (Raw.I.overflowingMulFixU_ok be hw F h4 k n e2 h2.1.1) h1 h2

/-- C89, partial: signed multiplication, signed scalar, except for 128-bit scalars on 32-bit limbs
(`C89_int_mul_128_partial`).  The products in the gap pass for representable; the full claim is `MemFormsS`
(`C89_int_mul_false`). -/
theorem C89_int_mul_fixed_signed_partial (k : Fix) (hk : ¬ (w = 32 ∧ k = .b128)) (n : BitVec k.n) :
    MemFormsG cf.oc be a.length (memInt be a * n.toInt) (Raw.I.wrappingMulFixI be k a n)
      (Raw.I.overflowingMulFixI be k a n) (Raw.I.checkedMulFixI be k a n)
      (Raw.I.mulFixI cf be k a n) := by
  obtain ⟨x, rfl⟩ := Raw.exists_mem be a
  simp only [Raw.mem_length, Raw.memInt_mem] at *
  obtain ⟨⟨v, e1, h1⟩, ⟨r, e2, h2⟩, -⟩ := (C54_int_mul_fixed_all_partial hw h4 k hk n cf.oc).2
  have e : Raw.I.checkedMulFixI be k (Raw.mem be x) n =
      Raw.Pow.checked (Raw.I.overflowingMulFixI be k (Raw.mem be x) n) := by cases k <;> rfl
  rw [Raw.I.mulFixI, e]
  exact Raw.fixG (Raw.I.wrappingMulFixI_ok be hw F h4 k n e1 h1.1)
    (Raw.I.overflowingMulFixI_ok be hw F h4 k n e2 h2.1.1) h1 h2

end

section
variable {a : Limbs 32} (cf : Cfg) (be : Bool) (F : Fit 32 a.length) (h4 : 8 ≤ a.length)
include F h4

/-- C89, partial: signed multiplication by a 128-bit scalar on 32-bit limbs.  The product is formed with the
second and the fourth digit of the scalar exchanged, for every operand; the full claim is `MemFormsS` with
`memInt be a * n.toNat` and `memInt be a * n.toInt` (`C89_int_mul_128_false`). -/
theorem C89_int_mul_128_partial (n : BitVec 128) :
    let i : Int := swap128 n.toNat - if n.toInt < 0 then 2 ^ 128 else 0
    MemFormsG cf.oc be a.length (memInt be a * swap128 n.toNat) (Raw.I.wrappingMulFixU be .b128 a n)
      (Raw.I.overflowingMulFixU be .b128 a n) (Raw.I.checkedMulFixU be .b128 a n)
      (Raw.I.mulFixU cf be .b128 a n) ∧
    MemFormsG cf.oc be a.length (memInt be a * i) (Raw.I.wrappingMulFixI be .b128 a n)
      (Raw.I.overflowingMulFixI be .b128 a n) (Raw.I.checkedMulFixI be .b128 a n)
      (Raw.I.mulFixI cf be .b128 a n) := by
  obtain ⟨x, rfl⟩ := Raw.exists_mem be a
  simp only [Raw.mem_length, Raw.memInt_mem] at *
  have h : 256 ≤ 32 * x.length := by omega
  obtain ⟨⟨⟨v, e1, h1⟩, ⟨r, e2, h2⟩, -⟩, ⟨⟨v', e3, h3⟩, ⟨r', e4, h4'⟩, -⟩⟩ :=
    C41_int_mul_all_partial h n cf.oc
  exact ⟨Raw.fixG (Raw.I.wrappingMulFixU_ok be (.inl rfl) F h .b128 n e1 h1.1)
      (Raw.I.overflowingMulFixU_ok be (.inl rfl) F h .b128 n e2 h2.1.1) h1 h2,
    Raw.fixG (Raw.I.wrappingMulFixI_ok be (.inl rfl) F h .b128 n e3 h3.1)
      (Raw.I.overflowingMulFixI_ok be (.inl rfl) F h .b128 n e4 h4'.1.1) h3 h4'⟩

/-- C89 fails for every signed addition and subtraction of a 128-bit scalar on 32-bit limbs: the methods
panic for all operands. -/
theorem C89_int_add_sub_u128_panics (n : BitVec 128) :
    (∀ f ∈ [Raw.I.wrappingAddFixU, Raw.I.wrappingAddFixI, Raw.I.wrappingSubFixU, Raw.I.wrappingSubFixI],
      f be .b128 a n = .panic) ∧
    (∀ f ∈ [Raw.I.overflowingAddFixU, Raw.I.overflowingAddFixI, Raw.I.overflowingSubFixU,
      Raw.I.overflowingSubFixI], f be .b128 a n = .panic) ∧
    (∀ f ∈ [Raw.I.checkedAddFixU, Raw.I.checkedAddFixI, Raw.I.checkedSubFixU, Raw.I.checkedSubFixI],
      f be .b128 a n = .panic) ∧
    (∀ f ∈ [Raw.I.addFixU, Raw.I.addFixI, Raw.I.subFixU, Raw.I.subFixI], f cf be .b128 a n = .panic) := by
  obtain ⟨x, rfl⟩ := Raw.exists_mem be a
  simp only [Raw.mem_length] at *
  obtain ⟨y, ey, yl, -⟩ := u128ToLimbN_spec (N := x.length) (by omega) n
  obtain ⟨y', ey', yl', -⟩ := i128ToLimbN_spec (N := x.length) (by omega) n
  have hu : (Raw.u128ToLimbN be (Raw.mem be x).length n : Res (Limbs 32)) = .ok (Raw.mem be y) := by
    rw [Raw.mem_length]; exact Raw.u128ToLimbN_ok be n ey
  have hi : (Raw.i128ToLimbN be (Raw.mem be x).length n : Res (Limbs 32)) = .ok (Raw.mem be y') := by
    rw [Raw.mem_length]; exact Raw.i128ToLimbN_ok be n ey'
  have wAU : Raw.I.wrappingAddFixU be .b128 (Raw.mem be x) n = .panic := by
    have e : Raw.I.wrappingAddFixU be .b128 (Raw.mem be x) n =
        ((Raw.u128ToLimbN be (Raw.mem be x).length n : Res (Limbs 32)).bind fun rhs =>
          Raw.wrappingOf (Raw.Add.wrappingMn be (Raw.mem be x) rhs)) := rfl
    rw [e, hu, Res.bind_ok, Raw.Add.wrappingMn, Raw.mem_length, Raw.mem_length, yl]
    simp [Raw.assert]
    rfl
  have oAU : Raw.I.overflowingAddFixU be .b128 (Raw.mem be x) n = .panic := by
    have e : Raw.I.overflowingAddFixU be .b128 (Raw.mem be x) n =
        ((Raw.u128ToLimbN be (Raw.mem be x).length n : Res (Limbs 32)).bind fun rhs =>
          Raw.overflowingOf (Raw.Add.overflowingMn be (Raw.mem be x) rhs)) := rfl
    rw [e, hu, Res.bind_ok, Raw.Add.overflowingMn, Raw.mem_length, Raw.mem_length, yl]
    simp [Raw.assert]
    rfl
  have wAI : Raw.I.wrappingAddFixI be .b128 (Raw.mem be x) n = .panic := by
    have e : Raw.I.wrappingAddFixI be .b128 (Raw.mem be x) n =
        ((Raw.i128ToLimbN be (Raw.mem be x).length n : Res (Limbs 32)).bind fun rhs =>
          Raw.wrappingOf (Raw.Add.wrappingMn be (Raw.mem be x) rhs)) := rfl
    rw [e, hi, Res.bind_ok, Raw.Add.wrappingMn, Raw.mem_length, Raw.mem_length, yl']
    simp [Raw.assert]
    rfl
  have oAI : Raw.I.overflowingAddFixI be .b128 (Raw.mem be x) n = .panic := by
    have e : Raw.I.overflowingAddFixI be .b128 (Raw.mem be x) n =
        ((Raw.i128ToLimbN be (Raw.mem be x).length n : Res (Limbs 32)).bind fun rhs =>
          Raw.overflowingOf (Raw.Add.overflowingMn be (Raw.mem be x) rhs)) := rfl
    rw [e, hi, Res.bind_ok, Raw.Add.overflowingMn, Raw.mem_length, Raw.mem_length, yl']
    simp [Raw.assert]
    rfl
  have wSU : Raw.I.wrappingSubFixU be .b128 (Raw.mem be x) n = .panic := by
    have e : Raw.I.wrappingSubFixU be .b128 (Raw.mem be x) n =
        ((Raw.u128ToLimbN be (Raw.mem be x).length n : Res (Limbs 32)).bind fun rhs =>
          Raw.wrappingOf (Raw.Sub.wrappingMn be (Raw.mem be x) rhs)) := rfl
    rw [e, hu, Res.bind_ok, Raw.Sub.wrappingMn, Raw.mem_length, Raw.mem_length, yl]
    simp [Raw.assert]
    rfl
  have oSU : Raw.I.overflowingSubFixU be .b128 (Raw.mem be x) n = .panic := by
    have e : Raw.I.overflowingSubFixU be .b128 (Raw.mem be x) n =
        ((Raw.u128ToLimbN be (Raw.mem be x).length n : Res (Limbs 32)).bind fun rhs =>
          Raw.overflowingOf (Raw.Sub.overflowingMn be (Raw.mem be x) rhs)) := rfl
    rw [e, hu, Res.bind_ok, Raw.Sub.overflowingMn, Raw.mem_length, Raw.mem_length, yl]
    simp [Raw.assert]
    rfl
  have wSI : Raw.I.wrappingSubFixI be .b128 (Raw.mem be x) n = .panic := by
    have e : Raw.I.wrappingSubFixI be .b128 (Raw.mem be x) n =
        ((Raw.i128ToLimbN be (Raw.mem be x).length n : Res (Limbs 32)).bind fun rhs =>
          Raw.wrappingOf (Raw.Sub.wrappingMn be (Raw.mem be x) rhs)) := rfl
    rw [e, hi, Res.bind_ok, Raw.Sub.wrappingMn, Raw.mem_length, Raw.mem_length, yl']
    simp [Raw.assert]
    rfl
  have oSI : Raw.I.overflowingSubFixI be .b128 (Raw.mem be x) n = .panic := by
    have e : Raw.I.overflowingSubFixI be .b128 (Raw.mem be x) n =
        ((Raw.i128ToLimbN be (Raw.mem be x).length n : Res (Limbs 32)).bind fun rhs =>
          Raw.overflowingOf (Raw.Sub.overflowingMn be (Raw.mem be x) rhs)) := rfl
    rw [e, hi, Res.bind_ok, Raw.Sub.overflowingMn, Raw.mem_length, Raw.mem_length, yl']
    simp [Raw.assert]
    rfl
  have c : ∀ {O : Res (Limbs 32 × Bool)}, O = .panic → Raw.Pow.checked O = .panic := by
    rintro O rfl; rfl
  have p : ∀ {W : Res (Limbs 32)} {C : Res (Option (Limbs 32))}, W = .panic → C = .panic →
      Raw.opOf cf W C = .panic := by
    rintro W C rfl rfl
    unfold Raw.opOf
    cases cf.oc <;> rfl
  simp only [List.forall_mem_cons, List.not_mem_nil, false_imp_iff, implies_true, and_true]
  exact ⟨⟨wAU, wAI, wSU, wSI⟩, ⟨oAU, oAI, oSU, oSI⟩, ⟨c oAU, c oAI, c oSU, c oSI⟩,
    ⟨p wAU (c oAU), p wAI (c oAI), p wSU (c oSU), p wSI (c oSI)⟩⟩

end

/-- C89 is false for signed products: `(2^255 + 1) / 3 * (-3)` is out of range, but `checked_mul_i32` returns a
positive number. -/
theorem C89_int_mul_false : ∃ a m : Limbs 64, a.length = 4 ∧
    Raw.I.checkedMulFixI true .b32 a (-3) = .ok (some m) ∧ 0 < memInt true a ∧ 0 < memInt true m :=
  ⟨[0x2aaaaaaaaaaaaaaa, 0xaaaaaaaaaaaaaaaa, 0xaaaaaaaaaaaaaaaa, 0xaaaaaaaaaaaaaaab],
    [0x7fffffffffffffff, 0xffffffffffffffff, 0xffffffffffffffff, 0xffffffffffffffff], by decide +kernel⟩

/-- C89 is false: on 32-bit limbs `1 * 2^32` is `2^96` for the signed type, in either byte order. -/
theorem C89_int_mul_128_false :
    Raw.I.mulFixU ⟨true, true, false⟩ true .b128 ([0, 0, 0, 0, 0, 0, 0, 1] : Limbs 32) (2 ^ 32) =
      .ok [0, 0, 0, 0, 1, 0, 0, 0] ∧
    Raw.I.mulFixI ⟨true, true, false⟩ false .b128 ([1, 0, 0, 0, 0, 0, 0, 0] : Limbs 32) (2 ^ 32) =
      .ok [0, 0, 0, 1, 0, 0, 0, 0] := by decide +kernel

/-- C89 is false: on 32-bit limbs `1 + 1` panics for the signed type. -/
theorem C89_int_add_false :
    Raw.I.wrappingAddFixU true .b128 ([0, 0, 0, 0, 0, 0, 0, 1] : Limbs 32) 1 = .panic ∧
    Raw.I.checkedSubFixI false .b128 ([1, 0, 0, 0, 0, 0, 0, 0] : Limbs 32) 1 = .panic := by decide +kernel

/-! ### The hypotheses are met -/

section examples
variable (cf : Cfg) (be : Bool)

example := C89_uint_add_fixed (a := b32) cf be (.inl rfl) Raw.fit8 (by decide) .b128 (2 ^ 100 + 7)
example := C89_uint_sub_fixed (a := b32) cf be (.inl rfl) Raw.fit8 (by decide) .b128 (2 ^ 100 + 7)
example := C89_uint_mul_fixed (a := b32) cf be (.inl rfl) Raw.fit8 (by decide) .b128 (2 ^ 100 + 7)
example := C89_int_add_fixed_unsigned_partial (a := m2) cf be (.inr rfl) Raw.fit4 (by decide) .b128 (by decide)
  (2 ^ 100 + 7)
example := C89_int_add_fixed_signed_partial (a := m2) cf be (.inr rfl) Raw.fit4 (by decide) .b128 (by decide)
  (-7)
example := C89_int_sub_fixed_unsigned_partial (a := m2) cf be (.inr rfl) Raw.fit4 (by decide) .b128 (by decide)
  (2 ^ 100 + 7)
example := C89_int_sub_fixed_signed_partial (a := m2) cf be (.inr rfl) Raw.fit4 (by decide) .b128 (by decide)
  (-7)
example := C89_int_mul_fixed_unsigned_partial (a := m2) cf be (.inr rfl) Raw.fit4 (by decide) .b128 (by decide)
  (2 ^ 100 + 7)
example := C89_int_mul_fixed_signed_partial (a := m2) cf be (.inr rfl) Raw.fit4 (by decide) .b128 (by decide)
  (-7)
example := C89_int_mul_128_partial (a := b32) cf be Raw.fit8 (by decide) (2 ^ 100 + 7)
example := C89_int_add_sub_u128_panics (a := b32) cf be Raw.fit8 (by decide) (2 ^ 100 + 7)

end examples

example : Raw.U.addFix ⟨true, true, false⟩ true .b128 ([0, 0, 0, 0, 0, 0, 0, 1] : Limbs 32) (2 ^ 32 + 1) =
      .ok [0, 0, 0, 0, 0, 0, 1, 2] ∧
    Raw.U.mulFix ⟨true, true, false⟩ true .b64 ([0, 0, 0, 0, 0, 0, 0, 3] : Limbs 32) (2 ^ 32 + 1) =
      .ok [0, 0, 0, 0, 0, 0, 3, 3] ∧
    Raw.U.checkedSubFix true .b32 ([0, 0, 0, 0, 0, 0, 0, 3] : Limbs 32) 4 = .ok none ∧
    Raw.U.overflowingMulFix true .b128 ([0x80000000, 0, 0, 0, 0, 0, 0, 1] : Limbs 32) (2 ^ 64 + 2) =
      .ok ([0, 0, 0, 0, 0, 1, 0, 2], true) := by decide +kernel
example : Raw.I.addFixI ⟨true, true, false⟩ true .b64 ([0, 0, 0, 0, 0, 0, 0, 3] : Limbs 32) (-4) =
      .ok [0xffffffff, 0xffffffff, 0xffffffff, 0xffffffff, 0xffffffff, 0xffffffff, 0xffffffff, 0xffffffff] ∧
    Raw.I.subFixI ⟨true, true, false⟩ true .b128 ([0x8000000000000000, 0, 0, 0] : Limbs 64) 1 = .panic ∧
    Raw.I.mulFixI ⟨true, true, false⟩ true .b128 ([0, 0, 0, 5] : Limbs 64) (-1) =
      .ok [0xffffffffffffffff, 0xffffffffffffffff, 0xffffffffffffffff, 0xfffffffffffffffb] ∧
    Raw.I.wrappingAddFixU true .b64 ([0, 0, 0, 5] : Limbs 64) 0xffffffffffffffff = .ok [0, 0, 1, 4] := by
  decide +kernel

end I256
