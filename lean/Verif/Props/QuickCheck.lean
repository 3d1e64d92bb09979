import Verif.Lemmas.QuickCheck
import Verif.Props.MathArith
import Verif.Props.MathDiv
import Verif.Props.MathShift
import Verif.Props.RawMul

/-!
# C96: the quickcheck predicates of devel/tests/native_math.rs and div_math.rs hold for every input

`cargo test` draws random inputs; the theorems are about all of them.  Three predicates can fail.
-/

namespace I256

open QuickCheck Raw.Div

/-! ### Unsigned arithmetic -/

/-- C96: the predicates on unsigned sums, differences and products of two arrays. -/
theorem C96_uint_full : ∀ t ∈ [wrappingAddU32, overflowingAddU32, overflowingSubU32, wrappingMulU32,
    overflowingMulU32, wideningMul], ∀ x y : BitVec 64, t false x y = .ok true := by
  intro t ht x y
  have ha := C84_uint_add (w := 32) (be := false) (a := pair x) (b := pair y) (by decide) rfl
  have hs := C84_uint_sub (w := 32) (be := false) (a := pair x) (b := pair y) (by decide) rfl
  have hm := C84_uint_mul (w := 32) (be := false) (a := pair x) (b := pair y) (by decide)
  simp only [pair_len, pair_memNat] at ha hs hm
  simp only [List.mem_cons, List.not_mem_nil, or_false] at ht
  rcases ht with rfl | rfl | rfl | rfl | rfl | rfl
  · exact wU (ha.1.2 (by decide)) SameBits.ofInt_toNat_add.symm
  · exact oU ha.2 SameBits.ofInt_toNat_add.symm SameBits.uaddOverflow_iff
  · exact oU (hs.2.2 (by decide)) SameBits.ofInt_toNat_sub.symm SameBits.usubOverflow_iff
  · exact wU (hm.1.2 (by decide)) SameBits.ofInt_toNat_mul.symm
  · exact oU (hm.2.2 (by decide)) SameBits.ofInt_toNat_mul.symm SameBits.umulOverflow_iff
  · exact widening_ok (C84_widening_mul (w := 32) (by decide) rfl)

example : ∀ t ∈ [wrappingAddU32, overflowingAddU32, overflowingSubU32, wrappingMulU32, overflowingMulU32,
    wideningMul], t false 0xffffffff00000001 0xfffffffffffffffe = .ok true := by decide

/-- C96: the predicates on unsigned sums and differences with a `u32`. -/
theorem C96_uint_limb : ∀ t ∈ [wrappingAddWideU32, overflowingAddWideU32, wrappingSubLimbU32,
    overflowingSubLimbU32], ∀ (x : BitVec 64) (y : BitVec 32), t false x y = .ok true := by
  intro t ht x y
  have h := C84_uint_limb (w := 32) (be := false) (a := pair x) (by decide) y
  simp only [pair_len, pair_memNat, ← zext_toNat y] at h
  simp only [List.mem_cons, List.not_mem_nil, or_false] at ht
  rcases ht with rfl | rfl | rfl | rfl
  · exact wU (h.1.1.2 (by decide)) SameBits.ofInt_toNat_add.symm
  · exact oU (h.1.2.2 (by decide)) SameBits.ofInt_toNat_add.symm SameBits.uaddOverflow_iff
  · exact wU (h.2.1.2 (by decide)) SameBits.ofInt_toNat_sub.symm
  · exact oU (h.2.2.2 (by decide)) SameBits.ofInt_toNat_sub.symm SameBits.usubOverflow_iff

example : ∀ t ∈ [wrappingAddWideU32, overflowingAddWideU32, wrappingSubLimbU32, overflowingSubLimbU32],
    t false 0xffffffffffffff00 0xffffffff = .ok true ∧ t false 5 0xffffffff = .ok true := by decide

/-! ### Signed arithmetic -/

/-- C96: the predicates on signed sums, differences and wrapped products of two arrays. -/
theorem C96_int_full : ∀ t ∈ [wrappingAddI32, overflowingAddI32, wrappingSubI32, overflowingSubI32,
    wrappingMulI32], ∀ x y : BitVec 64, t false x y = .ok true := by
  intro t ht x y
  have ha := C84_int_add (w := 32) (be := false) (a := pair x) (b := pair y) (by decide) rfl 0 0
  have hs := C84_int_sub (w := 32) (be := false) (a := pair x) (b := pair y) (by decide) rfl 0 0
  have hm := C64_int_mul_wrapping (w := 32) (be := false) (a := pair x) (b := pair y) (by decide) (Nat.le_refl 2)
    rfl 0 0
  simp only [pair_len, pair_memInt] at ha hs hm
  simp only [List.mem_cons, List.not_mem_nil, or_false] at ht
  rcases ht with rfl | rfl | rfl | rfl | rfl
  · exact wS (ha.1.1.2 (by decide)) SameBits.ofInt_toInt_add.symm
  · exact oS (ha.1.2.2 (by decide)) SameBits.ofInt_toInt_add.symm (SameBits.saddOverflow_iff (by decide))
  · exact wS (hs.1.1.2 (by decide)) SameBits.ofInt_toInt_sub.symm
  · exact oS (hs.1.2.2 (by decide)) SameBits.ofInt_toInt_sub.symm (SameBits.ssubOverflow_iff (by decide))
  · exact wS hm.1 SameBits.ofInt_toInt_mul.symm

example : ∀ t ∈ [wrappingAddI32, overflowingAddI32, wrappingSubI32, overflowingSubI32, wrappingMulI32],
    t false 0x8000000000000000 0xffffffffffffffff = .ok true ∧ t false 0x7fffffffffffffff 2 = .ok true := by
  decide

/-- C96: the predicates on signed sums, differences and wrapped products with a `u32`. -/
theorem C96_int_ulimb : ∀ t ∈ [wrappingAddUlimbI32, overflowingAddUlimbI32, wrappingSubUlimbI32,
    overflowingSubUlimbI32, wrappingMulUlimbI32], ∀ (x : BitVec 64) (y : BitVec 32),
    t false x y = .ok true := by
  intro t ht x y
  have ha := C84_int_add (w := 32) (be := false) (a := pair x) (b := pair x) (by decide) rfl y 0
  have hs := C84_int_sub (w := 32) (be := false) (a := pair x) (b := pair x) (by decide) rfl y 0
  have hm := C64_int_mul_wrapping (w := 32) (be := false) (a := pair x) (b := pair x) (by decide) (Nat.le_refl 2)
    rfl y 0
  simp only [pair_len, pair_memInt, ← zext_toInt y] at ha hs hm
  simp only [List.mem_cons, List.not_mem_nil, or_false] at ht
  rcases ht with rfl | rfl | rfl | rfl | rfl
  · exact wS (ha.2.1.1.2 (by decide)) SameBits.ofInt_toInt_add.symm
  · exact oS (ha.2.1.2.2 (by decide)) SameBits.ofInt_toInt_add.symm (SameBits.saddOverflow_iff (by decide))
  · exact wS (hs.2.1.1.2 (by decide)) SameBits.ofInt_toInt_sub.symm
  · exact oS (hs.2.1.2.2 (by decide)) SameBits.ofInt_toInt_sub.symm (SameBits.ssubOverflow_iff (by decide))
  · exact wS hm.2.1 SameBits.ofInt_toInt_mul.symm

example : ∀ t ∈ [wrappingAddUlimbI32, overflowingAddUlimbI32, wrappingSubUlimbI32, overflowingSubUlimbI32,
    wrappingMulUlimbI32], t false 0x8000000000000000 0xffffffff = .ok true := by decide

/-- C96: the predicates on signed sums, differences and wrapped products with an `i32`. -/
theorem C96_int_ilimb : ∀ t ∈ [wrappingAddIlimbI32, overflowingAddIlimbI32, wrappingSubIlimbI32,
    overflowingSubIlimbI32, wrappingMulIlimbI32], ∀ (x : BitVec 64) (y : BitVec 32),
    t false x y = .ok true := by
  intro t ht x y
  have ha := C84_int_add (w := 32) (be := false) (a := pair x) (b := pair x) (by decide) rfl y 0
  have hs := C84_int_sub (w := 32) (be := false) (a := pair x) (b := pair x) (by decide) rfl y 0
  have hm := C64_int_mul_wrapping (w := 32) (be := false) (a := pair x) (b := pair x) (by decide) (Nat.le_refl 2)
    rfl y 0
  simp only [pair_len, pair_memInt, ← sext_toInt y] at ha hs hm
  simp only [List.mem_cons, List.not_mem_nil, or_false] at ht
  rcases ht with rfl | rfl | rfl | rfl | rfl
  · exact wS (ha.2.2.1.1.2 (by decide)) SameBits.ofInt_toInt_add.symm
  · exact oS (ha.2.2.1.2.2 (by decide)) SameBits.ofInt_toInt_add.symm (SameBits.saddOverflow_iff (by decide))
  · exact wS (hs.2.2.1.1.2 (by decide)) SameBits.ofInt_toInt_sub.symm
  · exact oS (hs.2.2.1.2.2 (by decide)) SameBits.ofInt_toInt_sub.symm (SameBits.ssubOverflow_iff (by decide))
  · exact wS hm.2.2.2.1 SameBits.ofInt_toInt_mul.symm

example : ∀ t ∈ [wrappingAddIlimbI32, overflowingAddIlimbI32, wrappingSubIlimbI32, overflowingSubIlimbI32,
    wrappingMulIlimbI32], t false 0x8000000000000000 0xffffffff = .ok true := by decide

/-- C96, violated: the predicates on the overflow flag of signed products do not hold for every input. -/
theorem C96_int_mul_overflow_false :
    (¬ ∀ x y : BitVec 64, overflowingMulI32 false x y = .ok true) ∧
      (¬ ∀ (x : BitVec 64) (y : BitVec 32), overflowingMulUlimbI32 false x y = .ok true) ∧
      ¬ ∀ (x : BitVec 64) (y : BitVec 32), overflowingMulIlimbI32 false x y = .ok true :=
  ⟨fun h => absurd (h 0xd555555555555555 3) (by decide), fun h => absurd (h 0xd555555555555555 3) (by decide),
    fun h => absurd (h 0xd555555555555555 3) (by decide)⟩

/-- C96, violated: … they fail exactly for the products in the gap below the smallest `i64`. -/
theorem C96_int_mul_overflow_partial (x y : BitVec 64) (n : BitVec 32) :
    overflowingMulI32 false x y = .ok (decide (¬ Mul.Gap 32 2 (x.toInt * y.toInt))) ∧
      overflowingMulUlimbI32 false x n = .ok (decide (¬ Mul.Gap 32 2 (x.toInt * n.toNat))) ∧
      overflowingMulIlimbI32 false x n = .ok (decide (¬ Mul.Gap 32 2 (x.toInt * n.toInt))) := by
  have h1 := C84_int_mul_overflowing_partial (w := 32) (be := false) (a := pair x) (b := pair y) (by decide)
  have h2 := C84_int_mul_scalar_partial (w := 32) (be := false) (a := pair x) (by decide) n 0
  simp only [pair_len, pair_memInt] at h1 h2
  refine ⟨oG (h1.2 (by decide)) SameBits.ofInt_toInt_mul.symm (SameBits.smulOverflow_iff (by decide)), ?_, ?_⟩
  · rw [← zext_toInt n]
    rw [← zext_toInt n] at h2
    exact oG (h2.1.2 (by decide)) SameBits.ofInt_toInt_mul.symm (SameBits.smulOverflow_iff (by decide))
  · rw [← sext_toInt n]
    rw [← sext_toInt n] at h2
    exact oG (h2.2.2.1.2 (by decide)) SameBits.ofInt_toInt_mul.symm (SameBits.smulOverflow_iff (by decide))

example := C96_int_mul_overflow_partial 0xd555555555555555 3 3
example : overflowingMulI32 false 0xd555555555555555 3 = .ok false ∧
    overflowingMulI32 false 0x8000000000000000 0xffffffffffffffff = .ok true := by decide

/-! ### Shifts and rotations -/

/-- C96: the predicates on shifts, in builds with and without assertions. -/
theorem C96_shift (cf : Cfg) : ∀ t ∈ [shlU32, shrU32, shrI32],
    ∀ (x : BitVec 64) (n : BitVec 32), t cf false x n = .ok true := by
  intro t ht x n
  have hn : (n % 64).toNat < 64 := by
    rw [BitVec.toNat_umod]; exact Nat.mod_lt _ (by decide)
  have hl := C91_left (w := 32) (k := 5) (cf := cf) (be := false) (a := pair x) rfl (by rw [pair_len]; decide)
    (n % 64).toNat
  have hr := C91_right (w := 32) (k := 5) (cf := cf) (be := false) (a := pair x) rfl (by rw [pair_len]; decide)
    (n % 64).toNat
  have he := C91_effective (w := 32) (N := 2) (s := (n % 64).toNat) (Or.inr hn)
  have hp : ¬ ((2 : Nat) < 2 ∨ (cf.da = true ∧ 32 * 2 ≤ (n % 64).toNat)) := by omega
  simp only [pair_len, pair_memInt, pair_memNat, he] at hl hr
  simp only [List.mem_cons, List.not_mem_nil, or_false] at ht
  rcases ht with rfl | rfl | rfl
  · exact wU (hl.2 hp) (SameBits.ofInt_shl _).symm
  · exact xU (hr.1.2 hp) (SameBits.ofInt_ushr _).symm
  · exact xS (hr.2.2 hp) (SameBits.ofInt_sshr _).symm

example : ∀ t ∈ [shlU32, shrU32, shrI32], t ⟨true, true, false⟩ false 0x8123456789abcdef 0xffffffa5 = .ok true := by
  decide

/-- C96: the predicates on rotations, in either byte order and in every build: the exchange of the two limbs
is itself a rotation. -/
theorem C96_rotate (cf : Cfg) (be : Bool) : ∀ t ∈ [rotateLeftU32, rotateRightU32],
    ∀ (x : BitVec 64) (n : BitVec 32), t cf be x n = .ok true := by
  intro t ht x n
  have ho := C91_rotate (w := 32) (k := 5) (cf := cf) (be := be) (a := pair x) rfl (by rw [pair_len]; decide)
    n.toNat
  simp only [pair_len] at ho
  simp only [List.mem_cons, List.not_mem_nil, or_false] at ht
  rcases ht with rfl | rfl
  · exact rotl_ok (ho.1.2 (by decide))
  · exact rotr_ok (ho.2.2 (by decide))

example : ∀ t ∈ [rotateLeftU32, rotateRightU32], ∀ be,
    t ⟨true, true, false⟩ be 0x8123456789abcdef 0xffffffa5 = .ok true := by decide

/-- C96, violated: on a big-endian target the arrays start with the most significant limb, and the
predicates, which number the limbs from the least significant one, fail (except for rotations). -/
theorem C96_big_endian_false (cf : Cfg) :
    (∀ t ∈ [wrappingAddU32, overflowingAddU32, overflowingSubU32, wrappingMulU32, overflowingMulU32, wideningMul,
      wrappingAddI32, overflowingAddI32, wrappingSubI32, overflowingSubI32, wrappingMulI32, overflowingMulI32],
      ¬ ∀ x y : BitVec 64, t true x y = .ok true) ∧
    (∀ t ∈ [wrappingAddWideU32, overflowingAddWideU32, wrappingSubLimbU32, overflowingSubLimbU32,
      wrappingAddUlimbI32, overflowingAddUlimbI32, wrappingSubUlimbI32, overflowingSubUlimbI32,
      wrappingMulUlimbI32, overflowingMulUlimbI32, wrappingAddIlimbI32, overflowingAddIlimbI32,
      wrappingSubIlimbI32, overflowingSubIlimbI32, wrappingMulIlimbI32, overflowingMulIlimbI32],
      ¬ ∀ (x : BitVec 64) (y : BitVec 32), t true x y = .ok true) ∧
    ∀ t ∈ [shlU32, shrU32, shrI32],
      ¬ ∀ (x : BitVec 64) (n : BitVec 32), t cf true x n = .ok true := by
  refine ⟨fun t ht h => ?_, fun t ht h => ?_, fun t ht h => ?_⟩
  · replace h := h 0xffffffff7fffffff 0xfffffffdffffffff
    revert h ht t
    decide +kernel
  · replace h := h 0x80000000ffffffff 0xffffffff
    revert h ht t
    decide +kernel
  · obtain ⟨oc, da, asm⟩ := cf
    replace h := h 0x8123456789abcdef 4
    revert h ht t oc da asm
    decide +kernel

/-! ### Division -/

variable {w : Nat}

/-- C96: the predicates of devel/tests/div_math.rs on `div::full`, `div::wide` and `div::limb` with two
limbs hold for all numerators and divisors, in all builds. -/
theorem C96_div (hw : 0 < w) (cf : Cfg) (num den : BitVec (w + w)) (d : BitVec w) :
    uwideDiv cf num den = .ok true ∧ uwideDivWide cf num d = .ok true ∧ uwideDivLimb cf num d = .ok true := by
  have hn := halves_bits num
  have hl : (halves num).length = 2 := rfl
  have hx : toNat (halves num) < 2 ^ (w * 2) := by
    have := toNat_lt (halves num); rwa [bits, hl] at this
  have hc : ∀ y, Clean w (toNat (halves num)) y := fun y => Div.clean_two hw hx
  refine ⟨?_, ?_, ?_⟩
  · rw [uwideDiv]
    split
    · rename_i hd
      have hd' : toNat (halves den) ≠ 0 := by
        rw [(halves_bits den).2]; exact fun h => hd (BitVec.eq_of_toNat_eq (by simpa using h))
      obtain ⟨q, r, h1, h2, h3, h4, h5⟩ := C83_full_partial (cf := cf) (x := halves num) (y := halves den) hw
        (Nat.le_succ 1) (Nat.le_refl 2) hd' (hc _)
      obtain ⟨e, he, he'⟩ := join_ok (m := q) (by rw [h2, hl])
      obtain ⟨f, hf, hf'⟩ := join_ok (m := r) (by rw [h3]; rfl)
      simp only [h1, he, hf, Res.mbind_ok]
      rw [Res.ok.injEq, beq_iff_eq, Prod.mk.injEq]
      refine ⟨BitVec.eq_of_toNat_eq ?_, BitVec.eq_of_toNat_eq ?_⟩
      · rw [he', h4, hn.2, (halves_bits den).2, BitVec.toNat_udiv]
      · rw [hf', h5, hn.2, (halves_bits den).2, BitVec.toNat_umod]
    · rfl
  all_goals
    have h0 : 2 ^ w ≤ 2 ^ (w + w) := Nat.pow_le_pow_right (by decide) (by omega)
    have hdw : (d.setWidth (w + w)).toNat = d.toNat := by
      rw [BitVec.toNat_setWidth]; exact Nat.mod_eq_of_lt (by have := d.isLt; omega)
  · rw [uwideDivWide]
    split
    · rename_i hd
      have hd' : d.setWidth (w + w) ≠ 0 := fun h => hd (BitVec.eq_of_toNat_eq (by rw [← hdw, h]; simp))
      obtain ⟨q, r, h1, h2, h4, h5⟩ := C83_wide_partial (cf := cf) (x := halves num) hw (Nat.le_refl 2) hd' (hc _)
      obtain ⟨e, he, he'⟩ := join_ok (m := q) (by rw [h2, hl])
      simp only [h1, he, Res.mbind_ok]
      rw [Res.ok.injEq, beq_iff_eq, Prod.mk.injEq]
      refine ⟨BitVec.eq_of_toNat_eq ?_, BitVec.eq_of_toNat_eq ?_⟩
      · rw [he', h4, hn.2, BitVec.toNat_udiv]
      · rw [BitVec.toNat_setWidth, h5, hn.2, hdw, BitVec.toNat_setWidth, BitVec.toNat_umod, hdw]
    · rfl
  · rw [uwideDivLimb]
    split
    · rename_i hd
      obtain ⟨⟨q, r⟩, h1, ⟨h2, h4⟩, h5⟩ := (C83_limb (cf := cf) (x := halves num) hw d 0).1.2 (fun h => hd h.2)
      obtain ⟨e, he, he'⟩ := join_ok (m := q) (by rw [h2, hl])
      simp only [h1, he, Res.mbind_ok]
      rw [Res.ok.injEq, beq_iff_eq, Prod.mk.injEq]
      refine ⟨BitVec.eq_of_toNat_eq ?_, BitVec.eq_of_toNat_eq ?_⟩
      · rw [he', h4, hn.2, BitVec.toNat_udiv, hdw]
      · have hm : num.toNat % d.toNat < 2 ^ w :=
          lt_of_lt_of_le (Nat.mod_lt _ (Nat.pos_of_ne_zero fun h => hd (BitVec.eq_of_toNat_eq (by simpa using h))))
            (Nat.le_of_lt d.isLt)
        rw [h5, hn.2, BitVec.toNat_setWidth, BitVec.toNat_umod, hdw, Nat.mod_eq_of_lt hm]
    · rfl

example := C96_div (w := 64) (by decide) ⟨true, true, false⟩ 0xfedcba98765432100123456789abcdef
  0x8000000000000000ffffffffffffffff 0xffffffffffffffff
example : uwideDiv (w := 64) ⟨true, true, false⟩ 0xfedcba98765432100123456789abcdef
      0x8000000000000000ffffffffffffffff = .ok true ∧
    uwideDivWide (w := 64) ⟨false, true, true⟩ 0xfedcba98765432100123456789abcdef 0xffffffffffffffff = .ok true ∧
    uwideDivLimb (w := 64) ⟨false, false, false⟩ 0xfedcba98765432100123456789abcdef 0xffffffffffffffff =
      .ok true := by decide +kernel

end I256
