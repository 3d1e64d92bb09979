import Verif.Lemmas.FormsScalar
import Verif.Props.GapAll
import Verif.Props.Samples

/-!
# The forms of one operation with a scalar agree (C80)

Division by limbs and double limbs, and all operations with scalars of fixed width, within one build
(`oc` says whether it has overflow checks).  There is no strict form.  All operands are covered, also
those where an operation panics on a nonzero divisor or returns a wrong remainder.
-/

namespace I256

open Sample

variable {w : Nat} {x : Limbs w}

/-- C80: unsigned division by a limb and a double limb. -/
theorem C80_uint_div_scalar {n : BitVec w} {m : BitVec (w + w)} (hn : n ≠ 0) (hm : m ≠ 0) (oc : Bool) :
    AgreeIn oc (U.wrappingDivRemULimb x n) (U.overflowingDivRemULimb x n)
      (U.checkedDivRemULimb x n) (U.divRemULimb oc x n) ∧
    AgreeIn oc (U.wrappingDivULimb x n) (U.overflowingDivULimb x n)
      (U.checkedDivULimb x n) (U.divULimb oc x n) ∧
    AgreeIn oc (U.wrappingRemULimb x n) (U.overflowingRemULimb x n)
      (U.checkedRemULimb x n) (U.remULimb oc x n) ∧
    AgreeIn oc (U.wrappingDivRemUWide x m) (U.overflowingDivRemUWide x m)
      (U.checkedDivRemUWide x m) (U.divRemUWide oc x m) ∧
    AgreeIn oc (U.wrappingDivUWide x m) (U.overflowingDivUWide x m)
      (U.checkedDivUWide x m) (U.divUWide oc x m) ∧
    AgreeIn oc (U.wrappingRemUWide x m) (U.overflowingRemUWide x m)
      (U.checkedRemUWide x m) (U.remUWide oc x m) := by
  have h1 := AgreeIn.div (oc := oc) (r := U.wrappingDivRemULimb x n) (beq_zero_false hn)
  have h2 := AgreeIn.div (oc := oc) (r := U.wrappingDivRemUWide x m) (beq_zero_false hm)
  exact ⟨h1, h1.map Prod.fst, h1.map Prod.snd, h2, h2.map Prod.fst, h2.map Prod.snd⟩

example := C80_uint_div_scalar (x := ones) (n := 7) (m := 2 ^ 64 + 1) (by decide) (by decide +kernel) true
/-- A double limb on which the long division panics: all forms do. -/
example : let m : BitVec 128 := 2 ^ 127 + 2 ^ 64 - 1
    let x : Limbs 64 := [0, 0, 2 ^ 63, 0]
    U.wrappingDivRemUWide x m = .panic ∧ U.overflowingDivUWide x m = .panic ∧
      U.checkedRemUWide x m = .panic ∧ U.divUWide true x m = .panic ∧ U.remUWide false x m = .panic := by
  decide +kernel

/-- C80: unsigned division by a zero scalar. -/
theorem C80_uint_div_scalar_zero (oc : Bool) :
    AgreeZeroIn oc (U.wrappingDivRemULimb x 0) (U.overflowingDivRemULimb x 0)
      (U.checkedDivRemULimb x 0) (U.divRemULimb oc x 0) ∧
    AgreeZeroIn oc (U.wrappingDivULimb x 0) (U.overflowingDivULimb x 0)
      (U.checkedDivULimb x 0) (U.divULimb oc x 0) ∧
    AgreeZeroIn oc (U.wrappingRemULimb x 0) (U.overflowingRemULimb x 0)
      (U.checkedRemULimb x 0) (U.remULimb oc x 0) ∧
    AgreeZeroIn oc (U.wrappingDivRemUWide x 0) (U.overflowingDivRemUWide x 0)
      (U.checkedDivRemUWide x 0) (U.divRemUWide oc x 0) ∧
    AgreeZeroIn oc (U.wrappingDivUWide x 0) (U.overflowingDivUWide x 0)
      (U.checkedDivUWide x 0) (U.divUWide oc x 0) ∧
    AgreeZeroIn oc (U.wrappingRemUWide x 0) (U.overflowingRemUWide x 0)
      (U.checkedRemUWide x 0) (U.remUWide oc x 0) := by
  have h1 := AgreeZeroIn.mk (oc := oc) (r := U.wrappingDivRemULimb x 0)
    (ov := U.overflowingDivRemULimb x 0) (ch := U.checkedDivRemULimb x 0) rfl rfl
  have h2 := AgreeZeroIn.mk (oc := oc) (r := U.wrappingDivRemUWide x 0)
    (ov := U.overflowingDivRemUWide x 0) (ch := U.checkedDivRemUWide x 0) rfl rfl
  exact ⟨h1, h1.map Prod.fst, h1.map Prod.snd, h2, h2.map Prod.fst, h2.map Prod.snd⟩

example := C80_uint_div_scalar_zero (x := ones) true
example : U.overflowingDivUWide ([0, 0, 0, 0] : Limbs 64) 0 = .ok ([0, 0, 0, 0], false) ∧
    U.checkedDivUWide ([0, 0, 0, 0] : Limbs 64) 0 = .ok none ∧
    U.divUWide true ([0, 0, 0, 0] : Limbs 64) 0 = .panic := by decide +kernel

/-- C80: signed division by an unsigned limb and double limb. -/
theorem C80_int_div_uscalar {n : BitVec w} {m : BitVec (w + w)} (hn : n ≠ 0) (hm : m ≠ 0) (oc : Bool) :
    AgreeIn oc (I.wrappingDivRemULimb oc x n) (I.overflowingDivRemULimb oc x n)
      (I.checkedDivRemULimb oc x n) (I.divRemULimb oc x n) ∧
    AgreeIn oc (I.wrappingDivULimb oc x n) (I.overflowingDivULimb oc x n)
      (I.checkedDivULimb oc x n) (I.divULimb oc x n) ∧
    AgreeIn oc (I.wrappingRemULimb oc x n) (I.overflowingRemULimb oc x n)
      (I.checkedRemULimb oc x n) (I.remULimb oc x n) ∧
    AgreeIn oc (I.wrappingDivRemUWide oc x m) (I.overflowingDivRemUWide oc x m)
      (I.checkedDivRemUWide oc x m) (I.divRemUWide oc x m) ∧
    AgreeIn oc (I.wrappingDivUWide oc x m) (I.overflowingDivUWide oc x m)
      (I.checkedDivUWide oc x m) (I.divUWide oc x m) ∧
    AgreeIn oc (I.wrappingRemUWide oc x m) (I.overflowingRemUWide oc x m)
      (I.checkedRemUWide oc x m) (I.remUWide oc x m) := by
  have h1 := AgreeIn.div (oc := oc) (r := I.wrappingDivRemULimb oc x n) (beq_zero_false hn)
  have h2 := AgreeIn.div (oc := oc) (r := I.wrappingDivRemUWide oc x m) (beq_zero_false hm)
  exact ⟨h1, h1.map Prod.fst, h1.map Prod.snd, h2, h2.map Prod.fst, h2.map Prod.snd⟩

example := C80_int_div_uscalar (x := top) (n := 7) (m := 2 ^ 64 + 1) (by decide) (by decide +kernel) true
example : I.overflowingDivRemULimb true [-7, -1, -1, -1] (2 : BitVec 64) = .ok (([-4, -1, -1, -1], 1), false) ∧
    I.remULimb true [-7, -1, -1, -1] (2 : BitVec 64) = .ok 1 := by decide +kernel

/-- C80: signed division by a signed limb and double limb. The wrapping and the overflowing form treat
`MIN / -1` separately. -/
theorem C80_int_div_iscalar (hw : 1 < w) (h2 : 2 ≤ x.length) (he : x.length % 2 = 0) {n : BitVec w}
    {m : BitVec (w + w)} (hn : n ≠ 0) (hm : m ≠ 0) (oc : Bool) :
    AgreeIn oc (I.wrappingDivRemILimb x n) (I.overflowingDivRemILimb x n)
      (I.checkedDivRemILimb x n) (I.divRemILimb oc x n) ∧
    AgreeIn oc (I.wrappingDivILimb x n) (I.overflowingDivILimb x n)
      (I.checkedDivILimb x n) (I.divILimb oc x n) ∧
    AgreeIn oc (I.wrappingRemILimb x n) (I.overflowingRemILimb x n)
      (I.checkedRemILimb x n) (I.remILimb oc x n) ∧
    AgreeIn oc (I.wrappingDivRemIWide x m) (I.overflowingDivRemIWide x m)
      (I.checkedDivRemIWide x m) (I.divRemIWide oc x m) ∧
    AgreeIn oc (I.wrappingDivIWide x m) (I.overflowingDivIWide x m)
      (I.checkedDivIWide x m) (I.divIWide oc x m) ∧
    AgreeIn oc (I.wrappingRemIWide x m) (I.overflowingRemIWide x m)
      (I.checkedRemIWide x m) (I.remIWide oc x m) := by
  have h1 : AgreeIn oc _ _ _ (I.divRemILimb oc x n) := AgreeIn.mk (ilimb_fst hw h2 he hn) (ilimb_checked hn)
  have h2 : AgreeIn oc _ _ _ (I.divRemIWide oc x m) := AgreeIn.mk (iwide_fst hw h2 he hm) (iwide_checked hm)
  exact ⟨h1, h1.map Prod.fst, h1.map Prod.snd, h2, h2.map Prod.fst, h2.map Prod.snd⟩

example := C80_int_div_iscalar (x := top) (n := -1) (m := -1) (by decide) (by decide) (by decide) (by decide)
  (by decide) true
example : I.overflowingDivRemILimb top (-1) = .ok ((top, 0), true) ∧
    I.wrappingDivRemILimb top (-1) = .ok (top, 0) ∧ I.checkedRemILimb top (-1) = .ok none ∧
    I.remILimb true top (-1) = .panic ∧ I.remILimb false top (-1) = .ok 0 := by decide +kernel

/-- C80: signed division by a zero scalar. -/
theorem C80_int_div_scalar_zero (hw : 0 < w) (oc : Bool) :
    AgreeZeroIn oc (I.wrappingDivRemULimb oc x 0) (I.overflowingDivRemULimb oc x 0)
      (I.checkedDivRemULimb oc x 0) (I.divRemULimb oc x 0) ∧
    AgreeZeroIn oc (I.wrappingDivULimb oc x 0) (I.overflowingDivULimb oc x 0)
      (I.checkedDivULimb oc x 0) (I.divULimb oc x 0) ∧
    AgreeZeroIn oc (I.wrappingRemULimb oc x 0) (I.overflowingRemULimb oc x 0)
      (I.checkedRemULimb oc x 0) (I.remULimb oc x 0) ∧
    AgreeZeroIn oc (I.wrappingDivRemUWide oc x 0) (I.overflowingDivRemUWide oc x 0)
      (I.checkedDivRemUWide oc x 0) (I.divRemUWide oc x 0) ∧
    AgreeZeroIn oc (I.wrappingDivUWide oc x 0) (I.overflowingDivUWide oc x 0)
      (I.checkedDivUWide oc x 0) (I.divUWide oc x 0) ∧
    AgreeZeroIn oc (I.wrappingRemUWide oc x 0) (I.overflowingRemUWide oc x 0)
      (I.checkedRemUWide oc x 0) (I.remUWide oc x 0) ∧
    AgreeZeroIn oc (I.wrappingDivRemILimb x 0) (I.overflowingDivRemILimb x 0)
      (I.checkedDivRemILimb x 0) (I.divRemILimb oc x 0) ∧
    AgreeZeroIn oc (I.wrappingDivILimb x 0) (I.overflowingDivILimb x 0)
      (I.checkedDivILimb x 0) (I.divILimb oc x 0) ∧
    AgreeZeroIn oc (I.wrappingRemILimb x 0) (I.overflowingRemILimb x 0)
      (I.checkedRemILimb x 0) (I.remILimb oc x 0) ∧
    AgreeZeroIn oc (I.wrappingDivRemIWide x 0) (I.overflowingDivRemIWide x 0)
      (I.checkedDivRemIWide x 0) (I.divRemIWide oc x 0) ∧
    AgreeZeroIn oc (I.wrappingDivIWide x 0) (I.overflowingDivIWide x 0)
      (I.checkedDivIWide x 0) (I.divIWide oc x 0) ∧
    AgreeZeroIn oc (I.wrappingRemIWide x 0) (I.overflowingRemIWide x 0)
      (I.checkedRemIWide x 0) (I.remIWide oc x 0) := by
  have h1 := AgreeZeroIn.mk (oc := oc) (r := I.wrappingDivRemULimb oc x 0)
    (ov := I.overflowingDivRemULimb oc x 0) (ch := I.checkedDivRemULimb oc x 0) rfl rfl
  have h2 := AgreeZeroIn.mk (oc := oc) (r := I.wrappingDivRemUWide oc x 0)
    (ov := I.overflowingDivRemUWide oc x 0) (ch := I.checkedDivRemUWide oc x 0) rfl rfl
  have h3 := AgreeZeroIn.mk (oc := oc) (r := I.wrappingDivRemILimb x 0)
    (ov := I.overflowingDivRemILimb x 0) (ch := I.checkedDivRemILimb x 0)
    (overSigned_zero hw _) rfl
  have h4 := AgreeZeroIn.mk (oc := oc) (r := I.wrappingDivRemIWide x 0)
    (ov := I.overflowingDivRemIWide x 0) (ch := I.checkedDivRemIWide x 0)
    (overSigned_zero (by omega) _) rfl
  exact ⟨h1, h1.map Prod.fst, h1.map Prod.snd, h2, h2.map Prod.fst, h2.map Prod.snd, h3, h3.map Prod.fst, h3.map Prod.snd,
    h4, h4.map Prod.fst, h4.map Prod.snd⟩

example := C80_int_div_scalar_zero (x := top) (by decide) true
example : I.overflowingDivRemILimb top 0 = .panic ∧ I.checkedDivRemILimb top 0 = .ok none := by
  decide +kernel

section
variable (hw : w = 32 ∨ w = 64) (hx : 256 ≤ w * x.length)
include hw hx

/-- C80: addition, subtraction and multiplication with scalars of fixed width, unsigned numbers. -/
theorem C80_uint_fixed (k : Fix) (n : BitVec k.n) (oc : Bool) :
    AgreeIn oc (U.wrappingAddFix k x n) (U.overflowingAddFix k x n)
      (U.checkedAddFix k x n) (U.addFix oc k x n) ∧
    AgreeIn oc (U.wrappingSubFix k x n) (U.overflowingSubFix k x n)
      (U.checkedSubFix k x n) (U.subFix oc k x n) ∧
    AgreeIn oc (U.wrappingMulFix k x n) (U.overflowingMulFix k x n)
      (U.checkedMulFix k x n) (U.mulFix oc k x n) := by
  obtain ⟨f1, f2⟩ := C53_uint_add_sub_fixed hw hx k n oc
  have f3 := C54_uint_mul_fixed hw hx k n oc
  exact ⟨AgreeIn.mk f1.fst rfl, AgreeIn.mk f2.fst rfl, AgreeIn.mk f3.fst rfl⟩

/-- C80: addition, subtraction and multiplication with scalars of fixed width, signed numbers. This
includes the operations that panic on all operands (C41) and the products with a wrong flag (C54). -/
theorem C80_int_fixed (k : Fix) (n : BitVec k.n) (oc : Bool) :
    AgreeIn oc (I.wrappingAddFixU k x n) (I.overflowingAddFixU k x n)
      (I.checkedAddFixU k x n) (I.addFixU oc k x n) ∧
    AgreeIn oc (I.wrappingSubFixU k x n) (I.overflowingSubFixU k x n)
      (I.checkedSubFixU k x n) (I.subFixU oc k x n) ∧
    AgreeIn oc (I.wrappingMulFixU k x n) (I.overflowingMulFixU k x n)
      (I.checkedMulFixU k x n) (I.mulFixU oc k x n) ∧
    AgreeIn oc (I.wrappingAddFixI k x n) (I.overflowingAddFixI k x n)
      (I.checkedAddFixI k x n) (I.addFixI oc k x n) ∧
    AgreeIn oc (I.wrappingSubFixI k x n) (I.overflowingSubFixI k x n)
      (I.checkedSubFixI k x n) (I.subFixI oc k x n) ∧
    AgreeIn oc (I.wrappingMulFixI k x n) (I.overflowingMulFixI k x n)
      (I.checkedMulFixI k x n) (I.mulFixI oc k x n) := by
  by_cases hk : w = 32 ∧ k = .b128
  · obtain ⟨rfl, rfl⟩ := hk
    have hp := C41_int_add_sub_panics hx n oc
    obtain ⟨g1, g2⟩ := C41_int_mul_all_partial hx n oc
    obtain ⟨a1, a2, a3, a4, b1, b2, b3, b4, c1, c2, c3, c4, d1, d2, d3, d4⟩ := hp
    refine ⟨?_, ?_, AgreeIn.mk g1.fst rfl, ?_, ?_, AgreeIn.mk g2.fst rfl⟩
    · rw [a2]; exact ⟨a1, a3, a4⟩
    · rw [b2]; exact ⟨b1, b3, b4⟩
    · rw [c2]; exact ⟨c1, c3, c4⟩
    · rw [d2]; exact ⟨d1, d3, d4⟩
  · obtain ⟨f1, f2⟩ := C53_int_add_sub_fixed_unsigned hw hx k hk n oc
    obtain ⟨f3, f4⟩ := C53_int_add_sub_fixed_signed hw hx k hk n oc
    obtain ⟨g1, g2⟩ := C54_int_mul_fixed_all_partial hw hx k hk n oc
    refine ⟨AgreeIn.mk f1.fst rfl, AgreeIn.mk f2.fst rfl, AgreeIn.mk g1.fst rfl, AgreeIn.mk f3.fst ?_,
      AgreeIn.mk f4.fst ?_, AgreeIn.mk g2.fst ?_⟩ <;> cases k <;> rfl

/-- C80: division by scalars of fixed width. -/
theorem C80_fixed_div (he : x.length % 2 = 0) (k : Fix) {n : BitVec k.n} (hn : n ≠ 0) (oc : Bool) :
    AgreeIn oc (U.wrappingDivRemFix k x n) (U.overflowingDivRemFix k x n)
      (U.checkedDivRemFix k x n) (U.divRemFix oc k x n) ∧
    AgreeIn oc (U.wrappingDivFix k x n) (U.overflowingDivFix k x n)
      (U.checkedDivFix k x n) (U.divFix oc k x n) ∧
    AgreeIn oc (U.wrappingRemFix k x n) (U.overflowingRemFix k x n)
      (U.checkedRemFix k x n) (U.remFix oc k x n) ∧
    AgreeIn oc (I.wrappingDivRemFixU oc k x n) (I.overflowingDivRemFixU oc k x n)
      (I.checkedDivRemFixU oc k x n) (I.divRemFixU oc k x n) ∧
    AgreeIn oc (I.wrappingDivFixU oc k x n) (I.overflowingDivFixU oc k x n)
      (I.checkedDivFixU oc k x n) (I.divFixU oc k x n) ∧
    AgreeIn oc (I.wrappingRemFixU oc k x n) (I.overflowingRemFixU oc k x n)
      (I.checkedRemFixU oc k x n) (I.remFixU oc k x n) ∧
    AgreeIn oc (I.wrappingDivRemFixI k x n) (I.overflowingDivRemFixI k x n)
      (I.checkedDivRemFixI k x n) (I.divRemFixI oc k x n) ∧
    AgreeIn oc (I.wrappingDivFixI k x n) (I.overflowingDivFixI k x n)
      (I.checkedDivFixI k x n) (I.divFixI oc k x n) ∧
    AgreeIn oc (I.wrappingRemFixI k x n) (I.overflowingRemFixI k x n)
      (I.checkedRemFixI k x n) (I.remFixI oc k x n) := by
  have h1 := AgreeIn.div (oc := oc) (r := U.wrappingDivRemFix k x n) (beq_zero_false hn)
  have h2 := AgreeIn.div (oc := oc) (r := I.wrappingDivRemFixU oc k x n) (beq_zero_false hn)
  have h3 : AgreeIn oc _ _ _ (I.divRemFixI oc k x n) :=
    AgreeIn.mk (fixI_fst hw hx he k hn) (fixI_checked hw k hn)
  refine ⟨h1, h1.map Prod.fst, h1.map Prod.snd, h2, h2.map Prod.fst, h2.map Prod.snd, h3, ?_, ?_⟩
  · rw [overDivFixI]
    exact h3.map Prod.fst
  · rw [overRemFixI]
    exact h3.map Prod.snd

/-- C80: division by a zero scalar of fixed width. -/
theorem C80_fixed_div_zero (k : Fix) (oc : Bool) :
    AgreeZeroIn oc (U.wrappingDivRemFix k x 0) (U.overflowingDivRemFix k x 0)
      (U.checkedDivRemFix k x 0) (U.divRemFix oc k x 0) ∧
    AgreeZeroIn oc (U.wrappingDivFix k x 0) (U.overflowingDivFix k x 0)
      (U.checkedDivFix k x 0) (U.divFix oc k x 0) ∧
    AgreeZeroIn oc (U.wrappingRemFix k x 0) (U.overflowingRemFix k x 0)
      (U.checkedRemFix k x 0) (U.remFix oc k x 0) ∧
    AgreeZeroIn oc (I.wrappingDivRemFixU oc k x 0) (I.overflowingDivRemFixU oc k x 0)
      (I.checkedDivRemFixU oc k x 0) (I.divRemFixU oc k x 0) ∧
    AgreeZeroIn oc (I.wrappingDivFixU oc k x 0) (I.overflowingDivFixU oc k x 0)
      (I.checkedDivFixU oc k x 0) (I.divFixU oc k x 0) ∧
    AgreeZeroIn oc (I.wrappingRemFixU oc k x 0) (I.overflowingRemFixU oc k x 0)
      (I.checkedRemFixU oc k x 0) (I.remFixU oc k x 0) ∧
    AgreeZeroIn oc (I.wrappingDivRemFixI k x 0) (I.overflowingDivRemFixI k x 0)
      (I.checkedDivRemFixI k x 0) (I.divRemFixI oc k x 0) ∧
    AgreeZeroIn oc (I.wrappingDivFixI k x 0) (I.overflowingDivFixI k x 0)
      (I.checkedDivFixI k x 0) (I.divFixI oc k x 0) ∧
    AgreeZeroIn oc (I.wrappingRemFixI k x 0) (I.overflowingRemFixI k x 0)
      (I.checkedRemFixI k x 0) (I.remFixI oc k x 0) := by
  have h1 := AgreeZeroIn.mk (oc := oc) (r := U.wrappingDivRemFix k x 0)
    (ov := U.overflowingDivRemFix k x 0) (ch := U.checkedDivRemFix k x 0) rfl (checkedBy_zero _)
  have h2 := AgreeZeroIn.mk (oc := oc) (r := I.wrappingDivRemFixU oc k x 0)
    (ov := I.overflowingDivRemFixU oc k x 0) (ch := I.checkedDivRemFixU oc k x 0) rfl (checkedBy_zero _)
  have h3 := AgreeZeroIn.mk (oc := oc) (r := I.wrappingDivRemFixI k x 0)
    (ov := I.overflowingDivRemFixI k x 0) (ch := I.checkedDivRemFixI k x 0)
    (overflowingDivRemFixI_zero hw k) (fixI_checked_zero k)
  refine ⟨h1, h1.map Prod.fst, h1.map Prod.snd, h2, h2.map Prod.fst, h2.map Prod.snd, h3, ?_, ?_⟩
  · rw [overDivFixI]
    exact h3.map Prod.fst
  · rw [overRemFixI]
    exact h3.map Prod.snd

end

example := C80_uint_fixed (x := ones) (by decide) (by decide) .b64 5 true
example := C80_int_fixed (x := b32) (by decide) (by decide) .b128 5 true
example := C80_fixed_div (x := b32) (by decide) (by decide) (by decide) .b128 (n := 5) (by decide) true
example := C80_fixed_div_zero (x := b32) (by decide) (by decide) .b128 true
example : I.overflowingAddFixI .b128 b32 5 = .panic ∧ I.checkedAddFixI .b128 b32 5 = .panic ∧
    I.overflowingAddFixI .b64 maxS 5 = I.overflowingAddFixI .b128 maxS 5 ∧
    I.checkedAddFixI .b64 maxS 5 = .ok none ∧ I.addFixI true .b64 maxS 5 = .panic ∧
    I.overflowingDivRemFixI .b32 top (-1) = .ok ((top, 0), true) ∧
    I.wrappingRemFixI .b32 top (-1) = .ok 0 := by decide +kernel

end I256
