import Verif.Lemmas.NegAbs
import Verif.Props.Samples

/-!
# C05: addition and subtraction of native scalars

Adding or subtracting a scalar equals adding or subtracting its mathematical value: the unsigned
scalars `ULimb`, `UWide` denote `n.toNat`, the signed scalars `ILimb`, `IWide` denote `n.toInt`.
`3 ≤ x.length` is the crate's own assertion `M > N` for the two-limb scalar (it holds for all types:
4 limbs or more).  The last section states the same as equality with the full-width operation on the
extended scalar.
-/

namespace I256

open Sample

variable {w : Nat} {x : Limbs w}

/-- C05: unsigned addition of a limb: wrapping, overflowing, checked and operator forms. -/
theorem C05_uint_add_ulimb (hw : 0 < w) (hx : x ≠ []) (n : BitVec w) (oc : Bool) :
    WrapU x.length (toNat x + n.toNat) (U.wrappingAddULimb x n) ∧
      OverU x.length (toNat x + n.toNat) (U.overflowingAddULimb x n) ∧
      CheckU x.length (toNat x + n.toNat) (U.checkedAddULimb x n) ∧
      OpU oc x.length (toNat x + n.toNat) (U.addULimb oc x n) :=
  ⟨Add.limbWrapU hw hx n, Add.limbOverU hw hx n, (Add.limbOverU hw hx n).check,
    (Add.limbOverU hw hx n).check.op (Add.limbWrapU hw hx n) oc⟩

example := C05_uint_add_ulimb (x := a) (by decide) (by decide) 7 true
example : U.overflowingAddULimb ones 7 = ([6, 0, 0, 0], true) := by decide

/-- C05: unsigned addition of a double limb; the call does not panic. -/
theorem C05_uint_add_uwide (hw : 0 < w) (hx : 3 ≤ x.length) (n : BitVec (w + w)) (oc : Bool) :
    (∃ v, U.wrappingAddUWide x n = .ok v ∧ WrapU x.length (toNat x + n.toNat) v) ∧
      (∃ r, U.overflowingAddUWide x n = .ok r ∧ OverU x.length (toNat x + n.toNat) r) ∧
      (∃ o, U.checkedAddUWide x n = .ok o ∧ CheckU x.length (toNat x + n.toNat) o) ∧
      OpU oc x.length (toNat x + n.toNat) (U.addUWide oc x n) := by
  have h1 := Add.wideWrapU hw hx n
  obtain ⟨r, h2, h3⟩ := Add.wideOverU hw hx n
  refine ⟨h1, ⟨r, h2, h3⟩, ⟨mkChecked r, ?_, h3.check⟩, ?_⟩
  · rw [U.checkedAddUWide, U.overflowingAddUWide, h2, Res.map_ok]
  · cases oc
    · exact h1
    · have : U.addUWide true x n = unwrapOrPanic (mkChecked r) := by
        rw [U.addUWide, U.checkedAddUWide, U.overflowingAddUWide, h2]
        rfl
      rw [this]
      exact h3.check.strict

example := C05_uint_add_uwide (x := a) (by decide) (by decide) 7 true
example : U.overflowingAddUWide ones 0x10000000000000000 = .ok ([0xffffffffffffffff, 0, 0, 0], true) := by decide

/-- C05: signed addition of an unsigned limb. -/
theorem C05_int_add_ulimb (hw : 1 < w) (hx : 2 ≤ x.length) (n : BitVec w) (oc : Bool) :
    WrapS x.length (toInt x + n.toNat) (I.wrappingAddULimb x n) ∧
      OverS x.length (toInt x + n.toNat) (I.overflowingAddULimb x n) ∧
      CheckS x.length (toInt x + n.toNat) (I.checkedAddULimb x n) ∧
      OpS oc x.length (toInt x + n.toNat) (I.addULimb oc x n) :=
  have h1 := Add.limbWrapS (by omega) (length_ne (n := 0) (by omega)) n
  have h2 := Add.uLimbOverS hw hx n
  ⟨h1, h2, h2.check, h2.check.op h1 oc⟩

example := C05_int_add_ulimb (x := a) (by decide) (by decide) 7 true
example : I.overflowingAddULimb maxS 1 = (top, true) := by decide

/-- C05: signed addition of a signed limb. -/
theorem C05_int_add_ilimb (hw : 1 < w) (hx : 1 ≤ x.length) (n : BitVec w) (oc : Bool) :
    WrapS x.length (toInt x + n.toInt) (I.wrappingAddILimb x n) ∧
      OverS x.length (toInt x + n.toInt) (I.overflowingAddILimb x n) ∧
      CheckS x.length (toInt x + n.toInt) (I.checkedAddILimb x n) ∧
      OpS oc x.length (toInt x + n.toInt) (I.addILimb oc x n) :=
  have h1 := Add.iLimbWrapS hw hx n
  have h2 := Add.iLimbOverS hw hx n
  ⟨h1, h2, h2.check, h2.check.op h1 oc⟩

example := C05_int_add_ilimb (x := a) (by decide) (by decide) (-7) true
example : I.overflowingAddILimb one (-2) = (ones, false) := by decide

/-- C05: signed addition of an unsigned double limb. -/
theorem C05_int_add_uwide (hw : 1 < w) (hx : 3 ≤ x.length) (n : BitVec (w + w)) (oc : Bool) :
    WrapS x.length (toInt x + n.toNat) (I.wrappingAddUWide x n) ∧
      OverS x.length (toInt x + n.toNat) (I.overflowingAddUWide x n) ∧
      CheckS x.length (toInt x + n.toNat) (I.checkedAddUWide x n) ∧
      OpS oc x.length (toInt x + n.toNat) (I.addUWide oc x n) :=
  have h1 := Add.uWideWrapS hw hx n
  have h2 := Add.uWideOverS hw hx n
  ⟨h1, h2, h2.check, h2.check.op h1 oc⟩

example := C05_int_add_uwide (x := a) (by decide) (by decide) 7 true
example : I.overflowingAddUWide maxS 1 = (top, true) := by decide

/-- C05: signed addition of a signed double limb. -/
theorem C05_int_add_iwide (hw : 1 < w) (hx : 2 ≤ x.length) (n : BitVec (w + w)) (oc : Bool) :
    WrapS x.length (toInt x + n.toInt) (I.wrappingAddIWide x n) ∧
      OverS x.length (toInt x + n.toInt) (I.overflowingAddIWide x n) ∧
      CheckS x.length (toInt x + n.toInt) (I.checkedAddIWide x n) ∧
      OpS oc x.length (toInt x + n.toInt) (I.addIWide oc x n) :=
  have h1 := Add.iWideWrapS hw hx n
  have h2 := Add.iWideOverS hw hx n
  ⟨h1, h2, h2.check, h2.check.op h1 oc⟩

example := C05_int_add_iwide (x := a) (by decide) (by decide) (-7) true
example : I.overflowingAddIWide one (-2) = (ones, false) := by decide

/-- C05: unsigned subtraction of a limb: wrapping, overflowing, checked and operator forms. -/
theorem C05_uint_sub_ulimb (hw : 0 < w) (hx : x ≠ []) (n : BitVec w) (oc : Bool) :
    WrapU x.length (toNat x - n.toNat) (U.wrappingSubULimb x n) ∧
      OverU x.length (toNat x - n.toNat) (U.overflowingSubULimb x n) ∧
      CheckU x.length (toNat x - n.toNat) (U.checkedSubULimb x n) ∧
      OpU oc x.length (toNat x - n.toNat) (U.subULimb oc x n) :=
  ⟨Sub.limbWrapU hw hx n, Sub.limbOverU hw hx n, (Sub.limbOverU hw hx n).check,
    (Sub.limbOverU hw hx n).check.op (Sub.limbWrapU hw hx n) oc⟩

example := C05_uint_sub_ulimb (x := a) (by decide) (by decide) 7 true
example : U.overflowingSubULimb one 3 = (m2, true) := by decide

/-- C05: unsigned subtraction of a double limb; the call does not panic. -/
theorem C05_uint_sub_uwide (hw : 0 < w) (hx : 3 ≤ x.length) (n : BitVec (w + w)) (oc : Bool) :
    (∃ v, U.wrappingSubUWide x n = .ok v ∧ WrapU x.length (toNat x - n.toNat) v) ∧
      (∃ r, U.overflowingSubUWide x n = .ok r ∧ OverU x.length (toNat x - n.toNat) r) ∧
      (∃ o, U.checkedSubUWide x n = .ok o ∧ CheckU x.length (toNat x - n.toNat) o) ∧
      OpU oc x.length (toNat x - n.toNat) (U.subUWide oc x n) := by
  have h1 := Sub.wideWrapU hw hx n
  obtain ⟨r, h2, h3⟩ := Sub.wideOverU hw hx n
  refine ⟨h1, ⟨r, h2, h3⟩, ⟨mkChecked r, ?_, h3.check⟩, ?_⟩
  · rw [U.checkedSubUWide, U.overflowingSubUWide, h2, Res.map_ok]
  · cases oc
    · exact h1
    · have : U.subUWide true x n = unwrapOrPanic (mkChecked r) := by
        rw [U.subUWide, U.checkedSubUWide, U.overflowingSubUWide, h2]
        rfl
      rw [this]
      exact h3.check.strict

example := C05_uint_sub_uwide (x := a) (by decide) (by decide) 7 true
example : U.overflowingSubUWide one 3 = .ok (m2, true) := by decide

/-- C05: signed subtraction of an unsigned limb. -/
theorem C05_int_sub_ulimb (hw : 1 < w) (hx : 2 ≤ x.length) (n : BitVec w) (oc : Bool) :
    WrapS x.length (toInt x - n.toNat) (I.wrappingSubULimb x n) ∧
      OverS x.length (toInt x - n.toNat) (I.overflowingSubULimb x n) ∧
      CheckS x.length (toInt x - n.toNat) (I.checkedSubULimb x n) ∧
      OpS oc x.length (toInt x - n.toNat) (I.subULimb oc x n) :=
  have h1 := Sub.limbWrapS (by omega) (length_ne (n := 0) (by omega)) n
  have h2 := Sub.uLimbOverS hw hx n
  ⟨h1, h2, h2.check, h2.check.op h1 oc⟩

example := C05_int_sub_ulimb (x := a) (by decide) (by decide) 7 true
example : I.overflowingSubULimb top 1 = (maxS, true) := by decide

/-- C05: signed subtraction of a signed limb. -/
theorem C05_int_sub_ilimb (hw : 1 < w) (hx : 1 ≤ x.length) (n : BitVec w) (oc : Bool) :
    WrapS x.length (toInt x - n.toInt) (I.wrappingSubILimb x n) ∧
      OverS x.length (toInt x - n.toInt) (I.overflowingSubILimb x n) ∧
      CheckS x.length (toInt x - n.toInt) (I.checkedSubILimb x n) ∧
      OpS oc x.length (toInt x - n.toInt) (I.subILimb oc x n) :=
  have h1 := Sub.iLimbWrapS hw hx n
  have h2 := Sub.iLimbOverS hw hx n
  ⟨h1, h2, h2.check, h2.check.op h1 oc⟩

example := C05_int_sub_ilimb (x := a) (by decide) (by decide) (-7) true
example : I.overflowingSubILimb maxS (-1) = (top, true) := by decide

/-- C05: signed subtraction of an unsigned double limb. -/
theorem C05_int_sub_uwide (hw : 1 < w) (hx : 3 ≤ x.length) (n : BitVec (w + w)) (oc : Bool) :
    WrapS x.length (toInt x - n.toNat) (I.wrappingSubUWide x n) ∧
      OverS x.length (toInt x - n.toNat) (I.overflowingSubUWide x n) ∧
      CheckS x.length (toInt x - n.toNat) (I.checkedSubUWide x n) ∧
      OpS oc x.length (toInt x - n.toNat) (I.subUWide oc x n) :=
  have h1 := Sub.uWideWrapS hw hx n
  have h2 := Sub.uWideOverS hw hx n
  ⟨h1, h2, h2.check, h2.check.op h1 oc⟩

example := C05_int_sub_uwide (x := a) (by decide) (by decide) 7 true
example : I.overflowingSubUWide top 1 = (maxS, true) := by decide

/-- C05: signed subtraction of a signed double limb. -/
theorem C05_int_sub_iwide (hw : 1 < w) (hx : 2 ≤ x.length) (n : BitVec (w + w)) (oc : Bool) :
    WrapS x.length (toInt x - n.toInt) (I.wrappingSubIWide x n) ∧
      OverS x.length (toInt x - n.toInt) (I.overflowingSubIWide x n) ∧
      CheckS x.length (toInt x - n.toInt) (I.checkedSubIWide x n) ∧
      OpS oc x.length (toInt x - n.toInt) (I.subIWide oc x n) :=
  have h1 := Sub.iWideWrapS hw hx n
  have h2 := Sub.iWideOverS hw hx n
  ⟨h1, h2, h2.check, h2.check.op h1 oc⟩

example := C05_int_sub_iwide (x := a) (by decide) (by decide) (-7) true
example : I.overflowingSubIWide maxS (-1) = (top, true) := by decide

/-! The same as equality with the full-width operation on the widened scalar: any limb array `y` of
the type that denotes the scalar's value gives the same result. -/

/-- C05: unsigned add of a limb equals full-width add of the zero-extended limb. -/
theorem C05_uint_add_ulimb_eq_full (hw : 0 < w) (hx : x ≠ []) (n : BitVec w) {y : Limbs w}
    (hy : x.length = y.length) (hn : toNat y = n.toNat) :
    U.overflowingAddULimb x n = U.overflowingAdd x y := by
  have h1 := Add.limbOverU hw hx n
  have h2 := Add.overU hw hy
  rw [hn] at h2
  refine Prod.ext (toNat_inj (h1.1.1.trans h2.1.1.symm) ?_) ?_
  · exact_mod_cast h1.1.2.trans h2.1.2.symm
  · exact Bool.eq_iff_iff.2 (h1.2.trans h2.2.symm)

example := C05_uint_add_ulimb_eq_full (x := a) (by decide) (by decide) 7 (y := [7, 0, 0, 0])
  (by decide) (by decide)

/-- C05: signed add of a signed limb equals full-width add of the sign-extended limb. -/
theorem C05_int_add_ilimb_eq_full (hw : 1 < w) (hx : 1 ≤ x.length) (n : BitVec w) {y : Limbs w}
    (hy : x.length = y.length) (hn : toInt y = n.toInt) :
    I.overflowingAddILimb x n = I.overflowingAdd x y := by
  have h1 := Add.iLimbOverS hw hx n
  have h2 := Add.overS hw (length_ne (n := 0) hx) hy
  rw [hn] at h2
  refine Prod.ext (toInt_inj (h1.1.1.trans h2.1.1.symm) ?_) ?_
  · exact h1.1.2.trans h2.1.2.symm
  · exact Bool.eq_iff_iff.2 (h1.2.trans h2.2.symm)

example := C05_int_add_ilimb_eq_full (x := a) (by decide) (by decide) (-2) (y := m2)
  (by decide) (by decide)

/-- C05: unsigned sub of a limb equals full-width sub of the zero-extended limb. -/
theorem C05_uint_sub_ulimb_eq_full (hw : 0 < w) (hx : x ≠ []) (n : BitVec w) {y : Limbs w}
    (hy : x.length = y.length) (hn : toNat y = n.toNat) :
    U.overflowingSubULimb x n = U.overflowingSub x y := by
  have h1 := Sub.limbOverU hw hx n
  have h2 := Sub.overU hw hy
  rw [hn] at h2
  refine Prod.ext (toNat_inj (h1.1.1.trans h2.1.1.symm) ?_) ?_
  · exact_mod_cast h1.1.2.trans h2.1.2.symm
  · exact Bool.eq_iff_iff.2 (h1.2.trans h2.2.symm)

example := C05_uint_sub_ulimb_eq_full (x := a) (by decide) (by decide) 7 (y := [7, 0, 0, 0])
  (by decide) (by decide)

/-- C05: signed sub of a signed limb equals full-width sub of the sign-extended limb. -/
theorem C05_int_sub_ilimb_eq_full (hw : 1 < w) (hx : 1 ≤ x.length) (n : BitVec w) {y : Limbs w}
    (hy : x.length = y.length) (hn : toInt y = n.toInt) :
    I.overflowingSubILimb x n = I.overflowingSub x y := by
  have h1 := Sub.iLimbOverS hw hx n
  have h2 := Sub.overS hw (length_ne (n := 0) hx) hy
  rw [hn] at h2
  refine Prod.ext (toInt_inj (h1.1.1.trans h2.1.1.symm) ?_) ?_
  · exact h1.1.2.trans h2.1.2.symm
  · exact Bool.eq_iff_iff.2 (h1.2.trans h2.2.symm)

example := C05_int_sub_ilimb_eq_full (x := a) (by decide) (by decide) (-2) (y := m2)
  (by decide) (by decide)

end I256
