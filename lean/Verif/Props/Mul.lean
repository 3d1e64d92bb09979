import Verif.Lemmas.MulApi
import Verif.Props.Samples

/-!
# Multiplication (C06, C07, C08, C09, C42 for `*`, C44, C48)

The exact product is formed in the integers.  The hypotheses `x.length % 2 = 0` and `4 ≤ x.length`
(for `checked_mul`, which compares with zero first) hold for all types of the crate.

C08 is violated: see `C08_int_overflowing_mul_false`.  `Mul.Gap w N z` are the products just below
`MIN`, by less than one unit of the top limb: `-2^(BITS-1) - 2^(BITS-w) < z < -2^(BITS-1)`.
-/

namespace I256

open Sample

variable {w : Nat} {x y : Limbs w}

/-! ### C06: wrapping multiplication -/

/-- C06: unsigned `wrapping_mul`. -/
theorem C06_uint_wrapping_mul (hx : x ≠ []) (hl : x.length = y.length) :
    WrapU x.length ((toNat x : Int) * toNat y) (U.wrappingMul x y) :=
  Mul.wrapU x y (by have := List.length_pos_iff.2 hx; omega)

example := C06_uint_wrapping_mul (x := ones) (y := a) (by decide) (by decide)
example : U.wrappingMul ones ones = one := by decide +kernel

/-- C06: signed `wrapping_mul`. -/
theorem C06_int_wrapping_mul (hx : x ≠ []) (hl : x.length = y.length) :
    WrapS x.length (toInt x * toInt y) (I.wrappingMul x y) :=
  Mul.wrapS x y (by have := List.length_pos_iff.2 hx; omega) hl

example := C06_int_wrapping_mul (x := m2) (y := a) (by decide) (by decide)
example : I.wrappingMul m2 ones = [2, 0, 0, 0] := by decide +kernel

/-- C06: unsigned multiplication by a limb and by a double limb. -/
theorem C06_uint_wrapping_mul_scalar (n : BitVec w) (m : BitVec (w + w)) :
    WrapU x.length ((toNat x : Int) * n.toNat) (U.wrappingMulULimb x n) ∧
      WrapU x.length ((toNat x : Int) * m.toNat) (U.wrappingMulUWide x m) := by
  have h1 := Mul.wrapU x [n] (by simp)
  have h2 := Mul.wrapU x (twoLimbs m) (by simp [twoLimbs])
  rw [show toNat [n] = n.toNat by simp] at h1
  rw [twoLimbs_toNat] at h2
  exact ⟨h1, h2⟩

example := C06_uint_wrapping_mul_scalar (x := a) 7 0x10000000000000003
example : U.wrappingMulULimb ones 2 = m2 ∧
    U.wrappingMulUWide one 0x10000000000000003 = [3, 1, 0, 0] := by decide +kernel

/-- C06: signed multiplication by an unsigned limb and double limb (zero extension). -/
theorem C06_int_wrapping_mul_uscalar (n : BitVec w) (m : BitVec (w + w)) :
    WrapS x.length (toInt x * n.toNat) (I.wrappingMulULimb x n) ∧
      WrapS x.length (toInt x * m.toNat) (I.wrappingMulUWide x m) := by
  have h1 := Mul.wrapSU x [n] (by simp)
  have h2 := Mul.wrapSU x (twoLimbs m) (by simp [twoLimbs])
  rw [show toNat [n] = n.toNat by simp] at h1
  rw [twoLimbs_toNat] at h2
  exact ⟨h1, h2⟩

example := C06_int_wrapping_mul_uscalar (x := a) 7 0x10000000000000003
example : I.wrappingMulULimb ones 2 = m2 ∧ I.wrappingMulUWide ones 2 = m2 := by decide +kernel

/-- C06: signed multiplication by a signed limb and double limb (sign extension). -/
theorem C06_int_wrapping_mul_iscalar (hx : 2 ≤ x.length) (n : BitVec w) (m : BitVec (w + w)) :
    WrapS x.length (toInt x * n.toInt) (I.wrappingMulILimb x n) ∧
      WrapS x.length (toInt x * m.toInt) (I.wrappingMulIWide x m) := by
  have l1 := extI_length (by omega : 1 ≤ x.length) n
  have l2 := extIW_length (by omega : 2 ≤ x.length) m
  have h1 := Mul.wrapS x (extI x.length n) (by omega) l1.symm
  have h2 := Mul.wrapS x (extIW x.length m) (by omega) l2.symm
  rw [extI_toInt (by omega)] at h1
  rw [extIW_toInt hx] at h2
  exact ⟨h1, h2⟩

example := C06_int_wrapping_mul_iscalar (x := a) (by decide) (-7) (-7)
example : I.wrappingMulILimb ones (-2) = [2, 0, 0, 0] ∧ I.wrappingMulIWide one (-2) = m2 := by
  decide +kernel

/-! ### C07: unsigned overflow detection -/

/-- C07: unsigned `overflowing_mul`: the flag is set iff the product is at least `2^BITS`. -/
theorem C07_uint_overflowing_mul (hx : x ≠ []) (hl : x.length = y.length) :
    OverU x.length ((toNat x : Int) * toNat y) (U.overflowingMul x y) :=
  Mul.overU x y (by have := List.length_pos_iff.2 hx; omega)

example := C07_uint_overflowing_mul (x := ones) (y := a) (by decide) (by decide)
example : U.overflowingMul ones ones = (one, true) ∧ U.overflowingMul a one = (a, false) := by
  decide +kernel

/-- C07: unsigned `checked_mul`, including its logarithm shortcut. -/
theorem C07_uint_checked_mul (hw : 0 < w) (hl : x.length = y.length)
    (h2 : x.length % 2 = 0) (h4 : 4 ≤ x.length) :
    CheckU x.length ((toNat x : Int) * toNat y) (U.checkedMul x y) := checkedMulU hw hl h2 h4

example := C07_uint_checked_mul (x := ones) (y := a) (by decide) (by decide) (by decide) (by decide)
example : U.checkedMul ones [2, 0, 0, 0] = none ∧ U.checkedMul ones zero = some zero ∧
    U.checkedMul top [2, 0, 0, 0] = none ∧ U.checkedMul a one = some a := by decide +kernel

/-- C07: unsigned `saturating_mul` and `strict_mul`. -/
theorem C07_uint_saturating_strict_mul (hw : 0 < w) (hl : x.length = y.length)
    (h2 : x.length % 2 = 0) (h4 : 4 ≤ x.length) :
    SatU x.length ((toNat x : Int) * toNat y) (U.saturatingMul x y) ∧
      StrictU x.length ((toNat x : Int) * toNat y) (U.strictMul x y) :=
  have h := checkedMulU hw hl h2 h4
  ⟨h.satMax (by positivity), h.strict⟩

example := C07_uint_saturating_strict_mul (x := ones) (y := a) (by decide) (by decide) (by decide)
  (by decide)
example : U.saturatingMul top a = ones ∧ U.strictMul top a = .panic := by decide +kernel

/-- C07: multiplication by a limb and by a double limb. -/
theorem C07_uint_mul_scalar (n : BitVec w) (m : BitVec (w + w)) (oc : Bool) :
    (OverU x.length ((toNat x : Int) * n.toNat) (U.overflowingMulULimb x n) ∧
      CheckU x.length ((toNat x : Int) * n.toNat) (U.checkedMulULimb x n) ∧
      OpU oc x.length ((toNat x : Int) * n.toNat) (U.mulULimb oc x n)) ∧
    (OverU x.length ((toNat x : Int) * m.toNat) (U.overflowingMulUWide x m) ∧
      CheckU x.length ((toNat x : Int) * m.toNat) (U.checkedMulUWide x m) ∧
      OpU oc x.length ((toNat x : Int) * m.toNat) (U.mulUWide oc x m)) := by
  have h1 := Mul.overU x [n] (by simp)
  have h2 := Mul.overU x (twoLimbs m) (by simp [twoLimbs])
  rw [show toNat [n] = n.toNat by simp] at h1
  rw [twoLimbs_toNat] at h2
  have hw := C06_uint_wrapping_mul_scalar (x := x) n m
  exact ⟨⟨h1, h1.check, h1.check.op hw.1 oc⟩, ⟨h2, h2.check, h2.check.op hw.2 oc⟩⟩

example := C07_uint_mul_scalar (x := a) 7 0x10000000000000003 true
example : U.overflowingMulULimb top 2 = (zero, true) ∧ U.mulUWide true ones 2 = .panic := by
  decide +kernel

/-! ### C08: signed overflow detection -/

/-- C08 is violated (disagreement B1): `is_min` (src/math/mul.rs L465) looks at the top limb only,
so a product slightly below `MIN` is not reported.  With `x = (2^255 + 1) / 3` and `y = -3` the exact
product is `-2^255 - 1`, out of range; `overflowing_mul` returns no flag and the wrapped value
`2^255 - 1`, and `checked_mul`, `strict_mul`, `saturating_mul` and `*` return that value. -/
theorem C08_int_overflowing_mul_false : ∃ x y : Limbs 64, x.length = 4 ∧ y.length = 4 ∧
    ¬ InS 256 (toInt x * toInt y) ∧ I.overflowingMul x y = (maxS, false) ∧
    I.checkedMul x y = some maxS ∧ I.strictMul x y = .ok maxS ∧ I.saturatingMul x y = maxS ∧
    I.mul true x y = .ok maxS :=
  ⟨[0xaaaaaaaaaaaaaaab, 0xaaaaaaaaaaaaaaaa, 0xaaaaaaaaaaaaaaaa, 0x2aaaaaaaaaaaaaaa],
    [0xfffffffffffffffd, 0xffffffffffffffff, 0xffffffffffffffff, 0xffffffffffffffff],
    by decide +kernel⟩

/-- C08, violated in full (`C08_int_overflowing_mul_false`): the full statement is
`OverS x.length (toInt x * toInt y) (I.overflowingMul x y)`.  What holds: the value is the wrapped
product, and the flag is exact except that products in the gap just below `MIN` are not reported. -/
theorem C08_int_overflowing_mul_partial (hw : 0 < w) (hx : x ≠ []) (hl : x.length = y.length) :
    WrapS x.length (toInt x * toInt y) (I.overflowingMul x y).1 ∧
      ((I.overflowingMul x y).2 = true ↔
        ¬ InS (w * x.length) (toInt x * toInt y) ∧ ¬ Mul.Gap w x.length (toInt x * toInt y)) :=
  Mul.overflowingFullS_spec hw hx hl

example := C08_int_overflowing_mul_partial (x := m2) (y := a) (by decide) (by decide) (by decide)
example : I.overflowingMul top ones = (top, true) ∧ I.overflowingMul m2 ones = ([2, 0, 0, 0], false) ∧
    I.overflowingMul top one = (top, false) := by decide +kernel

/-- C08, violated in full (`C08_int_overflowing_mul_false`): the full statement has no hypothesis
`hg`.  For every product outside the gap `overflowing_mul`, `checked_mul`, `saturating_mul`,
`strict_mul` and `*` are exact. -/
theorem C08_int_mul_partial (hw : 0 < w) (hx : x ≠ []) (hl : x.length = y.length) (oc : Bool)
    (hg : ¬ Mul.Gap w x.length (toInt x * toInt y)) :
    OverS x.length (toInt x * toInt y) (I.overflowingMul x y) ∧
      CheckS x.length (toInt x * toInt y) (I.checkedMul x y) ∧
      SatS x.length (toInt x * toInt y) (I.saturatingMul x y) ∧
      StrictS x.length (toInt x * toInt y) (I.strictMul x y) ∧
      OpS oc x.length (toInt x * toInt y) (I.mul oc x y) := by
  have hN := List.length_pos_iff.2 hx
  have ho : OverS x.length (toInt x * toInt y) (I.overflowingMul x y) :=
    OverS.of_gap (Mul.overflowingFullS_spec hw hx hl) hg
  have hc : CheckS x.length (toInt x * toInt y) (I.checkedMul x y) := ho.check
  refine ⟨ho, hc, ?_, hc.strict, hc.op (Mul.wrapS x y (by omega) hl) oc⟩
  unfold I.saturatingMul
  by_cases hi : InS (w * x.length) (toInt x * toInt y)
  · obtain ⟨v, hv, hv2⟩ := hc.1 hi
    rw [hv]
    exact SatS.some hw hN hi hv2
  · rw [hc.2 hi]
    simp only
    have hy : y ≠ [] := List.length_pos_iff.1 (by omega)
    rw [isNegative_eq hw hx, isNegative_eq hw hy]
    by_cases h1 : toInt x < 0 <;> by_cases h2 : toInt y < 0 <;> simp only [h1, h2, decide_true,
      decide_false, beq_self_eq_true, if_true]
    · exact SatS.max hw hN hi (by nlinarith)
    · exact SatS.min hw hN hi (by nlinarith)
    · exact SatS.min hw hN hi (by nlinarith)
    · exact SatS.max hw hN hi (by nlinarith)

example := C08_int_mul_partial (x := m2) (y := a) (by decide) (by decide) (by decide) true
  (by decide +kernel)
example : I.saturatingMul top m2 = maxS ∧ I.saturatingMul top [2, 0, 0, 0] = top ∧
    I.checkedMul maxS m2 = none := by decide +kernel

/-- C08: a product inside the gap is returned as if it were in range: `checked_mul` gives `Some` of
the wrapped (positive) value.  This makes the violation precise for all inputs. -/
theorem C08_int_mul_gap_false (hw : 0 < w) (hx : x ≠ []) (hl : x.length = y.length)
    (hg : Mul.Gap w x.length (toInt x * toInt y)) :
    ¬ InS (w * x.length) (toInt x * toInt y) ∧ ∃ v, I.overflowingMul x y = (v, false) ∧
      I.checkedMul x y = some v ∧ toInt v = toInt x * toInt y + 2 ^ (w * x.length) := by
  have hN := List.length_pos_iff.2 hx
  have h := Mul.overflowingFullS_spec hw hx hl
  have hf : (I.overflowingMul x y).2 = false := by
    rw [← Bool.not_eq_true]
    exact fun hc => (h.2.1 hc).2 hg
  have hpos : 0 < w * x.length := Nat.mul_pos hw hN
  have h2 : (2 : Int) ^ (w * x.length) = 2 * 2 ^ (w * x.length - 1) := by
    rw [← pow_succ', show w * x.length - 1 + 1 = w * x.length by omega]
  have h3 : (2 : Int) ^ (w * (x.length - 1)) ≤ 2 ^ (w * x.length - 1) := by
    rw [pow_pred_mul hw hN]
    exact pow_le_pow_right₀ (by omega) (by omega)
  have hi : ¬ InS (w * x.length) (toInt x * toInt y) := by
    unfold Mul.Gap at hg
    unfold InS
    omega
  refine ⟨hi, (I.overflowingMul x y).1, Prod.ext rfl hf, ?_, ?_⟩
  · unfold I.checkedMul mkChecked
    rw [hf]; rfl
  · have hwr : toInt (I.overflowingMul x y).1 = _ := h.1.2
    rw [hwr, ← Int.add_bmod_right, natCast_two_pow, bmod_of_InS]
    unfold Mul.Gap at hg
    unfold InS
    omega

example := C08_int_mul_gap_false (w := 64)
  (x := [0xaaaaaaaaaaaaaaab, 0xaaaaaaaaaaaaaaaa, 0xaaaaaaaaaaaaaaaa, 0x2aaaaaaaaaaaaaaa])
  (y := [0xfffffffffffffffd, 0xffffffffffffffff, 0xffffffffffffffff, 0xffffffffffffffff])
  (by decide) (by decide) (by decide) (by decide +kernel)

/-- C08: signed multiplication by scalars, with the same restriction (the full statement has no
hypotheses on the gap). -/
theorem C08_int_mul_scalar_partial (hw : 0 < w) (hx : 3 ≤ x.length) (n : BitVec w)
    (m : BitVec (w + w)) (oc : Bool) :
    (¬ Mul.Gap w x.length (toInt x * n.toNat) →
      OverS x.length (toInt x * n.toNat) (I.overflowingMulULimb x n) ∧
      CheckS x.length (toInt x * n.toNat) (I.checkedMulULimb x n) ∧
      OpS oc x.length (toInt x * n.toNat) (I.mulULimb oc x n)) ∧
    (¬ Mul.Gap w x.length (toInt x * n.toInt) →
      OverS x.length (toInt x * n.toInt) (I.overflowingMulILimb x n) ∧
      CheckS x.length (toInt x * n.toInt) (I.checkedMulILimb x n) ∧
      OpS oc x.length (toInt x * n.toInt) (I.mulILimb oc x n)) ∧
    (¬ Mul.Gap w x.length (toInt x * m.toNat) →
      OverS x.length (toInt x * m.toNat) (I.overflowingMulUWide x m) ∧
      CheckS x.length (toInt x * m.toNat) (I.checkedMulUWide x m) ∧
      OpS oc x.length (toInt x * m.toNat) (I.mulUWide oc x m)) ∧
    (¬ Mul.Gap w x.length (toInt x * m.toInt) →
      OverS x.length (toInt x * m.toInt) (I.overflowingMulIWide x m) ∧
      CheckS x.length (toInt x * m.toInt) (I.checkedMulIWide x m) ∧
      OpS oc x.length (toInt x * m.toInt) (I.mulIWide oc x m)) := by
  have hx0 : x ≠ [] := List.length_pos_iff.1 (by omega)
  have u := C06_int_wrapping_mul_uscalar (x := x) n m
  have i := C06_int_wrapping_mul_iscalar (x := x) (by omega) n m
  have h1 := Mul.overflowingFullS_spec hw hx0 (extU_length (by omega : 1 ≤ x.length) n).symm
  have h2 := Mul.overflowingFullS_spec hw hx0 (extI_length (by omega : 1 ≤ x.length) n).symm
  have h3 := Mul.overflowingFullS_spec hw hx0 (extUW_length (by omega : 2 ≤ x.length) m).symm
  have h4 := Mul.overflowingFullS_spec hw hx0 (extIW_length (by omega : 2 ≤ x.length) m).symm
  rw [extU_toInt hw (by omega)] at h1
  rw [extI_toInt (by omega)] at h2
  rw [extUW_toInt hw (by omega)] at h3
  rw [extIW_toInt (by omega)] at h4
  refine ⟨fun g => ?_, fun g => ?_, fun g => ?_, fun g => ?_⟩
  · have h := OverS.of_gap h1 g
    exact ⟨h, h.check, h.check.op u.1 oc⟩
  · have h := OverS.of_gap h2 g
    exact ⟨h, h.check, h.check.op i.1 oc⟩
  · have h := OverS.of_gap h3 g
    exact ⟨h, h.check, h.check.op u.2 oc⟩
  · have h := OverS.of_gap h4 g
    exact ⟨h, h.check, h.check.op i.2 oc⟩

example := (C08_int_mul_scalar_partial (x := m2) (by decide) (by decide) 7 (-7) true).2.2.2
  (by decide +kernel)
example : I.overflowingMulILimb top (-1) = (top, true) ∧ I.checkedMulULimb maxS 2 = none ∧
    I.mulIWide true m2 (-2) = .ok [4, 0, 0, 0] := by decide +kernel

/-! ### C09: widening multiplication -/

/-- C09: `widening_mul` returns the complete product. -/
theorem C09_widening_mul (hx : x ≠ []) (hl : x.length = y.length) :
    (U.wideningMul x y).1.length = x.length ∧ (U.wideningMul x y).2.length = x.length ∧
      toNat (U.wideningMul x y).1 + 2 ^ bits x * toNat (U.wideningMul x y).2
        = toNat x * toNat y :=
  Mul.widening_spec x y hl (List.length_pos_iff.2 hx)

example := C09_widening_mul (x := ones) (y := a) (by decide) (by decide)
example : U.wideningMul ones ones = (one, m2) := by decide +kernel

/-- C09: `carrying_mul` returns product plus carry and never panics, with or without overflow
checks. -/
theorem C09_carrying_mul (hw : 0 < w) {c : Limbs w} (hx : x ≠ []) (hl : x.length = y.length)
    (hc : x.length = c.length) (oc : Bool) :
    ∃ lo hi, U.carryingMul oc x y c = .ok (lo, hi) ∧ lo.length = x.length ∧ hi.length = x.length ∧
      toNat lo + 2 ^ bits x * toNat hi = toNat x * toNat y + toNat c :=
  U.carryingMul_spec hw hx hl hc oc

example := C09_carrying_mul (x := ones) (y := a) (c := ones) (by decide) (by decide) (by decide)
  (by decide) true
example : U.carryingMul true ones ones ones = .ok (zero, ones) := by decide +kernel

/-! ### C42: the operator `*` -/

/-- C42: unsigned `*`: wrapped without overflow checks; exact or panicking with them. -/
theorem C42_uint_mul (hw : 0 < w) (hl : x.length = y.length) (h2 : x.length % 2 = 0)
    (h4 : 4 ≤ x.length) (oc : Bool) :
    OpU oc x.length ((toNat x : Int) * toNat y) (U.mul oc x y) :=
  (checkedMulU hw hl h2 h4).op (Mul.wrapU x y (by omega)) oc

example := C42_uint_mul (x := ones) (y := a) (by decide) (by decide) (by decide) (by decide) true
example : U.mul true ones ones = .panic ∧ U.mul false ones ones = .ok one := by decide +kernel

/-- C42 is violated for signed `*` with overflow checks (disagreement B1): with
`x = (2^255 + 1) / 3` and `y = -3` the product `-2^255 - 1` is out of range, but `x * y` does not
panic. -/
theorem C42_int_mul_false : ∃ x y v : Limbs 64, x.length = 4 ∧ y.length = 4 ∧
    ¬ InS 256 (toInt x * toInt y) ∧ I.mul true x y = .ok v :=
  ⟨[0xaaaaaaaaaaaaaaab, 0xaaaaaaaaaaaaaaaa, 0xaaaaaaaaaaaaaaaa, 0x2aaaaaaaaaaaaaaa],
    [0xfffffffffffffffd, 0xffffffffffffffff, 0xffffffffffffffff, 0xffffffffffffffff], maxS,
    by decide +kernel⟩

/-- C42, violated in full (`C42_int_mul_false`): the full statement is
`OpS oc x.length (toInt x * toInt y) (I.mul oc x y)`.  It holds for all operands without overflow
checks, and for all products outside the gap with them. -/
theorem C42_int_mul_partial (hw : 0 < w) (hx : x ≠ []) (hl : x.length = y.length) (oc : Bool)
    (hg : oc = true → ¬ Mul.Gap w x.length (toInt x * toInt y)) :
    OpS oc x.length (toInt x * toInt y) (I.mul oc x y) := by
  cases oc
  · exact ⟨_, rfl, C06_int_wrapping_mul hx hl⟩
  · exact (C08_int_mul_partial hw hx hl true (hg rfl)).2.2.2.2

example := C42_int_mul_partial (x := ones) (y := a) (by decide) (by decide) (by decide) true
  (by decide +kernel)
example : I.mul false top ones = .ok top ∧ I.mul true top ones = .panic := by decide +kernel

/-! ### C44: ring laws -/

/-- C44: wrapping addition and multiplication are commutative and associative, multiplication
distributes over addition, subtraction undoes addition. -/
theorem C44_ring (hw : 0 < w) {z : Limbs w} (hx : x ≠ []) (hl : x.length = y.length)
    (hz : x.length = z.length) :
    U.wrappingAdd x y = U.wrappingAdd y x ∧
    U.wrappingMul x y = U.wrappingMul y x ∧
    U.wrappingAdd (U.wrappingAdd x y) z = U.wrappingAdd x (U.wrappingAdd y z) ∧
    U.wrappingMul (U.wrappingMul x y) z = U.wrappingMul x (U.wrappingMul y z) ∧
    U.wrappingMul x (U.wrappingAdd y z) = U.wrappingAdd (U.wrappingMul x y) (U.wrappingMul x z) ∧
    U.wrappingSub (U.wrappingAdd x y) y = x ∧
    U.wrappingAdd (U.wrappingSub x y) y = x ∧
    U.wrappingSub x y = U.wrappingAdd x (U.wrappingNeg y) := by
  have hN := List.length_pos_iff.2 hx
  have A : ∀ {u v : Limbs w}, u.length = x.length → v.length = x.length →
      WrapU x.length ((toNat u : Int) + toNat v) (U.wrappingAdd u v) := by
    intro u v hu hv
    have := Add.wrapU hw (x := u) (y := v) (by omega)
    rwa [hu] at this
  have S : ∀ {u v : Limbs w}, u.length = x.length → v.length = x.length →
      WrapU x.length ((toNat u : Int) - toNat v) (U.wrappingSub u v) := by
    intro u v hu hv
    have := Sub.wrapU hw (x := u) (y := v) (by omega)
    rwa [hu] at this
  have M : ∀ {u v : Limbs w}, u.length = x.length → v.length = x.length →
      WrapU x.length ((toNat u : Int) * toNat v) (U.wrappingMul u v) := by
    intro u v hu hv
    have := Mul.wrapU u v (by omega)
    rwa [hu] at this
  have E : WrapU x.length (toNat x : Int) x := ExactU.wrap ⟨rfl, rfl⟩
  have ly := hl.symm
  have lz := hz.symm
  have axy := A rfl ly
  have ayz := A ly lz
  have mxy := M rfl ly
  have myz := M ly lz
  have mxz := M (u := x) rfl lz
  have sxy := S rfl ly
  have hneg : WrapU x.length (-(toNat y : Int)) (U.wrappingNeg y) := by
    have h0 := minValueU w y.length
    have h1 := S (u := U.minValue w y.length) (v := y) (by rw [h0.1]; omega) ly
    rwa [h0.2, zero_sub] at h1
  refine ⟨?_, ?_, ?_, ?_, ?_, ?_, ?_, ?_⟩
  · exact axy.unique (A ly rfl) (add_comm (toNat x : Int) (toNat y) ▸ Int.ModEq.refl _)
  · exact mxy.unique (M ly rfl) (mul_comm (toNat x : Int) (toNat y) ▸ Int.ModEq.refl _)
  · refine (A axy.1 lz).unique (A rfl ayz.1) ?_
    refine (axy.modEq.add_right _).trans ?_
    rw [add_assoc]
    exact (ayz.modEq.add_left _).symm
  · refine (M mxy.1 lz).unique (M rfl myz.1) ?_
    refine (mxy.modEq.mul_right _).trans ?_
    rw [mul_assoc]
    exact (myz.modEq.mul_left _).symm
  · refine (M rfl ayz.1).unique (A mxy.1 mxz.1) ?_
    refine (ayz.modEq.mul_left _).trans ?_
    rw [mul_add]
    exact (mxy.modEq.add mxz.modEq).symm
  · refine (S axy.1 ly).unique E ?_
    have := axy.modEq.sub_right (toNat y : Int)
    rwa [add_sub_cancel_right] at this
  · refine (A sxy.1 ly).unique E ?_
    have := sxy.modEq.add_right (toNat y : Int)
    rwa [sub_add_cancel] at this
  · refine sxy.unique (A rfl hneg.1) ?_
    rw [sub_eq_add_neg]
    exact (hneg.modEq.add_left _).symm

example := C44_ring (x := ones) (y := a) (z := top) (by decide) (by decide) (by decide) (by decide)
example : U.wrappingMul ones (U.wrappingAdd a top) =
    U.wrappingAdd (U.wrappingMul ones a) (U.wrappingMul ones top) := by decide +kernel

/-- C44: the signed wrapping operations return the same representation as the unsigned ones. -/
theorem C44_signed_eq_unsigned (hw : 0 < w) (hx : x ≠ []) (hl : x.length = y.length) :
    (∀ v, WrapS x.length (toInt x + toInt y) v → v = U.wrappingAdd x y) ∧
    (∀ v, WrapS x.length (toInt x - toInt y) v → v = U.wrappingSub x y) ∧
    (∀ v, WrapS x.length (toInt x * toInt y) v → v = U.wrappingMul x y) ∧
    I.wrappingAdd x y = U.wrappingAdd x y ∧ I.wrappingSub x y = U.wrappingSub x y ∧
    I.wrappingMul x y = U.wrappingMul x y := by
  have hy := toInt_modEq y
  rw [← hl] at hy
  have hx' := toInt_modEq x
  refine ⟨fun v h => ?_, fun v h => ?_, fun v h => ?_, rfl, rfl, rfl⟩
  · exact h.wrapU.unique (Add.wrapU hw hl) (hx'.add hy)
  · exact h.wrapU.unique (Sub.wrapU hw hl) (hx'.sub hy)
  · exact h.wrapU.unique (C06_uint_wrapping_mul hx hl) (hx'.mul hy)

example := C44_signed_eq_unsigned (x := ones) (y := a) (by decide) (by decide) (by decide)
example : toInt (U.wrappingMul m2 m2) = 4 := by decide +kernel

/-! ### C48: halves -/

/-- C48: `low` and `high` split the value at bit `BITS / 2`. -/
theorem C48_low_high (h2 : x.length % 2 = 0) :
    (U.low x).length = x.length ∧ (U.high x).length = x.length ∧
      toNat (U.low x) = toNat x % 2 ^ (bits x / 2) ∧
      toNat (U.high x) = toNat x / 2 ^ (bits x / 2) ∧
      toNat (U.low x) + 2 ^ (bits x / 2) * toNat (U.high x) = toNat x := by
  have hb : bits x / 2 = w * (x.length / 2) := by
    rw [bits]
    exact Nat.mul_div_assoc _ (Nat.dvd_of_mod_eq_zero h2)
  obtain ⟨h3, h4⟩ := low_spec x
  obtain ⟨h5, h6⟩ := high_spec h2
  rw [hb]
  exact ⟨h3, h5, h4, h6, by rw [h4, h6]; exact Nat.mod_add_div _ _⟩

example := C48_low_high (x := a) (by decide)
example : U.low a = [0xffffffffffffffff, 0, 0, 0] ∧ U.high a = [5, 0, 0, 0] := by decide

/-- C48: `high_mul` is the high half of the complete product. -/
theorem C48_high_mul (hw : 0 < w) (hx : x ≠ []) (hl : x.length = y.length)
    (h2 : x.length % 2 = 0) : (U.highMul x y).length = x.length ∧
      toNat (U.highMul x y) = toNat x * toNat y / 2 ^ bits x ∧
      U.highMul x y = (U.wideningMul x y).2 := by
  obtain ⟨h3, h4⟩ := highMul_spec hw hx hl h2
  obtain ⟨h5, h6, h7⟩ := C09_widening_mul hx hl
  refine ⟨h3, h4, toNat_inj (h3.trans h6.symm) ?_⟩
  have hlt := toNat_lt (U.wideningMul x y).1
  rw [show bits (U.wideningMul x y).1 = bits x by rw [bits, bits, h5]] at hlt
  rw [h4, ← h7, Nat.add_mul_div_left _ _ (Nat.two_pow_pos _), Nat.div_eq_of_lt hlt, Nat.zero_add]

example := C48_high_mul (x := ones) (y := a) (by decide) (by decide) (by decide) (by decide)
example : U.highMul ones ones = m2 := by decide +kernel

/-- C48: `is_even` and `is_odd`, in both readings of the representation. -/
theorem C48_parity (hw : 0 < w) (hx : x ≠ []) :
    (isEven x = true ↔ toNat x % 2 = 0) ∧ (isOdd x = true ↔ toNat x % 2 = 1) ∧
      (isEven x = true ↔ toInt x % 2 = 0) := by
  have key : isEven x = true ↔ toNat x % 2 = 0 := by
    obtain ⟨a, l, rfl⟩ := List.exists_cons_of_ne_nil hx
    have h2 : 2 ^ w = 2 * 2 ^ (w - 1) := by
      rw [← Nat.pow_succ', Nat.succ_eq_add_one, Nat.sub_add_cancel hw]
    rw [toNat_cons, h2, Nat.mul_assoc, Nat.add_mul_mod_self_left]
    simp [isEven, getLimb]
  refine ⟨key, ?_, key.trans ?_⟩
  · unfold isOdd
    rw [Bool.not_eq_true', ← Bool.not_eq_true, key]
    omega
  · have hpos : 0 < bits x := Nat.mul_pos hw (List.length_pos_iff.2 hx)
    have h2 : (2 : Int) ^ bits x = 2 * 2 ^ (bits x - 1) := by
      rw [← pow_succ', Nat.sub_add_cancel hpos]
    unfold toInt
    rw [h2]
    split <;> omega

example := C48_parity (x := m2) (by decide) (by decide)
example : isEven m2 = true ∧ isOdd a = true := by decide

end I256
