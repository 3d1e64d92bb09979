import Verif.Lemmas.MulApi
import Verif.Props.Samples

/-!
# Exponentiation (C10, C11, C42 for `pow`)

The exponent is a `u32`.  `Mul.Gap` are the values just below `MIN` (see Props/Mul.lean): C11 is
violated for signed types on exactly these powers.
-/

namespace I256

open Sample

variable {w : Nat} {x : Limbs w} {e : Nat}

/-! ### C10: wrapping power -/

/-- C10: unsigned `wrapping_pow`. -/
theorem C10_uint_wrapping_pow (hw : 0 < w) (hx : x ≠ []) (he : e < 2 ^ 32) :
    WrapU x.length ((toNat x : Int) ^ e) (U.wrappingPow x e) := powWrapU hw hx he

example := C10_uint_wrapping_pow (x := a) (e := 4294967295) (by decide) (by decide) (by decide)
example : U.wrappingPow [3, 0, 0, 0] 5 = ([243, 0, 0, 0] : Limbs 64) ∧ U.wrappingPow a 0 = one ∧
    U.wrappingPow ones 4294967295 = ones := by decide +kernel

/-- C10: signed `wrapping_pow`. -/
theorem C10_int_wrapping_pow (hw : 0 < w) (hx : x ≠ []) (he : e < 2 ^ 32) :
    WrapS x.length (toInt x ^ e) (I.wrappingPow x e) := powWrapS hw hx he

example := C10_int_wrapping_pow (x := m2) (e := 255) (by decide) (by decide) (by decide)
example : I.wrappingPow m2 255 = top ∧ I.wrappingPow m2 256 = zero ∧ I.wrappingPow top 0 = one := by
  decide +kernel

/-! ### C11: overflow detection -/

/-- C11: unsigned `overflowing_pow`: the flag is exact. -/
theorem C11_uint_overflowing_pow (hw : 0 < w) (hx : x ≠ []) (he : e < 2 ^ 32) :
    OverU x.length ((toNat x : Int) ^ e) (U.overflowingPow x e) := powOverU hw hx he

example := C11_uint_overflowing_pow (x := a) (e := 4294967295) (by decide) (by decide) (by decide)
example : U.overflowingPow [2, 0, 0, 0] 255 = (top, false) ∧
    U.overflowingPow [2, 0, 0, 0] 256 = (zero, true) ∧ U.overflowingPow zero 0 = (one, false) := by
  decide +kernel

/-- C11: unsigned `checked_pow`, `saturating_pow` and `strict_pow`. -/
theorem C11_uint_pow (hw : 0 < w) (hx : x ≠ []) (he : e < 2 ^ 32) :
    CheckU x.length ((toNat x : Int) ^ e) (U.checkedPow x e) ∧
      SatU x.length ((toNat x : Int) ^ e) (U.saturatingPow x e) ∧
      StrictU x.length ((toNat x : Int) ^ e) (U.strictPow x e) :=
  have h := (powOverU hw hx he).check
  ⟨h, h.satMax (by positivity), h.strict⟩

example := C11_uint_pow (x := a) (e := 4294967295) (by decide) (by decide) (by decide)
example : U.checkedPow a 2 = none ∧ U.saturatingPow a 2 = ones ∧ U.strictPow a 2 = .panic ∧
    U.checkedPow [10, 0, 0, 0] 3 = some ([1000, 0, 0, 0] : Limbs 64) := by decide +kernel

/-- C11 is violated for signed types (disagreement B1): `x = -(2^85 + 1)` cubed is
`-(2^255 + 3*2^170 + 3*2^85 + 1)`, below `MIN`, but `overflowing_pow` returns no flag and a positive
value; `checked_pow`, `strict_pow`, `saturating_pow` and `pow` return that value. -/
theorem C11_int_overflowing_pow_false : ∃ x v : Limbs 64, x.length = 4 ∧
    ¬ InS 256 (toInt x ^ 3) ∧ 0 < toInt v ∧ I.overflowingPow x 3 = (v, false) ∧
    I.checkedPow x 3 = some v ∧ I.strictPow x 3 = .ok v ∧ I.saturatingPow x 3 = v ∧
    I.pow true x 3 = .ok v :=
  ⟨[0xffffffffffffffff, 0xffffffffffdfffff, 0xffffffffffffffff, 0xffffffffffffffff],
    [0xffffffffffffffff, 0xffffffffff9fffff, 0xfffff3ffffffffff, 0x7fffffffffffffff],
    by decide +kernel⟩

/-- C11, violated in full (`C11_int_overflowing_pow_false`): the full statement is
`OverS x.length (toInt x ^ e) (I.overflowingPow x e)`.  What holds: the value is the wrapped power
and the flag is exact except that powers in the gap just below `MIN` are not reported. -/
theorem C11_int_overflowing_pow_partial (hw : 1 < w) (hx : 2 ≤ x.length) (he : e < 2 ^ 32) :
    WrapS x.length (toInt x ^ e) (I.overflowingPow x e).1 ∧
      ((I.overflowingPow x e).2 = true ↔
        ¬ InS (w * x.length) (toInt x ^ e) ∧ ¬ Mul.Gap w x.length (toInt x ^ e)) :=
  powOverS hw hx he

example := C11_int_overflowing_pow_partial (x := m2) (e := 255) (by decide) (by decide) (by decide)
example : I.overflowingPow m2 255 = (top, false) ∧ I.overflowingPow m2 256 = (zero, true) ∧
    I.overflowingPow m2 257 = (zero, true) := by decide +kernel

/-- C11, violated in full (`C11_int_overflowing_pow_false`): the full statement has no hypothesis
`hg`.  For every power outside the gap the overflowing, checked, saturating and strict forms are
exact. -/
theorem C11_int_pow_partial (hw : 1 < w) (hx : 4 ≤ x.length) (h2 : x.length % 2 = 0)
    (he : e < 2 ^ 32) (hg : ¬ Mul.Gap w x.length (toInt x ^ e)) :
    OverS x.length (toInt x ^ e) (I.overflowingPow x e) ∧
      CheckS x.length (toInt x ^ e) (I.checkedPow x e) ∧
      SatS x.length (toInt x ^ e) (I.saturatingPow x e) ∧
      StrictS x.length (toInt x ^ e) (I.strictPow x e) := by
  have h := powOverS hw (x := x) (by omega) he
  have ho : OverS x.length (toInt x ^ e) (I.overflowingPow x e) :=
    ⟨h.1, h.2.trans ⟨fun h => h.1, fun h => ⟨h, hg⟩⟩⟩
  have hc : CheckS x.length (toInt x ^ e) (I.checkedPow x e) := ho.check
  refine ⟨ho, hc, ?_, hc.strict⟩
  unfold I.saturatingPow
  by_cases hi : InS (w * x.length) (toInt x ^ e)
  · obtain ⟨v, hv, hv2⟩ := hc.1 hi
    rw [hv]
    exact SatS.some (by omega) (by omega) hi hv2
  · rw [hc.2 hi]
    simp only
    have hz := ofU8S (w := w) (N := x.length) (v := 0) (by omega) (by omega) (Nat.two_pow_pos w)
    have hlt := Ord.lt_iff (w := w) (by omega) true (x := x) (y := ofU8 x.length 0) hz.1.symm h2
      (by omega)
    simp only [Ord.val, if_true] at hlt
    rw [hz.2, Int.natCast_zero] at hlt
    by_cases h1 : toInt x < 0
    · by_cases ho : e % 2 = 1
      · rw [if_pos (by simp [hlt.2 h1, ho])]
        refine SatS.min (by omega) (by omega) hi ?_
        exact (Odd.pow_neg (Nat.odd_iff.2 ho) h1).le
      · rw [if_neg (by simp [ho])]
        refine SatS.max (by omega) (by omega) hi ?_
        exact Even.pow_nonneg (Nat.even_iff.2 (by omega)) _
    · rw [if_neg (by simp [← hlt] at h1; simp [h1])]
      exact SatS.max (by omega) (by omega) hi (pow_nonneg (by omega) _)

example := C11_int_pow_partial (x := m2) (e := 257) (by decide) (by decide) (by decide) (by decide)
  (by decide +kernel)
example : I.saturatingPow m2 257 = top ∧ I.saturatingPow m2 256 = maxS ∧
    I.checkedPow m2 255 = some top := by decide +kernel

/-! ### C42: `pow` -/

/-- C42: unsigned `pow`: wrapped without overflow checks; exact or panicking with them. -/
theorem C42_uint_pow (hw : 0 < w) (hx : x ≠ []) (he : e < 2 ^ 32) (oc : Bool) :
    OpU oc x.length ((toNat x : Int) ^ e) (U.pow oc x e) :=
  (powOverU hw hx he).check.op (powWrapU hw hx he) oc

example := C42_uint_pow (x := a) (e := 4294967295) (by decide) (by decide) (by decide) true
example : U.pow true a 2 = .panic ∧ U.pow false [2, 0, 0, 0] 256 = .ok zero := by decide +kernel

/-- C42, violated in full (`C11_int_overflowing_pow_false`): the full statement is
`OpS oc x.length (toInt x ^ e) (I.pow oc x e)`.  It holds for all operands without overflow checks,
and for all powers outside the gap with them. -/
theorem C42_int_pow_partial (hw : 1 < w) (hx : 4 ≤ x.length) (h2 : x.length % 2 = 0)
    (he : e < 2 ^ 32) (oc : Bool) (hg : oc = true → ¬ Mul.Gap w x.length (toInt x ^ e)) :
    OpS oc x.length (toInt x ^ e) (I.pow oc x e) := by
  have hx0 : x ≠ [] := List.length_pos_iff.1 (by omega)
  cases oc
  · exact ⟨_, rfl, powWrapS (by omega) hx0 he⟩
  · exact (C11_int_pow_partial hw hx h2 he (hg rfl)).2.2.2

example := C42_int_pow_partial (x := m2) (e := 257) (by decide) (by decide) (by decide) (by decide)
  true (by decide +kernel)
example : I.pow true m2 257 = .panic ∧ I.pow false m2 257 = .ok zero := by decide +kernel

end I256
