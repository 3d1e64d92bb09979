import Verif.Props.Fixed
import Verif.Props.FixedStray

/-!
# C55: a zero scalar of fixed width, in every form

The forms of the quotient and of the remainder alone, and the overflowing forms.
-/

namespace I256

open Sample

section
variable {w : Nat} {x : Limbs w} (hw : w = 32 ∨ w = 64) (hx : 256 ≤ w * x.length)
include hw hx

/-- C55: unsigned numbers and a zero scalar.  The forms that do not test the divisor panic, except that
zero divided by a zero scalar wider than a limb is zero. -/
theorem C55_uint_div_fixed_zero_forms (k : Fix) :
    (toNat x ≠ 0 ∨ k.n ≤ w →
      U.wrappingDivFix k x 0 = .panic ∧ U.wrappingRemFix k x 0 = .panic ∧
      U.divFix false k x 0 = .panic ∧ U.remFix false k x 0 = .panic ∧
      U.overflowingDivRemFix k x 0 = .panic ∧ U.overflowingDivFix k x 0 = .panic ∧
      U.overflowingRemFix k x 0 = .panic) ∧
    (toNat x = 0 → w < k.n → ∃ q, ExactU x.length 0 q ∧
      U.wrappingDivFix k x 0 = .ok q ∧ U.wrappingRemFix k x 0 = .ok 0 ∧
      U.divFix false k x 0 = .ok q ∧ U.remFix false k x 0 = .ok 0 ∧
      U.overflowingDivRemFix k x 0 = .ok ((q, 0), false) ∧ U.overflowingDivFix k x 0 = .ok (q, false) ∧
      U.overflowingRemFix k x 0 = .ok (0, false)) := by
  obtain ⟨-, -, -, -, -, -, h1, h2⟩ := C55_uint_div_fixed_zero hw hx k
  refine ⟨fun h => ?_, fun a b => ?_⟩
  · obtain ⟨e, e'⟩ := h1 h
    simp only [U.wrappingDivFix, U.wrappingRemFix, U.divFix, U.remFix, U.overflowingDivRemFix,
      U.overflowingDivFix, U.overflowingRemFix, e, e', Res.map, Res.bind, and_self]
  · obtain ⟨q, e, e', hq⟩ := h2 a b
    refine ⟨q, hq, ?_⟩
    simp only [U.wrappingDivFix, U.wrappingRemFix, U.divFix, U.remFix, U.overflowingDivRemFix,
      U.overflowingDivFix, U.overflowingRemFix, e, e', Res.map_ok, and_self]

variable (he : x.length % 2 = 0)
include he

/-- C55: signed numbers and a zero scalar: the checked forms give `None` and the operators panic with
overflow checks. -/
theorem C55_int_div_fixed_zero_checked (k : Fix) (oc : Bool) :
    I.checkedDivFixU oc k x 0 = .ok none ∧ I.checkedRemFixU oc k x 0 = .ok none ∧
    I.checkedDivFixI k x 0 = .ok none ∧ I.checkedRemFixI k x 0 = .ok none ∧
    I.divFixU true k x 0 = .panic ∧ I.remFixU true k x 0 = .panic ∧
    I.divFixI true k x 0 = .panic ∧ I.remFixI true k x 0 = .panic := by
  obtain ⟨h1, h2, h3, h4⟩ := C55_int_div_fixed_zero hw hx he k oc
  simp only [I.checkedDivFixU, I.checkedRemFixU, I.checkedDivFixI, I.checkedRemFixI, I.divFixU, I.remFixU,
    I.divFixI, I.remFixI, h1, h2, h3, h4, Res.map, Res.bind, Option.map_none, and_self]

/-- C55: signed numbers and a zero scalar in the overflowing forms, which do not test the divisor. -/
theorem C55_int_div_fixed_zero_overflowing (k : Fix) (oc : Bool) :
    (toInt x ≠ 0 ∨ k.n ≤ w →
      I.overflowingDivRemFixU oc k x 0 = .panic ∧ I.overflowingDivRemFixI k x 0 = .panic ∧
      I.overflowingDivFixU oc k x 0 = .panic ∧ I.overflowingDivFixI k x 0 = .panic ∧
      I.overflowingRemFixU oc k x 0 = .panic ∧ I.overflowingRemFixI k x 0 = .panic) ∧
    (toInt x = 0 → w < k.n → ∃ q, ExactS x.length 0 q ∧
      I.overflowingDivRemFixU oc k x 0 = .ok ((q, 0), false) ∧
      I.overflowingDivRemFixI k x 0 = .ok ((q, 0), false) ∧
      I.overflowingDivFixU oc k x 0 = .ok (q, false) ∧ I.overflowingDivFixI k x 0 = .ok (q, false) ∧
      I.overflowingRemFixU oc k x 0 = .ok (0, false) ∧ I.overflowingRemFixI k x 0 = .ok (0, false)) := by
  obtain ⟨h1, h2⟩ := C55_int_div_fixed_zero_partial hw hx he k oc
  have hi := overflowingDivRemFixI_zero (x := x) hw k
  have hd : I.overflowingDivFixI k x 0 = (I.overflowingDivRemFixI k x 0).map fun p => (p.1.1, p.2) := by
    cases k
    · rw [I.overflowingDivFixI, I.overflowingDivRemFixI, I.overflowingDivILimb]
      cases I.overflowingDivRemILimb x _ <;> rfl
    · rfl
    · rfl
  have hr : I.overflowingRemFixI k x 0 = (I.overflowingDivRemFixI k x 0).map fun p => (p.1.2, p.2) := by
    cases k
    · rw [I.overflowingRemFixI, I.overflowingDivRemFixI, I.overflowingRemILimb]
      cases I.overflowingDivRemILimb x _ <;> rfl
    · rfl
    · rfl
  refine ⟨fun h => ?_, fun a b => ?_⟩
  · obtain ⟨g, -, -⟩ := h1 h
    have a1 := g _ (List.mem_cons_self)
    have a2 := g _ (List.mem_cons_of_mem _ List.mem_cons_self)
    simp only [I.overflowingDivRemFixU, I.overflowingDivFixU, I.overflowingRemFixU, hd, hr, hi, a1, a2,
      Res.map, Res.bind, and_self]
  · obtain ⟨q, hq, g, -, -⟩ := h2 a b
    have a1 := g _ (List.mem_cons_self)
    have a2 := g _ (List.mem_cons_of_mem _ List.mem_cons_self)
    refine ⟨q, hq, ?_⟩
    simp only [I.overflowingDivRemFixU, I.overflowingDivFixU, I.overflowingRemFixU, hd, hr, hi, a1, a2,
      Res.map_ok, and_self]

end

example := (C55_uint_div_fixed_zero_forms (x := zero) (by decide) (by decide) .b128).2 (by decide) (by decide)
example := (C55_uint_div_fixed_zero_forms (x := top) (by decide) (by decide) .b128).1 (.inl (by decide))
example := C55_int_div_fixed_zero_checked (x := top) (by decide) (by decide) (by decide) .b32 true
example := (C55_int_div_fixed_zero_overflowing (x := zero) (by decide) (by decide) (by decide) .b128 true).2
  (by decide) (by decide)
example := (C55_int_div_fixed_zero_overflowing (x := b32) (by decide) (by decide) (by decide) .b64 true).1
  (.inl (by decide))
example : U.overflowingDivFix .b128 zero 0 = .ok (zero, false) ∧ U.overflowingDivFix .b64 zero 0 = .panic ∧
    I.overflowingRemFixI .b128 zero 0 = .ok (0, false) ∧ I.overflowingRemFixI .b128 one 0 = .panic := by
  decide +kernel

end I256
