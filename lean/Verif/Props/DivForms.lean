import Verif.Props.DivZero

/-!
# All forms of signed division for all operands: C17, C18

Verif/Props/DivSigned.lean describes the checked, strict, overflowing and operator forms of the
remainder and of Euclidean division when no estimate is corrected.  Here they are described for every
non-zero divisor, with the remainder that long division actually delivers.
-/

namespace I256

open Sample

variable {w : Nat} {x y : Limbs w}

section
variable (hw : 1 < w) (hl : x.length = y.length) (h2 : 2 ≤ x.length) (he : x.length % 2 = 0)
  (hy : toInt y ≠ 0)
include hw hl h2 he hy

/-- C17, partial: every form of the signed remainder, for every non-zero divisor: `R` is the remainder
that long division delivers.  `MIN % -1` counts as overflow.  The full claim, with `x tmod y` for `R`,
is false (`C17_int_rem_false`). -/
theorem C17_int_rem_all_partial {R : Int} (hR : R = (toInt x).tmod (toInt y) + (toInt x).sign *
      strayRem w x.length (toInt x).natAbs (toInt y).natAbs) (oc : Bool) :
    Yields (DivPanics w x.length (toInt x).natAbs (toInt y).natAbs)
      (fun p => ExactS x.length R p.1 ∧
        (p.2 = true ↔ toInt x = -2 ^ (w * x.length - 1) ∧ toInt y = -1)) (I.overflowingRem x y) ∧
    Yields (DivPanics w x.length (toInt x).natAbs (toInt y).natAbs)
      (fun o => (toInt x = -2 ^ (w * x.length - 1) ∧ toInt y = -1 → o = none) ∧
        (¬ (toInt x = -2 ^ (w * x.length - 1) ∧ toInt y = -1) → ∃ v, o = some v ∧
          ExactS x.length R v)) (I.checkedRem x y) ∧
    Yields (DivPanics w x.length (toInt x).natAbs (toInt y).natAbs ∨
        toInt x = -2 ^ (w * x.length - 1) ∧ toInt y = -1) (ExactS x.length R) (I.strictRem x y) ∧
    Yields (DivPanics w x.length (toInt x).natAbs (toInt y).natAbs ∨
        oc = true ∧ toInt x = -2 ^ (w * x.length - 1) ∧ toInt y = -1) (ExactS x.length R)
      (I.rem oc x y) := by
  have h := wrappingRemS hw hl h2 he hy
  rw [← hR] at h
  have hP : toInt y = -1 → ¬ DivPanics w x.length (toInt x).natAbs (toInt y).natAbs :=
    fun e => minNeg_noPanic (by omega) e
  refine ⟨?_, formsAll hw hl h2 he hy h hP oc⟩
  rw [I.overflowingRem, isDivOverflow_eq hw hl h2 he]
  simp only [decide_eq_true_eq]
  by_cases c : toInt x = -2 ^ (w * x.length - 1) ∧ toInt y = -1
  · rw [if_pos c]
    have hz := ofU8S (w := w) (N := x.length) (v := 0) (by omega) (by omega) (by positivity)
    have hd := C13_exact_cases (w := w) (by omega) x.length (X := (toInt x).natAbs)
      (Y := (toInt y).natAbs) (.inl (by rw [c.2]; exact Nat.one_lt_two_pow (by omega)))
    have hR0 : R = 0 := by rw [hR, hd.2, c.2, Int.tmod_neg, Int.tmod_one]; simp
    refine Yields.ok (hP c.2) ⟨⟨hz.1, by rw [hR0]; exact hz.2⟩, ?_⟩
    rw [eqMin_iff (by omega) (length_ne (n := 1) (by omega)) he]
    exact ⟨fun _ => c, fun _ => c.1⟩
  · rw [if_neg c]
    exact h.map fun v hv => ⟨hv, by simpa using c⟩

/-- C17, partial: every form of `div_rem`, for every non-zero divisor. -/
theorem C17_int_div_rem_all_partial {R : Int} (hR : R = (toInt x).tmod (toInt y) + (toInt x).sign *
      strayRem w x.length (toInt x).natAbs (toInt y).natAbs) (oc : Bool) :
    Yields (DivPanics w x.length (toInt x).natAbs (toInt y).natAbs)
      (fun p => OverS x.length ((toInt x).tdiv (toInt y)) (p.1.1, p.2) ∧ ExactS x.length R p.1.2)
      (I.overflowingDivRem x y) ∧
    Yields (DivPanics w x.length (toInt x).natAbs (toInt y).natAbs)
      (fun o => (toInt x = -2 ^ (w * x.length - 1) ∧ toInt y = -1 → o = none) ∧
        (¬ (toInt x = -2 ^ (w * x.length - 1) ∧ toInt y = -1) → ∃ v, o = some v ∧
          ExactS x.length ((toInt x).tdiv (toInt y)) v.1 ∧ ExactS x.length R v.2))
      (I.checkedDivRem x y) ∧
    Yields (DivPanics w x.length (toInt x).natAbs (toInt y).natAbs ∨
        oc = true ∧ toInt x = -2 ^ (w * x.length - 1) ∧ toInt y = -1)
      (fun v => WrapS x.length ((toInt x).tdiv (toInt y)) v.1 ∧ ExactS x.length R v.2)
      (I.divRem oc x y) := by
  have h := wrappingDivRemS' hw hl h2 he hy
  rw [← hR] at h
  have hx := toInt_InS x
  have hY := toInt_InS y
  rw [show bits x = w * x.length from rfl] at hx
  rw [show bits y = w * y.length from rfl, ← hl] at hY
  have hi := tdiv_InS (by positivity : 0 < w * x.length) hx hY
  have hP : toInt y = -1 → ¬ DivPanics w x.length (toInt x).natAbs (toInt y).natAbs :=
    fun e => minNeg_noPanic (by omega) e
  obtain ⟨h1, -, h3⟩ := formsAll hw hl h2 he hy h hP oc
  refine ⟨?_, h1.mono fun o ho => ⟨ho.1, fun c => ?_⟩, h3⟩
  · rw [I.overflowingDivRem, isDivOverflow_eq hw hl h2 he]
    simp only [decide_eq_true_eq]
    by_cases c : toInt x = -2 ^ (w * x.length - 1) ∧ toInt y = -1
    · rw [if_pos c]
      obtain ⟨⟨v, f⟩, eo, ho, -⟩ := (C17_int_overflowing_div hw hl h2 he hy).2 (hP c.2)
      rw [I.overflowingDiv, isDivOverflow_eq hw hl h2 he, if_pos (by simpa using c)] at eo
      cases eo
      have hz := ofU8S (w := w) (N := x.length) (v := 0) (by omega) (by omega) (by positivity)
      have hd := C13_exact_cases (w := w) (by omega) x.length (X := (toInt x).natAbs)
        (Y := (toInt y).natAbs) (.inl (by rw [c.2]; exact Nat.one_lt_two_pow (by omega)))
      have hR0 : R = 0 := by rw [hR, hd.2, c.2, Int.tmod_neg, Int.tmod_one]; simp
      exact Yields.ok (hP c.2) ⟨ho, hz.1, by rw [hR0]; exact hz.2⟩
    · rw [if_neg c]
      exact h.map fun v hv => ⟨⟨hv.1, by simpa using hi.2 c⟩, hv.2⟩
  · obtain ⟨v, e, hq, hr⟩ := ho.2 c
    exact ⟨v, e, hq.exact (hi.2 c), hr⟩

/-- C18, partial: every form of the Euclidean quotient, for every non-zero divisor: `Q` is the quotient
that the code computes.  The full claim, with `x / y` for `Q`, is false (`C18_int_euclid_false`). -/
theorem C18_int_div_euclid_all_partial {Q : Int}
    (hQ : Q = if toInt x < 0 ∧ toInt y ∣ toInt x ∧
          strayRem w x.length (toInt x).natAbs (toInt y).natAbs ≠ 0
        then toInt x / toInt y - (toInt y).sign else toInt x / toInt y) (oc : Bool) :
    Yields (DivPanics w x.length (toInt x).natAbs (toInt y).natAbs)
      (fun p => WrapS x.length Q p.1 ∧
        (p.2 = true ↔ toInt x = -2 ^ (w * x.length - 1) ∧ toInt y = -1))
      (I.overflowingDivEuclid x y) ∧
    Yields (DivPanics w x.length (toInt x).natAbs (toInt y).natAbs)
      (fun o => (toInt x = -2 ^ (w * x.length - 1) ∧ toInt y = -1 → o = none) ∧
        (¬ (toInt x = -2 ^ (w * x.length - 1) ∧ toInt y = -1) → ∃ v, o = some v ∧
          WrapS x.length Q v)) (I.checkedDivEuclid x y) ∧
    Yields (DivPanics w x.length (toInt x).natAbs (toInt y).natAbs ∨
        toInt x = -2 ^ (w * x.length - 1) ∧ toInt y = -1) (WrapS x.length Q) (I.strictDivEuclid x y) ∧
    Yields (DivPanics w x.length (toInt x).natAbs (toInt y).natAbs ∨
        oc = true ∧ toInt x = -2 ^ (w * x.length - 1) ∧ toInt y = -1) (WrapS x.length Q)
      (I.divEuclid oc x y) := by
  have h := wrappingDivEuclidS hw hl h2 he hy
  rw [← hQ] at h
  have hP : toInt y = -1 → ¬ DivPanics w x.length (toInt x).natAbs (toInt y).natAbs :=
    fun e => minNeg_noPanic (by omega) e
  refine ⟨?_, formsAll hw hl h2 he hy h hP oc⟩
  by_cases c : toInt x = -2 ^ (w * x.length - 1) ∧ toInt y = -1
  · have hd := C13_exact_cases (w := w) (by omega) x.length (X := (toInt x).natAbs)
      (Y := (toInt y).natAbs) (.inl (by rw [c.2]; exact Nat.one_lt_two_pow (by omega)))
    have hQ0 : Q = toInt x / toInt y := by rw [hQ, hd.2]; simp
    obtain ⟨-, ⟨r, e, hr⟩, -⟩ := C18_int_div_euclid_partial hw hl h2 he hy hd oc
    rw [e]
    rw [I.overflowingDivEuclid, isDivOverflow_eq hw hl h2 he, if_pos (by simpa using c)] at e
    cases e
    exact Yields.ok (hP c.2) ⟨by rw [hQ0]; exact hr.1, by simpa using c⟩
  · rw [I.overflowingDivEuclid, isDivOverflow_eq hw hl h2 he, if_neg (by simpa using c)]
    exact h.map fun v hv => ⟨hv, by simpa using c⟩

/-- C18, partial: every form of the Euclidean remainder, for every non-zero divisor: `R` is the
remainder that the code computes.  The full claim, with `x % y` for `R`, is false
(`C18_int_euclid_false`). -/
theorem C18_int_rem_euclid_all_partial {R : Int}
    (hR : R = toInt x % toInt y +
        (toInt x).sign * strayRem w x.length (toInt x).natAbs (toInt y).natAbs +
        if toInt x < 0 ∧ toInt y ∣ toInt x ∧
          strayRem w x.length (toInt x).natAbs (toInt y).natAbs ≠ 0 then |toInt y| else 0)
    (oc : Bool) :
    Yields (DivPanics w x.length (toInt x).natAbs (toInt y).natAbs)
      (fun p => ExactS x.length R p.1 ∧
        (p.2 = true ↔ toInt x = -2 ^ (w * x.length - 1) ∧ toInt y = -1))
      (I.overflowingRemEuclid x y) ∧
    Yields (DivPanics w x.length (toInt x).natAbs (toInt y).natAbs)
      (fun o => (toInt x = -2 ^ (w * x.length - 1) ∧ toInt y = -1 → o = none) ∧
        (¬ (toInt x = -2 ^ (w * x.length - 1) ∧ toInt y = -1) → ∃ v, o = some v ∧
          ExactS x.length R v)) (I.checkedRemEuclid x y) ∧
    Yields (DivPanics w x.length (toInt x).natAbs (toInt y).natAbs ∨
        toInt x = -2 ^ (w * x.length - 1) ∧ toInt y = -1) (ExactS x.length R)
      (I.strictRemEuclid x y) ∧
    Yields (DivPanics w x.length (toInt x).natAbs (toInt y).natAbs ∨
        oc = true ∧ toInt x = -2 ^ (w * x.length - 1) ∧ toInt y = -1) (ExactS x.length R)
      (I.remEuclid oc x y) := by
  have h := wrappingRemEuclidS hw hl h2 he hy
  rw [← hR] at h
  have hP : toInt y = -1 → ¬ DivPanics w x.length (toInt x).natAbs (toInt y).natAbs :=
    fun e => minNeg_noPanic (by omega) e
  refine ⟨?_, formsAll hw hl h2 he hy h hP oc⟩
  by_cases c : toInt x = -2 ^ (w * x.length - 1) ∧ toInt y = -1
  · have hd := C13_exact_cases (w := w) (by omega) x.length (X := (toInt x).natAbs)
      (Y := (toInt y).natAbs) (.inl (by rw [c.2]; exact Nat.one_lt_two_pow (by omega)))
    have hR0 : R = toInt x % toInt y := by rw [hR, hd.2]; simp
    obtain ⟨-, ⟨v, f, e, hv, hf⟩, -⟩ := C18_int_rem_euclid_partial hw hl h2 he hy hd oc
    rw [e]
    exact Yields.ok (hP c.2) ⟨by rw [hR0]; exact hv, hf⟩
  · rw [I.overflowingRemEuclid, isDivOverflow_eq hw hl h2 he, if_neg (by simpa using c)]
    exact h.map fun v hv => ⟨hv, by simpa using c⟩

end

example := C17_int_rem_all_partial (x := n2) (y := d2) (by decide) (by decide) (by decide) (by decide)
  (by decide) rfl true
example := C17_int_div_rem_all_partial (x := top) (y := ones) (by decide) (by decide) (by decide)
  (by decide) (by decide) rfl true
example : I.checkedDivRem top ones = .ok none ∧ I.divRem true top ones = .panic ∧
    I.divRem false top ones = .ok (top, zero) ∧
    I.checkedRem n2 d2 = .ok (some [0xfffffffffffffffe, 0xffffffffffffffff, 0x5fffffffffffffff, 0]) := by
  decide +kernel
example := C18_int_div_euclid_all_partial (x := mult1n) (y := e1) (by decide) (by decide) (by decide)
  (by decide) (by decide) rfl true
example := C18_int_rem_euclid_all_partial (x := mult1n) (y := e1) (by decide) (by decide) (by decide)
  (by decide) (by decide) rfl true
/-- An exact negative multiple: the quotient is one too small and the remainder negative. -/
example : I.checkedDivEuclid mult1n e1 = .ok (some [0, 1, 0xffffffffffffffff, 0xffffffffffffffff]) ∧
    I.checkedRemEuclid mult1n e1 =
      .ok (some [0xffffffffffffffff, 0x4000000000000000, 0x8000000000000000, 0xffffffffffffffff]) := by
  decide +kernel

end I256
