import Verif.Props.Widen
import Verif.Props.LimbSizeDiv

/-!
# Types of different widths (C99): division

`x`, `y` are operands of one type and `x'`, `y'` the same numbers in a type with at least as many bits.
The theorems are partial because long division does not always panic alike, or leave the same remainder,
in the two types.  `C99_same_limb` says exactly when it does for types with limbs of the same size.
-/

namespace I256

open Sample

variable {w v : Nat} {x y : Limbs w} {x' y' : Limbs v}

section unsigned

variable (hx : WidenU x x') (hy : WidenU y y') (hl : x.length = y.length) (hl' : x'.length = y'.length)
  (h0 : toNat y ≠ 0)
include hx hy hl hl' h0

/-- C99 (partial): every form of the unsigned quotient agrees iff long division panics alike in both
types. Full statement: they always agree; it is false (`C99_uint_div_false`). -/
theorem C99_uint_div_partial (oc : Bool) :
    (∀ p ∈ [(U.wrappingDiv x y, U.wrappingDiv x' y'), (U.wrappingDivEuclid x y, U.wrappingDivEuclid x' y'),
        (U.saturatingDiv x y, U.saturatingDiv x' y'), (U.divFloor x y, U.divFloor x' y'),
        (U.strictDiv x y, U.strictDiv x' y'), (U.strictDivEuclid x y, U.strictDivEuclid x' y'),
        (U.div oc x y, U.div oc x' y'), (U.divEuclid oc x y, U.divEuclid oc x' y')],
      SameRes EqU p.1 p.2 ↔ PanicsAlike w x.length v x'.length (toNat x) (toNat y)) ∧
    (∀ p ∈ [(U.overflowingDiv x y, U.overflowingDiv x' y'),
        (U.overflowingDivEuclid x y, U.overflowingDivEuclid x' y')],
      SameRes (SameFlagBy EqU) p.1 p.2 ↔ PanicsAlike w x.length v x'.length (toNat x) (toNat y)) ∧
    (∀ p ∈ [(U.checkedDiv x y, U.checkedDiv x' y'), (U.checkedDivEuclid x y, U.checkedDivEuclid x' y')],
      SameRes (SameOptBy EqU) p.1 p.2 ↔ PanicsAlike w x.length v x'.length (toNat x) (toNat y)) := by
  have h0' : toNat y' ≠ 0 := hy.value ▸ h0
  have ez : (toNat x / toNat y : Int) = toNat x' / toNat y' := by rw [hx.value, hy.value]
  have a := C12_uint_div hx.l.pos hl hx.l.two hx.l.even h0 oc
  have b := C12_uint_div hx.r.pos hl' hx.r.two hx.r.even h0' oc
  have c := C12_uint_overflowing_div hx.l.pos hl hx.l.two hx.l.even h0
  have d := C12_uint_overflowing_div hx.r.pos hl' hx.r.two hx.r.even h0'
  have f := C12_uint_checked_div hx.l.pos hl hx.l.two hx.l.even h0
  have g := C12_uint_checked_div hx.r.pos hl' hx.r.two hx.r.even h0'
  have q : ∀ (s : Limbs w) (t : Limbs v), ExactU x.length (toNat x / toNat y) s →
      ExactU x'.length (toNat x' / toNat y') t → EqU s t := fun _ _ h h' => Widen.exactU h h' ez
  simp only [List.mem_cons, List.not_mem_nil, or_false, forall_eq_or_imp, forall_eq] at a b c d f g ⊢
  obtain ⟨a1, a2, a3, a4, a5, a6, a7, a8⟩ := a
  obtain ⟨b1, b2, b3, b4, b5, b6, b7, b8⟩ := b
  have eX := hx.value
  have eY := hy.value
  refine ⟨⟨Same.panicsAlike a1 b1 eX eY q, Same.panicsAlike a2 b2 eX eY q,
    Same.panicsAlike a3 b3 eX eY q, Same.panicsAlike a4 b4 eX eY q, Same.panicsAlike a5 b5 eX eY q,
    Same.panicsAlike a6 b6 eX eY q, Same.panicsAlike a7 b7 eX eY q, Same.panicsAlike a8 b8 eX eY q⟩,
    ⟨Same.panicsAlike c.1 d.1 eX eY ?_, Same.panicsAlike c.2 d.2 eX eY ?_⟩,
    ⟨Same.panicsAlike f.1 g.1 eX eY ?_, Same.panicsAlike f.2 g.2 eX eY ?_⟩⟩
  · exact fun s t h h' => ⟨q _ _ h.1 h'.1, h.2.trans h'.2.symm⟩
  · exact fun s t h h' => ⟨q _ _ h.1 h'.1, h.2.trans h'.2.symm⟩
  · rintro _ _ ⟨s, rfl, hs⟩ ⟨t, rfl, ht⟩
    exact q _ _ hs ht
  · rintro _ _ ⟨s, rfl, hs⟩ ⟨t, rfl, ht⟩
    exact q _ _ hs ht

/-- C99 (partial): every form of the unsigned remainder, and of quotient with remainder, agrees iff long
division panics alike in both types and leaves the same remainder. Full statement: they always agree;
it is false (`C99_uint_rem_false`). -/
theorem C99_uint_rem_partial (oc : Bool) :
    (∀ p ∈ [(U.wrappingRem x y, U.wrappingRem x' y'), (U.wrappingRemEuclid x y, U.wrappingRemEuclid x' y'),
        (U.strictRem x y, U.strictRem x' y'), (U.strictRemEuclid x y, U.strictRemEuclid x' y'),
        (U.rem oc x y, U.rem oc x' y'), (U.remEuclid oc x y, U.remEuclid oc x' y')],
      SameRes EqU p.1 p.2 ↔ DividesAlike w x.length v x'.length (toNat x) (toNat y)) ∧
    (∀ p ∈ [(U.overflowingRem x y, U.overflowingRem x' y'),
        (U.overflowingRemEuclid x y, U.overflowingRemEuclid x' y')],
      SameRes (SameFlagBy EqU) p.1 p.2 ↔ DividesAlike w x.length v x'.length (toNat x) (toNat y)) ∧
    (∀ p ∈ [(U.checkedRem x y, U.checkedRem x' y'), (U.checkedRemEuclid x y, U.checkedRemEuclid x' y')],
      SameRes (SameOptBy EqU) p.1 p.2 ↔ DividesAlike w x.length v x'.length (toNat x) (toNat y)) ∧
    (∀ p ∈ [(U.wrappingDivRem x y, U.wrappingDivRem x' y'), (U.divRem oc x y, U.divRem oc x' y')],
      SameRes EqPairU p.1 p.2 ↔ DividesAlike w x.length v x'.length (toNat x) (toNat y)) ∧
    (SameRes (SameOptBy EqPairU) (U.checkedDivRem x y) (U.checkedDivRem x' y') ↔
      DividesAlike w x.length v x'.length (toNat x) (toNat y)) ∧
    (SameRes (SameFlagBy EqPairU) (U.overflowingDivRem x y) (U.overflowingDivRem x' y') ↔
      DividesAlike w x.length v x'.length (toNat x) (toNat y)) := by
  have h0' : toNat y' ≠ 0 := hy.value ▸ h0
  have eX := hx.value
  have eY := hy.value
  have a := C13_uint_rem_partial hx.l.pos hl hx.l.two hx.l.even h0 oc
  have b := C13_uint_rem_partial hx.r.pos hl' hx.r.two hx.r.even h0' oc
  have c := C13_uint_rem_forms_partial hx.l.pos hl hx.l.two hx.l.even h0 oc
  have d := C13_uint_rem_forms_partial hx.r.pos hl' hx.r.two hx.r.even h0' oc
  have f := C12_uint_div_rem hx.l.pos hl hx.l.two hx.l.even h0 oc
  have g := C12_uint_div_rem hx.r.pos hl' hx.r.two hx.r.even h0' oc
  have ez : (toNat x / toNat y : Int) = toNat x' / toNat y' := by rw [hx.value, hy.value]
  have q : ∀ (s : Limbs w) (t : Limbs v), ExactU x.length (toNat x / toNat y) s →
      ExactU x'.length (toNat x' / toNat y') t → EqU s t := fun _ _ h h' => Widen.exactU h h' ez
  have r : ∀ (s : Limbs w) (t : Limbs v),
      ExactU x.length (toNat x % toNat y + strayRem w x.length (toNat x) (toNat y)) s →
      ExactU x'.length (toNat x' % toNat y' + strayRem v x'.length (toNat x') (toNat y')) t →
      (EqU s t ↔ strayRem w x.length (toNat x) (toNat y) =
        strayRem v x'.length (toNat x') (toNat y')) := fun _ _ h h' => by
    have h1 := h.2
    have h2 := h'.2
    rw [← hx.value, ← hy.value] at h2 ⊢
    unfold EqU
    omega
  simp only [List.mem_cons, List.not_mem_nil, or_false, forall_eq_or_imp, forall_eq] at a b c d f g ⊢
  obtain ⟨a1, a2, a3, a4, a5, a6⟩ := a
  obtain ⟨b1, b2, b3, b4, b5, b6⟩ := b
  obtain ⟨⟨c1, c2⟩, ⟨c3, c4⟩, ⟨c5, c6⟩, c7, c8⟩ := c
  obtain ⟨⟨d1, d2⟩, ⟨d3, d4⟩, ⟨d5, d6⟩, d7, d8⟩ := d
  obtain ⟨⟨f1, f2⟩, f3, f4⟩ := f
  obtain ⟨⟨g1, g2⟩, g3, g4⟩ := g
  refine ⟨⟨Same.dividesAlike a1 b1 eX eY r, Same.dividesAlike a2 b2 eX eY r,
    Same.dividesAlike a3 b3 eX eY r, Same.dividesAlike a4 b4 eX eY r, Same.dividesAlike a5 b5 eX eY r,
    Same.dividesAlike a6 b6 eX eY r⟩,
    ⟨Same.dividesAlike c1 d1 eX eY ?_, Same.dividesAlike c2 d2 eX eY ?_⟩,
    ⟨Same.dividesAlike c3 d3 eX eY ?_, Same.dividesAlike c4 d4 eX eY ?_⟩,
    ⟨Same.dividesAlike (c5.and f1) (d5.and g1) eX eY ?_, Same.dividesAlike (c6.and f2) (d6.and g2) eX eY ?_⟩,
    Same.dividesAlike (c7.and f4) (d7.and g4) eX eY ?_, Same.dividesAlike (c8.and f3) (d8.and g3) eX eY ?_⟩
  · exact fun s t h h' => (and_iff_left (h.2.trans h'.2.symm)).trans (r _ _ h.1 h'.1)
  · exact fun s t h h' => (and_iff_left (h.2.trans h'.2.symm)).trans (r _ _ h.1 h'.1)
  · rintro _ _ ⟨s, rfl, hs⟩ ⟨t, rfl, ht⟩
    exact r _ _ hs ht
  · rintro _ _ ⟨s, rfl, hs⟩ ⟨t, rfl, ht⟩
    exact r _ _ hs ht
  · exact fun s t h h' => (and_iff_right (q _ _ h.2 h'.2)).trans (r _ _ h.1 h'.1)
  · exact fun s t h h' => (and_iff_right (q _ _ h.2 h'.2)).trans (r _ _ h.1 h'.1)
  · rintro _ _ ⟨⟨s, rfl, hs⟩, _, es, hs'⟩ ⟨⟨t, rfl, ht⟩, _, et, ht'⟩
    cases es
    cases et
    exact (and_iff_right (q _ _ hs' ht')).trans (r _ _ hs ht)
  · exact fun s t h h' => (and_iff_left (h.1.2.trans h'.1.2.symm)).trans
      ((and_iff_right (q _ _ h.2.1 h'.2.1)).trans (r _ _ h.1.1 h'.1.1))

/-- C99 (partial): the quotient rounded up and the test of divisibility agree iff long division panics
alike and, where the division is exact, spoils the remainder in both types or in neither. Full
statement: they always agree; it is false. -/
theorem C99_uint_div_ceil_partial :
    (SameRes EqU (U.divCeil x y) (U.divCeil x' y') ↔
      SpoilsAlike w x.length v x'.length (toNat x) (toNat y) (toNat y ∣ toNat x)) ∧
    (SameRes Eq (U.isMultipleOf x y) (U.isMultipleOf x' y') ↔
      SpoilsAlike w x.length v x'.length (toNat x) (toNat y) (toNat y ∣ toNat x)) := by
  have h0' : toNat y' ≠ 0 := hy.value ▸ h0
  have eX := hx.value
  have eY := hy.value
  refine ⟨Same.spoilsAlike (C19_uint_div_ceil_partial hx.l.pos hl hx.l.two hx.l.even h0)
      (C19_uint_div_ceil_partial hx.r.pos hl' hx.r.two hx.r.even h0') eX eY fun s t h h' => ?_,
    Same.spoilsAlike (C34_uint_is_multiple_of_partial hx.l.pos hl hx.l.two hx.l.even)
      (C34_uint_is_multiple_of_partial hx.r.pos hl' hx.r.two hx.r.even) eX eY fun s t h h' => ?_⟩
  · have e : EqU s t ↔ (toNat s : Int) = toNat t := by rw [EqU]; omega
    rw [e, h.2, h'.2, ← hx.value, ← hy.value]
    by_cases h1 : strayRem w x.length (toNat x) (toNat y) = 0 <;>
      by_cases h2 : strayRem v x'.length (toNat x) (toNat y) = 0 <;>
      by_cases h3 : toNat y ∣ toNat x <;> simp [h1, h2, h3]
  · rw [← hx.value, ← hy.value] at h' ⊢
    rw [Bool.eq_iff_iff, h, h']
    by_cases h1 : strayRem w x.length (toNat x) (toNat y) = 0 <;>
      by_cases h2 : strayRem v x'.length (toNat x) (toNat y) = 0 <;>
      by_cases h3 : toNat y ∣ toNat x <;> simp [h1, h2, h3]

end unsigned

example := C99_uint_div_partial wide_max wide_b rfl rfl (by decide) true
example := C99_uint_rem_partial wide_max wide_b rfl rfl (by decide) true
example := C99_uint_div_ceil_partial wide_max wide_b rfl rfl (by decide)

/-! ### Signed -/

section signed

variable (hx : WidenS x x') (hy : WidenS y y') (hl : x.length = y.length) (hl' : x'.length = y'.length)
  (h0 : toInt y ≠ 0)
include hx hy hl hl' h0

/-- C99 (partial): the forms of the signed quotient, rounded towards zero, that do not panic on overflow
agree, up to the narrow range, iff long division panics alike in both types. Full statement: they always
agree; it is false, as for unsigned numbers. -/
theorem C99_int_div_partial :
    (SameRes Cuts (I.wrappingDiv x y) (I.wrappingDiv x' y') ↔
      PanicsAlike w x.length v x'.length (toInt x).natAbs (toInt y).natAbs) ∧
    (SameRes (NarrowFlag (FitsS (bits x))) (I.overflowingDiv x y) (I.overflowingDiv x' y') ↔
      PanicsAlike w x.length v x'.length (toInt x).natAbs (toInt y).natAbs) ∧
    (SameRes (NarrowOpt EqS (FitsS (bits x))) (I.checkedDiv x y) (I.checkedDiv x' y') ↔
      PanicsAlike w x.length v x'.length (toInt x).natAbs (toInt y).natAbs) ∧
    (SameRes CapsS (I.saturatingDiv x y) (I.saturatingDiv x' y') ↔
      PanicsAlike w x.length v x'.length (toInt x).natAbs (toInt y).natAbs) := by
  have h0' : toInt y' ≠ 0 := hy.value ▸ h0
  have eX : (toInt x).natAbs = (toInt x').natAbs := by rw [hx.value]
  have eY : (toInt y).natAbs = (toInt y').natAbs := by rw [hy.value]
  have ez : (toInt x).tdiv (toInt y) = (toInt x').tdiv (toInt y') := by rw [hx.value, hy.value]
  exact ⟨Same.panicsAlike (C17_int_wrapping_div hx.l.one hl hx.l.two hx.l.even h0)
      (C17_int_wrapping_div hx.r.one hl' hx.r.two hx.r.even h0') eX eY fun _ _ h h' => Widen.wrapS hx.le h h' ez,
    Same.panicsAlike (C17_int_overflowing_div hx.l.one hl hx.l.two hx.l.even h0)
      (C17_int_overflowing_div hx.r.one hl' hx.r.two hx.r.even h0') eX eY
      fun _ _ h h' => Widen.overS hx.le h.1 h'.1 ez,
    Same.panicsAlike (C17_int_checked_div hx.l.one hl hx.l.two hx.l.even h0)
      (C17_int_checked_div hx.r.one hl' hx.r.two hx.r.even h0') eX eY
      fun _ _ h h' => Widen.checkS hx.le h.1 h'.1 ez,
    Same.panicsAlike (C17_int_saturating_div hx.l.one hl hx.l.two hx.l.even h0)
      (C17_int_saturating_div hx.r.one hl' hx.r.two hx.r.even h0') eX eY
      fun _ _ h h' => Widen.satS hx.le h h' ez⟩

/-- C99 (partial): the division operator and `strict_div`, where long division panics in neither type.
Full statement: the same without `hp` and `hp'`; it is false, as for unsigned numbers. -/
theorem C99_int_div_op_partial (hp : ¬ DivPanics w x.length (toInt x).natAbs (toInt y).natAbs)
    (hp' : ¬ DivPanics v x'.length (toInt x').natAbs (toInt y').natAbs) (oc : Bool) :
    NarrowRes EqS (FitsS (bits x)) (I.strictDiv x y) (I.strictDiv x' y') ∧
    NarrowOp oc EqS (FitsS (bits x)) (I.div oc x y) (I.div oc x' y') := by
  have h0' : toInt y' ≠ 0 := hy.value ▸ h0
  have ez : (toInt x).tdiv (toInt y) = (toInt x').tdiv (toInt y') := by rw [hx.value, hy.value]
  have a := (C17_int_div hx.l.one hl hx.l.two hx.l.even h0 oc).2 hp
  have b := (C17_int_div hx.r.one hl' hx.r.two hx.r.even h0' oc).2 hp'
  exact ⟨Widen.strictS hx.le a.2 b.2 ez, Widen.opS hx.le a.1 b.1 ez⟩

/-- C99 (partial): the signed remainder, and quotient with remainder, agree iff long division panics alike
in both types and leaves the same remainder. Full statement: they always agree; it is false, as for
unsigned numbers. -/
theorem C99_int_rem_partial :
    (SameRes EqS (I.wrappingRem x y) (I.wrappingRem x' y') ↔
      DividesAlike w x.length v x'.length (toInt x).natAbs (toInt y).natAbs) ∧
    (SameRes (fun a b => Cuts a.1 b.1 ∧ EqS a.2 b.2) (I.wrappingDivRem x y) (I.wrappingDivRem x' y') ↔
      DividesAlike w x.length v x'.length (toInt x).natAbs (toInt y).natAbs) := by
  have h0' : toInt y' ≠ 0 := hy.value ▸ h0
  have eX : (toInt x).natAbs = (toInt x').natAbs := by rw [hx.value]
  have eY : (toInt y).natAbs = (toInt y').natAbs := by rw [hy.value]
  have ez : (toInt x).tdiv (toInt y) = (toInt x').tdiv (toInt y') := by rw [hx.value, hy.value]
  obtain ⟨a1, a2⟩ := C17_int_rem_partial hx.l.one hl hx.l.two hx.l.even h0
  obtain ⟨b1, b2⟩ := C17_int_rem_partial hx.r.one hl' hx.r.two hx.r.even h0'
  have r : ∀ (s : Limbs w) (t : Limbs v),
      ExactS x.length ((toInt x).tmod (toInt y) + (toInt x).sign *
        strayRem w x.length (toInt x).natAbs (toInt y).natAbs) s →
      ExactS x'.length ((toInt x').tmod (toInt y') + (toInt x').sign *
        strayRem v x'.length (toInt x').natAbs (toInt y').natAbs) t →
      (EqS s t ↔ strayRem w x.length (toInt x).natAbs (toInt y).natAbs =
        strayRem v x'.length (toInt x').natAbs (toInt y').natAbs) := fun _ _ h h' => by
    rw [EqS, h.2, h'.2, ← hx.value, ← hy.value]
    rcases lt_trichotomy (toInt x) 0 with n | n | n
    · rw [Int.sign_eq_neg_one_of_neg n]
      omega
    · rw [n]
      simp [strayRem_zero]
    · rw [Int.sign_eq_one_of_pos n]
      omega
  exact ⟨Same.dividesAlike a1 b1 eX eY r, Same.dividesAlike a2 b2 eX eY fun s t h h' =>
    (and_iff_right (Widen.wrapS hx.le h.1 h'.1 ez)).trans (r _ _ h.2 h'.2)⟩

end signed

example := C99_int_div_partial wideS_b wideS_neg rfl rfl (by decide)
example := C99_int_div_op_partial wideS_b wideS_neg rfl rfl (by decide) (by decide +kernel) (by decide +kernel) true
example := C99_int_rem_partial wideS_b wideS_neg rfl rfl (by decide)
/-- The minimum divided by -1: overflow in the narrow type only. -/
example : I.checkedDiv (w := 64) top ones = .ok none ∧
    I.checkedDiv (w := 64) [0, 0, 0, 0x8000000000000000, -1, -1, -1, -1] neg512 =
      .ok (some [0, 0, 0, 0x8000000000000000, 0, 0, 0, 0]) := by decide +kernel

/-! ### Limbs of the same size -/

/-- C99 (partial): for types with limbs of the same size, of `N` and of more than `N` limbs. Long division
of `X` by `Y` panics alike iff it is not one by `N` significant limbs whose only estimate is wrong, and
it also leaves the same remainder iff the estimate of the digit at limb `N - nLimbs w Y` is right. (The
wider type never panics; where the narrow type drops the stray 1 of the topmost digit, the wider type
keeps it.) -/
theorem C99_same_limb_partial {N M X Y : Nat} (hw : 0 < w) (hNM : N < M) (hX : X < 2 ^ (w * N))
    (hY : Y < 2 ^ (w * N)) (h0 : Y ≠ 0) :
    ¬ DivPanics w M X Y ∧
    (PanicsAlike w N w M X Y ↔ ¬ (nLimbs w Y = N ∧ addBack w X Y 0 = true)) ∧
    (DividesAlike w N w M X Y ↔ addBack w X Y (N - nLimbs w Y) = false) := by
  have n : ∀ {Z : Nat}, Z < 2 ^ (w * N) → nLimbs w Z ≤ N := fun h => by
    have b := bitLen_le_of_lt h
    rw [nLimbs, ← Nat.lt_succ_iff, Nat.div_lt_iff_lt_mul hw, Nat.succ_mul, Nat.mul_comm N w]
    omega
  have nX := n hX
  have nY := n hY
  have wide : ¬ DivPanics w M X Y := fun h => by have := h.1; omega
  have top : ∀ j, N < j + nLimbs w Y → addBack w X Y j = false := by
    intro j hj
    rw [addBack, decide_eq_false (show ¬ j + nLimbs w Y ≤ nLimbs w X by omega)]
    simp
  have pa : PanicsAlike w N w M X Y ↔ ¬ (nLimbs w Y = N ∧ addBack w X Y 0 = true) := by
    rw [PanicsAlike, iff_false_intro wide, iff_false, DivPanics]
    refine not_congr (and_congr_right fun e => ⟨fun ⟨j, hj⟩ => ?_, fun h => ⟨0, h⟩⟩)
    rcases Nat.eq_zero_or_pos j with rfl | hp
    · exact hj
    · rw [top j (by omega)] at hj
      cases hj
  refine ⟨wide, pa, ?_⟩
  rw [DividesAlike, pa]
  by_cases e : nLimbs w Y = N
  · have hp : DivPanics w N X Y ↔ addBack w X Y 0 = true :=
      ⟨fun h => by
        by_contra c
        exact (iff_of_eq rfl |>.1 (pa.2 fun d => c d.2)).1 h |> wide, fun h => ⟨e, 0, h⟩⟩
    rw [e, Nat.sub_self, hp]
    cases hb : addBack w X Y 0
    · refine iff_of_true ⟨fun h => (Bool.false_ne_true h.2), fun _ => ?_⟩ rfl
      have f : ∀ k, flagNum w (addBack w X Y) k = 0 := by
        intro k
        induction k with
        | zero => rfl
        | succ k ih =>
          have : addBack w X Y k = false := by
            rcases Nat.eq_zero_or_pos k with rfl | hp
            · exact hb
            · exact top k (by omega)
          rw [flagNum, ih, this]
          rfl
      rw [strayRem, strayRem, f, f]
    · simp
  · have hp : ¬ DivPanics w N X Y := fun h => e h.1
    simp only [e, hp, false_and, not_false_eq_true, true_and, true_imp_iff]
    have f : ∀ d, flagNum w (addBack w X Y) (N - nLimbs w Y + (d + 1)) =
        flagNum w (addBack w X Y) (N - nLimbs w Y) +
          if addBack w X Y (N - nLimbs w Y) then 2 ^ (w * (N - nLimbs w Y)) else 0 := by
      intro d
      induction d with
      | zero => rw [flagNum]
      | succ d ih =>
        rw [← Nat.add_assoc, flagNum, ih, top (N - nLimbs w Y + (d + 1)) (by omega)]
        simp
    have g := f (M - N - 1)
    rw [show N - nLimbs w Y + (M - N - 1 + 1) = M - nLimbs w Y by omega] at g
    rw [strayRem, strayRem, g]
    have h1 := Nat.two_pow_pos (bitLen Y)
    have h2 := Nat.two_pow_pos (w * (N - nLimbs w Y))
    cases addBack w X Y (N - nLimbs w Y)
    · simp
    · simp only [if_true, Nat.mul_add]
      refine iff_of_false (fun h => ?_) (by simp)
      have := Nat.mul_pos h1 h2
      omega

example := C99_same_limb_partial (w := 64) (N := 4) (M := 8) (X := 3 * 2 ^ 189) (Y := 2 ^ 189 + 2 ^ 64)
  (by decide) (by decide) (by decide) (by decide) (by decide)

/-- C99: a quotient for which `U256` panics and `U512` returns. -/
theorem C99_uint_div_false : ∃ x y : Limbs 64, ∃ x' y' q : Limbs 64, WidenU x x' ∧ WidenU y y' ∧
    x.length = 4 ∧ y.length = 4 ∧ x'.length = 8 ∧ y'.length = 8 ∧ toNat y ≠ 0 ∧
    U.wrappingDiv x y = .panic ∧ U.wrappingDiv x' y' = .ok q ∧ toNat q = toNat x / toNat y :=
  ⟨[0, 0, 0, 0xC000000000000000], [1, 0, 0, 0x6000000000000000],
    [0, 0, 0, 0xC000000000000000, 0, 0, 0, 0], [1, 0, 0, 0x6000000000000000, 0, 0, 0, 0],
    [1, 0, 0, 0, 0, 0, 0, 0], by decide +kernel⟩

/-- C99: a remainder that `U256` computes correctly and `U512` does not. -/
theorem C99_uint_rem_false : ∃ x y r : Limbs 64, ∃ x' y' r' : Limbs 64, WidenU x x' ∧ WidenU y y' ∧
    x.length = 4 ∧ y.length = 4 ∧ x'.length = 8 ∧ y'.length = 8 ∧ toNat y ≠ 0 ∧
    U.wrappingRem x y = .ok r ∧ toNat r = toNat x % toNat y ∧
    U.wrappingRem x' y' = .ok r' ∧ toNat r' = toNat x % toNat y + 2 ^ 256 :=
  ⟨[0, 4, 1, 0x8000000000000000], [5, 1, 0x8000000000000000, 0], [5, 0, 0x8000000000000000, 0],
    [0, 4, 1, 0x8000000000000000, 0, 0, 0, 0], [5, 1, 0x8000000000000000, 0, 0, 0, 0, 0],
    [5, 0, 0x8000000000000000, 0, 1, 0, 0, 0],
    by decide +kernel⟩

end I256
