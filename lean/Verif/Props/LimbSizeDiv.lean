import Verif.Lemmas.SameDiv
import Verif.Props.DivForms
import Verif.Props.DivZero
import Verif.Props.LimbSizeText

/-!
# Limb size independence (C40): exactly when the divisions of the two builds agree

`x`, `y` are operands in one build and `x'`, `y'` the same operands in the other (`Twins`).  The
theorems are partial because the condition on the right-hand side does not always hold; the differences
are in `Props/LimbSizeText.lean`.
-/

namespace I256

open Sample

variable {w v : Nat} {x y : Limbs w} {x' y' : Limbs v}

/-! ### Unsigned -/

section unsigned

variable (hx : Twins x x') (hy : Twins y y') (hl : x.length = y.length) (h0 : toNat y ≠ 0)
include hx hy hl h0

/-- C40 (partial): every form of the unsigned quotient agrees iff long division panics alike in both
builds. Full statement: they always agree; it is false (`C40_uint_div_false`). -/
theorem C40_uint_div_alike_partial (oc : Bool) :
    (∀ p ∈ [(U.wrappingDiv x y, U.wrappingDiv x' y'), (U.wrappingDivEuclid x y, U.wrappingDivEuclid x' y'),
        (U.saturatingDiv x y, U.saturatingDiv x' y'), (U.divFloor x y, U.divFloor x' y'),
        (U.strictDiv x y, U.strictDiv x' y'), (U.strictDivEuclid x y, U.strictDivEuclid x' y'),
        (U.div oc x y, U.div oc x' y'), (U.divEuclid oc x y, U.divEuclid oc x' y')],
      SameRes Same p.1 p.2 ↔ PanicsAlike w x.length v x'.length (toNat x) (toNat y)) ∧
    (∀ p ∈ [(U.overflowingDiv x y, U.overflowingDiv x' y'),
        (U.overflowingDivEuclid x y, U.overflowingDivEuclid x' y')],
      SameRes SameFlag p.1 p.2 ↔ PanicsAlike w x.length v x'.length (toNat x) (toNat y)) ∧
    (∀ p ∈ [(U.checkedDiv x y, U.checkedDiv x' y'), (U.checkedDivEuclid x y, U.checkedDivEuclid x' y')],
      SameRes SameOpt p.1 p.2 ↔ PanicsAlike w x.length v x'.length (toNat x) (toNat y)) := by
  have gx := hx.symm
  have hl' := hx.len hy hl
  have h0' : toNat y' ≠ 0 := hy.value ▸ h0
  have e := hx.builds.width
  have ez : (toNat x / toNat y : Int) = toNat x' / toNat y' := by rw [hx.value, hy.value]
  have a := C12_uint_div hx.pos hl hx.two hx.even h0 oc
  have b := C12_uint_div gx.pos hl' gx.two gx.even h0' oc
  have c := C12_uint_overflowing_div hx.pos hl hx.two hx.even h0
  have d := C12_uint_overflowing_div gx.pos hl' gx.two gx.even h0'
  have f := C12_uint_checked_div hx.pos hl hx.two hx.even h0
  have g := C12_uint_checked_div gx.pos hl' gx.two gx.even h0'
  have q : ∀ (s : Limbs w) (t : Limbs v), ExactU x.length (toNat x / toNat y) s →
      ExactU x'.length (toNat x' / toNat y') t → Same s t := fun _ _ h h' => Same.exactU e h h' ez
  simp only [List.mem_cons, List.not_mem_nil, or_false, forall_eq_or_imp, forall_eq] at a b c d f g ⊢
  obtain ⟨a1, a2, a3, a4, a5, a6, a7, a8⟩ := a
  obtain ⟨b1, b2, b3, b4, b5, b6, b7, b8⟩ := b
  have eX := hx.value
  have eY := hy.value
  refine ⟨⟨Same.panicsAlike a1 b1 eX eY q, Same.panicsAlike a2 b2 eX eY q,
    Same.panicsAlike a3 b3 eX eY q, Same.panicsAlike a4 b4 eX eY q, Same.panicsAlike a5 b5 eX eY q,
    Same.panicsAlike a6 b6 eX eY q, Same.panicsAlike a7 b7 eX eY q, Same.panicsAlike a8 b8 eX eY q⟩,
    ⟨Same.panicsAlike c.1 d.1 eX eY ?_, Same.panicsAlike c.2 d.2 eX eY ?_⟩,
    ⟨Same.panicsAlike f.1 g.1 eX eY ?_, Same.panicsAlike f.2 g.2 eX eY ?_⟩⟩
  · exact fun s t h h' => ⟨q _ _ h.1 h'.1, h.2.trans h'.2.symm⟩
  · exact fun s t h h' => ⟨q _ _ h.1 h'.1, h.2.trans h'.2.symm⟩
  · rintro _ _ ⟨s, rfl, hs⟩ ⟨t, rfl, ht⟩
    exact q _ _ hs ht
  · rintro _ _ ⟨s, rfl, hs⟩ ⟨t, rfl, ht⟩
    exact q _ _ hs ht

/-- C40 (partial): every form of the unsigned remainder, and of quotient with remainder, agrees iff
long division panics alike in both builds and leaves the same remainder. Full statement: they always
agree; it is false (`C40_uint_rem_false`). -/
theorem C40_uint_rem_alike_partial (oc : Bool) :
    (∀ p ∈ [(U.wrappingRem x y, U.wrappingRem x' y'), (U.wrappingRemEuclid x y, U.wrappingRemEuclid x' y'),
        (U.strictRem x y, U.strictRem x' y'), (U.strictRemEuclid x y, U.strictRemEuclid x' y'),
        (U.rem oc x y, U.rem oc x' y'), (U.remEuclid oc x y, U.remEuclid oc x' y')],
      SameRes Same p.1 p.2 ↔ DividesAlike w x.length v x'.length (toNat x) (toNat y)) ∧
    (∀ p ∈ [(U.overflowingRem x y, U.overflowingRem x' y'),
        (U.overflowingRemEuclid x y, U.overflowingRemEuclid x' y')],
      SameRes SameFlag p.1 p.2 ↔ DividesAlike w x.length v x'.length (toNat x) (toNat y)) ∧
    (∀ p ∈ [(U.checkedRem x y, U.checkedRem x' y'), (U.checkedRemEuclid x y, U.checkedRemEuclid x' y')],
      SameRes SameOpt p.1 p.2 ↔ DividesAlike w x.length v x'.length (toNat x) (toNat y)) ∧
    (∀ p ∈ [(U.wrappingDivRem x y, U.wrappingDivRem x' y'), (U.divRem oc x y, U.divRem oc x' y')],
      SameRes SamePair p.1 p.2 ↔ DividesAlike w x.length v x'.length (toNat x) (toNat y)) ∧
    (SameRes (SameOptBy SamePair) (U.checkedDivRem x y) (U.checkedDivRem x' y') ↔
      DividesAlike w x.length v x'.length (toNat x) (toNat y)) ∧
    (SameRes (SameFlagBy SamePair) (U.overflowingDivRem x y) (U.overflowingDivRem x' y') ↔
      DividesAlike w x.length v x'.length (toNat x) (toNat y)) := by
  have gx := hx.symm
  have hl' := hx.len hy hl
  have h0' : toNat y' ≠ 0 := hy.value ▸ h0
  have e := hx.builds.width
  have eX := hx.value
  have eY := hy.value
  have a := C13_uint_rem_partial hx.pos hl hx.two hx.even h0 oc
  have b := C13_uint_rem_partial gx.pos hl' gx.two gx.even h0' oc
  have c := C13_uint_rem_forms_partial hx.pos hl hx.two hx.even h0 oc
  have d := C13_uint_rem_forms_partial gx.pos hl' gx.two gx.even h0' oc
  have f := C12_uint_div_rem hx.pos hl hx.two hx.even h0 oc
  have g := C12_uint_div_rem gx.pos hl' gx.two gx.even h0' oc
  have ez : (toNat x / toNat y : Int) = toNat x' / toNat y' := by rw [hx.value, hy.value]
  have q : ∀ (s : Limbs w) (t : Limbs v), ExactU x.length (toNat x / toNat y) s →
      ExactU x'.length (toNat x' / toNat y') t → Same s t := fun _ _ h h' => Same.exactU e h h' ez
  have r : ∀ (s : Limbs w) (t : Limbs v),
      ExactU x.length (toNat x % toNat y + strayRem w x.length (toNat x) (toNat y)) s →
      ExactU x'.length (toNat x' % toNat y' + strayRem v x'.length (toNat x') (toNat y')) t →
      (Same s t ↔ strayRem w x.length (toNat x) (toNat y) =
        strayRem v x'.length (toNat x') (toNat y')) := fun _ _ h h' => by
    rw [Same.exactU_iff e h h', ← hx.value, ← hy.value]
    omega
  simp only [List.mem_cons, List.not_mem_nil, or_false, forall_eq_or_imp, forall_eq] at a b c d f g ⊢
  obtain ⟨a1, a2, a3, a4, a5, a6⟩ := a
  obtain ⟨b1, b2, b3, b4, b5, b6⟩ := b
  obtain ⟨⟨c1, c2⟩, ⟨c3, c4⟩, ⟨c5, c6⟩, c7, c8⟩ := c
  obtain ⟨⟨d1, d2⟩, ⟨d3, d4⟩, ⟨d5, d6⟩, d7, d8⟩ := d
  obtain ⟨⟨f1, f2⟩, f3, f4⟩ := f
  obtain ⟨⟨g1, g2⟩, g3, g4⟩ := g
  refine ⟨⟨Same.dividesAlike a1 b1 eX eY r, Same.dividesAlike a2 b2 eX eY r,
    Same.dividesAlike a3 b3 eX eY r, Same.dividesAlike a4 b4 eX eY r, Same.dividesAlike a5 b5 eX eY r,
    Same.dividesAlike a6 b6 eX eY r⟩,
    ⟨Same.dividesAlike c1 d1 eX eY ?_, Same.dividesAlike c2 d2 eX eY ?_⟩,
    ⟨Same.dividesAlike c3 d3 eX eY ?_, Same.dividesAlike c4 d4 eX eY ?_⟩,
    ⟨Same.dividesAlike (c5.and f1) (d5.and g1) eX eY ?_, Same.dividesAlike (c6.and f2) (d6.and g2) eX eY ?_⟩,
    Same.dividesAlike (c7.and f4) (d7.and g4) eX eY ?_, Same.dividesAlike (c8.and f3) (d8.and g3) eX eY ?_⟩
  · exact fun s t h h' => (and_iff_left (h.2.trans h'.2.symm)).trans (r _ _ h.1 h'.1)
  · exact fun s t h h' => (and_iff_left (h.2.trans h'.2.symm)).trans (r _ _ h.1 h'.1)
  · rintro _ _ ⟨s, rfl, hs⟩ ⟨t, rfl, ht⟩
    exact r _ _ hs ht
  · rintro _ _ ⟨s, rfl, hs⟩ ⟨t, rfl, ht⟩
    exact r _ _ hs ht
  · exact fun s t h h' => (and_iff_right (q _ _ h.2 h'.2)).trans (r _ _ h.1 h'.1)
  · exact fun s t h h' => (and_iff_right (q _ _ h.2 h'.2)).trans (r _ _ h.1 h'.1)
  · rintro _ _ ⟨⟨s, rfl, hs⟩, _, es, hs'⟩ ⟨⟨t, rfl, ht⟩, _, et, ht'⟩
    cases es
    cases et
    exact (and_iff_right (q _ _ hs' ht')).trans (r _ _ hs ht)
  · exact fun s t h h' => (and_iff_left (h.1.2.trans h'.1.2.symm)).trans
      ((and_iff_right (q _ _ h.2.1 h'.2.1)).trans (r _ _ h.1.1 h'.1.1))

/-- C40 (partial): the quotient rounded up and the test of divisibility agree iff long division panics
alike and, where the division is exact, spoils the remainder in both builds or in neither. Full
statement: they always agree; it is false. -/
theorem C40_uint_div_ceil_alike_partial :
    (SameRes Same (U.divCeil x y) (U.divCeil x' y') ↔
      SpoilsAlike w x.length v x'.length (toNat x) (toNat y) (toNat y ∣ toNat x)) ∧
    (SameRes Eq (U.isMultipleOf x y) (U.isMultipleOf x' y') ↔
      SpoilsAlike w x.length v x'.length (toNat x) (toNat y) (toNat y ∣ toNat x)) := by
  have gx := hx.symm
  have hl' := hx.len hy hl
  have h0' : toNat y' ≠ 0 := hy.value ▸ h0
  have e := hx.builds.width
  have eX := hx.value
  have eY := hy.value
  refine ⟨Same.spoilsAlike (C19_uint_div_ceil_partial hx.pos hl hx.two hx.even h0)
      (C19_uint_div_ceil_partial gx.pos hl' gx.two gx.even h0') eX eY fun s t h h' => ?_,
    Same.spoilsAlike (C34_uint_is_multiple_of_partial hx.pos hl hx.two hx.even)
      (C34_uint_is_multiple_of_partial gx.pos hl' gx.two gx.even) eX eY fun s t h h' => ?_⟩
  · rw [Same.exactU_iff e h h', ← hx.value, ← hy.value]
    by_cases h1 : strayRem w x.length (toNat x) (toNat y) = 0 <;>
      by_cases h2 : strayRem v x'.length (toNat x) (toNat y) = 0 <;>
      by_cases h3 : toNat y ∣ toNat x <;> simp [h1, h2, h3]
  · rw [← hx.value, ← hy.value] at h' ⊢
    rw [Bool.eq_iff_iff, h, h']
    by_cases h1 : strayRem w x.length (toNat x) (toNat y) = 0 <;>
      by_cases h2 : strayRem v x'.length (toNat x) (toNat y) = 0 <;>
      by_cases h3 : toNat y ∣ toNat x <;> simp [h1, h2, h3]

/-- C40 (partial): the next multiple agrees if long division panics alike in both builds and leaves the
same remainder. Full statement: it always agrees; it is false (`C40_uint_next_multiple_false`). -/
theorem C40_uint_next_multiple_partial
    (hd : DividesAlike w x.length v x'.length (toNat x) (toNat y)) (oc : Bool) :
    SameRes SameOpt (U.checkedNextMultipleOf x y) (U.checkedNextMultipleOf x' y') ∧
    SameRes Same (U.nextMultipleOf oc x y) (U.nextMultipleOf oc x' y') := by
  have gx := hx.symm
  have hl' := hx.len hy hl
  have h0' : toNat y' ≠ 0 := hy.value ▸ h0
  have e := hx.builds.width
  obtain ⟨a1, a2⟩ := C34_uint_next_multiple_of_all_partial hx.pos hl hx.two hx.even h0 rfl oc
  obtain ⟨b1, b2⟩ := C34_uint_next_multiple_of_all_partial gx.pos hl' gx.two gx.even h0' rfl oc
  rw [← hx.value, ← hy.value] at b1 b2
  have hp : DivPanics w x.length (toNat x) (toNat y) ↔ DivPanics v x'.length (toNat x) (toNat y) := hd.1
  by_cases p : DivPanics w x.length (toNat x) (toNat y)
  · rw [a1.1 p, b1.1 (hp.1 p), a2.1 (.inl p), b2.1 (.inl (hp.1 p))]
    exact ⟨trivial, trivial⟩
  · rw [← hd.2 p, ← e] at b1 b2
    exact ⟨Same.yields_same a1 b1 hp fun _ _ _ h h' => Same.checkU e h h' rfl,
      Same.yields_same a2 b2 (or_congr hp Iff.rfl) fun _ _ _ h h' => Same.wrapU e h h' rfl⟩

end unsigned

example := C40_uint_div_alike_partial twins_ones twins_b rfl (by decide) true
example := C40_uint_rem_alike_partial twins_ones twins_b rfl (by decide) true
example := C40_uint_div_ceil_alike_partial twins_ones twins_b rfl (by decide)
example := C40_uint_next_multiple_partial twins_ones twins_b rfl (by decide) (by decide +kernel) true
/-- All three outcomes occur: both builds alike, one build panics, one build spoils the remainder. -/
example : DividesAlike 32 8 64 4 (2 ^ 256 - 1) (2 ^ 253 + 2 ^ 128) ∧
    ¬ PanicsAlike 32 8 64 4 (3 * 2 ^ 253) (2 ^ 253 + 2 ^ 128) ∧
    PanicsAlike 32 8 64 4 (3 * 2 ^ 189) (2 ^ 189 + 2 ^ 64) ∧
    ¬ DividesAlike 32 8 64 4 (3 * 2 ^ 189) (2 ^ 189 + 2 ^ 64) := by decide +kernel

/-! ### Signed -/

/-- Where the quotient overflows, both builds divide exactly. -/
private theorem overflow_exact (hx : Twins x x') (hy : Twins y y')
    (h : toInt x = -2 ^ (w * x.length - 1) ∧ toInt y = -1) :
    DivExact w x.length (toInt x).natAbs (toInt y).natAbs ∧
    DivExact v x'.length (toInt x').natAbs (toInt y').natAbs := by
  have hw := hx.one
  have hv := hx.symm.one
  have h1 : 2 ≤ 2 ^ w := Nat.pow_le_pow_right (n := 2) (by decide) (by omega : 1 ≤ w)
  have h2 : 2 ≤ 2 ^ v := Nat.pow_le_pow_right (n := 2) (by decide) (by omega : 1 ≤ v)
  rw [← hy.int, h.2]
  exact ⟨C13_exact_cases hx.pos _ (.inl (by change 1 < _; omega)),
    C13_exact_cases hx.symm.pos _ (.inl (by change 1 < _; omega))⟩

section signed

variable (hx : Twins x x') (hy : Twins y y') (hl : x.length = y.length) (h0 : toInt y ≠ 0)
include hx hy hl h0

/-- C40 (partial): every form of the signed quotient rounded towards zero agrees iff long division
panics alike in both builds. Full statement: they always agree; it is false, as for unsigned numbers. -/
theorem C40_int_div_alike_partial (oc : Bool) :
    (∀ p ∈ [(I.wrappingDiv x y, I.wrappingDiv x' y'), (I.saturatingDiv x y, I.saturatingDiv x' y'),
        (I.strictDiv x y, I.strictDiv x' y'), (I.div oc x y, I.div oc x' y')],
      SameRes Same p.1 p.2 ↔ PanicsAlike w x.length v x'.length (toInt x).natAbs (toInt y).natAbs) ∧
    (SameRes SameFlag (I.overflowingDiv x y) (I.overflowingDiv x' y') ↔
      PanicsAlike w x.length v x'.length (toInt x).natAbs (toInt y).natAbs) ∧
    (SameRes SameOpt (I.checkedDiv x y) (I.checkedDiv x' y') ↔
      PanicsAlike w x.length v x'.length (toInt x).natAbs (toInt y).natAbs) := by
  have gx := hx.symm
  have hl' := hx.len hy hl
  have h0' : toInt y' ≠ 0 := hy.int ▸ h0
  have e := hx.builds.width
  have eX : (toInt x).natAbs = (toInt x').natAbs := by rw [hx.int]
  have eY : (toInt y).natAbs = (toInt y').natAbs := by rw [hy.int]
  have ez : (toInt x).tdiv (toInt y) = (toInt x').tdiv (toInt y') := by rw [hx.int, hy.int]
  have a := C17_int_div hx.one hl hx.two hx.even h0 oc
  have b := C17_int_div gx.one hl' gx.two gx.even h0' oc
  have z : (SameRes Same (I.strictDiv x y) (I.strictDiv x' y') ↔ PanicsAlike w x.length v x'.length (toInt x).natAbs (toInt y).natAbs) ∧
      (SameRes Same (I.div oc x y) (I.div oc x' y') ↔ PanicsAlike w x.length v x'.length (toInt x).natAbs (toInt y).natAbs) := by
    have hX := toInt_InS x
    have hY := toInt_InS y
    rw [show bits x = w * x.length from rfl] at hX
    rw [show bits y = w * y.length from rfl, ← hl] at hY
    have hd := tdiv_InS (by have := hx.builds.large; omega : 0 < w * x.length) hX hY
    have ho : ¬ InS (w * x.length) ((toInt x).tdiv (toInt y)) → _ := fun h =>
      overflow_exact hx hy (by rw [hd] at h; exact not_not.1 h)
    have eo : ¬ InS (w * x.length) ((toInt x).tdiv (toInt y)) ↔
        ¬ InS (v * x'.length) ((toInt x').tdiv (toInt y')) := by rw [ez, e]
    refine ⟨Same.panicsAlike_or (strict_yields (fun h => (a.1 h).2) (fun h => (a.2 h).2))
      (strict_yields (fun h => (b.1 h).2) (fun h => (b.2 h).2)) eX eY eo ho
      fun s t h h' => Same.exactS e h h' ez,
      Same.panicsAlike_or (op_yields (fun h => (a.1 h).1) (fun h => (a.2 h).1))
      (op_yields (fun h => (b.1 h).1) (fun h => (b.2 h).1)) eX eY
      (and_congr_right fun _ => eo) (fun h => ho h.2) fun s t h h' => ?_⟩
    cases oc
    · exact Same.wrapS e (h.2 rfl) (h'.2 rfl) ez
    · exact Same.exactS e (h.1 rfl) (h'.1 rfl) ez
  simp only [List.mem_cons, List.not_mem_nil, or_false, forall_eq_or_imp, forall_eq]
  exact ⟨⟨Same.panicsAlike (C17_int_wrapping_div hx.one hl hx.two hx.even h0)
      (C17_int_wrapping_div gx.one hl' gx.two gx.even h0') eX eY fun _ _ h h' => Same.wrapS e h h' ez,
    Same.panicsAlike (C17_int_saturating_div hx.one hl hx.two hx.even h0)
      (C17_int_saturating_div gx.one hl' gx.two gx.even h0') eX eY fun _ _ h h' => Same.satS e h h' ez,
    z.1, z.2⟩,
    Same.panicsAlike (C17_int_overflowing_div hx.one hl hx.two hx.even h0)
      (C17_int_overflowing_div gx.one hl' gx.two gx.even h0') eX eY
      fun _ _ h h' => Same.overS e h.1 h'.1 ez,
    Same.panicsAlike (C17_int_checked_div hx.one hl hx.two hx.even h0)
      (C17_int_checked_div gx.one hl' gx.two gx.even h0') eX eY
      fun _ _ h h' => Same.checkS e h.1 h'.1 ez⟩

/-- C40 (partial): every form of the signed remainder, and of quotient with remainder, agrees iff long
division panics alike in both builds and leaves the same remainder. Full statement: they always agree;
it is false, as for unsigned numbers. -/
theorem C40_int_rem_alike_partial (oc : Bool) :
    (∀ p ∈ [(I.wrappingRem x y, I.wrappingRem x' y'), (I.strictRem x y, I.strictRem x' y'),
        (I.rem oc x y, I.rem oc x' y')],
      SameRes Same p.1 p.2 ↔ DividesAlike w x.length v x'.length (toInt x).natAbs (toInt y).natAbs) ∧
    (SameRes SameFlag (I.overflowingRem x y) (I.overflowingRem x' y') ↔
      DividesAlike w x.length v x'.length (toInt x).natAbs (toInt y).natAbs) ∧
    (SameRes SameOpt (I.checkedRem x y) (I.checkedRem x' y') ↔
      DividesAlike w x.length v x'.length (toInt x).natAbs (toInt y).natAbs) ∧
    (∀ p ∈ [(I.wrappingDivRem x y, I.wrappingDivRem x' y'), (I.divRem oc x y, I.divRem oc x' y')],
      SameRes SamePair p.1 p.2 ↔ DividesAlike w x.length v x'.length (toInt x).natAbs (toInt y).natAbs) ∧
    (SameRes (SameFlagBy SamePair) (I.overflowingDivRem x y) (I.overflowingDivRem x' y') ↔
      DividesAlike w x.length v x'.length (toInt x).natAbs (toInt y).natAbs) ∧
    (SameRes (SameOptBy SamePair) (I.checkedDivRem x y) (I.checkedDivRem x' y') ↔
      DividesAlike w x.length v x'.length (toInt x).natAbs (toInt y).natAbs) := by
  have gx := hx.symm
  have hl' := hx.len hy hl
  have h0' : toInt y' ≠ 0 := hy.int ▸ h0
  have e := hx.builds.width
  have eX : (toInt x).natAbs = (toInt x').natAbs := by rw [hx.int]
  have eY : (toInt y).natAbs = (toInt y').natAbs := by rw [hy.int]
  have eo : (toInt x = -2 ^ (w * x.length - 1) ∧ toInt y = -1) ↔
      (toInt x' = -2 ^ (v * x'.length - 1) ∧ toInt y' = -1) := by rw [hx.int, hy.int, e]
  have ho := overflow_exact hx hy
  obtain ⟨a1, a2⟩ := C17_int_rem_partial hx.one hl hx.two hx.even h0
  obtain ⟨b1, b2⟩ := C17_int_rem_partial gx.one hl' gx.two gx.even h0'
  obtain ⟨c1, c2, c3, c4⟩ := C17_int_rem_all_partial hx.one hl hx.two hx.even h0 rfl oc
  obtain ⟨d1, d2, d3, d4⟩ := C17_int_rem_all_partial gx.one hl' gx.two gx.even h0' rfl oc
  obtain ⟨f1, f2, f3⟩ := C17_int_div_rem_all_partial hx.one hl hx.two hx.even h0 rfl oc
  obtain ⟨g1, g2, g3⟩ := C17_int_div_rem_all_partial gx.one hl' gx.two gx.even h0' rfl oc
  have ez : (toInt x).tdiv (toInt y) = (toInt x').tdiv (toInt y') := by rw [hx.int, hy.int]
  have r : ∀ (s : Limbs w) (t : Limbs v),
      ExactS x.length ((toInt x).tmod (toInt y) + (toInt x).sign *
        strayRem w x.length (toInt x).natAbs (toInt y).natAbs) s →
      ExactS x'.length ((toInt x').tmod (toInt y') + (toInt x').sign *
        strayRem v x'.length (toInt x').natAbs (toInt y').natAbs) t →
      (Same s t ↔ strayRem w x.length (toInt x).natAbs (toInt y).natAbs =
        strayRem v x'.length (toInt x').natAbs (toInt y').natAbs) := fun _ _ h h' => by
    rw [Same.exactS_iff e h h', ← hx.int, ← hy.int]
    rcases lt_trichotomy (toInt x) 0 with n | n | n
    · rw [Int.sign_eq_neg_one_of_neg n]
      omega
    · rw [n]
      simp [strayRem_zero]
    · rw [Int.sign_eq_one_of_pos n]
      omega
  have oc2 : (oc = true ∧ toInt x = -2 ^ (w * x.length - 1) ∧ toInt y = -1) ↔
      (oc = true ∧ toInt x' = -2 ^ (v * x'.length - 1) ∧ toInt y' = -1) := and_congr_right fun _ => eo
  simp only [List.mem_cons, List.not_mem_nil, or_false, forall_eq_or_imp, forall_eq]
  refine ⟨⟨Same.dividesAlike a1 b1 eX eY r, Same.dividesAlike_or c3 d3 eX eY eo ho r,
    Same.dividesAlike_or c4 d4 eX eY oc2 (fun h => ho h.2) r⟩, Same.dividesAlike c1 d1 eX eY ?_,
    Same.dividesAlike c2 d2 eX eY ?_,
    ⟨Same.dividesAlike a2 b2 eX eY ?_, Same.dividesAlike_or f3 g3 eX eY oc2 (fun h => ho h.2) ?_⟩,
    Same.dividesAlike f1 g1 eX eY ?_, Same.dividesAlike f2 g2 eX eY ?_⟩
  · exact fun s t h h' => (and_iff_left (Bool.eq_iff_iff.2 (h.2.trans (eo.trans h'.2.symm)))).trans
      (r _ _ h.1 h'.1)
  · intro s t h h'
    by_cases o : toInt x = -2 ^ (w * x.length - 1) ∧ toInt y = -1
    · rw [h.1 o, h'.1 (eo.1 o), (ho o).1.2, (ho o).2.2]
      simp [SameOpt]
    · obtain ⟨s, rfl, hs⟩ := h.2 o
      obtain ⟨t, rfl, ht⟩ := h'.2 fun h => o (eo.2 h)
      exact r _ _ hs ht
  · exact fun s t h h' => (and_iff_right (Same.wrapS e h.1 h'.1 ez)).trans (r _ _ h.2 h'.2)
  · exact fun s t h h' => (and_iff_right (Same.wrapS e h.1 h'.1 ez)).trans (r _ _ h.2 h'.2)
  · intro s t h h'
    have q := Same.overS e h.1 h'.1 ez
    exact (and_iff_left q.2).trans ((and_iff_right q.1).trans (r _ _ h.2 h'.2))
  · intro s t h h'
    by_cases o : toInt x = -2 ^ (w * x.length - 1) ∧ toInt y = -1
    · rw [h.1 o, h'.1 (eo.1 o), (ho o).1.2, (ho o).2.2]
      simp [SameOptBy]
    · obtain ⟨s, rfl, hs⟩ := h.2 o
      obtain ⟨t, rfl, ht⟩ := h'.2 fun h => o (eo.2 h)
      exact (and_iff_right (Same.exactS e hs.1 ht.1 ez)).trans (r _ _ hs.2 ht.2)

/-- C40 (partial): every form of the Euclidean quotient agrees iff long division panics alike and, for
exact divisions of negative numbers, spoils the remainder in both builds or in neither. Full statement:
they always agree; it is false, as for unsigned numbers. -/
theorem C40_int_div_euclid_alike_partial (oc : Bool) :
    (∀ p ∈ [(I.wrappingDivEuclid x y, I.wrappingDivEuclid x' y'),
        (I.strictDivEuclid x y, I.strictDivEuclid x' y'), (I.divEuclid oc x y, I.divEuclid oc x' y')],
      SameRes Same p.1 p.2 ↔ SpoilsAlike w x.length v x'.length (toInt x).natAbs (toInt y).natAbs
        (toInt x < 0 ∧ toInt y ∣ toInt x)) ∧
    (SameRes SameFlag (I.overflowingDivEuclid x y) (I.overflowingDivEuclid x' y') ↔
      SpoilsAlike w x.length v x'.length (toInt x).natAbs (toInt y).natAbs
        (toInt x < 0 ∧ toInt y ∣ toInt x)) ∧
    (SameRes SameOpt (I.checkedDivEuclid x y) (I.checkedDivEuclid x' y') ↔
      SpoilsAlike w x.length v x'.length (toInt x).natAbs (toInt y).natAbs
        (toInt x < 0 ∧ toInt y ∣ toInt x)) := by
  have gx := hx.symm
  have hl' := hx.len hy hl
  have h0' : toInt y' ≠ 0 := hy.int ▸ h0
  have e := hx.builds.width
  have eX : (toInt x).natAbs = (toInt x').natAbs := by rw [hx.int]
  have eY : (toInt y).natAbs = (toInt y').natAbs := by rw [hy.int]
  have eo : (toInt x = -2 ^ (w * x.length - 1) ∧ toInt y = -1) ↔
      (toInt x' = -2 ^ (v * x'.length - 1) ∧ toInt y' = -1) := by rw [hx.int, hy.int, e]
  have ho := overflow_exact hx hy
  obtain ⟨a1, -⟩ := C18_int_wrapping_euclid_partial hx.one hl hx.two hx.even h0
  obtain ⟨b1, -⟩ := C18_int_wrapping_euclid_partial gx.one hl' gx.two gx.even h0'
  obtain ⟨c1, c2, c3, c4⟩ := C18_int_div_euclid_all_partial hx.one hl hx.two hx.even h0 rfl oc
  obtain ⟨d1, d2, d3, d4⟩ := C18_int_div_euclid_all_partial gx.one hl' gx.two gx.even h0' rfl oc
  have oc2 : (oc = true ∧ toInt x = -2 ^ (w * x.length - 1) ∧ toInt y = -1) ↔
      (oc = true ∧ toInt x' = -2 ^ (v * x'.length - 1) ∧ toInt y' = -1) := and_congr_right fun _ => eo
  have hsg : (toInt y).sign = 1 ∨ (toInt y).sign = -1 := by
    rcases lt_or_gt_of_ne h0 with n | n
    · exact .inr (Int.sign_eq_neg_one_of_neg n)
    · exact .inl (Int.sign_eq_one_of_pos n)
  have hb : 1 ≤ w * x.length := le_trans (by decide) hx.builds.large
  have r : ∀ (s : Limbs w) (t : Limbs v),
      WrapS x.length (if toInt x < 0 ∧ toInt y ∣ toInt x ∧
        strayRem w x.length (toInt x).natAbs (toInt y).natAbs ≠ 0
        then toInt x / toInt y - (toInt y).sign else toInt x / toInt y) s →
      WrapS x'.length (if toInt x' < 0 ∧ toInt y' ∣ toInt x' ∧
        strayRem v x'.length (toInt x').natAbs (toInt y').natAbs ≠ 0
        then toInt x' / toInt y' - (toInt y').sign else toInt x' / toInt y') t →
      (Same s t ↔ (toInt x < 0 ∧ toInt y ∣ toInt x →
        (strayRem w x.length (toInt x).natAbs (toInt y).natAbs = 0 ↔
        strayRem v x'.length (toInt x').natAbs (toInt y').natAbs = 0))) := fun s t h h' => by
    rw [← hx.int, ← hy.int] at h' ⊢
    rw [Same.wrapS_near e hb h h' (by rcases hsg with g | g <;> rw [g] <;> split_ifs <;> simp)]
    generalize toInt x / toInt y = q
    by_cases h1 : strayRem w x.length (toInt x).natAbs (toInt y).natAbs = 0 <;>
      by_cases h2 : strayRem v x'.length (toInt x).natAbs (toInt y).natAbs = 0 <;>
      by_cases h3 : toInt x < 0 <;> by_cases h4 : toInt y ∣ toInt x <;>
      rcases hsg with g | g <;> simp [h1, h2, h3, h4, g] <;> omega
  simp only [List.mem_cons, List.not_mem_nil, or_false, forall_eq_or_imp, forall_eq]
  refine ⟨⟨Same.spoilsAlike a1 b1 eX eY r, Same.spoilsAlike_or c3 d3 eX eY eo ho r,
    Same.spoilsAlike_or c4 d4 eX eY oc2 (fun h => ho h.2) r⟩, Same.spoilsAlike c1 d1 eX eY ?_,
    Same.spoilsAlike c2 d2 eX eY ?_⟩
  · exact fun s t h h' => (and_iff_left (Bool.eq_iff_iff.2 (h.2.trans (eo.trans h'.2.symm)))).trans
      (r _ _ h.1 h'.1)
  · intro s t h h'
    by_cases o : toInt x = -2 ^ (w * x.length - 1) ∧ toInt y = -1
    · rw [h.1 o, h'.1 (eo.1 o), (ho o).1.2, (ho o).2.2]
      simp [SameOpt]
    · obtain ⟨s, rfl, hs⟩ := h.2 o
      obtain ⟨t, rfl, ht⟩ := h'.2 fun h => o (eo.2 h)
      exact r _ _ hs ht

/-- C40 (partial): every form of the Euclidean remainder agrees iff long division panics alike in both
builds and leaves the same remainder. Full statement: they always agree; it is false, as for unsigned
numbers. -/
theorem C40_int_rem_euclid_alike_partial (oc : Bool) :
    (∀ p ∈ [(I.wrappingRemEuclid x y, I.wrappingRemEuclid x' y'),
        (I.strictRemEuclid x y, I.strictRemEuclid x' y'), (I.remEuclid oc x y, I.remEuclid oc x' y')],
      SameRes Same p.1 p.2 ↔ DividesAlike w x.length v x'.length (toInt x).natAbs (toInt y).natAbs) ∧
    (SameRes SameFlag (I.overflowingRemEuclid x y) (I.overflowingRemEuclid x' y') ↔
      DividesAlike w x.length v x'.length (toInt x).natAbs (toInt y).natAbs) ∧
    (SameRes SameOpt (I.checkedRemEuclid x y) (I.checkedRemEuclid x' y') ↔
      DividesAlike w x.length v x'.length (toInt x).natAbs (toInt y).natAbs) := by
  have gx := hx.symm
  have hl' := hx.len hy hl
  have h0' : toInt y' ≠ 0 := hy.int ▸ h0
  have e := hx.builds.width
  have eX : (toInt x).natAbs = (toInt x').natAbs := by rw [hx.int]
  have eY : (toInt y).natAbs = (toInt y').natAbs := by rw [hy.int]
  have eo : (toInt x = -2 ^ (w * x.length - 1) ∧ toInt y = -1) ↔
      (toInt x' = -2 ^ (v * x'.length - 1) ∧ toInt y' = -1) := by rw [hx.int, hy.int, e]
  have ho := overflow_exact hx hy
  obtain ⟨-, a1⟩ := C18_int_wrapping_euclid_partial hx.one hl hx.two hx.even h0
  obtain ⟨-, b1⟩ := C18_int_wrapping_euclid_partial gx.one hl' gx.two gx.even h0'
  obtain ⟨c1, c2, c3, c4⟩ := C18_int_rem_euclid_all_partial hx.one hl hx.two hx.even h0 rfl oc
  obtain ⟨d1, d2, d3, d4⟩ := C18_int_rem_euclid_all_partial gx.one hl' gx.two gx.even h0' rfl oc
  have oc2 : (oc = true ∧ toInt x = -2 ^ (w * x.length - 1) ∧ toInt y = -1) ↔
      (oc = true ∧ toInt x' = -2 ^ (v * x'.length - 1) ∧ toInt y' = -1) := and_congr_right fun _ => eo
  have r : ∀ (s : Limbs w) (t : Limbs v),
      ExactS x.length (toInt x % toInt y + (toInt x).sign *
        strayRem w x.length (toInt x).natAbs (toInt y).natAbs + if toInt x < 0 ∧ toInt y ∣ toInt x ∧
        strayRem w x.length (toInt x).natAbs (toInt y).natAbs ≠ 0 then |toInt y| else 0) s →
      ExactS x'.length (toInt x' % toInt y' + (toInt x').sign *
        strayRem v x'.length (toInt x').natAbs (toInt y').natAbs +
        if toInt x' < 0 ∧ toInt y' ∣ toInt x' ∧
        strayRem v x'.length (toInt x').natAbs (toInt y').natAbs ≠ 0 then |toInt y'| else 0) t →
      (Same s t ↔ strayRem w x.length (toInt x).natAbs (toInt y).natAbs =
        strayRem v x'.length (toInt x').natAbs (toInt y').natAbs) := fun _ _ h h' => by
    rw [Same.exactS_iff e h h', ← hx.int, ← hy.int]
    have l1 := strayRem_zero_or_gt w x.length (toInt x).natAbs (toInt y).natAbs
    have l2 := strayRem_zero_or_gt v x'.length (toInt x).natAbs (toInt y).natAbs
    rw [Int.abs_eq_natAbs]
    rcases lt_trichotomy (toInt x) 0 with n | n | n
    · rw [Int.sign_eq_neg_one_of_neg n]
      split_ifs <;> omega
    · rw [n]
      simp [strayRem_zero]
    · rw [Int.sign_eq_one_of_pos n]
      split_ifs <;> omega
  simp only [List.mem_cons, List.not_mem_nil, or_false, forall_eq_or_imp, forall_eq]
  refine ⟨⟨Same.dividesAlike a1 b1 eX eY r, Same.dividesAlike_or c3 d3 eX eY eo ho r,
    Same.dividesAlike_or c4 d4 eX eY oc2 (fun h => ho h.2) r⟩, Same.dividesAlike c1 d1 eX eY ?_,
    Same.dividesAlike c2 d2 eX eY ?_⟩
  · exact fun s t h h' => (and_iff_left (Bool.eq_iff_iff.2 (h.2.trans (eo.trans h'.2.symm)))).trans
      (r _ _ h.1 h'.1)
  · intro s t h h'
    by_cases o : toInt x = -2 ^ (w * x.length - 1) ∧ toInt y = -1
    · rw [h.1 o, h'.1 (eo.1 o), (ho o).1.2, (ho o).2.2]
      simp [SameOpt]
    · obtain ⟨s, rfl, hs⟩ := h.2 o
      obtain ⟨t, rfl, ht⟩ := h'.2 fun h => o (eo.2 h)
      exact r _ _ hs ht

/-- C40 (partial): the signed quotients rounded down and up agree iff long division panics alike and,
for exact divisions with a negative (positive) quotient, spoils the remainder in both builds or in
neither. Full statement: they always agree; it is false, as for unsigned numbers. -/
theorem C40_int_div_round_alike_partial (oc : Bool) :
    (SameRes Same (I.divFloor x y) (I.divFloor x' y') ↔
      SpoilsAlike w x.length v x'.length (toInt x).natAbs (toInt y).natAbs
        (toInt y ∣ toInt x ∧ ¬ (toInt x < 0 ↔ toInt y < 0))) ∧
    (SameRes Same (I.divCeil oc x y) (I.divCeil oc x' y') ↔
      SpoilsAlike w x.length v x'.length (toInt x).natAbs (toInt y).natAbs
        (toInt y ∣ toInt x ∧ (toInt x < 0 ↔ toInt y < 0))) := by
  have gx := hx.symm
  have hl' := hx.len hy hl
  have h0' : toInt y' ≠ 0 := hy.int ▸ h0
  have e := hx.builds.width
  have eX : (toInt x).natAbs = (toInt x').natAbs := by rw [hx.int]
  have eY : (toInt y).natAbs = (toInt y').natAbs := by rw [hy.int]
  have hb : 1 ≤ w * x.length := le_trans (by decide) hx.builds.large
  obtain ⟨k, hk⟩ := hx.builds.pow
  obtain ⟨k', hk'⟩ := gx.builds.pow
  refine ⟨Same.spoilsAlike (C19_int_div_floor_partial hx.one hl hx.two hx.even h0)
      (C19_int_div_floor_partial gx.one hl' gx.two gx.even h0') eX eY fun s t h h' => ?_,
    Same.spoilsAlike (C19_int_div_ceil_partial hx.one hl hx.two hx.even h0 hk hx.builds.small oc)
      (C19_int_div_ceil_partial gx.one hl' gx.two gx.even h0' hk' gx.builds.small oc) eX eY
      fun s t h h' => ?_⟩
  all_goals
    rw [← hx.int, ← hy.int] at h' ⊢
    rw [Same.wrapS_near e hb h h' (by split_ifs <;> simp)]
    generalize strayRem w x.length (toInt x).natAbs (toInt y).natAbs = s1
    generalize strayRem v x'.length (toInt x).natAbs (toInt y).natAbs = s2
    by_cases h1 : s1 = 0 <;> by_cases h2 : s2 = 0 <;> by_cases h3 : toInt y ∣ toInt x <;>
      by_cases h4 : (toInt x < 0 ↔ toInt y < 0) <;> simp [h1, h2, h3, h4] <;> omega

/-- C40 (partial): the next multiple of signed numbers agrees if long division panics alike in both
builds and leaves the same remainder. Full statement: it always agrees; it is false, as for unsigned
numbers. -/
theorem C40_int_next_multiple_partial
    (hd : DividesAlike w x.length v x'.length (toInt x).natAbs (toInt y).natAbs) (oc : Bool) :
    SameRes SameOpt (I.checkedNextMultipleOf oc x y) (I.checkedNextMultipleOf oc x' y') ∧
    SameRes Same (I.nextMultipleOf oc x y) (I.nextMultipleOf oc x' y') := by
  have gx := hx.symm
  have hl' := hx.len hy hl
  have h0' : toInt y' ≠ 0 := hy.int ▸ h0
  have e := hx.builds.width
  by_cases h1 : toInt y = -1
  · obtain ⟨a1, a2⟩ := C34_int_next_multiple_of_partial hx.one hl hx.two hx.even h0 hx.four (.inl h1) oc
    obtain ⟨b1, b2⟩ := C34_int_next_multiple_of_partial gx.one hl' gx.two gx.even h0' gx.four
      (.inl (hy.int ▸ h1)) oc
    rw [← hx.int, ← hy.int] at b1 b2
    exact ⟨Same.ok a2 b2 fun _ _ h h' => Same.checkS e h h' rfl, Same.opS e a1 b1 rfl⟩
  obtain ⟨a1, a2⟩ := C34_int_next_multiple_of_all_partial hx.one hl hx.four hx.even h0 h1 rfl rfl oc
  obtain ⟨b1, b2⟩ := C34_int_next_multiple_of_all_partial gx.one hl' gx.four gx.even h0'
    (hy.int ▸ h1) rfl rfl oc
  rw [← hx.int, ← hy.int] at b1 b2
  have hp : DivPanics w x.length (toInt x).natAbs (toInt y).natAbs ↔
      DivPanics v x'.length (toInt x).natAbs (toInt y).natAbs := hd.1
  by_cases p : DivPanics w x.length (toInt x).natAbs (toInt y).natAbs
  · rw [a1.1 (.inl p), b1.1 (.inl (hp.1 p)), a2.1 (.inl p), b2.1 (.inl (hp.1 p))]
    exact ⟨trivial, trivial⟩
  · rw [← hd.2 p, ← e] at b1 b2
    exact ⟨Same.yields_same a1 b1 (or_congr hp Iff.rfl) fun _ _ _ h h' => Same.checkS e h h' rfl,
      Same.yields_same a2 b2 (or_congr hp Iff.rfl) fun _ _ _ h h' => Same.wrapS e h h' rfl⟩

end signed

example := C40_int_div_alike_partial twins_b twins_ones rfl (by decide) true
example := C40_int_rem_alike_partial twins_b twins_ones rfl (by decide) true
example := C40_int_div_euclid_alike_partial twins_b twins_ones rfl (by decide) true
example := C40_int_rem_euclid_alike_partial twins_b twins_ones rfl (by decide) true
example := C40_int_div_round_alike_partial twins_b twins_ones rfl (by decide) true
example := C40_int_next_multiple_partial twins_b twins_ones rfl (by decide) (by decide +kernel) true

/-- C40 is false for the next multiple, here of `2^189 + 2^64` after `3 * 2^189`: the 32-bit build
returns a smaller number, or panics if overflow is checked. -/
theorem C40_uint_next_multiple_false : ∃ (x y r : Limbs 32) (x' y' r' : Limbs 64), Twins x x' ∧
    Twins y y' ∧ x.length = y.length ∧ U.nextMultipleOf false x y = .ok r ∧
    U.nextMultipleOf false x' y' = .ok r' ∧ toNat r ≠ toNat r' ∧
    U.nextMultipleOf true x y = .panic ∧ U.nextMultipleOf true x' y' = .ok r' :=
  ⟨[0, 0, 0, 0, 0, 0x60000000, 0, 0], [0, 0, 0x1, 0, 0, 0x20000000, 0, 0],
    [0, 0, 0x3, 0, 0, 0x20000000, 0, 0], [0, 0, 0x6000000000000000, 0],
    [0, 0x1, 0x2000000000000000, 0], [0, 0x3, 0x6000000000000000, 0], by decide +kernel⟩

/-! ### Division by zero -/

/-- C40: division of unsigned numbers by zero, in all forms. -/
theorem C40_uint_div_zero (hx : Twins x x') (hy : Twins y y') (hl : x.length = y.length)
    (h0 : toNat y = 0) (oc : Bool) :
    (∀ p ∈ [(U.wrappingDiv x y, U.wrappingDiv x' y'),
        (U.wrappingDivEuclid x y, U.wrappingDivEuclid x' y'),
        (U.saturatingDiv x y, U.saturatingDiv x' y'),
        (U.divFloor x y, U.divFloor x' y'),
        (U.divCeil x y, U.divCeil x' y'),
        (U.wrappingRem x y, U.wrappingRem x' y'),
        (U.wrappingRemEuclid x y, U.wrappingRemEuclid x' y'),
        (U.div oc x y, U.div oc x' y'),
        (U.divEuclid oc x y, U.divEuclid oc x' y'),
        (U.rem oc x y, U.rem oc x' y'),
        (U.remEuclid oc x y, U.remEuclid oc x' y'),
        (U.strictDiv x y, U.strictDiv x' y'),
        (U.strictDivEuclid x y, U.strictDivEuclid x' y'),
        (U.strictRem x y, U.strictRem x' y'),
        (U.strictRemEuclid x y, U.strictRemEuclid x' y')],
      SameRes Same p.1 p.2) ∧
    (∀ p ∈ [(U.overflowingDiv x y, U.overflowingDiv x' y'), (U.overflowingDivEuclid x y, U.overflowingDivEuclid x' y'),
        (U.overflowingRem x y, U.overflowingRem x' y'), (U.overflowingRemEuclid x y, U.overflowingRemEuclid x' y')],
      SameRes SameFlag p.1 p.2) ∧
    (∀ p ∈ [(U.checkedDiv x y, U.checkedDiv x' y'), (U.checkedDivEuclid x y, U.checkedDivEuclid x' y'),
        (U.checkedRem x y, U.checkedRem x' y'), (U.checkedRemEuclid x y, U.checkedRemEuclid x' y')],
      SameRes SameOpt p.1 p.2) ∧
    (∀ p ∈ [(U.wrappingDivRem x y, U.wrappingDivRem x' y'), (U.divRem oc x y, U.divRem oc x' y')], SameRes SamePair p.1 p.2) ∧
    SameRes (SameOptBy SamePair) (U.checkedDivRem x y) (U.checkedDivRem x' y') ∧
    SameRes (SameFlagBy SamePair) (U.overflowingDivRem x y) (U.overflowingDivRem x' y') ∧
    SameRes Same (U.nextMultipleOf oc x y) (U.nextMultipleOf oc x' y') ∧
    SameRes SameOpt (U.checkedNextMultipleOf x y) (U.checkedNextMultipleOf x' y') ∧
    SameRes Eq (U.isMultipleOf x y) (U.isMultipleOf x' y') := by
  have gx := hx.symm
  have hl' := hx.len hy hl
  have h0' : toNat y' = 0 := hy.value ▸ h0
  have e := hx.builds.width
  have ep : toNat x ≠ 0 ↔ toNat x' ≠ 0 := by rw [hx.value]
  have a := C15_uint_div_zero_all_partial hx.pos hl hx.two hx.even h0
  have b := C15_uint_div_zero_all_partial gx.pos hl' gx.two gx.even h0'
  have c := (C15_uint_div_zero_partial hx.pos hl hx.two hx.even h0).2
  have d := (C15_uint_div_zero_partial gx.pos hl' gx.two gx.even h0').2
  simp only [List.mem_cons, List.not_mem_nil, or_false, forall_eq_or_imp, forall_eq] at a b c d ⊢
  obtain ⟨⟨aq0, aq1, aq2, aq3, aq4, aq5, aq6⟩, ⟨ar0, ar1, ar2, ar3⟩, ⟨ap0, ap1⟩, ⟨ao0, ao1⟩, ⟨as0, as1⟩, at0, an, am⟩ := a
  obtain ⟨⟨bq0, bq1, bq2, bq3, bq4, bq5, bq6⟩, ⟨br0, br1, br2, br3⟩, ⟨bp0, bp1⟩, ⟨bo0, bo1⟩, ⟨bs0, bs1⟩, bt0, bn, bm⟩ := b
  obtain ⟨⟨ck0, ck1, ck2, ck3⟩, ⟨cf0, cf1, cf2, cf3, cf4, cf5, cf6, cf7⟩, cg, ch, ci⟩ := c
  obtain ⟨⟨dk0, dk1, dk2, dk3⟩, ⟨df0, df1, df2, df3, df4, df5, df6, df7⟩, dg, dh, di⟩ := d
  have q : ∀ {r : Res (Limbs w)} {r' : Res (Limbs v)} {z : Int}, Yields (toNat x ≠ 0) (ExactU x.length z) r →
      Yields (toNat x' ≠ 0) (ExactU x'.length z) r' → SameRes Same r r' := fun h h' =>
    Same.yields_same h h' ep fun _ _ _ h h' => Same.exactU e h h' rfl
  have f : ∀ {r : Res (Limbs w × Bool)} {r' : Res (Limbs v × Bool)} {z : Int},
      Yields (toNat x ≠ 0) (fun p => ExactU x.length z p.1 ∧ p.2 = false) r →
      Yields (toNat x' ≠ 0) (fun p => ExactU x'.length z p.1 ∧ p.2 = false) r' → SameRes SameFlag r r' :=
    fun h h' => Same.yields_same h h' ep fun _ _ _ h h' =>
      ⟨Same.exactU e h.1 h'.1 rfl, h.2.trans h'.2.symm⟩
  have g : ∀ {r : Res (Limbs w × Limbs w)} {r' : Res (Limbs v × Limbs v)},
      Yields (toNat x ≠ 0) (fun p => ExactU x.length 1 p.1 ∧ ExactU x.length 0 p.2) r →
      Yields (toNat x' ≠ 0) (fun p => ExactU x'.length 1 p.1 ∧ ExactU x'.length 0 p.2) r' →
      SameRes SamePair r r' := fun h h' => Same.yields_same h h' ep fun _ _ _ h h' =>
      ⟨Same.exactU e h.1 h'.1 rfl, Same.exactU e h.2 h'.2 rfl⟩
  have pan : ∀ {α β : Type} {R : α → β → Prop} {r : Res α} {r' : Res β}, r = .panic → r' = .panic →
      SameRes R r r' := fun h h' => by rw [h, h']; trivial
  have non : ∀ {r : Res (Option (Limbs w))} {r' : Res (Option (Limbs v))}, r = .ok none →
      r' = .ok none → SameRes SameOpt r r' := fun h h' => by rw [h, h']; trivial
  refine ⟨⟨q aq0 bq0,
    q aq1 bq1,
    q aq2 bq2,
    q aq3 bq3,
    q aq4 bq4,
    q ar0 br0,
    q ar1 br1,
    by cases oc; exacts [q aq5 bq5, pan cf4 df4],
    by cases oc; exacts [q aq6 bq6, pan cf6 df6],
    by cases oc; exacts [q ar2 br2, pan cf5 df5],
    by cases oc; exacts [q ar3 br3, pan cf7 df7],
    pan cf0 df0,
    pan cf1 df1,
    pan cf2 df2,
    pan cf3 df3⟩,
    ⟨f ao0 bo0, f ao1 bo1, f as0 bs0, f as1 bs1⟩,
    ⟨non ck0 dk0, non ck1 dk1, non ck2 dk2, non ck3 dk3⟩,
    ⟨g ap0 bp0, by cases oc; exacts [g ap1 bp1, pan ch dh]⟩,
    by rw [cg, dg]; trivial,
    Same.yields_same at0 bt0 ep fun _ _ _ h h' => ⟨⟨Same.exactU e h.1.1 h'.1.1 rfl,
      Same.exactU e h.1.2 h'.1.2 rfl⟩, h.2.trans h'.2.symm⟩,
    ?_⟩
  refine ⟨?_, non ci di, ?_⟩
  · cases oc
    · exact Same.yields_same an bn ep fun _ _ _ h h' => by
        rw [h, h']; exact ⟨hx.bits_eq, hx.value⟩
    · exact pan am bm
  · refine Same.yields_same (C34_uint_is_multiple_of_partial hx.pos hl hx.two hx.even)
      (C34_uint_is_multiple_of_partial gx.pos hl' gx.two gx.even) ?_ fun _ _ _ h h' => ?_
    · rw [h0, h0']
      exact iff_of_false (C13_exact_cases hx.pos _ (.inl (Nat.two_pow_pos _))).1
        (C13_exact_cases gx.pos _ (.inl (Nat.two_pow_pos _))).1
    · rw [h0, (C13_exact_cases hx.pos _ (.inl (Nat.two_pow_pos _))).2] at h
      rw [h0', (C13_exact_cases gx.pos _ (.inl (Nat.two_pow_pos _))).2, ← hx.value] at h'
      exact Bool.eq_iff_iff.2 (h.trans h'.symm)

example := C40_uint_div_zero twins_ones (y := List.replicate 8 0) (y' := List.replicate 4 0) (by decide) rfl rfl true

/-- C40: division of signed numbers by zero, in all forms. -/
theorem C40_int_div_zero (hx : Twins x x') (hy : Twins y y') (hl : x.length = y.length)
    (h0 : toInt y = 0) (oc : Bool) :
    (∀ p ∈ [(I.wrappingDiv x y, I.wrappingDiv x' y'),
        (I.wrappingDivEuclid x y, I.wrappingDivEuclid x' y'),
        (I.saturatingDiv x y, I.saturatingDiv x' y'),
        (I.divFloor x y, I.divFloor x' y'),
        (I.wrappingRem x y, I.wrappingRem x' y'),
        (I.wrappingRemEuclid x y, I.wrappingRemEuclid x' y'),
        (I.div oc x y, I.div oc x' y'),
        (I.divEuclid oc x y, I.divEuclid oc x' y'),
        (I.rem oc x y, I.rem oc x' y'),
        (I.remEuclid oc x y, I.remEuclid oc x' y'),
        (I.strictDiv x y, I.strictDiv x' y'),
        (I.strictDivEuclid x y, I.strictDivEuclid x' y'),
        (I.strictRem x y, I.strictRem x' y'),
        (I.strictRemEuclid x y, I.strictRemEuclid x' y')],
      SameRes Same p.1 p.2) ∧
    (∀ p ∈ [(I.overflowingDiv x y, I.overflowingDiv x' y'), (I.overflowingDivEuclid x y, I.overflowingDivEuclid x' y'),
        (I.overflowingRem x y, I.overflowingRem x' y'), (I.overflowingRemEuclid x y, I.overflowingRemEuclid x' y')],
      SameRes SameFlag p.1 p.2) ∧
    (∀ p ∈ [(I.checkedDiv x y, I.checkedDiv x' y'), (I.checkedDivEuclid x y, I.checkedDivEuclid x' y'),
        (I.checkedRem x y, I.checkedRem x' y'), (I.checkedRemEuclid x y, I.checkedRemEuclid x' y')],
      SameRes SameOpt p.1 p.2) ∧
    (∀ p ∈ [(I.wrappingDivRem x y, I.wrappingDivRem x' y'), (I.divRem oc x y, I.divRem oc x' y')], SameRes SamePair p.1 p.2) ∧
    SameRes (SameOptBy SamePair) (I.checkedDivRem x y) (I.checkedDivRem x' y') ∧
    SameRes (SameFlagBy SamePair) (I.overflowingDivRem x y) (I.overflowingDivRem x' y') ∧
    SameRes Same (I.divCeil oc x y) (I.divCeil oc x' y') ∧
    SameRes Same (I.nextMultipleOf oc x y) (I.nextMultipleOf oc x' y') ∧
    SameRes SameOpt (I.checkedNextMultipleOf oc x y) (I.checkedNextMultipleOf oc x' y') := by
  have gx := hx.symm
  have hl' := hx.len hy hl
  have h0' : toInt y' = 0 := hy.int ▸ h0
  have e := hx.builds.width
  have ep : toInt x ≠ 0 ↔ toInt x' ≠ 0 := by rw [hx.int]
  have a := C15_int_div_zero_all_partial hx.one hl hx.two hx.even h0
  have b := C15_int_div_zero_all_partial gx.one hl' gx.two gx.even h0'
  have c := (C15_int_div_zero_partial hx.one hl hx.two hx.even h0).2
  have d := (C15_int_div_zero_partial gx.one hl' gx.two gx.even h0').2
  simp only [List.mem_cons, List.not_mem_nil, or_false, forall_eq_or_imp, forall_eq] at a b c d ⊢
  obtain ⟨⟨aq0, aq1, aq2, aq3, aq4, aq5⟩, ⟨ar0, ar1, ar2, ar3⟩, ⟨ap0, ap1⟩, ⟨ao0, ao1⟩, ⟨as0, as1⟩, at0⟩ := a
  obtain ⟨⟨bq0, bq1, bq2, bq3, bq4, bq5⟩, ⟨br0, br1, br2, br3⟩, ⟨bp0, bp1⟩, ⟨bo0, bo1⟩, ⟨bs0, bs1⟩, bt0⟩ := b
  obtain ⟨⟨ck0, ck1, ck2, ck3⟩, ⟨cf0, cf1, cf2, cf3, cf4, cf5, cf6, cf7⟩, cg, ch, ci⟩ := c
  obtain ⟨⟨dk0, dk1, dk2, dk3⟩, ⟨df0, df1, df2, df3, df4, df5, df6, df7⟩, dg, dh, di⟩ := d
  have q : ∀ {r : Res (Limbs w)} {r' : Res (Limbs v)} {z : Int}, Yields (toInt x ≠ 0) (ExactS x.length z) r →
      Yields (toInt x' ≠ 0) (ExactS x'.length z) r' → SameRes Same r r' := fun h h' =>
    Same.yields_same h h' ep fun _ _ _ h h' => Same.exactS e h h' rfl
  have f : ∀ {r : Res (Limbs w × Bool)} {r' : Res (Limbs v × Bool)} {z : Int},
      Yields (toInt x ≠ 0) (fun p => ExactS x.length z p.1 ∧ p.2 = false) r →
      Yields (toInt x' ≠ 0) (fun p => ExactS x'.length z p.1 ∧ p.2 = false) r' → SameRes SameFlag r r' :=
    fun h h' => Same.yields_same h h' ep fun _ _ _ h h' =>
      ⟨Same.exactS e h.1 h'.1 rfl, h.2.trans h'.2.symm⟩
  have g : ∀ {r : Res (Limbs w × Limbs w)} {r' : Res (Limbs v × Limbs v)},
      Yields (toInt x ≠ 0) (fun p => ExactS x.length 1 p.1 ∧ ExactS x.length 0 p.2) r →
      Yields (toInt x' ≠ 0) (fun p => ExactS x'.length 1 p.1 ∧ ExactS x'.length 0 p.2) r' →
      SameRes SamePair r r' := fun h h' => Same.yields_same h h' ep fun _ _ _ h h' =>
      ⟨Same.exactS e h.1 h'.1 rfl, Same.exactS e h.2 h'.2 rfl⟩
  have pan : ∀ {α β : Type} {R : α → β → Prop} {r : Res α} {r' : Res β}, r = .panic → r' = .panic →
      SameRes R r r' := fun h h' => by rw [h, h']; trivial
  have non : ∀ {r : Res (Option (Limbs w))} {r' : Res (Option (Limbs v))}, r = .ok none →
      r' = .ok none → SameRes SameOpt r r' := fun h h' => by rw [h, h']; trivial
  refine ⟨⟨q aq0 bq0,
    q aq1 bq1,
    q aq2 bq2,
    q aq3 bq3,
    q ar0 br0,
    q ar1 br1,
    by cases oc; exacts [q aq4 bq4, pan cf4 df4],
    by cases oc; exacts [q aq5 bq5, pan cf6 df6],
    by cases oc; exacts [q ar2 br2, pan cf5 df5],
    by cases oc; exacts [q ar3 br3, pan cf7 df7],
    pan cf0 df0,
    pan cf1 df1,
    pan cf2 df2,
    pan cf3 df3⟩,
    ⟨f ao0 bo0, f ao1 bo1, f as0 bs0, f as1 bs1⟩,
    ⟨non ck0 dk0, non ck1 dk1, non ck2 dk2, non ck3 dk3⟩,
    ⟨g ap0 bp0, by cases oc; exacts [g ap1 bp1, pan ch dh]⟩,
    by rw [cg, dg]; trivial,
    Same.yields_same at0 bt0 ep fun _ _ _ h h' => ⟨⟨Same.exactS e h.1.1 h'.1.1 rfl,
      Same.exactS e h.1.2 h'.1.2 rfl⟩, h.2.trans h'.2.symm⟩,
    ?_⟩
  obtain ⟨k, hk⟩ := hx.builds.pow
  obtain ⟨k', hk'⟩ := gx.builds.pow
  obtain ⟨ac, an, am⟩ := C15_int_div_ceil_zero_partial hk hx.one hl hx.four hx.even hx.builds.small h0 oc
  obtain ⟨bc, bn, bm⟩ := C15_int_div_ceil_zero_partial hk' gx.one hl' gx.four gx.even gx.builds.small h0' oc
  refine ⟨q ac bc, ?_, non (ci oc) (di oc)⟩
  cases oc
  · exact Same.yields_same an bn ep fun _ _ _ h h' => by
      rw [h, h']; exact ⟨hx.bits_eq, hx.value⟩
  · exact pan am bm

example := C40_int_div_zero twins_ones (y := List.replicate 8 0) (y' := List.replicate 4 0) (by decide) rfl rfl true

end I256
