import Verif.Lemmas.FixedStray
import Verif.Props.Samples

/-!
# Fixed-width scalar divisors of the signed types: C55 for every divisor

`Props/Fixed.lean` states C55 for the signed types where long division leaves nothing behind in the
remainder.  Here every dividend and every divisor is covered: what is left behind appears in the
remainder with the sign of the dividend, and a negative dividend with an unsigned divisor turns it into
a wrong quotient or, with overflow checks, a panic.
-/

namespace I256

open Sample

variable {w : Nat} {x : Limbs w}

section
variable (hw : w = 32 ∨ w = 64) (hx : 256 ≤ w * x.length) (he : x.length % 2 = 0)
include hw hx he

/-- C55, partial: signed numbers divided by unsigned scalars, every nonzero divisor.  The claim asks for
the quotient `x / n` and the remainder `x % n`, which holds if nothing is left in the remainder
(`s = 0`).  Otherwise a negative dividend makes builds with overflow checks panic (`n - rem` is
negative); in other builds the quotient is one too small if the division is exact, and the remainder is
off by `s`. -/
theorem C55_int_div_fixed_unsigned_all_partial (k : Fix) {n : BitVec k.n} (hn : n ≠ 0) (oc : Bool) :
    let s := scalarStray w x.length k.n (toInt x).natAbs n.toNat
    let z := toInt x / n.toNat -
      (if toInt x < 0 ∧ (n.toNat : Int) ∣ toInt x ∧ s ≠ 0 then 1 else 0)
    let P := ScalarPanics w k.n (toInt x).natAbs n.toNat ∨ (oc = true ∧ toInt x < 0 ∧ s ≠ 0)
    let Q := ExactS (w := w) x.length z
    let R := fun r : BitVec k.n =>
      r = BitVec.ofInt k.n (toInt x - z * n.toNat + (toInt x).sign * s)
    (∀ f ∈ [I.wrappingDivRemFixU oc k, I.divRemFixU oc k],
      Yields P (fun p => Q p.1 ∧ R p.2) (f x n)) ∧
    Yields P (fun o => ∃ p, o = some p ∧ Q p.1 ∧ R p.2) (I.checkedDivRemFixU oc k x n) ∧
    Yields P (fun p => p.2 = false ∧ Q p.1.1 ∧ R p.1.2) (I.overflowingDivRemFixU oc k x n) ∧
    (∀ f ∈ [I.wrappingDivFixU oc k, I.divFixU oc k], Yields P Q (f x n)) ∧
    (∀ f ∈ [I.wrappingRemFixU oc k, I.remFixU oc k], Yields P R (f x n)) ∧
    Yields P (fun o => ∃ q, o = some q ∧ Q q) (I.checkedDivFixU oc k x n) ∧
    Yields P (fun o => ∃ r, o = some r ∧ R r) (I.checkedRemFixU oc k x n) ∧
    Yields P (fun p => p.2 = false ∧ Q p.1) (I.overflowingDivFixU oc k x n) ∧
    Yields P (fun p => p.2 = false ∧ R p.1) (I.overflowingRemFixU oc k x n) := by
  intro s z P Q R
  have h : Yields P (fun p => Q p.1 ∧ R p.2) (I.wrappingDivRemFixU oc k x n) :=
    iDivRemFixU_all hw hx he k hn oc
  have hz : isZeroScalar n = false := by simpa [isZeroScalar] using hn
  have hce : I.checkedDivRemFixU oc k x n = (I.wrappingDivRemFixU oc k x n).map some := by
    rw [I.checkedDivRemFixU, hz, checkedBy_false]
  have hoe : I.divRemFixU oc k x n = I.wrappingDivRemFixU oc k x n := by
    rw [I.divRemFixU, fixOp, hce, opOfR_checked]
  have hc := h.some
  rw [← hce] at hc
  have ho : Yields P (fun p => p.2 = false ∧ Q p.1.1 ∧ R p.1.2) (I.overflowingDivRemFixU oc k x n) :=
    h.map fun v hv => ⟨rfl, hv⟩
  refine ⟨?_, hc, ho, ?_, ?_, ?_, ?_, ?_, ?_⟩
  · intro f hf
    simp only [List.mem_cons, List.not_mem_nil, or_false] at hf
    rcases hf with rfl | rfl
    · exact h
    · rw [hoe]; exact h
  · intro f hf
    simp only [List.mem_cons, List.not_mem_nil, or_false] at hf
    rcases hf with rfl | rfl
    · exact h.map fun v hv => hv.1
    · rw [I.divFixU, hoe]; exact h.map fun v hv => hv.1
  · intro f hf
    simp only [List.mem_cons, List.not_mem_nil, or_false] at hf
    rcases hf with rfl | rfl
    · exact h.map fun v hv => hv.2
    · rw [I.remFixU, hoe]; exact h.map fun v hv => hv.2
  · exact hc.map fun o ⟨v, e, hv⟩ => ⟨v.1, by rw [e]; rfl, hv.1⟩
  · exact hc.map fun o ⟨v, e, hv⟩ => ⟨v.2, by rw [e]; rfl, hv.2⟩
  · exact ho.map fun v hv => ⟨hv.1, hv.2.1⟩
  · exact ho.map fun v hv => ⟨hv.1, hv.2.2⟩

/-- C55, partial: signed numbers divided by signed scalars, every nonzero divisor.  The quotient and the
overflow flag are those of truncating division; what is left in the remainder (`s`) appears there with
the sign of the dividend. -/
theorem C55_int_div_fixed_signed_all_partial (k : Fix) {n : BitVec k.n} (hn : n ≠ 0) :
    let s := scalarStray w x.length k.n (toInt x).natAbs n.toInt.natAbs
    let P := ScalarPanics w k.n (toInt x).natAbs n.toInt.natAbs
    let z := (toInt x).tdiv n.toInt
    let R := fun r : BitVec k.n =>
      r = BitVec.ofInt k.n ((toInt x).tmod n.toInt + (toInt x).sign * s)
    (∀ f ∈ [I.wrappingDivRemFixI k, I.divRemFixI false k],
      Yields P (fun p => WrapS x.length z p.1 ∧ R p.2) (f x n)) ∧
    Yields P (fun p => OverS x.length z (p.1.1, p.2) ∧ R p.1.2) (I.overflowingDivRemFixI k x n) ∧
    Yields P (fun o => CheckS x.length z (o.map (·.1)) ∧ ∀ p, o = some p → R p.2)
      (I.checkedDivRemFixI k x n) ∧
    Yields (P ∨ ¬ InS (w * x.length) z) (fun p => ExactS x.length z p.1 ∧ R p.2)
      (I.divRemFixI true k x n) ∧
    Yields P (WrapS x.length z) (I.wrappingDivFixI k x n) ∧
    Yields P R (I.wrappingRemFixI k x n) ∧
    Yields P (OverS x.length z) (I.overflowingDivFixI k x n) ∧
    Yields P (fun p => (p.2 = true ↔ ¬ InS (w * x.length) z) ∧ R p.1) (I.overflowingRemFixI k x n) ∧
    Yields P (CheckS x.length z) (I.checkedDivFixI k x n) ∧
    Yields P (fun o => (o = none ↔ ¬ InS (w * x.length) z) ∧ ∀ r, o = some r → R r)
      (I.checkedRemFixI k x n) ∧
    Yields (P ∨ ¬ InS (w * x.length) z) (ExactS x.length z) (I.divFixI true k x n) ∧
    Yields (P ∨ ¬ InS (w * x.length) z) R (I.remFixI true k x n) ∧
    Yields P (WrapS x.length z) (I.divFixI false k x n) ∧
    Yields P R (I.remFixI false k x n) := by
  intro s P z R
  obtain ⟨h, ho⟩ : Yields P (fun p => WrapS x.length z p.1 ∧ R p.2) (I.wrappingDivRemFixI k x n) ∧
      Yields P (fun p => OverS x.length z (p.1.1, p.2) ∧ R p.1.2) (I.overflowingDivRemFixI k x n) :=
    iDivRemFixI_all hw hx he k hn
  have hce := checkedDivRemFixI_eq hw hx he k hn
  have hc : Yields P (fun o => CheckS x.length z (o.map (·.1)) ∧ (∀ p, o = some p → R p.2) ∧
      (o = none ↔ ¬ InS (w * x.length) z)) (I.checkedDivRemFixI k x n) := by
    rw [hce]
    refine ho.map ?_
    rintro ⟨⟨q, r⟩, f⟩ ⟨hq, hr⟩
    have hck := hq.check
    have hf := hq.2
    cases f
    · exact ⟨hck, fun p hp => by cases hp; exact hr, by rw [← hf]; simp [mkChecked]⟩
    · exact ⟨hck, fun p hp => (by cases hp), by rw [← hf]; simp [mkChecked]⟩
  have hop : Yields (P ∨ ¬ InS (w * x.length) z) (fun p => ExactS x.length z p.1 ∧ R p.2)
      (I.divRemFixI true k x n) := by
    have e : I.divRemFixI true k x n = (I.checkedDivRemFixI k x n).bind unwrapOrPanic := rfl
    rw [e]
    refine ⟨fun hp => ?_, fun hp => ?_⟩
    · by_cases hP : P
      · rw [hc.1 hP]; rfl
      · obtain ⟨o, eo, -, -, hn⟩ := hc.2 hP
        rw [eo, hn.2 (hp.resolve_left hP)]; rfl
    · obtain ⟨o, eo, hk, hr, hn⟩ := hc.2 (fun hP => hp (.inl hP))
      have hi : InS (w * x.length) z := by by_contra hi; exact hp (.inr hi)
      cases o with
      | none => exact absurd hi (hn.1 rfl)
      | some p =>
        rw [eo]
        refine ⟨p, rfl, ?_, hr p rfl⟩
        obtain ⟨v, ev, hv⟩ := hk.1 hi
        cases ev
        exact hv
  refine ⟨?_, ho, hc.mono fun o h => ⟨h.1, h.2.1⟩, hop, h.map fun p hp => hp.1,
    h.map fun p hp => hp.2, ?_, ?_, hc.map fun o h => h.1, hc.map ?_, hop.map fun p hp => hp.1,
    hop.map fun p hp => hp.2, h.map fun p hp => hp.1, h.map fun p hp => hp.2⟩
  · intro f hf
    simp only [List.mem_cons, List.not_mem_nil, or_false] at hf
    rcases hf with rfl | rfl
    · exact h
    · exact h
  · cases k
    · have e : I.overflowingDivFixI .b32 x n =
          (I.overflowingDivRemFixI .b32 x n).map fun p => (p.1.1, p.2) := by
        rw [I.overflowingDivFixI, I.overflowingDivRemFixI, I.overflowingDivILimb]
        cases I.overflowingDivRemILimb x (n.signExtend w) <;> rfl
      rw [e]; exact ho.map fun p hp => hp.1
    · exact ho.map fun p hp => hp.1
    · exact ho.map fun p hp => hp.1
  · cases k
    · have e : I.overflowingRemFixI .b32 x n =
          (I.overflowingDivRemFixI .b32 x n).map fun p => (p.1.2, p.2) := by
        rw [I.overflowingRemFixI, I.overflowingDivRemFixI, I.overflowingRemILimb]
        cases I.overflowingDivRemILimb x (n.signExtend w) <;> rfl
      rw [e]; exact ho.map fun p hp => ⟨hp.1.2, hp.2⟩
    · exact ho.map fun p hp => ⟨hp.1.2, hp.2⟩
    · exact ho.map fun p hp => ⟨hp.1.2, hp.2⟩
  · rintro o ⟨-, hr, hi⟩
    refine ⟨by rw [← hi]; simp, fun r e => ?_⟩
    cases o with
    | none => simp at e
    | some p => simp at e; rw [← e]; exact hr p rfl

/-- C55, partial: a zero scalar divisor of a signed number.  The forms that do not test the divisor panic,
except that zero divided by a zero scalar wider than a limb is zero (the claim asks for a panic). -/
theorem C55_int_div_fixed_zero_partial (k : Fix) (oc : Bool) :
    (toInt x ≠ 0 ∨ k.n ≤ w →
      (∀ f ∈ [I.wrappingDivRemFixU oc k, I.wrappingDivRemFixI k, I.divRemFixU false k, I.divRemFixI false k],
        f x 0 = .panic) ∧
      (∀ f ∈ [I.wrappingDivFixU oc k, I.wrappingDivFixI k, I.divFixU false k, I.divFixI false k],
        f x 0 = .panic) ∧
      (∀ f ∈ [I.wrappingRemFixU oc k, I.wrappingRemFixI k, I.remFixU false k, I.remFixI false k],
        f x 0 = .panic)) ∧
    (toInt x = 0 → w < k.n → ∃ q, ExactS x.length 0 q ∧
      (∀ f ∈ [I.wrappingDivRemFixU oc k, I.wrappingDivRemFixI k, I.divRemFixU false k, I.divRemFixI false k],
        f x 0 = .ok (q, 0)) ∧
      (∀ f ∈ [I.wrappingDivFixU oc k, I.wrappingDivFixI k, I.divFixU false k, I.divFixI false k],
        f x 0 = .ok q) ∧
      (∀ f ∈ [I.wrappingRemFixU oc k, I.wrappingRemFixI k, I.remFixU false k, I.remFixI false k],
        f x 0 = .ok 0)) := by
  obtain ⟨h1, h2⟩ := iDivRemFix_zero hw hx he k oc
  obtain ⟨g1, g2⟩ := iDivRemFix_zero hw hx he k false
  refine ⟨fun h => ?_, fun h a => ?_⟩
  · obtain ⟨a1, a2⟩ := h1 h
    obtain ⟨b1, b2⟩ := g1 h
    have c1 : I.divRemFixU false k x 0 = .panic := b1
    have c2 : I.divRemFixI false k x 0 = .panic := b2
    refine ⟨?_, ?_, ?_⟩ <;> intro f hf <;>
      simp only [List.mem_cons, List.not_mem_nil, or_false] at hf <;>
      rcases hf with rfl | rfl | rfl | rfl <;>
      simp only [I.wrappingDivFixU, I.wrappingDivFixI, I.divFixU, I.divFixI, I.wrappingRemFixU,
        I.wrappingRemFixI, I.remFixU, I.remFixI, a1, a2, c1, c2, Res.map, Res.bind]
  · obtain ⟨q, hq, a1, a2⟩ := h2 h a
    obtain ⟨q', hq', b1, b2⟩ := g2 h a
    obtain rfl : q = q' := by rw [a2] at b2; simpa using b2
    have c1 : I.divRemFixU false k x 0 = .ok (q, 0) := b1
    have c2 : I.divRemFixI false k x 0 = .ok (q, 0) := b2
    refine ⟨q, hq, ?_, ?_, ?_⟩ <;> intro f hf <;>
      simp only [List.mem_cons, List.not_mem_nil, or_false] at hf <;>
      rcases hf with rfl | rfl | rfl | rfl <;>
      simp only [I.wrappingDivFixU, I.wrappingDivFixI, I.divFixU, I.divFixI, I.wrappingRemFixU,
        I.wrappingRemFixI, I.remFixU, I.remFixI, a1, a2, c1, c2, Res.map_ok]

end

example := C55_int_div_fixed_unsigned_all_partial (x := b32) (by decide) (by decide) (by decide) .b128
  (n := 2 ^ 63 + 2 ^ 32 - 1) (by decide +kernel) true
example := C55_int_div_fixed_signed_all_partial (x := b32) (by decide) (by decide) (by decide) .b128
  (n := -(2 ^ 63 + 2 ^ 32 - 1)) (by decide +kernel)
example := (C55_int_div_fixed_zero_partial (x := zero) (by decide) (by decide) (by decide) .b128 true).2
  (by decide) (by decide)
example := (C55_int_div_fixed_zero_partial (x := top) (by decide) (by decide) (by decide) .b128 true).1
  (.inl (by decide))

/-- C55 is false for negative dividends and unsigned scalars: on 32-bit limbs the exact division of
`-18446744065119617030 * n` by the `u128` `n = 2^63 + 2^32 - 1` returns a quotient that is one too small
and a remainder far above `n`; with overflow checks even the checked form panics. -/
theorem C55_int_div_fixed_unsigned_false :
    let x : Limbs 32 := [0x6, 0xfffffff8, 0xffffffff, 0x7fffffff, 0xffffffff, 0xffffffff, 0xffffffff,
      0xffffffff]
    toInt x = -18446744065119617030 * (2 ^ 63 + 2 ^ 32 - 1) ∧
    I.wrappingDivRemFixU false .b128 x (2 ^ 63 + 2 ^ 32 - 1) =
      .ok ([0xfffffff9, 1, 0xffffffff, 0xffffffff, 0xffffffff, 0xffffffff, 0xffffffff, 0xffffffff],
        0xffffffff0000000080000000ffffffff) ∧
    toInt ([0xfffffff9, 1, 0xffffffff, 0xffffffff, 0xffffffff, 0xffffffff, 0xffffffff, 0xffffffff] :
      Limbs 32) = -18446744065119617030 - 1 ∧
    I.checkedDivRemFixU true .b128 x (2 ^ 63 + 2 ^ 32 - 1) = .panic := by decide +kernel

/-- C55 is false for a zero divisor: `0 / 0` with a scalar wider than a limb is accepted by the wrapping
form, although a scalar of one limb makes the same division panic. -/
theorem C55_int_div_fixed_zero_false :
    I.wrappingDivFixI .b128 zero 0 = .ok zero ∧ I.wrappingDivFixI .b64 zero 0 = .panic := by
  decide +kernel

end I256
