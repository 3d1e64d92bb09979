import Verif.Lemmas.Sci
import Verif.Lemmas.SignView
import Verif.Model.Debug
import Verif.Props.Align

/-!
# C95: exponents and debug output with every flag

`sciText` and `debugText` (Verif/SpecSci.lean) are what the primitive integers print.
-/

namespace I256

open Sample

variable {w : Nat} {x : Limbs w}

/-- C95 is false: `{:.1e}` of 1234 is `1.234e3` instead of `1.2e3`, `{:8e}` of 12 is `1.2e1` instead of
`   1.2e1`, and `{:x?}` of 255 is `255` instead of `ff`. -/
theorem C95_exp_debug_false :
    (U.fmtLowerExp true {} ([1234, 0, 0, 0] : Limbs 64) = .ok (ascii "1.234e3") ∧
      sciText 101 (some 1) 1234 = ascii "1.2e3") ∧
    (U.fmtLowerExp true { width := some 8 } (ofU8 4 12 : Limbs 64) = .ok (ascii "1.2e1") ∧
      padAligned .unknown { width := some 8 } false [] (sciText 101 none 12) = ascii "   1.2e1") ∧
    (U.fmtDebug true {} (ofU8 4 255 : Limbs 64) = .ok (ascii "255") ∧
      debugText .lower .unknown {} false 255 255 = ascii "ff") := by
  decide +kernel

/-- C95, partial: `LowerExp` and `UpperExp` of the unsigned types print a text that denotes the value; it
is what the primitive integers print if and only if there is no `+` flag, the text fills the width and
the precision, if given, is the number of digits after the first one and not zero, or, if not given, the
value has several digits of which the last is not zero.  The full statement is the equality without these
conditions; it is false (`C95_exp_debug_false`). -/
theorem C95_exp_partial (hw : w = 32 ∨ w = 64) (h4 : 4 ≤ x.length) (he : x.length % 2 = 0) (oc : Bool)
    (al : Align) (f : Write.Flags) (hfill : CharBytes f.fill) (prec : Option Nat) :
    ∀ g ∈ [(101#8, U.fmtLowerExp oc f x), (69#8, U.fmtUpperExp oc f x)],
      ∃ s, g.2 = .ok s ∧ SciDenotes g.1 s (toNat x) ∧
        (s = padAligned al f false [] (sciText g.1 prec (toNat x)) ↔
          f.signPlus = false ∧ f.width.getD 0 ≤ s.length ∧ (match prec with
            | none => 10 ≤ toNat x ∧ toNat x % 10 ≠ 0
            | some p => 0 < p ∧ p + 1 = (numeral 10 (toNat x)).length)) := by
  have key : ∀ e : Byte, e = 101#8 ∨ e = 69#8 → ∃ s, Write.exp e (numeral 10 (toNat x)) = .ok s ∧
      SciDenotes e s (toNat x) ∧ (s = padAligned al f false [] (sciText e prec (toNat x)) ↔
          f.signPlus = false ∧ f.width.getD 0 ≤ s.length ∧ (match prec with
            | none => 10 ≤ toNat x ∧ toNat x % 10 ≠ 0
            | some p => 0 < p ∧ p + 1 = (numeral 10 (toNat x)).length)) := by
    intro e h
    obtain ⟨s, h1, h2, h3⟩ := exp_flags h al f hfill prec false (toNat x) (S := []) (Or.inl rfl)
    refine ⟨s, h1, h2, ?_⟩
    rw [List.nil_append] at h3
    rw [h3]
    have : ([] = if false then ascii "-" else if f.signPlus then ascii "+" else []) ↔
        f.signPlus = false := by
      cases f.signPlus <;> simp [ascii]
    rw [this, List.length_nil, Nat.zero_add]
    rfl
  rw [U.fmtLowerExp_eq hw h4 he, U.fmtUpperExp_eq hw h4 he]
  intro g hg
  simp only [List.mem_cons, List.not_mem_nil, or_false] at hg
  rcases hg with rfl | rfl
  · exact key _ (Or.inl rfl)
  · exact key _ (Or.inr rfl)

example := C95_exp_partial (x := a) (Or.inr rfl) (by decide) (by decide) true .center
  { width := some 80, fill := [226, 130, 172] } ⟨226, [130, 172], rfl, Or.inr (by decide)⟩ (some 3)
example : U.fmtLowerExp true { width := some 7 } ([1234, 0, 0, 0] : Limbs 64) =
      .ok (padAligned .left { width := some 7 } false [] (sciText 101 (some 3) 1234)) ∧
    U.fmtLowerExp true {} ([1234, 0, 0, 0] : Limbs 64) ≠
      .ok (padAligned .left {} false [] (sciText 101 (some 4) 1234)) ∧
    U.fmtLowerExp true {} (ofU8 4 7 : Limbs 64) ≠
      .ok (padAligned .left {} false [] (sciText 101 (some 0) 7)) := by
  decide +kernel

/-- C95, partial: the signed types print the sign (`-`, or `+` if the flag is set) and such a text; it is
what the primitive integers print if and only if the whole fills the width and the precision is as for
the unsigned types. -/
theorem C95_int_exp_partial (hw : w = 32 ∨ w = 64) (h4 : 4 ≤ x.length) (he : x.length % 2 = 0) (oc : Bool)
    (al : Align) (f : Write.Flags) (hfill : CharBytes f.fill) (prec : Option Nat) :
    let n := (toInt x).natAbs
    let sign := if toInt x < 0 then ascii "-" else if f.signPlus then ascii "+" else []
    ∀ g ∈ [(101#8, I.fmtLowerExp oc f x), (69#8, I.fmtUpperExp oc f x)],
      ∃ s, g.2 = .ok (sign ++ s) ∧ SciDenotes g.1 s n ∧
        (sign ++ s = padAligned al f (decide (toInt x < 0)) [] (sciText g.1 prec n) ↔
          f.width.getD 0 ≤ sign.length + s.length ∧ (match prec with
            | none => 10 ≤ n ∧ n % 10 ≠ 0
            | some p => 0 < p ∧ p + 1 = (numeral 10 n).length)) := by
  intro n sign
  have key : ∀ e : Byte, e = 101#8 ∨ e = 69#8 →
      ∃ s, (Write.exp e (numeral 10 n)).map (sign ++ ·) = .ok (sign ++ s) ∧
        SciDenotes e s n ∧
        (sign ++ s = padAligned al f (decide (toInt x < 0)) [] (sciText e prec n) ↔
          f.width.getD 0 ≤ sign.length + s.length ∧ (match prec with
            | none => 10 ≤ n ∧ n % 10 ≠ 0
            | some p => 0 < p ∧ p + 1 = (numeral 10 n).length)) := by
    intro e h
    have hs : sign = if decide (toInt x < 0) = true then ascii "-" else
        if f.signPlus then ascii "+" else [] := by
      simp only [decide_eq_true_eq]
      rfl
    obtain ⟨s, h1, h2, h3⟩ := exp_flags h al f hfill prec (decide (toInt x < 0)) n (S := sign) (Or.inr hs)
    refine ⟨s, by rw [h1]; rfl, h2, ?_⟩
    rw [h3]
    exact ⟨fun h => h.2, fun h => ⟨hs, h⟩⟩
  rw [I.fmtLowerExp_eq hw h4 he, I.fmtUpperExp_eq hw h4 he]
  intro g hg
  simp only [List.mem_cons, List.not_mem_nil, or_false] at hg
  rcases hg with rfl | rfl
  · exact key _ (Or.inl rfl)
  · exact key _ (Or.inr rfl)

example := C95_int_exp_partial (x := m2) (Or.inr rfl) (by decide) (by decide) true .left
  { width := some 9, zero := true } ⟨32, [], rfl, Or.inl rfl⟩ none
example : I.fmtUpperExp true { signPlus := true } (ofI8 4 (-12) : Limbs 64) =
      .ok (padAligned .left { signPlus := true } true [] (sciText 69 none 12)) ∧
    I.fmtUpperExp true { signPlus := true } (ofI8 4 12 : Limbs 64) =
      .ok (padAligned .right { signPlus := true } false [] (sciText 69 (some 1) 12)) := by
  decide +kernel

section
variable (hw : w = 32 ∨ w = 64) (h4 : 4 ≤ x.length) (he : x.length % 2 = 0) (oc : Bool)
include hw h4 he

/-- C95, partial: `{:?}` prints what the primitive integers print if and only if the text fills the width
and, for unsigned types, there is no `+` flag. -/
theorem C95_debug_partial (al : Align) (f : Write.Flags) (hfill : f.fill ≠ []) (raw : Nat) :
    (U.fmtDebug oc f x = .ok (debugText .none al f false (toNat x) raw) ↔
      f.signPlus = false ∧ f.width.getD 0 ≤ (numeral 10 (toNat x)).length) ∧
    (I.fmtDebug oc f x = .ok (debugText .none al f (decide (toInt x < 0)) (toInt x).natAbs raw) ↔
      f.width.getD 0 ≤ (if toInt x < 0 then 1 else if f.signPlus then 1 else 0) +
        (numeral 10 (toInt x).natAbs).length) :=
  C52_display_align_partial hw h4 he oc al f hfill

/-- C95, partial: `{:x?}` and `{:X?}` without a width print what the primitive integers print, which is the
hexadecimal form of the bits, if and only if the number is not negative and below ten, there is no flag
`#` and, for unsigned types, no flag `+`. -/
theorem C95_debug_hex_partial (al : Align) (f : Write.Flags) (hfw : f.width = none)
    {hex : DebugHex} (hh : hex ≠ .none) :
    (U.fmtDebug oc f x = .ok (debugText hex al f false (toNat x) (toNat x)) ↔
      toNat x < 10 ∧ f.alternate = false ∧ f.signPlus = false) ∧
    (I.fmtDebug oc f x = .ok (debugText hex al f (decide (toInt x < 0)) (toInt x).natAbs (toNat x)) ↔
      0 ≤ toInt x ∧ toInt x < 10 ∧ f.alternate = false) := by
  obtain ⟨up, hup, hm, htext⟩ : ∃ up : Byte → Byte,
      (∀ r < 16, ∀ a < 10, digitByte a = up (digitByte r) ↔ a = r) ∧
      (∀ r < 16, up (digitByte r) ≠ 45#8) ∧
      ∀ neg abs raw, debugText hex al f neg abs raw = (if f.signPlus then ascii "+" else []) ++
        ((if f.alternate then ascii "0x" else []) ++ (numeral 16 raw).map up) := by
    cases hex with
    | none => exact absurd rfl hh
    | lower =>
      refine ⟨lowerByte, by decide, by decide, fun neg abs raw => ?_⟩
      rw [debugText, padAligned_none al f hfw]
      simp
    | upper =>
      refine ⟨id, by decide, by decide, fun neg abs raw => ?_⟩
      rw [debugText, padAligned_none al f hfw]
      simp
  have hx : ∀ n m, numeral 10 n = (if f.alternate then ascii "0x" else []) ++ (numeral 16 m).map up →
      f.alternate = false := by
    intro n m h
    by_contra hc
    rw [Bool.not_eq_false] at hc
    have : (120#8 : Byte) ∈ numeral 10 n := by
      rw [h, hc]
      simp [ascii]
    have := digit_range this
    revert this
    decide
  have hu := U.fmtDisplay_eq hw h4 he oc f
  have hi := I.fmtDisplay_eq hw h4 he oc f
  rw [U.fmtDebug, I.fmtDebug, hu, hi, htext, htext, Res.ok.injEq, Res.ok.injEq]
  constructor
  · constructor
    · intro h
      have hp : f.signPlus = false := by
        by_contra hc
        rw [Bool.not_eq_false] at hc
        have : (43#8 : Byte) ∈ numeral 10 (toNat x) := by
          rw [h, hc]
          simp [ascii]
        have := digit_range this
        revert this
        decide
      rw [hp, if_neg Bool.false_ne_true, List.nil_append] at h
      have ha := hx _ _ h
      rw [ha, if_neg Bool.false_ne_true, List.nil_append, dec_hex_iff hup] at h
      exact ⟨h, ha, hp⟩
    · rintro ⟨h, ha, hp⟩
      rw [ha, hp, if_neg Bool.false_ne_true, if_neg Bool.false_ne_true, List.nil_append,
        List.nil_append, dec_hex_iff hup]
      exact h
  · by_cases hneg : toInt x < 0
    · refine ⟨fun h => ?_, fun h => absurd hneg (by omega)⟩
      exfalso
      have hmem : (45#8 : Byte) ∈ (if f.signPlus then ascii "+" else []) ++
          ((if f.alternate then ascii "0x" else []) ++ (numeral 16 (toNat x)).map up) := by
        rw [← h, if_pos hneg]
        simp [ascii]
      rcases List.mem_append.1 hmem with h1 | h1
      · revert h1
        cases f.signPlus <;> decide
      · rcases List.mem_append.1 h1 with h1 | h1
        · revert h1
          cases f.alternate <;> decide
        · obtain ⟨c, hc, hcc⟩ := List.mem_map.1 h1
          obtain ⟨d, hd, rfl⟩ := numeral_mem (by decide) hc
          exact hm d hd hcc
    · have hn : (toInt x).natAbs = toNat x := natAbs_of_nonneg (by omega)
      rw [if_neg hneg, List.append_cancel_left_eq, hn]
      constructor
      · intro h
        have ha := hx _ _ h
        rw [ha, if_neg Bool.false_ne_true, List.nil_append, dec_hex_iff hup] at h
        exact ⟨by omega, by omega, ha⟩
      · rintro ⟨-, h, ha⟩
        rw [ha, if_neg Bool.false_ne_true, List.nil_append, dec_hex_iff hup]
        omega

end

example := C95_debug_partial (x := m2) (Or.inr rfl) (by decide) (by decide) true .left
  { signPlus := true, width := some 2 } (by decide) 0
example := C95_debug_hex_partial (x := m2) (Or.inr rfl) (by decide) (by decide) true .left
  { signPlus := true } rfl (hex := .upper) (by decide)
example : I.fmtDebug true { signPlus := true } (ofI8 4 7 : Limbs 64) =
      .ok (debugText .lower .unknown { signPlus := true } false 7 7) ∧
    I.fmtDebug true {} (ofI8 4 10 : Limbs 64) ≠ .ok (debugText .lower .unknown {} false 10 10) ∧
    U.fmtDebug true { alternate := true } (ofU8 4 7 : Limbs 64) ≠
      .ok (debugText .upper .unknown { alternate := true } false 7 7) := by
  decide +kernel

end I256
