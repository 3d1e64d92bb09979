import Verif.Lemmas.Align
import Verif.Props.Flags

/-!
# C52: formatting flags with an explicit alignment

`padAligned` (Verif/SpecAlign.lean) is what the primitive integers print.
-/

namespace I256

open Sample

variable {w : Nat} {x : Limbs w}

/-- C52 is false with an alignment: `{:<4x}` of 255 is `  ff` instead of `ff  `, and `{:^4x}` is `  ff`
instead of ` ff `. -/
theorem C52_align_false :
    U.fmtLowerHex true { width := some 4 } (ofU8 4 255 : Limbs 64) = .ok (ascii "  ff") ∧
    padAligned .left { width := some 4 } false (ascii "0x") (ascii "ff") = ascii "ff  " ∧
    padAligned .center { width := some 4 } false (ascii "0x") (ascii "ff") = ascii " ff " := by
  decide +kernel

/-- C52, partial: the exact condition for the formats in bases 2, 8 and 16 to print what the primitive
integers print, for every fill character and alignment.  Without `+`: the digits alone fill the width,
or there is no `#` and the fill characters happen to be the right ones at the right side.  The latter
means: with the flag `0`, the fill character is `0`; without it, the alignment is the default or `>`,
or every digit is the fill character.  With `+`: the missing sign is by chance replaced by the fill
character `+`. -/
theorem C52_radix_fmt_align_partial (hw : w = 32 ∨ w = 64) (h4 : 4 ≤ x.length) (he : x.length % 2 = 0)
    (oc : Bool) (al : Align) (f : Write.Flags) (hfill : CharBytes f.fill) :
    ∀ g ∈ [((U.fmtBinary oc f x, I.fmtBinary oc f x), ascii "0b", numeral 2 (toNat x)),
      ((U.fmtOctal oc f x, I.fmtOctal oc f x), ascii "0o", numeral 8 (toNat x)),
      ((U.fmtUpperHex oc f x, I.fmtUpperHex oc f x), ascii "0x", numeral 16 (toNat x)),
      ((U.fmtLowerHex oc f x, I.fmtLowerHex oc f x), ascii "0x",
        (numeral 16 (toNat x)).map lowerByte)],
    ∀ cond : Prop, (cond ↔
      (f.signPlus = false ∧ (f.width.getD 0 ≤ g.2.2.length ∨
        (f.alternate = false ∧ (if f.zero then f.fill = ascii "0" else
          al = .unknown ∨ al = .right ∨ ∃ c, f.fill = [c] ∧ ∀ b ∈ g.2.2, b = c)))) ∨
      (f.signPlus = true ∧ f.alternate = false ∧ f.fill = ascii "+" ∧ g.2.2.length < f.width.getD 0 ∧
        (f.width.getD 0 = g.2.2.length + 1 ∨ (f.zero = false ∧ (al = .unknown ∨ al = .right))))) →
      (g.1.1 = .ok (padAligned al f false g.2.1 g.2.2) ↔ cond) ∧
      (g.1.2 = .ok (padAligned al f false g.2.1 g.2.2) ↔ cond) := by
  have key : ∀ {r : Res (List Byte)} {p : Byte} {digits : List Byte},
      r = .ok (Write.pad f [48#8, p] digits) → digits ≠ [] → (∀ b ∈ digits, b.toNat < 128) →
      (∀ b ∈ digits, b ≠ 43#8) → ∀ cond : Prop, (cond ↔
      (f.signPlus = false ∧ (f.width.getD 0 ≤ digits.length ∨
        (f.alternate = false ∧ (if f.zero then f.fill = ascii "0" else
          al = .unknown ∨ al = .right ∨ ∃ c, f.fill = [c] ∧ ∀ b ∈ digits, b = c)))) ∨
      (f.signPlus = true ∧ f.alternate = false ∧ f.fill = ascii "+" ∧ digits.length < f.width.getD 0 ∧
        (f.width.getD 0 = digits.length + 1 ∨ (f.zero = false ∧ (al = .unknown ∨ al = .right))))) →
      (r = .ok (padAligned al f false [48#8, p] digits) ↔ cond) ∧
      (r = .ok (padAligned al f false [48#8, p] digits) ↔ cond) := by
    intro r p digits e hne hd hp cond hc
    have h : r = .ok (padAligned al f false [48#8, p] digits) ↔ cond := by
      rw [hc, show ascii "0" = [48#8] by decide, show ascii "+" = [43#8] by decide,
        ← pad_iff_align al f hfill hne hd hp, e]
      exact ⟨fun h => Res.ok.inj h, fun h => by rw [h]⟩
    exact ⟨h, h⟩
  have num : ∀ {r n : Nat}, 2 ≤ r → r ≤ 36 → numeral r n ≠ [] ∧ (∀ b ∈ numeral r n, b.toNat < 128) ∧
      ∀ b ∈ numeral r n, b ≠ 43#8 := fun hr hr' =>
    ⟨numeral_ne_nil _ _, fun b hb => (numeral_ascii hr hr' hb).trans (by decide),
      fun b hb => (numeral_plain hr hr' hb).2⟩
  have n2 := num (r := 2) (n := toNat x) (by decide) (by decide)
  have n8 := num (r := 8) (n := toNat x) (by decide) (by decide)
  have n16 := num (r := 16) (n := toNat x) (by decide) (by decide)
  simp only [show ascii "0b" = [48#8, 98#8] by decide, show ascii "0o" = [48#8, 111#8] by decide,
    show ascii "0x" = [48#8, 120#8] by decide, List.mem_cons, List.not_mem_nil, or_false,
    forall_eq_or_imp, forall_eq]
  refine ⟨key (U.fmtBinary_eq hw h4 he oc f) n2.1 n2.2.1 n2.2.2,
    key (U.fmtOctal_eq hw h4 he oc f) n8.1 n8.2.1 n8.2.2,
    key (U.fmtUpperHex_eq hw h4 he oc f) n16.1 n16.2.1 n16.2.2,
    key (U.fmtLowerHex_eq hw h4 he oc f) (by simpa using n16.1) ?_ ?_⟩
  · intro b hb
    obtain ⟨d, hd, rfl⟩ := List.mem_map.1 hb
    exact lower_ascii (numeral_ascii (by decide) (by decide) hd)
  · intro b hb
    obtain ⟨d, hd, rfl⟩ := List.mem_map.1 hb
    exact (lower_plain (numeral_plain (by decide) (by decide) hd)).2

example := C52_radix_fmt_align_partial (x := a) (Or.inr rfl) (by decide) (by decide) true .center
  { width := some 3, alternate := true, fill := [226, 130, 172] } ⟨226, [130, 172], rfl, Or.inr (by decide)⟩
example : U.fmtUpperHex true { width := some 5, fill := [70] } (ofU8 4 255 : Limbs 64)
      = .ok (padAligned .center { width := some 5, fill := [70] } false (ascii "0x") (ascii "FF")) ∧
    U.fmtUpperHex true { width := some 5, fill := [70] } (ofU8 4 254 : Limbs 64)
      ≠ .ok (padAligned .center { width := some 5, fill := [70] } false (ascii "0x") (ascii "FE")) := by
  decide +kernel

/-- C52, partial: `Display` prints what the primitive integers print, whatever the alignment, if and
only if the text fills the width and, for unsigned types, there is no `+` flag. -/
theorem C52_display_align_partial (hw : w = 32 ∨ w = 64) (h4 : 4 ≤ x.length) (he : x.length % 2 = 0)
    (oc : Bool) (al : Align) (f : Write.Flags) (hfill : f.fill ≠ []) :
    (U.fmtDisplay oc f x = .ok (padAligned al f false [] (numeral 10 (toNat x))) ↔
      f.signPlus = false ∧ f.width.getD 0 ≤ (numeral 10 (toNat x)).length) ∧
    (I.fmtDisplay oc f x =
        .ok (padAligned al f (decide (toInt x < 0)) [] (numeral 10 (toInt x).natAbs)) ↔
      f.width.getD 0 ≤ (if toInt x < 0 then 1 else if f.signPlus then 1 else 0) +
        (numeral 10 (toInt x).natAbs).length) := by
  have hu := U.fmtDisplay_eq hw h4 he oc f
  have hi := I.fmtDisplay_eq hw h4 he oc f
  constructor
  · rw [hu]
    have hmin := padAligned_length al f hfill false (numeral 10 (toNat x))
    constructor
    · intro h
      have hlen := congrArg List.length (Res.ok.inj h)
      simp only [Bool.false_eq_true, if_false] at hmin
      cases hs : f.signPlus
      · simp only [hs, Bool.false_eq_true, if_false, List.length_nil] at hmin
        exact ⟨rfl, by omega⟩
      · rw [hs, if_pos rfl, show (ascii "+").length = 1 from rfl] at hmin
        omega
    · rintro ⟨hs, h⟩
      rw [padAligned_fits al f false _ (by omega), hs]
      rfl
  · rw [hi]
    have hl : (if toInt x < 0 then 1 else if f.signPlus then 1 else 0) =
        (if decide (toInt x < 0) = true then ascii "-" else if f.signPlus then ascii "+" else []).length := by
      simp only [decide_eq_true_eq]
      split
      · rfl
      · split <;> rfl
    have hmin := padAligned_length al f hfill (decide (toInt x < 0)) (numeral 10 (toInt x).natAbs)
    rw [hl]
    constructor
    · intro h
      have hlen := congrArg List.length (Res.ok.inj h)
      simp only [List.length_append] at hlen
      simp only [decide_eq_true_eq] at hlen hmin ⊢
      omega
    · intro h
      rw [padAligned_fits al f _ _ h]
      simp only [decide_eq_true_eq]

example := C52_display_align_partial (x := m2) (Or.inr rfl) (by decide) (by decide) true .left
  { signPlus := true, width := some 2, fill := [226, 130, 172] } (by decide)
example : I.fmtDisplay true { width := some 2 } m2
      = .ok (padAligned .left { width := some 2 } true [] (ascii "2")) ∧
    I.fmtDisplay true { width := some 3 } m2
      ≠ .ok (padAligned .left { width := some 3 } true [] (ascii "2")) := by
  decide +kernel

end I256
