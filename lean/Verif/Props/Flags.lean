import Verif.Lemmas.Pad
import Verif.Props.Write

/-!
# C52: formatting flags, exact output

`padIntegral` (Verif/SpecText.lean) is what the primitive integers print.
-/

namespace I256

open Sample

variable {w : Nat} {x : Limbs w}

/-- C52, partial: what the formats in bases 2, 8 and 16 print, for all flags: the prefix if `#` is
given, the fill character as often as the digits alone are short of the width, the digits.  `+` and
`0` are ignored. -/
theorem C52_radix_output_partial (hw : w = 32 ∨ w = 64) (h4 : 4 ≤ x.length) (he : x.length % 2 = 0)
    (oc : Bool) (f : Write.Flags) :
    ∀ g ∈ [((U.fmtBinary oc f x, I.fmtBinary oc f x), ascii "0b", numeral 2 (toNat x)),
      ((U.fmtOctal oc f x, I.fmtOctal oc f x), ascii "0o", numeral 8 (toNat x)),
      ((U.fmtUpperHex oc f x, I.fmtUpperHex oc f x), ascii "0x", numeral 16 (toNat x)),
      ((U.fmtLowerHex oc f x, I.fmtLowerHex oc f x), ascii "0x",
        (numeral 16 (toNat x)).map lowerByte)],
    ∀ out, out = (if f.alternate then g.2.1 else []) ++
        (List.replicate (f.width.getD 0 - g.2.2.length) f.fill).flatten ++ g.2.2 →
      g.1.1 = .ok out ∧ g.1.2 = .ok out := by
  have h1 := U.fmtBinary_eq hw h4 he oc f
  have h2 := U.fmtOctal_eq hw h4 he oc f
  have h3 := U.fmtUpperHex_eq hw h4 he oc f
  have h4 := U.fmtLowerHex_eq hw h4 he oc f
  rw [pad_spell] at h1 h2 h3 h4
  simp only [List.mem_cons, List.not_mem_nil, or_false, forall_eq_or_imp, forall_eq]
  exact ⟨⟨h1, h1⟩, ⟨h2, h2⟩, ⟨h3, h3⟩, ⟨h4, h4⟩⟩

example := C52_radix_output_partial (x := a) (Or.inr rfl) (by decide) (by decide) true
  { width := some 40, fill := [42], zero := true, signPlus := true }
example : I.fmtOctal true { width := some 6, fill := [42], alternate := true, signPlus := true }
    (ofU8 4 9 : Limbs 64) = .ok (ascii "0o****11") := by decide +kernel

/-- C52, partial: with the default fill character, the formats in bases 2, 8 and 16 print what the
primitive integers print if and only if there is no `+` flag and either the digits alone fill the
width or there is neither `#` nor `0`. -/
theorem C52_radix_fmt_iff_partial (hw : w = 32 ∨ w = 64) (h4 : 4 ≤ x.length) (he : x.length % 2 = 0)
    (oc : Bool) (f : Write.Flags) (hfill : f.fill = [32#8]) :
    ∀ g ∈ [((U.fmtBinary oc f x, I.fmtBinary oc f x), ascii "0b", numeral 2 (toNat x)),
      ((U.fmtOctal oc f x, I.fmtOctal oc f x), ascii "0o", numeral 8 (toNat x)),
      ((U.fmtUpperHex oc f x, I.fmtUpperHex oc f x), ascii "0x", numeral 16 (toNat x)),
      ((U.fmtLowerHex oc f x, I.fmtLowerHex oc f x), ascii "0x",
        (numeral 16 (toNat x)).map lowerByte)],
    (g.1.1 = .ok (padIntegral f false g.2.1 g.2.2) ↔ f.signPlus = false ∧
      (f.width.getD 0 ≤ g.2.2.length ∨ (f.alternate = false ∧ f.zero = false))) ∧
    (g.1.2 = .ok (padIntegral f false g.2.1 g.2.2) ↔ f.signPlus = false ∧
      (f.width.getD 0 ≤ g.2.2.length ∨ (f.alternate = false ∧ f.zero = false))) := by
  have key : ∀ {r : Res (List Byte)} {pre digits : List Byte}, r = .ok (Write.pad f pre digits) →
      pre ≠ [] → (∀ c ∈ pre, c ≠ 32#8 ∧ c ≠ 43#8) → (∀ c ∈ digits, c ≠ 32#8 ∧ c ≠ 43#8) →
      (r = .ok (padIntegral f false pre digits) ↔ f.signPlus = false ∧
        (f.width.getD 0 ≤ digits.length ∨ (f.alternate = false ∧ f.zero = false))) := by
    intro r pre digits e hpre h1 h2
    rw [← pad_iff f hfill hpre h1 h2, e]
    exact ⟨fun h => Res.ok.inj h, fun h => by rw [h]⟩
  have k1 := key (U.fmtBinary_eq hw h4 he oc f) (by decide) (by decide)
    fun c hc => numeral_plain (by decide) (by decide) hc
  have k2 := key (U.fmtOctal_eq hw h4 he oc f) (by decide) (by decide)
    fun c hc => numeral_plain (by decide) (by decide) hc
  have k3 := key (U.fmtUpperHex_eq hw h4 he oc f) (by decide) (by decide)
    fun c hc => numeral_plain (by decide) (by decide) hc
  have k4 := key (U.fmtLowerHex_eq hw h4 he oc f) (by decide) (by decide) fun c hc => by
    obtain ⟨d, hd, rfl⟩ := List.mem_map.1 hc
    exact lower_plain (numeral_plain (by decide) (by decide) hd)
  simp only [List.mem_cons, List.not_mem_nil, or_false, forall_eq_or_imp, forall_eq]
  exact ⟨⟨k1, k1⟩, ⟨k2, k2⟩, ⟨k3, k3⟩, ⟨k4, k4⟩⟩

example := C52_radix_fmt_iff_partial (x := a) (Or.inr rfl) (by decide) (by decide) true
  { width := some 3, alternate := true } rfl
example : U.fmtUpperHex true { width := some 2, alternate := true } (ofU8 4 255 : Limbs 64)
    = .ok (padIntegral { width := some 2, alternate := true } false (ascii "0x") (ascii "FF")) := by
  decide +kernel

/-- C52, partial: the same for every fill character (`f.fill` is its UTF-8 form).  Without `+`, the
output is that of the primitive integers if and only if the digits alone fill the width or there is no
`#` and no `0`, where the flag `0` does no harm if the fill character is itself `0`.  With `+`, it is
so only if the missing sign is by chance replaced by the fill character `+`. -/
theorem C52_radix_fmt_any_fill_partial (hw : w = 32 ∨ w = 64) (h4 : 4 ≤ x.length)
    (he : x.length % 2 = 0) (oc : Bool) (f : Write.Flags) (hfill : f.fill ≠ []) :
    ∀ g ∈ [((U.fmtBinary oc f x, I.fmtBinary oc f x), ascii "0b", numeral 2 (toNat x)),
      ((U.fmtOctal oc f x, I.fmtOctal oc f x), ascii "0o", numeral 8 (toNat x)),
      ((U.fmtUpperHex oc f x, I.fmtUpperHex oc f x), ascii "0x", numeral 16 (toNat x)),
      ((U.fmtLowerHex oc f x, I.fmtLowerHex oc f x), ascii "0x",
        (numeral 16 (toNat x)).map lowerByte)],
    ∀ cond : Prop, (cond ↔
      (f.signPlus = false ∧ (f.width.getD 0 ≤ g.2.2.length ∨
        (f.alternate = false ∧ (f.zero = false ∨ f.fill = ascii "0")))) ∨
      (f.signPlus = true ∧ f.alternate = false ∧ f.fill = ascii "+" ∧ g.2.2.length < f.width.getD 0 ∧
        (f.zero = false ∨ f.width.getD 0 = g.2.2.length + 1))) →
      (g.1.1 = .ok (padIntegral f false g.2.1 g.2.2) ↔ cond) ∧
      (g.1.2 = .ok (padIntegral f false g.2.1 g.2.2) ↔ cond) := by
  have key : ∀ {r : Res (List Byte)} {p : Byte} {digits : List Byte},
      r = .ok (Write.pad f [48#8, p] digits) → ∀ cond : Prop, (cond ↔
      (f.signPlus = false ∧ (f.width.getD 0 ≤ digits.length ∨
        (f.alternate = false ∧ (f.zero = false ∨ f.fill = ascii "0")))) ∨
      (f.signPlus = true ∧ f.alternate = false ∧ f.fill = ascii "+" ∧ digits.length < f.width.getD 0 ∧
        (f.zero = false ∨ f.width.getD 0 = digits.length + 1))) →
      (r = .ok (padIntegral f false [48#8, p] digits) ↔ cond) ∧
      (r = .ok (padIntegral f false [48#8, p] digits) ↔ cond) := by
    intro r p digits e cond hc
    have h : r = .ok (padIntegral f false [48#8, p] digits) ↔ cond := by
      rw [hc, show ascii "0" = [48#8] by decide, show ascii "+" = [43#8] by decide,
        ← pad_iff_all f hfill digits, e]
      exact ⟨fun h => Res.ok.inj h, fun h => by rw [h]⟩
    exact ⟨h, h⟩
  simp only [show ascii "0b" = [48#8, 98#8] by decide, show ascii "0o" = [48#8, 111#8] by decide,
    show ascii "0x" = [48#8, 120#8] by decide, List.mem_cons, List.not_mem_nil, or_false,
    forall_eq_or_imp, forall_eq]
  exact ⟨key (U.fmtBinary_eq hw h4 he oc f), key (U.fmtOctal_eq hw h4 he oc f),
    key (U.fmtUpperHex_eq hw h4 he oc f), key (U.fmtLowerHex_eq hw h4 he oc f)⟩

example := C52_radix_fmt_any_fill_partial (x := a) (Or.inr rfl) (by decide) (by decide) true
  { width := some 3, alternate := true, fill := [226, 130, 172] } (by decide)
example : U.fmtUpperHex true { width := some 3, signPlus := true, fill := [43] } (ofU8 4 255 : Limbs 64)
      = .ok (padIntegral { width := some 3, signPlus := true, fill := [43] } false (ascii "0x")
        (ascii "FF")) ∧
    U.fmtUpperHex true { width := some 3, zero := true, fill := [48] } (ofU8 4 255 : Limbs 64)
      = .ok (ascii "0FF") := by
  decide +kernel

/-- C52, partial: `Display` prints the sign and the digits, for all flags, and this is what the
primitive integers print if and only if it fills the width and, for unsigned types, there is no `+`
flag. -/
theorem C52_display_iff_partial (hw : w = 32 ∨ w = 64) (h4 : 4 ≤ x.length) (he : x.length % 2 = 0)
    (oc : Bool) (f : Write.Flags) (hfill : f.fill ≠ []) :
    U.fmtDisplay oc f x = .ok (numeral 10 (toNat x)) ∧
    I.fmtDisplay oc f x = .ok ((if toInt x < 0 then ascii "-" else if f.signPlus then ascii "+" else []) ++
      numeral 10 (toInt x).natAbs) ∧
    (U.fmtDisplay oc f x = .ok (padIntegral f false [] (numeral 10 (toNat x))) ↔
      f.signPlus = false ∧ f.width.getD 0 ≤ (numeral 10 (toNat x)).length) ∧
    (I.fmtDisplay oc f x =
        .ok (padIntegral f (decide (toInt x < 0)) [] (numeral 10 (toInt x).natAbs)) ↔
      f.width.getD 0 ≤ (if toInt x < 0 then 1 else if f.signPlus then 1 else 0) +
        (numeral 10 (toInt x).natAbs).length) := by
  have hu := U.fmtDisplay_eq hw h4 he oc f
  have hi := I.fmtDisplay_eq hw h4 he oc f
  refine ⟨hu, hi, ?_, ?_⟩
  · rw [hu]
    constructor
    · intro h
      have hlen := congrArg (fun r => match r with | Res.ok l => List.length l | .panic => 0) h
      have hmin := padIntegral_length f hfill false (numeral 10 (toNat x))
      simp only [Bool.false_eq_true, if_false] at hlen hmin
      cases hs : f.signPlus
      · simp only [hs, Bool.false_eq_true, if_false, List.length_nil] at hmin
        exact ⟨rfl, by omega⟩
      · rw [hs, if_pos rfl, show (ascii "+").length = 1 from rfl] at hmin
        omega
    · rintro ⟨hs, h⟩
      rw [padIntegral_short f false _ h, hs]
      rfl
  · rw [hi]
    have hl : (if toInt x < 0 then 1 else if f.signPlus then 1 else 0) =
        (if decide (toInt x < 0) = true then ascii "-" else if f.signPlus then ascii "+" else []).length := by
      simp only [decide_eq_true_eq]
      split
      · rfl
      · split <;> rfl
    rw [hl]
    constructor
    · intro h
      have hlen := congrArg (fun r => match r with | Res.ok l => List.length l | .panic => 0) h
      have hmin := padIntegral_length f hfill (decide (toInt x < 0)) (numeral 10 (toInt x).natAbs)
      simp only [List.length_append] at hlen
      simp only [decide_eq_true_eq] at hlen hmin ⊢
      omega
    · intro h
      rw [padIntegral_fits f _ _ h]
      simp only [decide_eq_true_eq]

example := C52_display_iff_partial (x := m2) (Or.inr rfl) (by decide) (by decide) true
  { signPlus := true, width := some 2, fill := [226, 130, 172] } (by decide)
example : I.fmtDisplay true { width := some 2 } m2 = .ok (padIntegral { width := some 2 } true [] (ascii "2")) ∧
    I.fmtDisplay true { width := some 3 } m2 ≠ .ok (padIntegral { width := some 3 } true [] (ascii "2")) := by
  decide +kernel

end I256
