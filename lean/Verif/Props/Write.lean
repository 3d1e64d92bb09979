import Verif.Lemmas.Write
import Verif.Props.Samples

/-!
# C30, C31, C47, C52: formatting
-/

namespace I256

open Sample

variable {w : Nat} {x : Limbs w} {radix : BitVec 32}

/-! ## C30: the numeral -/

/-- C30, unsigned `to_str_radix`: the canonical numeral, for every value, base from 2 to 36 and buffer
of at least `BITS` bytes. -/
theorem C30_uint_to_str_radix (hw : w = 32 ∨ w = 64) (h4 : 4 ≤ x.length) (he : x.length % 2 = 0)
    (hr : 2 ≤ radix.toNat) (hr' : radix.toNat ≤ 36) (oc : Bool) (len : Nat) (hlen : bits x ≤ len) :
    U.toStrRadix oc len x radix = .ok (numeral radix.toNat (toNat x)) :=
  U.toStrRadix_spec hw h4 he hr hr' oc len hlen

example := C30_uint_to_str_radix (x := ones32) (radix := 36) (Or.inl rfl) (by decide) (by decide)
  (by decide) (by decide) true 300 (by decide)
example : U.toStrRadix true 256 (ofU8 4 255 : Limbs 64) 16 = .ok (ascii "FF") ∧
    U.toStrRadix false 256 (ofU8 4 0 : Limbs 64) 2 = .ok (ascii "0") ∧
    U.toStrRadix true 256 ones 10 = .ok (ascii
      "115792089237316195423570985008687907853269984665640564039457584007913129639935") := by
  decide +kernel

/-- C30: a base outside 2 to 36 or a buffer shorter than `BITS` (plus one if signed) panics. -/
theorem C30_panic (oc : Bool) (len : Nat) :
    ((radix.toNat < 2 ∨ 36 < radix.toNat ∨ len < bits x) → U.toStrRadix oc len x radix = .panic) ∧
    ((radix.toNat < 2 ∨ 36 < radix.toNat ∨ len < bits x + 1) →
      I.toStrRadix oc len x radix = .panic) := by
  have h1 : radix < 2 ↔ radix.toNat < 2 := Iff.rfl
  have h2 : 36 < radix ↔ 36 < radix.toNat := Iff.rfl
  unfold U.toStrRadix I.toStrRadix Write.toStrRadix
  simp only [h1, h2, Bool.or_eq_true, decide_eq_true_eq]
  constructor <;> intro h
  all_goals
    by_cases c : radix.toNat < 2 ∨ 36 < radix.toNat
    · rw [if_pos c]
    · rw [if_neg c, if_pos (by simp; omega)]

example := (C30_panic (x := ones) (radix := 10) true 255).1 (by decide)
example : U.toStrRadix true 255 ones 10 = .panic ∧ I.toStrRadix true 256 one 10 = .panic ∧
    U.toStrRadix true 256 ones 1 = .panic := by decide +kernel

/-- C30 is false for negative numbers: `to_str_radix` of `-12` in base 10 is `"-$"` without overflow
checks and panics with them; of `-2` in base 16 it is `"-5"`. -/
theorem C30_int_to_str_radix_false :
    I.toStrRadix false 257 ([0xfffffffffffffff4, 0xffffffffffffffff, 0xffffffffffffffff,
      0xffffffffffffffff] : Limbs 64) 10 = .ok (ascii "-$") ∧
    I.toStrRadix true 257 ([0xfffffffffffffff4, 0xffffffffffffffff, 0xffffffffffffffff,
      0xffffffffffffffff] : Limbs 64) 10 = .panic ∧
    I.toStrRadix false 257 m2 16 = .ok (ascii "-5") := by decide +kernel

/-- C30, signed `to_str_radix` of the numbers that are not negative.  The full statement has no
hypothesis `h0`; it is false for every negative number (`C30_int_to_str_radix_negative_partial`). -/
theorem C30_int_to_str_radix_partial (hw : w = 32 ∨ w = 64) (h4 : 4 ≤ x.length)
    (he : x.length % 2 = 0) (hB : 128 < bits x) (hr : 2 ≤ radix.toNat) (hr' : radix.toNat ≤ 36)
    (oc : Bool) (len : Nat) (hlen : bits x + 1 ≤ len) (h0 : 0 ≤ toInt x) :
    I.toStrRadix oc len x radix = .ok (numeralS radix.toNat (toInt x)) :=
  I.toStrRadix_nonneg hw h4 he hB hr hr' oc len hlen h0

example := C30_int_to_str_radix_partial (x := maxS) (radix := 10) (Or.inr rfl) (by decide) (by decide)
  (by decide) (by decide) (by decide) true 257 (by decide) (by decide +kernel)

/-- C30: for every negative number and every base the signed `to_str_radix` does not return the
numeral; it returns `-` and one character, or panics. -/
theorem C30_int_to_str_radix_negative_partial (hw : w = 32 ∨ w = 64) (h4 : 4 ≤ x.length)
    (he : x.length % 2 = 0) (hB : 128 < bits x) (hr : 2 ≤ radix.toNat) (hr' : radix.toNat ≤ 36)
    (oc : Bool) (len : Nat) (hlen : bits x + 1 ≤ len) (h0 : toInt x < 0) :
    I.toStrRadix oc len x radix ≠ .ok (numeralS radix.toNat (toInt x)) ∧
    (I.toStrRadix oc len x radix = .panic ∨ ∃ c, I.toStrRadix oc len x radix = .ok [45#8, c]) := by
  refine ⟨I.toStrRadix_neg_ne hw h4 he hB hr hr' oc len hlen h0, ?_⟩
  rw [I.toStrRadix_neg hw h4 he hB hr hr' oc len hlen h0]
  cases Write.digitToChar oc ((getLimb x 0).setWidth 32) radix with
  | panic => exact Or.inl rfl
  | ok c => exact Or.inr ⟨c, rfl⟩

example := C30_int_to_str_radix_negative_partial (x := top) (radix := 2) (Or.inr rfl) (by decide)
  (by decide) (by decide) (by decide) (by decide) true 257 (by decide) (by decide +kernel)

/-- C30, what the signed `to_str_radix` returns for every negative number: `-` and one character, which
is made from the lowest byte `b` and the lowest 32 bits `d` of the number: `b + 48` if the base is at
most 10 or `d` is below 10, and `b + 65 - 10` otherwise.  With overflow checks it panics if the sum does
not fit a byte. -/
theorem C30_int_to_str_radix_negative_all_partial (hw : w = 32 ∨ w = 64) (h4 : 4 ≤ x.length)
    (he : x.length % 2 = 0) (hB : 128 < bits x) (hr : 2 ≤ radix.toNat) (hr' : radix.toNat ≤ 36)
    (oc : Bool) (len : Nat) (hlen : bits x + 1 ≤ len) (h0 : toInt x < 0) :
    let b := (toInt x % 256).toNat
    let d := (toInt x % 2 ^ 32).toNat
    let off := if radix.toNat ≤ 10 ∨ d < 10 then 48 else 65
    I.toStrRadix oc len x radix =
      if oc = true ∧ 256 ≤ b + off then .panic
      else .ok [45#8, BitVec.ofNat 8 (b + if off = 48 then 48 else 55)] :=
  I.toStrRadix_neg_char hw h4 he hB hr hr' oc len hlen h0

example := C30_int_to_str_radix_negative_all_partial (x := top) (radix := 2) (Or.inr rfl) (by decide)
  (by decide) (by decide) (by decide) (by decide) true 257 (by decide) (by decide +kernel)
example : I.toStrRadix true 257 top 16 = .ok (ascii "-0") := by decide +kernel

/-- C30: the formatting traits without flags, unsigned. -/
theorem C30_uint_fmt (hw : w = 32 ∨ w = 64) (h4 : 4 ≤ x.length) (he : x.length % 2 = 0) (oc : Bool) :
    U.fmtDisplay oc {} x = .ok (numeral 10 (toNat x)) ∧
    U.fmtBinary oc {} x = .ok (numeral 2 (toNat x)) ∧
    U.fmtOctal oc {} x = .ok (numeral 8 (toNat x)) ∧
    U.fmtUpperHex oc {} x = .ok (numeral 16 (toNat x)) ∧
    U.fmtLowerHex oc {} x = .ok ((numeral 16 (toNat x)).map lowerByte) :=
  ⟨U.fmtDisplay_eq hw h4 he oc _, U.fmtBinary_eq hw h4 he oc _, U.fmtOctal_eq hw h4 he oc _,
    U.fmtUpperHex_eq hw h4 he oc _, U.fmtLowerHex_eq hw h4 he oc _⟩

example := C30_uint_fmt (x := b32) (Or.inl rfl) (by decide) (by decide) true
example : U.fmtLowerHex true {} a = .ok (ascii "50000000000000000ffffffffffffffff") ∧
    U.fmtUpperHex true {} a = .ok (ascii "50000000000000000FFFFFFFFFFFFFFFF") := by decide +kernel

/-- C30: the formatting traits without flags, signed: `Display` writes the sign and the absolute
value; the other bases write the two's complement, as for primitive integers. -/
theorem C30_int_fmt (hw : w = 32 ∨ w = 64) (h4 : 4 ≤ x.length) (he : x.length % 2 = 0) (oc : Bool) :
    I.fmtDisplay oc {} x = .ok (numeralS 10 (toInt x)) ∧
    I.fmtBinary oc {} x = .ok (numeral 2 (toNat x)) ∧
    I.fmtOctal oc {} x = .ok (numeral 8 (toNat x)) ∧
    I.fmtUpperHex oc {} x = .ok (numeral 16 (toNat x)) ∧
    I.fmtLowerHex oc {} x = .ok ((numeral 16 (toNat x)).map lowerByte) := by
  refine ⟨?_, U.fmtBinary_eq hw h4 he oc _, U.fmtOctal_eq hw h4 he oc _,
    U.fmtUpperHex_eq hw h4 he oc _, U.fmtLowerHex_eq hw h4 he oc _⟩
  rw [I.fmtDisplay_eq hw h4 he, numeralS]
  split <;> rfl

example := C30_int_fmt (x := top) (Or.inr rfl) (by decide) (by decide) true
example : I.fmtDisplay true {} m2 = .ok (ascii "-2") ∧ I.fmtDisplay true {} top = .ok (ascii
    "-57896044618658097711785492504343953926634992332820282019728792003956564819968") := by
  decide +kernel

/-- `numeral` is the canonical numeral: digits of the base, denoting the number, no leading zero. -/
theorem C30_numeral {r : Nat} (hr : 2 ≤ r) (hr' : r ≤ 36) (n : Nat) :
    (∀ c ∈ numeral r n, isDigit r c = true) ∧ numVal r (numeral r n) = n ∧
    (∀ t, numeral r n = 48#8 :: t → n = 0 ∧ t = []) :=
  ⟨numeral_isDigit hr hr' n, numVal_numeral hr hr' n, fun _ => numeral_no_zero hr hr'⟩

example := C30_numeral (r := 36) (by decide) (by decide) 12345

/-! ## C31: parsing the output -/

/-- C31, unsigned: `from_str_radix` reads back what `to_str_radix` wrote. -/
theorem C31_uint_to_str_radix (hw : w = 32 ∨ w = 64) (h4 : 4 ≤ x.length) (he : x.length % 2 = 0)
    (hr : 2 ≤ radix.toNat) (hr' : radix.toNat ≤ 36) (oc : Bool) (len : Nat) (hlen : bits x ≤ len) :
    ((U.toStrRadix oc len x radix).bind fun s => U.fromStrRadix x.length s radix) = .ok (.ok x) := by
  rw [C30_uint_to_str_radix hw h4 he hr hr' oc len hlen]
  exact U.fromStrRadix_numeral hw h4 hr hr'

example := C31_uint_to_str_radix (x := ones32) (radix := 7) (Or.inl rfl) (by decide) (by decide)
  (by decide) (by decide) true 256 (by decide)

/-- C31, unsigned: `FromStr` reads back the output of `Display`. -/
theorem C31_uint_display (hw : w = 32 ∨ w = 64) (h4 : 4 ≤ x.length) (he : x.length % 2 = 0)
    (hB : 128 ≤ bits x) (oc p32 : Bool) (f : Write.Flags) :
    ((U.fmtDisplay oc f x).bind fun s => U.fromStr p32 x.length s) = .ok (.ok x) := by
  rw [U.fmtDisplay_eq hw h4 he]
  exact U.fromStr_numeral hw h4 hB p32

example := C31_uint_display (x := ones32) (Or.inl rfl) (by decide) (by decide) (by decide) true true {}

/-- C31, signed: `FromStr` reads back the output of `Display` for every number, also `MIN`, with or
without the `+` flag. -/
theorem C31_int_display (hw : w = 32 ∨ w = 64) (h4 : 4 ≤ x.length) (he : x.length % 2 = 0)
    (hB : 128 < bits x) (oc p32 : Bool) (f : Write.Flags) :
    ((I.fmtDisplay oc f x).bind fun s => I.fromStr p32 x.length s) = .ok (.ok x) := by
  rw [I.fmtDisplay_eq hw h4 he]
  exact I.fromStr_text hw h4 hB.le p32 f.signPlus

example := C31_int_display (x := top) (Or.inr rfl) (by decide) (by decide) (by decide) true false {}
example : ((I.fmtDisplay true {} top).bind fun s => I.fromStr false 4 s) = .ok (.ok top) := by
  decide +kernel

/-- C31, signed: `from_str_radix` reads back what `to_str_radix` wrote for the numbers that are not
negative.  The full statement has no hypothesis `h0`; it is false (`C31_int_to_str_radix_false`). -/
theorem C31_int_to_str_radix_partial (hw : w = 32 ∨ w = 64) (h4 : 4 ≤ x.length)
    (he : x.length % 2 = 0) (hB : 128 < bits x) (hr : 2 ≤ radix.toNat) (hr' : radix.toNat ≤ 36)
    (oc : Bool) (len : Nat) (hlen : bits x + 1 ≤ len) (h0 : 0 ≤ toInt x) :
    ((I.toStrRadix oc len x radix).bind fun s => I.fromStrRadix x.length s radix) = .ok (.ok x) := by
  rw [C30_int_to_str_radix_partial hw h4 he hB hr hr' oc len hlen h0, numeralS, if_neg (by omega)]
  have := I.fromStrRadix_text (x := x) hw h4 hr hr' false
  rw [signedText, if_neg (by omega)] at this
  exact this

example := C31_int_to_str_radix_partial (x := maxS) (radix := 10) (Or.inr rfl) (by decide) (by decide)
  (by decide) (by decide) (by decide) true 257 (by decide) (by decide +kernel)

/-- C31 is false for negative numbers: `-2` in base 16 is read back as `-5`. -/
theorem C31_int_to_str_radix_false :
    ((I.toStrRadix false 257 m2 16).bind fun s => I.fromStrRadix 4 s 16) =
      .ok (.ok ([0xfffffffffffffffb, 0xffffffffffffffff, 0xffffffffffffffff, 0xffffffffffffffff] :
        Limbs 64)) := by decide +kernel

/-- C31: the canonical numeral itself, with its sign, is read back by the signed `from_str_radix` for
every number; so only the writer is wrong. -/
theorem C31_int_numeral (hw : w = 32 ∨ w = 64) (h4 : 4 ≤ x.length)
    (hr : 2 ≤ radix.toNat) (hr' : radix.toNat ≤ 36) :
    I.fromStrRadix x.length (numeralS radix.toNat (toInt x)) radix = .ok (.ok x) := by
  have := I.fromStrRadix_text (x := x) hw h4 hr hr' false
  rw [numeralS]
  unfold signedText at this
  split
  · rename_i h; rw [if_pos h] at this; exact this
  · rename_i h; rw [if_neg h] at this; exact this

example := C31_int_numeral (x := top) (radix := 3) (Or.inr rfl) (by decide) (by decide) (by decide)

/-! ## C47: scientific form -/

/-- C47 is false in its form: `5` prints as `5.e0` (primitive integers print `5e0`) and `1500` as
`1.500e3` (primitive integers print `1.5e3`). -/
theorem C47_form_false :
    U.fmtLowerExp true {} (ofU8 4 5 : Limbs 64) = .ok (ascii "5.e0") ∧
    sciForm 101 5 = ascii "5e0" ∧
    U.fmtUpperExp true {} ([1500, 0, 0, 0] : Limbs 64) = .ok (ascii "1.500E3") ∧
    sciForm 69 1500 = ascii "1.5E3" := by decide +kernel

/-- C47, unsigned: the output always denotes the value, and it has the form that the primitive integers
use exactly when the number has at least two digits and does not end in zero.  The full statement has
`s = sciForm e (toNat x)` without condition; it is false (`C47_form_false`). -/
theorem C47_uint_exp_partial (hw : w = 32 ∨ w = 64) (h4 : 4 ≤ x.length) (he : x.length % 2 = 0)
    (oc : Bool) (f : Write.Flags) :
    (∃ s, U.fmtLowerExp oc f x = .ok s ∧ SciDenotes 101 s (toNat x) ∧
      (s = sciForm 101 (toNat x) ↔ 10 ≤ toNat x ∧ toNat x % 10 ≠ 0)) ∧
    (∃ s, U.fmtUpperExp oc f x = .ok s ∧ SciDenotes 69 s (toNat x) ∧
      (s = sciForm 69 (toNat x) ↔ 10 ≤ toNat x ∧ toNat x % 10 ≠ 0)) := by
  rw [U.fmtLowerExp_eq hw h4 he, U.fmtUpperExp_eq hw h4 he]
  exact ⟨exp_spec 101 _, exp_spec 69 _⟩

example := C47_uint_exp_partial (x := ones32) (Or.inl rfl) (by decide) (by decide) true {}
example : U.fmtLowerExp true {} ([1234, 0, 0, 0] : Limbs 64) = .ok (ascii "1.234e3") := by
  decide +kernel

/-- C47, signed: the sign (`-`, or `+` if the flag is set) followed by the same for the absolute
value. -/
theorem C47_int_exp_partial (hw : w = 32 ∨ w = 64) (h4 : 4 ≤ x.length) (he : x.length % 2 = 0)
    (oc : Bool) (f : Write.Flags) :
    let sign := if toInt x < 0 then ascii "-" else if f.signPlus then ascii "+" else []
    let n := (toInt x).natAbs
    (∃ s, I.fmtLowerExp oc f x = .ok (sign ++ s) ∧ SciDenotes 101 s n ∧
      (s = sciForm 101 n ↔ 10 ≤ n ∧ n % 10 ≠ 0)) ∧
    (∃ s, I.fmtUpperExp oc f x = .ok (sign ++ s) ∧ SciDenotes 69 s n ∧
      (s = sciForm 69 n ↔ 10 ≤ n ∧ n % 10 ≠ 0)) := by
  intro sign n
  rw [I.fmtLowerExp_eq hw h4 he, I.fmtUpperExp_eq hw h4 he]
  obtain ⟨s, h1, h2⟩ := exp_spec 101 n
  obtain ⟨t, h3, h4⟩ := exp_spec 69 n
  refine ⟨⟨s, ?_, h2⟩, ⟨t, ?_, h4⟩⟩
  · change (Write.exp 101 (numeral 10 n)).map _ = _
    rw [h1]; rfl
  · change (Write.exp 69 (numeral 10 n)).map _ = _
    rw [h3]; rfl

example := C47_int_exp_partial (x := m2) (Or.inr rfl) (by decide) (by decide) true { signPlus := true }
example : I.fmtLowerExp true {} ([0xfffffffffffffff4, 0xffffffffffffffff, 0xffffffffffffffff,
    0xffffffffffffffff] : Limbs 64) = .ok (ascii "-1.2e1") := by decide +kernel

/-! ## C52: flags -/

/-- C52 is false: `{:#8x}` of 255 is `0x      ff` instead of `    0xff`, `{:08x}` pads with blanks,
`{:8}` does not pad, and `{:+}` of an unsigned number writes no sign. -/
theorem C52_flags_false :
    U.fmtLowerHex true { alternate := true, width := some 8 } (ofU8 4 255 : Limbs 64)
      = .ok (ascii "0x      ff") ∧
    padIntegral { alternate := true, width := some 8 } false (ascii "0x") (ascii "ff")
      = ascii "    0xff" ∧
    U.fmtLowerHex true { zero := true, width := some 8 } (ofU8 4 255 : Limbs 64)
      = .ok (ascii "      ff") ∧
    padIntegral { zero := true, width := some 8 } false (ascii "0x") (ascii "ff")
      = ascii "000000ff" ∧
    U.fmtDisplay true { width := some 8 } (ofU8 4 255 : Limbs 64) = .ok (ascii "255") ∧
    padIntegral { width := some 8 } false [] (ascii "255") = ascii "     255" ∧
    U.fmtDisplay true { signPlus := true } (ofU8 4 255 : Limbs 64) = .ok (ascii "255") ∧
    padIntegral { signPlus := true } false [] (ascii "255") = ascii "+255" := by decide +kernel

/-- C52, bases 2, 8 and 16, both kinds of types: the output is that of primitive integers if there is
no `+` flag and either no width, or neither `#` nor `0`.  The full statement has no hypotheses `hp`,
`hf`; it is false (`C52_flags_false`). -/
theorem C52_radix_fmt_partial (hw : w = 32 ∨ w = 64) (h4 : 4 ≤ x.length) (he : x.length % 2 = 0)
    (oc : Bool) (f : Write.Flags) (hp : f.signPlus = false)
    (hf : f.width = none ∨ (f.alternate = false ∧ f.zero = false)) :
    U.fmtBinary oc f x = .ok (padIntegral f false (ascii "0b") (numeral 2 (toNat x))) ∧
    U.fmtOctal oc f x = .ok (padIntegral f false (ascii "0o") (numeral 8 (toNat x))) ∧
    U.fmtUpperHex oc f x = .ok (padIntegral f false (ascii "0x") (numeral 16 (toNat x))) ∧
    U.fmtLowerHex oc f x =
      .ok (padIntegral f false (ascii "0x") ((numeral 16 (toNat x)).map lowerByte)) ∧
    I.fmtBinary oc f x = .ok (padIntegral f false (ascii "0b") (numeral 2 (toNat x))) ∧
    I.fmtOctal oc f x = .ok (padIntegral f false (ascii "0o") (numeral 8 (toNat x))) ∧
    I.fmtUpperHex oc f x = .ok (padIntegral f false (ascii "0x") (numeral 16 (toNat x))) ∧
    I.fmtLowerHex oc f x =
      .ok (padIntegral f false (ascii "0x") ((numeral 16 (toNat x)).map lowerByte)) := by
  have hpad := fun pre digits => pad_eq_padIntegral f hp hf pre digits
  have h1 := U.fmtBinary_eq hw h4 he oc f
  have h2 := U.fmtOctal_eq hw h4 he oc f
  have h3 := U.fmtUpperHex_eq hw h4 he oc f
  have h4 := U.fmtLowerHex_eq hw h4 he oc f
  rw [hpad] at h1 h2 h3 h4
  exact ⟨h1, h2, h3, h4, h1, h2, h3, h4⟩

example := C52_radix_fmt_partial (x := a) (Or.inr rfl) (by decide) (by decide) true
  { width := some 40, fill := [42] } rfl (Or.inr ⟨rfl, rfl⟩)
example : U.fmtBinary true { width := some 6, fill := [42] } (ofU8 4 5 : Limbs 64)
      = .ok (ascii "***101") ∧
    U.fmtBinary true { alternate := true } (ofU8 4 5 : Limbs 64) = .ok (ascii "0b101") := by
  decide +kernel

/-- C52, `Display`: the output is that of primitive integers if the width is absent or not more than
the length of the text, and, for unsigned types, there is no `+` flag.  The full statement has no
hypotheses `hf`; it is false (`C52_flags_false`). -/
theorem C52_display_partial (hw : w = 32 ∨ w = 64) (h4 : 4 ≤ x.length) (he : x.length % 2 = 0)
    (oc : Bool) (f : Write.Flags) :
    (f.signPlus = false → f.width.getD 0 ≤ (numeral 10 (toNat x)).length →
      U.fmtDisplay oc f x = .ok (padIntegral f false [] (numeral 10 (toNat x)))) ∧
    (f.width.getD 0 ≤ (numeral 10 (toInt x).natAbs).length →
      I.fmtDisplay oc f x =
        .ok (padIntegral f (decide (toInt x < 0)) [] (numeral 10 (toInt x).natAbs))) := by
  constructor
  · intro hp hf
    rw [U.fmtDisplay_eq hw h4 he, padIntegral_short f false _ hf, hp]
    rfl
  · intro hf
    rw [I.fmtDisplay_eq hw h4 he, padIntegral_short f _ _ hf]
    simp

example := C52_display_partial (x := m2) (Or.inr rfl) (by decide) (by decide) true { signPlus := true }
example : I.fmtDisplay true { signPlus := true } (ofU8 4 7 : Limbs 64) = .ok (ascii "+7") := by
  decide +kernel

end I256
