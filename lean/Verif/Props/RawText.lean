import Verif.SpecRawText
import Verif.Lemmas.RawText
import Verif.Props.Parse
import Verif.Props.Write
import Verif.Props.Flags

/-!
# C70: text conversions in memory

The theorems are about the literal transcription of `src/write.rs`, `src/parse.rs` and the formatting
traits: the limbs are in memory order, the buffer is written in place through checked indices, the loops
run on indices, the assertions are executed, and native arithmetic is checked or wraps as the build says
(`cf`).
-/

namespace I256

open Sample
open Raw.Div (Cfg)

variable {w N : Nat} {be : Bool} {a : Limbs w} {radix : BitVec 32} {cf : Cfg}

/-- C70: unsigned `to_str_radix` writes the numeral to the end of the buffer, leaves the other bytes as
they were, and returns the slice with the numeral. -/
theorem C70_uint_to_str_radix (hw : w = 32 ∨ w = 64) (h4 : 4 ≤ a.length) (he : a.length % 2 = 0)
    (h128 : 128 ∣ w * a.length) (hr : 2 ≤ radix.toNat) (hr' : radix.toNat ≤ 36) (buffer : List Byte)
    (hlen : bits a ≤ buffer.length) :
    Raw.U.toStrRadix cf be a buffer radix =
      .ok (wrote buffer (numeral radix.toNat (memNat be a))) := by
  obtain ⟨x, rfl⟩ := Raw.exists_mem be a
  simp only [bits, Raw.mem_length, Raw.memNat_mem] at *
  rw [Raw.U.toStrRadix_ok cf be hw h4 he h128, C30_uint_to_str_radix hw h4 he hr hr' cf.oc _ hlen]
  rfl

example := C70_uint_to_str_radix (cf := ⟨true, true, false⟩) (be := true) (a := ones32) (radix := 36)
  (Or.inl rfl) (by decide) (by decide) (by decide) (by decide) (by decide) (List.replicate 300 7)
  (by rw [List.length_replicate]; decide)
example : Raw.U.toStrRadix ⟨true, true, false⟩ true ([0, 0, 0, 255] : Limbs 64)
    (List.replicate 256 7) 16 = .ok (List.replicate 254 7 ++ ascii "FF", ascii "FF") := by decide +kernel

/-- C70: signed `to_str_radix` of a number that is not negative. -/
theorem C70_int_to_str_radix (hw : w = 32 ∨ w = 64) (h4 : 4 ≤ a.length) (he : a.length % 2 = 0)
    (h128 : 128 ∣ w * a.length) (hB : 128 < bits a) (hr : 2 ≤ radix.toNat) (hr' : radix.toNat ≤ 36)
    (buffer : List Byte) (hlen : bits a + 1 ≤ buffer.length) (h0 : 0 ≤ memInt be a) :
    Raw.I.toStrRadix cf be a buffer radix =
      .ok (wrote buffer (numeralS radix.toNat (memInt be a))) := by
  obtain ⟨x, rfl⟩ := Raw.exists_mem be a
  simp only [bits, Raw.mem_length, Raw.memInt_mem] at *
  rw [Raw.I.toStrRadix_ok cf be hw h4 he h128,
    C30_int_to_str_radix_partial hw h4 he hB hr hr' cf.oc _ hlen h0]
  rfl

example := C70_int_to_str_radix (cf := ⟨true, true, false⟩) (be := false) (a := maxS) (radix := 10)
  (Or.inr rfl) (by decide) (by decide) (by decide) (by decide) (by decide) (by decide)
  (List.replicate 257 0) (by rw [List.length_replicate]; decide) (by decide +kernel)

/-- C70: signed `to_str_radix` of a negative number writes `-` and one character, which is made from the
lowest byte `b` and the lowest 32 bits `d` of the number: `b + 48` if the base is at most 10 or `d` is
below 10, and `b + 65 - 10` otherwise.  With overflow checks it panics if the sum does not fit a byte. -/
theorem C70_int_to_str_radix_negative (hw : w = 32 ∨ w = 64) (h4 : 4 ≤ a.length)
    (he : a.length % 2 = 0) (h128 : 128 ∣ w * a.length) (hB : 128 < bits a) (hr : 2 ≤ radix.toNat)
    (hr' : radix.toNat ≤ 36) (buffer : List Byte) (hlen : bits a + 1 ≤ buffer.length)
    (h0 : memInt be a < 0) :
    let b := (memInt be a % 256).toNat
    let d := (memInt be a % 2 ^ 32).toNat
    let off := if radix.toNat ≤ 10 ∨ d < 10 then 48 else 65
    Raw.I.toStrRadix cf be a buffer radix =
      if cf.oc = true ∧ 256 ≤ b + off then .panic
      else .ok (wrote buffer [45#8, BitVec.ofNat 8 (b + if off = 48 then 48 else 55)]) := by
  obtain ⟨x, rfl⟩ := Raw.exists_mem be a
  simp only [bits, Raw.mem_length, Raw.memInt_mem] at *
  rw [Raw.I.toStrRadix_ok cf be hw h4 he h128, I.toStrRadix_neg_char hw h4 he hB hr hr' cf.oc _ hlen h0]
  generalize (if radix.toNat ≤ 10 ∨ (toInt x % 2 ^ 32).toNat < 10 then 48 else 65) = off
  by_cases hc : cf.oc = true ∧ 256 ≤ (toInt x % 256).toNat + off
  · rw [if_pos hc, if_pos hc]; rfl
  · rw [if_neg hc, if_neg hc]; rfl

example := C70_int_to_str_radix_negative (cf := ⟨false, true, false⟩) (be := true) (a := m2)
  (radix := 16) (Or.inr rfl) (by decide) (by decide) (by decide) (by decide) (by decide) (by decide)
  (List.replicate 257 0) (by rw [List.length_replicate]; decide) (by decide +kernel)
example : Raw.I.toStrRadix ⟨false, false, false⟩ true m2.reverse (List.replicate 257 0) 16 =
      .ok (List.replicate 255 0 ++ ascii "-5", ascii "-5") ∧
    Raw.I.toStrRadix ⟨true, true, false⟩ true m2.reverse (List.replicate 257 0) 16 = .panic := by
  decide +kernel

/-- C70: a base outside 2 to 36 or a buffer that is too short panics. -/
theorem C70_to_str_radix_panic (hw : w = 32 ∨ w = 64) (h4 : 4 ≤ a.length) (he : a.length % 2 = 0)
    (h128 : 128 ∣ w * a.length) (buffer : List Byte) :
    ((radix.toNat < 2 ∨ 36 < radix.toNat ∨ buffer.length < bits a) →
      Raw.U.toStrRadix cf be a buffer radix = .panic) ∧
    ((radix.toNat < 2 ∨ 36 < radix.toNat ∨ buffer.length < bits a + 1) →
      Raw.I.toStrRadix cf be a buffer radix = .panic) := by
  obtain ⟨x, rfl⟩ := Raw.exists_mem be a
  simp only [bits, Raw.mem_length] at *
  obtain ⟨h1, h2⟩ := C30_panic (x := x) (radix := radix) cf.oc buffer.length
  rw [Raw.U.toStrRadix_ok cf be hw h4 he h128, Raw.I.toStrRadix_ok cf be hw h4 he h128]
  exact ⟨fun h => by rw [h1 h]; rfl, fun h => by rw [h2 h]; rfl⟩

example := C70_to_str_radix_panic (cf := ⟨false, true, false⟩) (be := true) (a := m2) (radix := 37)
  (Or.inr rfl) (by decide) (by decide) (by decide) (List.replicate 257 0)

/-- C70: unsigned `from_str_radix` ends normally and stores the value of the digits, or returns the right
error, for every string except a sole `+`. -/
theorem C70_uint_from_str_radix (hw : w = 32 ∨ w = 64) (hN : 4 ≤ N) (h128 : 128 ∣ w * N)
    (hr : 2 ≤ radix.toNat) (hr' : radix.toNat ≤ 36) (s : List Byte) (hs : s ≠ ascii "+") :
    ∃ p, Raw.U.fromStrRadix (w := w) cf be N s radix = .ok p ∧
      ParsesU N radix.toNat s (logicalP be p) := by
  obtain ⟨p, h1, h2⟩ := C29_uint_from_str_radix_partial (radix := radix) hw hN hr hr' s hs
  refine ⟨Parse.Parsed.map (Raw.mem be) p, ?_, by rwa [Raw.logicalP_map]⟩
  rw [Raw.U.fromStrRadix_ok be (by omega) (by omega) h128, h1]
  rfl

example := C70_uint_from_str_radix (cf := ⟨true, true, false⟩) (be := true) (w := 64) (N := 4)
  (radix := 16) (Or.inr rfl) (by decide) (by decide) (by decide) (by decide) (ascii "+fFz") (by decide)
example : Raw.U.fromStrRadix ⟨true, true, false⟩ true 4 (ascii "+fF") 16 =
      .ok (.ok ([0, 0, 0, 255] : Limbs 64)) ∧
    Raw.U.fromStrRadix ⟨true, true, false⟩ true 4 (ascii "f_") 16 =
      .ok (.err .invalidDigit : Parsed (Limbs 64)) := by decide +kernel

/-- C70: signed `from_str_radix`, for every string except a sole sign and the texts that meet the error
of the multiplication. -/
theorem C70_int_from_str_radix (hw : w = 32 ∨ w = 64) (hN : 4 ≤ N) (h128 : 128 ∣ w * N)
    (hr : 2 ≤ radix.toNat) (hr' : radix.toNat ≤ 36) (s : List Byte) (hs : s ≠ ascii "+")
    (hs' : s ≠ ascii "-") (hg : ¬ GapText w N radix.toNat s) :
    ∃ p, Raw.I.fromStrRadix (w := w) cf be N s radix = .ok p ∧
      ParsesS N radix.toNat s (logicalP be p) := by
  obtain ⟨p, h1, h2⟩ := C29_int_from_str_radix_partial (radix := radix) hw hN hr hr' s hs hs' hg
  refine ⟨Parse.Parsed.map (Raw.mem be) p, ?_, by rwa [Raw.logicalP_map]⟩
  rw [Raw.I.fromStrRadix_ok be (by omega) (by omega) h128, h1]
  rfl

example := C70_int_from_str_radix (cf := ⟨true, true, false⟩) (be := true) (w := 64) (N := 4)
  (radix := 36) (Or.inr rfl) (by decide) (by decide) (by decide) (by decide) (ascii "zZ9") (by decide)
  (by decide) (by rintro ⟨t, h, _⟩; exact absurd (congrArg List.head? h) (by simp; decide))
example : Raw.I.fromStrRadix ⟨true, true, false⟩ true 4 (ascii "-2") 10 = .ok (.ok m2.reverse) := by
  decide +kernel

/-- C70: the texts that meet the error of the multiplication: a text with other characters than digits is
an invalid digit, and a text of digits, which is below `MIN`, is read as its value plus `2^BITS`. -/
theorem C70_int_from_str_radix_gap (hw : w = 32 ∨ w = 64) (hN : 4 ≤ N) (h128 : 128 ∣ w * N)
    (hr : 2 ≤ radix.toNat) (hr' : radix.toNat ≤ 36) (t : List Byte)
    (hg : GapText w N radix.toNat (45 :: t)) :
    (digitPart radix.toNat t ≠ t →
      Raw.I.fromStrRadix cf be N (45 :: t) radix = .ok (.err .invalidDigit : Parsed (Limbs w))) ∧
    (digitPart radix.toNat t = t → ∃ m : Limbs w,
      Raw.I.fromStrRadix cf be N (45 :: t) radix = .ok (.ok m) ∧
      ExactS N (2 ^ (w * N) - (numVal radix.toNat t : Int)) (logical be m)) := by
  obtain ⟨-, h1, h2⟩ := C29_int_gap_partial hw hN hr hr' t hg
  rw [Raw.I.fromStrRadix_ok be (by omega) (by omega) h128]
  refine ⟨fun h => by rw [h1 h]; rfl, fun h => ?_⟩
  obtain ⟨u, e, hu⟩ := h2 h
  exact ⟨Raw.mem be u, by rw [e]; rfl, by rwa [Raw.logical_mem]⟩

example := C70_int_from_str_radix_gap (cf := ⟨true, true, false⟩) (be := true) (w := 64) (N := 4)
  (radix := 16) (Or.inr rfl) (by decide) (by decide) (by decide) (by decide)
  (ascii "8000000000000000000000000000000000000000000000000000000000000070")
  ⟨_, rfl, by decide +kernel⟩
example : Raw.I.fromStrRadix ⟨true, true, false⟩ true 4
      (ascii "-57896044618658097711785492504343953926634992332820282019728792003956564819970") 10
      = .ok (.ok ([0x7fffffffffffffff, 0xffffffffffffffff, 0xffffffffffffffff, 0xfffffffffffffffe] :
        Limbs 64)) := by decide +kernel

/-- C70: a sole sign is read as zero, and a base outside 2 to 36 panics. -/
theorem C70_from_str_radix_rest (hw : w = 32 ∨ w = 64) (hN : 4 ≤ N) (h128 : 128 ∣ w * N) :
    (2 ≤ radix.toNat → radix.toNat ≤ 36 →
      (∃ m : Limbs w, Raw.U.fromStrRadix cf be N (ascii "+") radix = .ok (.ok m) ∧ memNat be m = 0) ∧
      (∃ m : Limbs w, Raw.I.fromStrRadix cf be N (ascii "+") radix = .ok (.ok m) ∧ memInt be m = 0) ∧
      (∃ m : Limbs w, Raw.I.fromStrRadix cf be N (ascii "-") radix = .ok (.ok m) ∧ memInt be m = 0)) ∧
    (radix.toNat < 2 ∨ 36 < radix.toNat → ∀ s,
      Raw.U.fromStrRadix (w := w) cf be N s radix = .panic ∧
      Raw.I.fromStrRadix (w := w) cf be N s radix = .panic) := by
  have h0 : toNat (ofU8 N 0 : Limbs w) = 0 := by
    have := (ofU8_zero (w := w) N (by omega)).2
    omega
  have h0' : toInt (ofU8 N 0 : Limbs w) = 0 := by
    have := (ofU8S (w := w) (N := N) (v := 0) (by omega) (by omega) (Nat.two_pow_pos w)).2
    omega
  simp only [Raw.U.fromStrRadix_ok be (show 1 < w by omega) (show 2 ≤ N by omega) h128,
    Raw.I.fromStrRadix_ok be (show 1 < w by omega) (show 2 ≤ N by omega) h128]
  refine ⟨fun hr hr' => ?_, fun hr s => ?_⟩
  · obtain ⟨h1, h2, h3⟩ := C29_sign_only_partial (w := w) (N := N) hr hr'
    rw [h1, h2, h3]
    refine ⟨⟨_, rfl, ?_⟩, ⟨_, rfl, ?_⟩, ⟨_, rfl, ?_⟩⟩
    · rw [Raw.memNat_mem, h0]
    · rw [Raw.memInt_mem, h0']
    · rw [Raw.memInt_mem, h0']
  · obtain ⟨h1, h2⟩ := C29_radix_panic (w := w) (N := N) hr s
    rw [h1, h2]
    exact ⟨rfl, rfl⟩

example := C70_from_str_radix_rest (cf := ⟨true, true, false⟩) (be := true) (w := 64) (N := 4)
  (radix := 10) (Or.inr rfl) (by decide) (by decide)

/-- C70: `FromStr` of the unsigned types, for every string.  A leading `-` is `NegOverflow` from 39
characters on and `InvalidDigit` below. -/
theorem C70_uint_from_str (hw : w = 32 ∨ w = 64) (hN : 4 ≤ N) (h128 : 128 ∣ w * N) (p32 : Bool)
    (s : List Byte) :
    ∃ p, Raw.U.fromStr cf be p32 N s = .ok p ∧
      ((39 ≤ s.length ∨ s.head? ≠ some 45) → ParsesU (w := w) N 10 s (logicalP be p)) ∧
      (s.length < 39 → s.head? = some 45 → p = .err .invalidDigit) := by
  have hB : 128 ≤ w * N := Nat.le_of_dvd (Nat.mul_pos (by omega) (by omega)) h128
  obtain ⟨p, h1, h2, h3⟩ := C29_uint_from_str (w := w) hw hN hB p32 s
  refine ⟨Parse.Parsed.map (Raw.mem be) p, ?_, by rwa [Raw.logicalP_map], fun q q' => ?_⟩
  · rw [Raw.U.fromStr_ok cf be hw hN h128, h1]
    rfl
  · rw [h3 q q']
    rfl

example := C70_uint_from_str (cf := ⟨true, true, false⟩) (be := true) (w := 32) (N := 8) (Or.inl rfl)
  (by decide) (by decide) true (ascii "+12")
example : Raw.U.fromStr ⟨true, true, false⟩ true false 4 (ascii "12") =
    .ok (.ok ([0, 0, 0, 12] : Limbs 64)) := by decide +kernel

/-- C70: `FromStr` of the signed types, for every string that does not meet the error of the
multiplication. -/
theorem C70_int_from_str (hw : w = 32 ∨ w = 64) (hN : 4 ≤ N) (h128 : 128 ∣ w * N) (p32 : Bool)
    (s : List Byte) (hg : 39 ≤ s.length → ¬ GapText w N 10 s) :
    ∃ p, Raw.I.fromStr cf be p32 N s = .ok p ∧ ParsesS (w := w) N 10 s (logicalP be p) := by
  have hB : 128 ≤ w * N := Nat.le_of_dvd (Nat.mul_pos (by omega) (by omega)) h128
  obtain ⟨p, h1, h2⟩ := C29_int_from_str_partial (w := w) hw hN hB p32 s hg
  refine ⟨Parse.Parsed.map (Raw.mem be) p, ?_, by rwa [Raw.logicalP_map]⟩
  rw [Raw.I.fromStr_ok cf be hw hN h128, h1]
  rfl

example := C70_int_from_str (cf := ⟨true, true, false⟩) (be := true) (w := 64) (N := 4) (Or.inr rfl)
  (by decide) (by decide) false (ascii "-12") (fun h => absurd h (by decide))
example : Raw.I.fromStr ⟨true, true, false⟩ true false 4 (ascii "-2") = .ok (.ok m2.reverse) := by
  decide +kernel

/-- C70: the formats in bases 2, 8 and 16, with all flags: the prefix if `#` is given, the fill character
as often as the digits alone are short of the width, the digits.  No run panics, and the digits are
always accepted as text. -/
theorem C70_radix_fmt (hw : w = 32 ∨ w = 64) (h4 : 4 ≤ a.length) (he : a.length % 2 = 0)
    (h128 : 128 ∣ w * a.length) (f : Write.Flags) :
    ∀ g ∈ [((Raw.U.fmtBinary cf be f a, Raw.I.fmtBinary cf be f a), ascii "0b",
        numeral 2 (memNat be a)),
      ((Raw.U.fmtOctal cf be f a, Raw.I.fmtOctal cf be f a), ascii "0o", numeral 8 (memNat be a)),
      ((Raw.U.fmtUpperHex cf be f a, Raw.I.fmtUpperHex cf be f a), ascii "0x",
        numeral 16 (memNat be a)),
      ((Raw.U.fmtLowerHex cf be f a, Raw.I.fmtLowerHex cf be f a), ascii "0x",
        (numeral 16 (memNat be a)).map lowerByte)],
    ∀ out, out = (if f.alternate then g.2.1 else []) ++
        (List.replicate (f.width.getD 0 - g.2.2.length) f.fill).flatten ++ g.2.2 →
      g.1.1 = .ok (some out) ∧ g.1.2 = .ok (some out) := by
  obtain ⟨x, rfl⟩ := Raw.exists_mem be a
  simp only [Raw.mem_length, Raw.memNat_mem] at *
  obtain ⟨i1, i2, i3, i4⟩ := Raw.I.fmtRadix_ok cf be f hw h4 he h128
  have h := C52_radix_output_partial hw h4 he cf.oc f
  simp only [Raw.U.fmtBinary_ok cf be f hw h4 he h128, Raw.U.fmtOctal_ok cf be f hw h4 he h128,
    Raw.U.fmtUpperHex_ok cf be f hw h4 he h128, Raw.U.fmtLowerHex_ok cf be f hw h4 he h128, i1, i2, i3,
    i4, List.mem_cons, List.not_mem_nil, or_false, forall_eq_or_imp, forall_eq] at h ⊢
  obtain ⟨⟨h1, h1'⟩, ⟨h2, h2'⟩, ⟨h3, h3'⟩, ⟨h5, h5'⟩⟩ := h
  rw [h1, h1', h2, h2', h3, h3', h5, h5']
  exact ⟨⟨rfl, rfl⟩, ⟨rfl, rfl⟩, ⟨rfl, rfl⟩, ⟨rfl, rfl⟩⟩

example := C70_radix_fmt (cf := ⟨true, true, false⟩) (be := true) (a := Sample.a) (Or.inr rfl)
  (by decide) (by decide) (by decide) { width := some 40, fill := [42], zero := true, signPlus := true }
example : Raw.I.fmtOctal ⟨true, true, false⟩ true
    { width := some 6, fill := [42], alternate := true, signPlus := true }
    ([0, 0, 0, 9] : Limbs 64) = .ok (some (ascii "0o****11")) := by decide +kernel

/-- C70: `Display`: the numeral, after `-` for a negative number, or after `+` if the flag is given and the
type is signed. -/
theorem C70_display (hw : w = 32 ∨ w = 64) (h4 : 4 ≤ a.length) (he : a.length % 2 = 0)
    (h128 : 128 ∣ w * a.length) (f : Write.Flags) :
    Raw.U.fmtDisplay cf be f a = .ok (some (numeral 10 (memNat be a))) ∧
    Raw.I.fmtDisplay cf be f a = .ok (some
      ((if memInt be a < 0 then ascii "-" else if f.signPlus then ascii "+" else []) ++
        numeral 10 (memInt be a).natAbs)) := by
  obtain ⟨x, rfl⟩ := Raw.exists_mem be a
  simp only [Raw.mem_length, Raw.memNat_mem, Raw.memInt_mem] at *
  rw [Raw.U.fmtDisplay_ok cf be f hw h4 he h128, Raw.I.fmtDisplay_ok cf be f hw h4 he h128,
    U.fmtDisplay_eq hw h4 he, I.fmtDisplay_eq hw h4 he]
  exact ⟨rfl, rfl⟩

example := C70_display (cf := ⟨true, true, false⟩) (be := true) (a := Sample.a) (Or.inr rfl) (by decide)
  (by decide) (by decide) {}
example : Raw.I.fmtDisplay ⟨true, true, false⟩ true {} m2.reverse = .ok (some (ascii "-2")) := by
  decide +kernel

/-- C70: `LowerExp` and `UpperExp` print a text that denotes the value, after the sign; it is the text of
the primitive integers exactly if the number has two digits or more and does not end in zero. -/
theorem C70_exp (hw : w = 32 ∨ w = 64) (h4 : 4 ≤ a.length) (he : a.length % 2 = 0)
    (h128 : 128 ∣ w * a.length) (f : Write.Flags) :
    let sign := if memInt be a < 0 then ascii "-" else if f.signPlus then ascii "+" else []
    ∀ g ∈ [(101#8, Raw.U.fmtLowerExp cf be f a, ([] : List Byte), memNat be a),
      (69#8, Raw.U.fmtUpperExp cf be f a, [], memNat be a),
      (101#8, Raw.I.fmtLowerExp cf be f a, sign, (memInt be a).natAbs),
      (69#8, Raw.I.fmtUpperExp cf be f a, sign, (memInt be a).natAbs)],
    ∃ s, g.2.1 = .ok (some (g.2.2.1 ++ s)) ∧ SciDenotes g.1 s g.2.2.2 ∧
      (s = sciForm g.1 g.2.2.2 ↔ 10 ≤ g.2.2.2 ∧ g.2.2.2 % 10 ≠ 0) := by
  obtain ⟨x, rfl⟩ := Raw.exists_mem be a
  simp only [Raw.mem_length, Raw.memNat_mem, Raw.memInt_mem] at *
  obtain ⟨⟨s1, e1, p1⟩, ⟨s2, e2, p2⟩⟩ := C47_uint_exp_partial hw h4 he cf.oc f
  obtain ⟨⟨s3, e3, p3⟩, ⟨s4, e4, p4⟩⟩ := C47_int_exp_partial hw h4 he cf.oc f
  simp only [Raw.U.fmtLowerExp_ok cf be f hw h4 he h128, Raw.U.fmtUpperExp_ok cf be f hw h4 he h128,
    Raw.I.fmtLowerExp_ok cf be f hw h4 he h128, Raw.I.fmtUpperExp_ok cf be f hw h4 he h128, e1, e2, e3,
    e4, List.mem_cons, List.not_mem_nil, or_false, forall_eq_or_imp, forall_eq]
  exact ⟨⟨s1, rfl, p1⟩, ⟨s2, rfl, p2⟩, ⟨s3, rfl, p3⟩, ⟨s4, rfl, p4⟩⟩

example := C70_exp (cf := ⟨true, true, false⟩) (be := true) (a := m2) (Or.inr rfl) (by decide)
  (by decide) (by decide) { signPlus := true }
example : Raw.U.fmtLowerExp ⟨true, true, false⟩ true {} ([0, 0, 0, 1234] : Limbs 64) =
    .ok (some (ascii "1.234e3")) := by decide +kernel

end I256
