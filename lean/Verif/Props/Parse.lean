import Verif.Lemmas.Parse
import Verif.Props.Samples

/-!
# C29: parsing
-/

namespace I256

open Sample

variable {w N : Nat} {radix : BitVec 32}

/-- C29 is false for a sign without digits: `"+"` (both kinds of types) and `"-"` (signed types) parse
to zero in every base, although there is no digit. -/
theorem C29_sign_only_false :
    U.fromStrRadix 4 (ascii "+") 10 = .ok (.ok (zero : Limbs 64)) ∧
    I.fromStrRadix 4 (ascii "+") 10 = .ok (.ok (zero : Limbs 64)) ∧
    I.fromStrRadix 4 (ascii "-") 10 = .ok (.ok (zero : Limbs 64)) := by decide +kernel

/-- C29 is false for the signed types in another way: `-(2^255 + 2)`, which is below `MIN`, parses to
`Ok(2^255 - 2)` instead of `NegOverflow`, with `from_str_radix` and with `FromStr`. -/
theorem C29_int_gap_false :
    I.fromStrRadix 4
      (ascii "-57896044618658097711785492504343953926634992332820282019728792003956564819970") 10
      = .ok (.ok ([0xfffffffffffffffe, 0xffffffffffffffff, 0xffffffffffffffff, 0x7fffffffffffffff] :
        Limbs 64)) ∧
    I.fromStr false 4
      (ascii "-57896044618658097711785492504343953926634992332820282019728792003956564819970")
      = .ok (.ok ([0xfffffffffffffffe, 0xffffffffffffffff, 0xffffffffffffffff, 0x7fffffffffffffff] :
        Limbs 64)) := by decide +kernel

/-- C29, unsigned: for every base from 2 to 36 and every string except a sole `+`, the parser does not
panic and returns the value of the digits, or the right error.  The full statement has no hypothesis
`hs`; it is false (`C29_sign_only_false`).  A leading `-` is `NegOverflow` whatever follows. -/
theorem C29_uint_from_str_radix_partial (hw : w = 32 ∨ w = 64) (hN : 4 ≤ N) (hr : 2 ≤ radix.toNat)
    (hr' : radix.toNat ≤ 36) (s : List Byte) (hs : s ≠ ascii "+") :
    ∃ p, U.fromStrRadix N s radix = .ok p ∧ ParsesU (w := w) N radix.toNat s p :=
  U.fromStrRadix_spec hw hN hr hr' s hs

example := C29_uint_from_str_radix_partial (w := 64) (N := 4) (radix := 16) (Or.inr rfl) (by decide)
  (by decide) (by decide) (ascii "+fFz") (by decide)
example : U.fromStrRadix 4 (ascii "+fF") 16 = .ok (.ok ([255, 0, 0, 0] : Limbs 64)) ∧
    U.fromStrRadix 4 (ascii "+fFg") 16 = .ok (.err .invalidDigit : Parsed (Limbs 64)) ∧
    U.fromStrRadix 4 (ascii "") 16 = .ok (.err .empty : Parsed (Limbs 64)) ∧
    U.fromStrRadix 4 (ascii "-1") 16 = .ok (.err .negOverflow : Parsed (Limbs 64)) := by decide +kernel
/-- The largest value and the next number. -/
example : U.fromStrRadix 4
    (ascii "115792089237316195423570985008687907853269984665640564039457584007913129639935") 10
      = .ok (.ok ones) ∧
    U.fromStrRadix 4
    (ascii "115792089237316195423570985008687907853269984665640564039457584007913129639936") 10
      = .ok (.err .posOverflow : Parsed (Limbs 64)) := by decide +kernel

/-- C29, signed: the same for every string except a sole sign and except the negative numbers described
by `GapText`.  The full statement has none of the hypotheses `hs`, `hs'`, `hg`; it is false
(`C29_sign_only_false`, `C29_int_gap_false`). -/
theorem C29_int_from_str_radix_partial (hw : w = 32 ∨ w = 64) (hN : 4 ≤ N) (hr : 2 ≤ radix.toNat)
    (hr' : radix.toNat ≤ 36) (s : List Byte) (hs : s ≠ ascii "+") (hs' : s ≠ ascii "-")
    (hg : ¬ GapText w N radix.toNat s) :
    ∃ p, I.fromStrRadix N s radix = .ok p ∧ ParsesS (w := w) N radix.toNat s p :=
  I.fromStrRadix_spec hw hN hr hr' s hs hs' hg

/-- Strings that do not start with `-` satisfy the hypotheses. -/
example := C29_int_from_str_radix_partial (w := 64) (N := 4) (radix := 36) (Or.inr rfl) (by decide)
  (by decide) (by decide) (ascii "zZ9") (by decide) (by decide)
  (by rintro ⟨t, h, _⟩; exact absurd (congrArg List.head? h) (by simp; decide))
example : I.fromStrRadix 4 (ascii "-ff") 16 = .ok (.ok ([0xffffffffffffff01, 0xffffffffffffffff,
      0xffffffffffffffff, 0xffffffffffffffff] : Limbs 64)) ∧
    I.fromStrRadix 4 (ascii "-f_f") 16 = .ok (.err .invalidDigit : Parsed (Limbs 64)) := by
  decide +kernel
/-- `MIN`, and one less. -/
example : I.fromStrRadix 4
    (ascii "-57896044618658097711785492504343953926634992332820282019728792003956564819968") 10
      = .ok (.ok top) ∧
    I.fromStrRadix 4
    (ascii "-57896044618658097711785492504343953926634992332820282019728792003956564819969") 10
      = .ok (.err .negOverflow : Parsed (Limbs 64)) := by decide +kernel

/-- C29, the exact behaviour on the remaining strings: the digit strings of `GapText` all denote numbers
below `MIN`, and the parser returns `Ok` of the wrapped (positive) value, or `InvalidDigit` if
something follows the digits. -/
theorem C29_int_gap_partial (hw : w = 32 ∨ w = 64) (hN : 4 ≤ N) (hr : 2 ≤ radix.toNat)
    (hr' : radix.toNat ≤ 36) (t : List Byte) (hg : GapText w N radix.toNat (45 :: t)) :
    ¬ InS (w * N) (-(numVal radix.toNat (digitPart radix.toNat t) : Int)) ∧
    (digitPart radix.toNat t ≠ t →
      I.fromStrRadix N (45 :: t) radix = .ok (.err .invalidDigit : Parsed (Limbs w))) ∧
    (digitPart radix.toNat t = t → ∃ u : Limbs w, I.fromStrRadix N (45 :: t) radix = .ok (.ok u) ∧
      ExactS N (2 ^ (w * N) - (numVal radix.toNat t : Int)) u) := by
  refine ⟨?_, I.fromStrRadix_gap hw hN hr hr' t hg⟩
  obtain ⟨t', ht, hg⟩ := hg
  obtain rfl : t = t' := (List.cons.inj ht).2
  obtain ⟨q1, q2, _⟩ := (GapEnd_iff hw hN hr hr' _).2 hg
  obtain ⟨s, c, hs⟩ : ∃ s c, digitPart radix.toNat t = s ++ [c] :=
    ⟨_, _, (List.dropLast_concat_getLast q1).symm⟩
  have h5 := signed_pow (N := N) hw (by omega)
  rw [hs] at q2 ⊢
  rw [List.dropLast_concat, ← numVal_eq_horner] at q2
  rw [numVal_concat]
  unfold InS
  push_cast at q2 ⊢
  omega

example := C29_int_gap_partial (w := 64) (N := 4) (radix := 16) (Or.inr rfl) (by decide) (by decide)
  (by decide) (ascii "8000000000000000000000000000000000000000000000000000000000000070")
  ⟨_, rfl, by decide +kernel⟩

/-- C29: a sole sign is accepted as zero by `from_str_radix` for every type and base. -/
theorem C29_sign_only_partial (hr : 2 ≤ radix.toNat) (hr' : radix.toNat ≤ 36) :
    U.fromStrRadix N (ascii "+") radix = .ok (.ok (ofU8 N 0 : Limbs w)) ∧
    I.fromStrRadix N (ascii "+") radix = .ok (.ok (ofU8 N 0 : Limbs w)) ∧
    I.fromStrRadix N (ascii "-") radix = .ok (.ok (ofU8 N 0 : Limbs w)) := by
  have h0 : (decide (radix < 2) || decide (36 < radix)) = false := by
    have h1 : radix < 2 ↔ radix.toNat < 2 := Iff.rfl
    have h2 : 36 < radix ↔ 36 < radix.toNat := Iff.rfl
    simp only [h1, h2]
    simp
    omega
  refine ⟨?_, ?_, ?_⟩
  all_goals
    first | unfold U.fromStrRadix | unfold I.fromStrRadix
    unfold Parse.fromStrRadix
    rw [h0]
    rfl

example := C29_sign_only_partial (w := 32) (N := 8) (radix := 7) (by decide) (by decide)

/-- C29: a base outside 2 to 36 panics, whatever the string. -/
theorem C29_radix_panic (hr : radix.toNat < 2 ∨ 36 < radix.toNat) (s : List Byte) :
    U.fromStrRadix N s radix = (.panic : Res (Parsed (Limbs w))) ∧
    I.fromStrRadix N s radix = (.panic : Res (Parsed (Limbs w))) := by
  have h1 : radix < 2 ↔ radix.toNat < 2 := Iff.rfl
  have h2 : 36 < radix ↔ 36 < radix.toNat := Iff.rfl
  have h0 : (decide (radix < 2) || decide (36 < radix)) = true := by
    simp only [h1, h2]
    simpa using hr
  unfold U.fromStrRadix I.fromStrRadix Parse.fromStrRadix
  rw [h0]
  exact ⟨rfl, rfl⟩

example := C29_radix_panic (w := 64) (N := 4) (radix := 37) (Or.inr (by decide)) (ascii "5")

/-- C29: `FromStr` of the unsigned types is right for all strings, also for a sole `+`.  For a leading
`-` the error kind depends on the length: `InvalidDigit` below 39 bytes, `NegOverflow` from there on. -/
theorem C29_uint_from_str (hw : w = 32 ∨ w = 64) (hN : 4 ≤ N) (hB : 128 ≤ w * N) (p32 : Bool)
    (s : List Byte) :
    ∃ p, U.fromStr p32 N s = .ok p ∧
      ((39 ≤ s.length ∨ s.head? ≠ some 45) → ParsesU (w := w) N 10 s p) ∧
      (s.length < 39 → s.head? = some 45 → p = .err .invalidDigit) :=
  U.fromStr_spec hw hN hB p32 s

example := C29_uint_from_str (w := 32) (N := 8) (Or.inl rfl) (by decide) (by decide) true (ascii "+12")
example : U.fromStr false 4 (ascii "+") = .ok (.err .invalidDigit : Parsed (Limbs 64)) ∧
    U.fromStr false 4 (ascii "12") = .ok (.ok ([12, 0, 0, 0] : Limbs 64)) ∧
    U.fromStr true 4 (ascii "-5") = .ok (.err .invalidDigit : Parsed (Limbs 64)) := by decide +kernel

/-- C29: `FromStr` of the signed types is right for all strings outside the gap, also for a sole sign.
The full statement has no hypothesis `hg`; it is false (`C29_int_gap_false`). -/
theorem C29_int_from_str_partial (hw : w = 32 ∨ w = 64) (hN : 4 ≤ N) (hB : 128 ≤ w * N) (p32 : Bool)
    (s : List Byte) (hg : 39 ≤ s.length → ¬ GapText w N 10 s) :
    ∃ p, I.fromStr p32 N s = .ok p ∧ ParsesS (w := w) N 10 s p :=
  I.fromStr_spec hw hN hB p32 s hg

/-- Short strings satisfy the hypothesis. -/
example := C29_int_from_str_partial (w := 64) (N := 4) (Or.inr rfl) (by decide) (by decide) false
  (ascii "-12") (fun h => absurd h (by decide))
example : I.fromStr false 4 (ascii "-2") = .ok (.ok m2) ∧
    I.fromStr true 4 (ascii "-2") = .ok (.ok m2) ∧
    I.fromStr false 4 (ascii "-") = .ok (.err .invalidDigit : Parsed (Limbs 64)) := by decide +kernel

end I256
