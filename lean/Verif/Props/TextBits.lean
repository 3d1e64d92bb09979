import Verif.Lemmas.TextBits
import Verif.Props.Bitops
import Verif.Props.Endian
import Verif.Props.Flags
import Verif.Props.Ilog
import Verif.Props.Misc
import Verif.Props.Mul
import Verif.Props.Write

/-!
# C76: the text of a number agrees with its bits, bytes, parity and logarithm

Separate parts of the crate, all computing something about the same number, compared with each other.
-/

namespace I256

open Sample

variable {w : Nat} {x : Limbs w}

/-- C76: the binary text.  Character `i` from the right is bit `i`, the number of `1`s is `count_ones`,
the length is `BITS - leading_zeros` (1 for zero) and the number of `0`s at the end is
`trailing_zeros`. -/
theorem C76_binary (hw : w = 32 ∨ w = 64) (h4 : 4 ≤ x.length) (he : x.length % 2 = 0) (oc : Bool) :
    ∃ s, U.fmtBinary oc {} x = .ok s ∧ I.fmtBinary oc {} x = .ok s ∧
      (∀ i < s.length, s.reverse[i]? = some (if (toNat x).testBit i then 49#8 else 48#8)) ∧
      s.count 49#8 = Bits.countOnes x ∧
      s.length = max 1 (bits x - Bits.leadingZeros x) ∧
      (toNat x ≠ 0 → (s.reverse.takeWhile (· == 48#8)).length = Bits.trailingZeros x) ∧
      (U.isPowerOfTwo x = true ↔ s.count 49#8 = 1) := by
  have hpos : 0 < w := by omega
  have hlt : toNat x < 2 ^ bits x := toNat_lt x
  have hbit : ∀ i < (numeral 2 (toNat x)).length,
      (numeral 2 (toNat x)).reverse[i]? = some (if (toNat x).testBit i then 49#8 else 48#8) := by
    intro i hi
    rw [numeral_getElem? 2 _ (by decide) i hi, Nat.testBit_eq_decide_div_mod_eq]
    rcases Nat.mod_two_eq_zero_or_one (toNat x / 2 ^ i) with h | h <;> rw [h] <;> rfl
  have hcount : (numeral 2 (toNat x)).count 49#8 = Bits.countOnes x := by
    rw [numeral_count_one _ _ hlt, C22_count_ones]
  have hlz := C22_leading_zeros (x := x)
  have hlen : (numeral 2 (toNat x)).length = max 1 (bits x - Bits.leadingZeros x) := by
    obtain ⟨l1, -, -, l2, l3⟩ := hlz
    rw [numeral_length 2 _ (by decide)]
    by_cases h : Bits.leadingZeros x < bits x
    · have := l3 h
      rw [Nat.log_eq_of_pow_le_of_lt_pow (m := bits x - 1 - Bits.leadingZeros x) this
        (by rw [show bits x - 1 - Bits.leadingZeros x + 1 = bits x - Bits.leadingZeros x by omega]; exact l2)]
      omega
    · rw [show bits x - Bits.leadingZeros x = 0 by omega] at l2 ⊢
      obtain h0 : toNat x = 0 := by simpa using l2
      rw [h0]; rfl
  refine ⟨_, (C30_uint_fmt hw h4 he oc).2.1, (C30_int_fmt hw h4 he oc).2.1, hbit, hcount, hlen, ?_, ?_⟩
  · intro h0
    obtain ⟨t1, t2, t3, t4⟩ := C22_trailing_zeros (x := x)
    have htl : Bits.trailingZeros x < bits x := by
      by_contra h
      have := Nat.le_of_dvd (Nat.pos_of_ne_zero h0) t4
      have h2 : 2 ^ bits x ≤ 2 ^ Bits.trailingZeros x := Nat.pow_le_pow_right (by decide) (by omega)
      omega
    have hlast := t3 htl
    have hin : Bits.trailingZeros x < (numeral 2 (toNat x)).length := by
      rw [numeral_length 2 _ (by decide)]
      by_contra h
      have : toNat x < 2 ^ Bits.trailingZeros x := Nat.lt_pow_of_log_lt (by decide) (by omega)
      rw [Nat.testBit_lt_two_pow this] at hlast
      cases hlast
    apply takeWhile_length_of
    · intro i hi
      exact ⟨_, hbit i (by omega), by rw [t2 i hi]; rfl⟩
    · exact ⟨_, hbit _ hin, by rw [hlast]; rfl⟩
  · rw [hcount, U.isPowerOfTwo, beq_iff_eq]

example := C76_binary (x := a) (Or.inr rfl) (by decide) (by decide) true
example : U.fmtBinary true {} ([40, 0, 0, 0] : Limbs 64) = .ok (ascii "101000") ∧
    Bits.trailingZeros ([40, 0, 0, 0] : Limbs 64) = 3 ∧ Bits.countOnes ([40, 0, 0, 0] : Limbs 64) = 2 ∧
    256 - Bits.leadingZeros ([40, 0, 0, 0] : Limbs 64) = 6 := by decide +kernel

/-- C76: the hexadecimal text, filled with zeros to its full width, is the dump of the big-endian
bytes. -/
theorem C76_hex (hw : w = 32 ∨ w = 64) (h4 : 4 ≤ x.length) (he : x.length % 2 = 0) (oc be : Bool)
    (f : Write.Flags) (ha : f.alternate = false) (hf : f.fill = [48#8])
    (hwd : f.width = some (w / 4 * x.length)) :
    U.fmtUpperHex oc f x = .ok ((Endian.toBeBytes be x).flatMap hexPair) ∧
    I.fmtUpperHex oc f x = .ok ((Endian.toBeBytes be x).flatMap hexPair) ∧
    U.fmtLowerHex oc f x = .ok (((Endian.toBeBytes be x).flatMap hexPair).map lowerByte) ∧
    I.fmtLowerHex oc f x = .ok (((Endian.toBeBytes be x).flatMap hexPair).map lowerByte) := by
  have h8 : 8 ∣ w := by rcases hw with rfl | rfl <;> decide
  have hq : w / 4 * x.length = 2 * (w / 8 * x.length) := by
    rcases hw with rfl | rfl <;> norm_num <;> ring
  have hlt : toNat x < 16 ^ (2 * (w / 8 * x.length)) := by
    have h := toNat_lt x
    have e : w * x.length = 4 * (2 * (w / 8 * x.length)) := by
      rcases hw with rfl | rfl <;> norm_num <;> ring
    rw [bits, e, pow_mul] at h
    exact h
  have hpos : 0 < 2 * (w / 8 * x.length) := by rcases hw with rfl | rfl <;> norm_num <;> omega
  have hbytes : Endian.toBeBytes be x =
      ((List.range (w / 8 * x.length)).map fun i => BitVec.ofNat 8 (byteOf (toNat x) i)).reverse := by
    obtain ⟨b1, b2, -⟩ := C25_to_bytes (x := x) (be := be) h8
    rw [b2]
    congr 1
    apply List.ext_getElem?
    intro i
    rw [b1, List.getElem?_map]
    by_cases h : i < w / 8 * x.length
    · rw [if_pos h, List.getElem?_range h]; rfl
    · rw [if_neg h, List.getElem?_eq_none (by simpa using h)]; rfl
  have hpad := numeral_padded 16 (toNat x) _ (by decide) hpos hlt
  rw [← bytes_hex, ← hbytes] at hpad
  have hout := C52_radix_output_partial hw h4 he oc f
  simp only [List.mem_cons, List.not_mem_nil, or_false, forall_eq_or_imp, forall_eq, ha, hf, hwd,
    Bool.false_eq_true, if_false, List.nil_append, Option.getD_some, hq, List.length_map] at hout
  obtain ⟨-, -, ⟨u1, u2⟩, ⟨l1, l2⟩⟩ := hout
  have hfl : ∀ n, (List.replicate n [48#8]).flatten = List.replicate n 48#8 := fun n => by
    induction n with
    | zero => rfl
    | succ n ih => rw [List.replicate_succ, List.flatten_cons, ih]; rfl
  have hlow : (List.replicate (2 * (w / 8 * x.length) - (numeral 16 (toNat x)).length) 48#8) ++
      (numeral 16 (toNat x)).map lowerByte =
      ((Endian.toBeBytes be x).flatMap hexPair).map lowerByte := by
    rw [← hpad, List.map_append, List.map_replicate]
    rfl
  rw [hfl] at u1 u2 l1 l2
  rw [hpad] at u1 u2
  rw [hlow] at l1 l2
  exact ⟨u1, u2, l1, l2⟩

example := C76_hex (x := b32) (Or.inl rfl) (by decide) (by decide) true true
  { width := some 64, fill := [48] } rfl rfl (by decide)
example : U.fmtLowerHex true { width := some 64, fill := [48] } a =
    .ok (ascii "000000000000000000000000000000050000000000000000ffffffffffffffff") ∧
    Endian.toBeBytes false a = List.replicate 15 0 ++ [5] ++ List.replicate 8 0 ++ List.replicate 8 255 := by
  decide +kernel

/-- C76: the number of decimal digits is one more than `ilog` in base 10. -/
theorem C76_decimal_length (hw : w = 32 ∨ w = 64) (h4 : 4 ≤ x.length) (he : x.length % 2 = 0)
    (hb : bits x < 2 ^ 32) (oc : Bool) (f : Write.Flags) (h10 : 10 ≤ toNat x) (rounds : Nat)
    (hr : bits x ≤ rounds) :
    ∃ s l, U.fmtDisplay oc f x = .ok s ∧ U.ilog oc rounds x (ofU8 x.length 10) = some (.ok l) ∧
      s.length = l + 1 := by
  have hpos : 0 < w := by omega
  have hb10 : (10 : Nat) < 2 ^ w := by rcases hw with rfl | rfl <;> decide
  obtain ⟨o1, o2⟩ := ofU8U (w := w) (N := x.length) (v := 10) (by omega) hb10
  have o2' : toNat (ofU8 x.length 10 : Limbs w) = 10 := by exact_mod_cast o2
  have h := (C32_uint_checked_ilog_small_partial (x := x) (y := ofU8 x.length 10) hpos o1.symm he h4 hb oc
    (by rw [o2']; decide) (by rw [o2']; exact hb10) (by rw [o2']; exact h10) rounds hr).2
  rw [o2'] at h
  exact ⟨_, _, (C52_display_iff_partial hw h4 he oc { f with fill := [32#8] } (List.cons_ne_nil _ _)).1, h,
    numeral_length 10 _ (by decide)⟩

example := C76_decimal_length (x := ones) (Or.inr rfl) (by decide) (by decide) (by decide) true {}
  (by decide) 256 (by decide)
example : U.fmtDisplay true {} ([1000, 0, 0, 0] : Limbs 64) = .ok (ascii "1000") ∧
    U.ilog true 256 ([1000, 0, 0, 0] : Limbs 64) (ofU8 4 10) = some (.ok 3) := by decide +kernel

/-- C76: a number is even exactly if the last character of its decimal text is, for both types. -/
theorem C76_parity (hw : w = 32 ∨ w = 64) (h4 : 4 ≤ x.length) (he : x.length % 2 = 0) (oc : Bool) :
    (∃ s c, U.fmtDisplay oc {} x = .ok s ∧ s.getLast? = some c ∧ (isEven x = true ↔ c.toNat % 2 = 0)) ∧
    (∃ s c, I.fmtDisplay oc {} x = .ok s ∧ s.getLast? = some c ∧ (isEven x = true ↔ c.toNat % 2 = 0)) := by
  have hpos : 0 < w := by omega
  have hne : x ≠ [] := by rintro rfl; simp at h4
  obtain ⟨p1, -, p2⟩ := C48_parity hpos hne
  have hlast : ∀ n, (numeral 10 n).getLast? = some (digitByte (n % 10)) := fun n => by
    have h := numeral_getElem? 10 n (by decide) 0 (by rw [numeral_length 10 n (by decide)]; omega)
    rw [pow_zero, Nat.div_one] at h
    rw [← h, List.getLast?_eq_head?_reverse, List.head?_eq_getElem?]
  have hd : ∀ n, (digitByte (n % 10)).toNat % 2 = n % 2 := fun n => by
    have h : n % 10 < 10 := Nat.mod_lt _ (by decide)
    rw [← Nat.mod_mod_of_dvd n (show 2 ∣ 10 by decide)]
    generalize n % 10 = d at h ⊢
    interval_cases d <;> decide
  refine ⟨⟨_, _, (C30_uint_fmt hw h4 he oc).1, hlast _, by rw [hd, p1]⟩,
    ⟨_, digitByte ((toInt x).natAbs % 10), (C30_int_fmt hw h4 he oc).1, ?_, by rw [hd, p2]; omega⟩⟩
  unfold numeralS
  split
  · have : numeral 10 (toInt x).natAbs ≠ [] := by
      intro h
      have := hlast (toInt x).natAbs
      rw [h] at this
      cases this
    rw [List.getLast?_cons, hlast]
    rfl
  · exact hlast _

example := C76_parity (x := m2) (Or.inr rfl) (by decide) (by decide) true
example : I.fmtDisplay true {} m2 = .ok (ascii "-2") ∧ isEven m2 = true := by decide +kernel

end I256
