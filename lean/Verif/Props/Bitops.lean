import Verif.Lemmas.Bitops
import Verif.Props.Samples

/-!
# Bit counting and bitwise operators (C22, C23)

The specification is `Nat.testBit` of the denoted natural number: bit `i` of the number, whose
representation has `bits x = w * LIMBS` bits.
-/

namespace I256

open Sample

variable {w : Nat} {x y : Limbs w}

/-! ### C22: counting -/

/-- C22: `count_ones` is the number of set bits. -/
theorem C22_count_ones : Bits.countOnes x =
    (List.range (bits x)).countP (fun i => (toNat x).testBit i) := countOnes_spec x

example := C22_count_ones (x := a)
example : Bits.countOnes a = 66 := by decide

/-- C22: `count_zeros` is the number of clear bits, and the two counts add up to `BITS`. -/
theorem C22_count_zeros :
    Bits.countZeros x = (List.range (bits x)).countP (fun i => !(toNat x).testBit i) ∧
      Bits.countOnes x + Bits.countZeros x = bits x := by
  refine ⟨countZeros_spec x, ?_⟩
  rw [countOnes_spec, countZeros_spec]
  have := List.length_eq_countP_add_countP (fun i => (toNat x).testBit i) (l := List.range (bits x))
  rw [List.length_range] at this
  refine Eq.trans ?_ this.symm
  congr 1
  apply List.countP_congr
  simp

example := C22_count_zeros (x := a)
example : Bits.countZeros a = 190 := by decide

/-- C22: `leading_zeros` is the number of clear bits above the most significant set bit (`BITS` for
zero); equivalently it locates the value between two powers of two. -/
theorem C22_leading_zeros : Bits.leadingZeros x ≤ bits x ∧
    (∀ i < Bits.leadingZeros x, (toNat x).testBit (bits x - 1 - i) = false) ∧
    (Bits.leadingZeros x < bits x →
      (toNat x).testBit (bits x - 1 - Bits.leadingZeros x) = true) ∧
    toNat x < 2 ^ (bits x - Bits.leadingZeros x) ∧
    (Bits.leadingZeros x < bits x → 2 ^ (bits x - 1 - Bits.leadingZeros x) ≤ toNat x) := by
  obtain ⟨h1, h2, h3⟩ := leadingZeros_spec x
  refine ⟨h1, ?_, ?_, h2, h3⟩
  · intro i hi
    exact Nat.testBit_lt_two_pow (lt_of_lt_of_le h2 (Nat.pow_le_pow_right (by omega) (by omega)))
  · intro hlt
    refine Nat.testBit_of_two_pow_le_and_two_pow_add_one_gt (h3 hlt) ?_
    rwa [show bits x - 1 - Bits.leadingZeros x + 1 = bits x - Bits.leadingZeros x by omega]

example := C22_leading_zeros (x := a)
example : Bits.leadingZeros a = 125 ∧ Bits.leadingZeros zero = 256 ∧ Bits.leadingZeros ones = 0 := by
  decide

/-- C22: `trailing_zeros` is the number of clear bits below the least significant set bit (`BITS`
for zero), i.e. the exponent of two in the value. -/
theorem C22_trailing_zeros : Bits.trailingZeros x ≤ bits x ∧
    (∀ i < Bits.trailingZeros x, (toNat x).testBit i = false) ∧
    (Bits.trailingZeros x < bits x → (toNat x).testBit (Bits.trailingZeros x) = true) ∧
    2 ^ Bits.trailingZeros x ∣ toNat x := by
  obtain ⟨h1, h2, h3⟩ := trailingZeros_spec x
  refine ⟨h1, ?_, h3, h2⟩
  intro i hi
  have h := Nat.mod_eq_zero_of_dvd h2
  have h' := Nat.testBit_mod_two_pow (toNat x) (Bits.trailingZeros x) i
  rw [h, Nat.zero_testBit] at h'
  simpa [hi] using h'.symm

example := C22_trailing_zeros (x := top)
example : Bits.trailingZeros top = 255 ∧ Bits.trailingZeros zero = 256 ∧
    Bits.trailingZeros a = 0 := by decide

/-- C22: `leading_ones` is the number of set bits above the most significant clear bit. -/
theorem C22_leading_ones : Bits.leadingOnes x ≤ bits x ∧
    (∀ i < Bits.leadingOnes x, (toNat x).testBit (bits x - 1 - i) = true) ∧
    (Bits.leadingOnes x < bits x →
      (toNat x).testBit (bits x - 1 - Bits.leadingOnes x) = false) := by
  have hb : bits (Bits.not x) = bits x := by simp [bits, not_length]
  obtain ⟨h1, h2, h3, -⟩ := C22_leading_zeros (x := Bits.not x)
  rw [hb] at h1 h2 h3
  unfold Bits.leadingOnes
  refine ⟨h1, ?_, ?_⟩
  · intro i hi
    have := h2 i hi
    rw [testBit_not x _ (by omega)] at this
    simpa using this
  · intro h
    have := h3 h
    rw [testBit_not x _ (by omega)] at this
    simpa using this

example := C22_leading_ones (x := m2)
example : Bits.leadingOnes m2 = 255 ∧ Bits.leadingOnes ones = 256 ∧ Bits.leadingOnes a = 0 := by
  decide

/-- C22: `trailing_ones` is the number of set bits below the least significant clear bit. -/
theorem C22_trailing_ones : Bits.trailingOnes x ≤ bits x ∧
    (∀ i < Bits.trailingOnes x, (toNat x).testBit i = true) ∧
    (Bits.trailingOnes x < bits x → (toNat x).testBit (Bits.trailingOnes x) = false) := by
  have hb : bits (Bits.not x) = bits x := by simp [bits, not_length]
  obtain ⟨h1, h2, h3, -⟩ := C22_trailing_zeros (x := Bits.not x)
  rw [hb] at h1 h3
  unfold Bits.trailingOnes
  refine ⟨h1, ?_, ?_⟩
  · intro i hi
    have := h2 i hi
    rw [testBit_not x _ (by omega)] at this
    simpa using this
  · intro h
    have := h3 h
    rw [testBit_not x _ h] at this
    simpa using this

example := C22_trailing_ones (x := a)
example : Bits.trailingOnes a = 64 ∧ Bits.trailingOnes ones = 256 ∧ Bits.trailingOnes m2 = 0 := by
  decide

/-- C22: unsigned `checked_ilog2` and `ilog2`: the floor of the binary logarithm, `None` (a panic
for `ilog2`) for zero. -/
theorem C22_uint_ilog2 (hw : 0 < w) (h2 : x.length % 2 = 0) (h4 : 4 ≤ x.length) :
    checkedIlog2 false x = (if toNat x = 0 then none else some (Nat.log2 (toNat x))) ∧
      ilog2 false x = (if toNat x = 0 then .panic else .ok (Nat.log2 (toNat x))) := by
  have h := checkedIlog2_spec hw false h2 h4
  simp only [Ord.val, Bool.false_eq_true, if_false] at h
  constructor
  · rw [h]; congr 1; simp
  · rw [ilog2, h]
    by_cases h0 : toNat x = 0 <;> simp [h0, unwrapOrPanic]

example := C22_uint_ilog2 (x := a) (by decide) (by decide) (by decide)
example : checkedIlog2 false a = some 130 ∧ checkedIlog2 false zero = none ∧
    ilog2 false ones = .ok 255 ∧ ilog2 false zero = .panic := by decide

/-- C22: signed `checked_ilog2` and `ilog2`: `None` (a panic) unless the value is positive. -/
theorem C22_int_ilog2 (hw : 0 < w) (h2 : x.length % 2 = 0) (h4 : 4 ≤ x.length) :
    checkedIlog2 true x = (if toInt x ≤ 0 then none else some (Nat.log2 (toInt x).toNat)) ∧
      ilog2 true x = (if toInt x ≤ 0 then .panic else .ok (Nat.log2 (toInt x).toNat)) := by
  have h := checkedIlog2_spec hw true h2 h4
  simp only [Ord.val, if_true] at h
  have hv : ¬ toInt x ≤ 0 → (toInt x).toNat = toNat x := by
    intro hp
    have hlt := toNat_lt x
    unfold toInt at hp ⊢
    split
    · simp
    · next hc =>
      rw [if_neg hc] at hp
      have : ((toNat x : Nat) : Int) < (2 : Int) ^ bits x := by exact_mod_cast hlt
      omega
  constructor
  · rw [h]
    by_cases h0 : toInt x ≤ 0
    · simp [h0]
    · simp [h0, hv]
  · rw [ilog2, h]
    by_cases h0 : toInt x ≤ 0
    · simp [h0, unwrapOrPanic]
    · simp [h0, hv, unwrapOrPanic]

example := C22_int_ilog2 (x := a) (by decide) (by decide) (by decide)
example : checkedIlog2 true ones = none ∧ ilog2 true maxS = .ok 254 ∧ ilog2 true top = .panic := by
  decide

/-! ### C23: bitwise operators -/

/-- C23: bit `i` of `x & y`. -/
theorem C23_and (hl : x.length = y.length) : (Bits.and x y).length = x.length ∧
    ∀ i, (toNat (Bits.and x y)).testBit i = ((toNat x).testBit i && (toNat y).testBit i) :=
  ⟨by simp [Bits.and, hl],
    testBit_zipWith _ (· && ·) rfl (fun a b i _ => BitVec.getLsbD_and) x y hl⟩

example := C23_and (x := a) (y := m2) (by decide)
example : Bits.and a m2 = [0xfffffffffffffffe, 0, 5, 0] := by decide

/-- C23: bit `i` of `x | y`. -/
theorem C23_or (hl : x.length = y.length) : (Bits.or x y).length = x.length ∧
    ∀ i, (toNat (Bits.or x y)).testBit i = ((toNat x).testBit i || (toNat y).testBit i) :=
  ⟨by simp [Bits.or, hl],
    testBit_zipWith _ (· || ·) rfl (fun a b i _ => BitVec.getLsbD_or) x y hl⟩

example := C23_or (x := a) (y := top) (by decide)
example : Bits.or a top = [0xffffffffffffffff, 0, 5, 0x8000000000000000] := by decide

/-- C23: bit `i` of `x ^ y`. -/
theorem C23_xor (hl : x.length = y.length) : (Bits.xor x y).length = x.length ∧
    ∀ i, (toNat (Bits.xor x y)).testBit i = ((toNat x).testBit i ^^ (toNat y).testBit i) :=
  ⟨by simp [Bits.xor, hl],
    testBit_zipWith _ (· ^^ ·) rfl (fun a b i _ => BitVec.getLsbD_xor) x y hl⟩

example := C23_xor (x := a) (y := one) (by decide)
example : Bits.xor a one = [0xfffffffffffffffe, 0, 5, 0] := by decide

/-- C23: bit `i` of `!x`, and its value in both readings. -/
theorem C23_not (hw : 0 < w) : (Bits.not x).length = x.length ∧
    (∀ i < bits x, (toNat (Bits.not x)).testBit i = !(toNat x).testBit i) ∧
    (toNat (Bits.not x) : Int) = 2 ^ bits x - 1 - toNat x ∧
    (x ≠ [] → toInt (Bits.not x) = -1 - toInt x) := by
  have h1 := not_toNat x
  refine ⟨not_length x, testBit_not x, ?_, ?_⟩
  · have : ((toNat (Bits.not x) + toNat x + 1 : Nat) : Int) = (2 : Int) ^ bits x := by
      rw [h1]; push_cast; rfl
    push_cast at this
    omega
  · intro hx
    have hb : bits (Bits.not x) = bits x := by simp [bits, not_length]
    have hpos : 0 < bits x := Nat.mul_pos hw (List.length_pos_iff.2 hx)
    have he : 2 ^ bits x = 2 * 2 ^ (bits x - 1) := by
      rw [← Nat.pow_succ', Nat.succ_eq_add_one, show bits x - 1 + 1 = bits x by omega]
    have hz : ((2 ^ bits x : Nat) : Int) = (2 : Int) ^ bits x := by push_cast; rfl
    unfold toInt
    rw [hb]
    split <;> split <;> omega

example := C23_not (x := a) (by decide)
example : Bits.not m2 = one ∧ Bits.not zero = ones := by decide

end I256
