import Verif.Lemmas.Laws
import Verif.Props.Samples
import Verif.Props.AddSub
import Verif.Props.Mul
import Verif.Props.Pow
import Verif.Props.Shift
import Verif.Props.Bitops
import Verif.Props.Endian

/-!
# Laws connecting the operations (C60 - C62)

The theorems of this file are equations between calls of the methods; no meaning function appears in
them, so they say directly that independent parts of the code agree.
-/

namespace I256

open Sample

variable {w k : Nat} {x y : Limbs w}

/-! ### C60: shifts and rotations -/

/-- C60: a left shift is the multiplication by a power of two: `x << s = x * 2.pow(s)`. -/
theorem C60_shl_eq_mul_pow (hk : w = 2 ^ k) (hk0 : 1 ≤ k) (h2 : x.length % 2 = 0) (hx : x ≠ [])
    {s : Nat} (hs : s < w * x.length) (hb : w * x.length ≤ 2 ^ 32) :
    wrappingShl x s = U.wrappingMul x (U.wrappingPow (ofU8 x.length 2) s) ∧
    wrappingShl x s = I.wrappingMul x (I.wrappingPow (ofU8 x.length 2) s) := by
  have hN := List.length_pos_iff.2 hx
  have hw := pow_pos_width hk
  have hw1 : 2 ≤ w := by rw [hk]; calc 2 = 2 ^ 1 := rfl
                                    _ ≤ 2 ^ k := Nat.pow_le_pow_right (by omega) hk0
  have h2w : 2 < 2 ^ w := calc 2 < 2 ^ 2 := by decide
                             _ ≤ 2 ^ w := Nat.pow_le_pow_right (by omega) hw1
  have h := wrappingShlU hk h2 hx s
  rw [bits, Nat.mod_eq_of_lt hs] at h
  have h3 := ofU8U (w := w) (N := x.length) (v := 2) (by omega) h2w
  have hn : (ofU8 x.length 2 : Limbs w) ≠ [] := List.length_pos_iff.1 (by rw [h3.1]; omega)
  have h4 := C10_uint_wrapping_pow hw hn (e := s) (by omega)
  rw [h3.1, h3.2] at h4
  have h5 := C06_uint_wrapping_mul (x := x) (y := U.wrappingPow (ofU8 x.length 2) s) hx h4.1.symm
  have e : wrappingShl x s = U.wrappingMul x (U.wrappingPow (ofU8 x.length 2) s) := by
    refine h.unique h5 ?_
    exact (Int.ModEq.mul_left _ h4.modEq).symm
  exact ⟨e, e⟩

example := C60_shl_eq_mul_pow (k := 6) (x := a) rfl (by decide) (by decide) (by decide) (s := 200)
  (by decide) (by decide)
example : wrappingShl a 3 = U.wrappingMul a (U.wrappingPow (ofU8 4 2) 3) := by decide +kernel

/-- C60: unbounded shifts compose by adding the amounts. -/
theorem C60_unbounded_compose (hk : w = 2 ^ k) (h2 : x.length % 2 = 0) (hx : x ≠ []) (s t : Nat) :
    unboundedShl (unboundedShl x s) t = unboundedShl x (s + t) ∧
    unboundedShr false (unboundedShr false x s) t = unboundedShr false x (s + t) := by
  have hN := List.length_pos_iff.2 hx
  constructor
  · have h1 := C39_unbounded_shl hk h2 hx s
    have h3 := C39_unbounded_shl hk (x := unboundedShl x s) (by rw [h1.1]; exact h2)
      (List.length_pos_iff.1 (by rw [h1.1]; exact hN)) t
    rw [h1.1] at h3
    refine h3.unique (C39_unbounded_shl hk h2 hx (s + t)) ?_
    rw [pow_add, ← mul_assoc]
    exact h1.modEq.mul_right _
  · have h1 := C39_uint_unbounded_shr hk h2 hx s
    have h3 := C39_uint_unbounded_shr hk (x := unboundedShr false x s) (by rw [h1.1]; exact h2)
      (List.length_pos_iff.1 (by rw [h1.1]; exact hN)) t
    have h4 := C39_uint_unbounded_shr hk h2 hx (s + t)
    apply toNat_inj (by rw [h3.1, h1.1, h4.1])
    have h5 := h3.2
    rw [h1.2, Int.ediv_ediv_of_nonneg (by positivity), ← pow_add] at h5
    exact_mod_cast h5.trans h4.2.symm

example := C60_unbounded_compose (k := 6) (x := a) rfl (by decide) (by decide) 100 30
example : unboundedShl (unboundedShl a 100) 200 = zero ∧
    unboundedShr false (unboundedShr false a 64) 65 = unboundedShr false a 129 := by decide

/-- C60: shifting right and then left clears the low bits, shifting left and then right clears the
high bits. -/
theorem C60_shift_back (hk : w = 2 ^ k) (h2 : x.length % 2 = 0) (hx : x ≠ []) {s : Nat}
    (hs : s < w * x.length) :
    wrappingShl (wrappingShr false x s) s =
      Bits.and x (wrappingShl (U.maxValue w x.length) s) ∧
    wrappingShr false (wrappingShl x s) s =
      Bits.and x (wrappingShr false (U.maxValue w x.length) s) := by
  have hm := maxValueU w x.length
  have hN := List.length_pos_iff.2 hx
  have hmx : U.maxValue w x.length ≠ [] := List.length_pos_iff.1 (by rw [hm.1]; exact hN)
  have hm2 : (U.maxValue w x.length).length % 2 = 0 := by rw [hm.1]; exact h2
  have hs' : s < bits x := hs
  have hbm : bits (U.maxValue w x.length) = bits x := bits_eq_of_length hm.1
  have ones : ∀ i < bits x, (toNat (U.maxValue w x.length)).testBit i = true := by
    intro i hi
    have : toNat (U.maxValue w x.length) = 2 ^ bits x - 1 := by
      have h := hm.2
      have h3 : 1 ≤ 2 ^ bits x := Nat.one_le_two_pow
      zify [h3]; exact h
    rw [this, Nat.testBit_two_pow_sub_one]; simpa using hi
  have l1 := shr_length hk h2 hx s
  have l2 := shl_length hk h2 hx s
  have l3 := shl_length hk hm2 hmx s
  have l4 := shr_length hk hm2 hmx s
  have nr : wrappingShr false x s ≠ [] := List.length_pos_iff.1 (by rw [l1]; exact hN)
  have nl : wrappingShl x s ≠ [] := List.length_pos_iff.1 (by rw [l2]; exact hN)
  have l5 := shl_length hk (x := wrappingShr false x s) (by rw [l1]; exact h2) nr s
  have l6 := shr_length hk (x := wrappingShl x s) (by rw [l2]; exact h2) nl s
  have b1 : bits (wrappingShr false x s) = bits x := bits_eq_of_length l1
  have b2 : bits (wrappingShl x s) = bits x := bits_eq_of_length l2
  constructor
  · apply ext_testBit (by rw [and_length (by rw [l3, hm.1]), l5, l1])
    intro i hi
    have hi' : i < bits x := by rw [bits_eq_of_length l5, b1] at hi; exact hi
    rw [(C23_and (by rw [l3, hm.1])).2 i,
      testBit_shl hk (by rw [l1]; exact h2) nr (by omega) i (by omega),
      testBit_shl hk hm2 hmx (by omega) i (by omega), testBit_shr hk h2 hx hs']
    by_cases hsi : s ≤ i
    · rw [ones (i - s) (by omega), Nat.sub_add_cancel hsi]; simp [hsi]
    · simp [hsi]
  · apply ext_testBit (by rw [and_length (by rw [l4, hm.1]), l6, l2])
    intro i hi
    have hi' : i < bits x := by rw [bits_eq_of_length l6, b2] at hi; exact hi
    rw [(C23_and (by rw [l4, hm.1])).2 i, testBit_shr hk (by rw [l2]; exact h2) nl (by omega),
      testBit_shr hk hm2 hmx (by omega)]
    by_cases hsi : i + s < bits x
    · rw [ones _ hsi, testBit_shl hk h2 hx hs' _ hsi]; simp
    · rw [testBit_of_le (x := wrappingShl x s) (by omega),
        testBit_of_le (x := U.maxValue w x.length) (by omega)]; simp

example := C60_shift_back (k := 6) (x := a) rfl (by decide) (by decide) (s := 3) (by decide)
example : wrappingShl (wrappingShr false a 3) 3 = [0xfffffffffffffff8, 0, 5, 0] := by decide

/-- C60: rotations compose by adding the amounts. -/
theorem C60_rotate_compose (hk : w = 2 ^ k) (h2 : x.length % 2 = 0) (h4 : 4 ≤ x.length)
    (m n : Nat) : rotateLeft (rotateLeft x m) n = rotateLeft x (m + n) := by
  have l1 := rotateLeft_length h2 m
  have l2 := rotateLeft_length (x := rotateLeft x m) (by rw [l1]; exact h2) n
  have l3 := rotateLeft_length h2 (m + n)
  have b1 : bits (rotateLeft x m) = bits x := bits_eq_of_length l1
  have b2 : bits (rotateLeft (rotateLeft x m) n) = bits x := bits_eq_of_length (l2.trans l1)
  have hB : 0 < bits x := bits_pos (pow_pos_width hk) (by rintro rfl; simp at h4)
  apply ext_testBit (by rw [l2, l1, l3])
  intro i hi
  rw [b2] at hi
  obtain ⟨j, hj, rfl⟩ : ∃ j < bits x, (j + (m + n)) % bits x = i := by
    refine ⟨(i + (bits x - (m + n) % bits x)) % bits x, Nat.mod_lt _ hB, ?_⟩
    rw [Nat.mod_add_mod]
    have := Nat.mod_lt (m + n) hB
    have hn := Nat.mod_add_div (m + n) (bits x)
    rw [show i + (bits x - (m + n) % bits x) + (m + n) =
      i + bits x * ((m + n) / bits x + 1) by rw [Nat.mul_add, Nat.mul_one]; omega,
      Nat.add_mul_mod_self_left, Nat.mod_eq_of_lt hi]
  rw [rotateLeft_spec hk h2 h4 (m + n) hj]
  have h5 := rotateLeft_spec hk (x := rotateLeft x m) (by rw [l1]; exact h2) (by rw [l1]; exact h4) n
    (i := (j + m) % bits x) (by rw [b1]; exact Nat.mod_lt _ hB)
  rw [b1, Nat.mod_add_mod, Nat.add_assoc] at h5
  rw [h5, rotateLeft_spec hk h2 h4 m hj]

example := C60_rotate_compose (k := 6) (x := a) rfl (by decide) (by decide) 100 200
example : rotateLeft (rotateLeft a 100) 200 = rotateLeft a 44 := by decide

/-- C60: a rotation is the combination of two shifts. -/
theorem C60_rotate_eq_shifts (hk : w = 2 ^ k) (h2 : x.length % 2 = 0) (h4 : 4 ≤ x.length) {n : Nat}
    (h0 : 0 < n) (hn : n < w * x.length) :
    rotateLeft x n = Bits.or (wrappingShl x n) (wrappingShr false x (w * x.length - n)) ∧
    rotateRight x n = Bits.or (wrappingShr false x n) (wrappingShl x (w * x.length - n)) := by
  have hx : x ≠ [] := by rintro rfl; simp at h4
  have hn' : n < bits x := hn
  have hb : w * x.length = bits x := rfl
  have l1 := shl_length hk h2 hx n
  have l2 := shr_length hk h2 hx n
  have l3 := shl_length hk h2 hx (bits x - n)
  have l4 := shr_length hk h2 hx (bits x - n)
  rw [hb]
  constructor
  · apply ext_testBit (by rw [or_length (by rw [l1, l4]), rotateLeft_length h2, l1])
    intro i hi
    rw [bits_eq_of_length (rotateLeft_length h2 n)] at hi
    rw [testBit_rotl hk h2 h4 hn'.le i hi, (C23_or (by rw [l1, l4])).2 i,
      testBit_shl hk h2 hx hn' i hi, testBit_shr hk h2 hx (by omega)]
    by_cases hni : n ≤ i
    · rw [show i + (bits x - n) = (i - n) + bits x by omega, Nat.add_mod_right,
        Nat.mod_eq_of_lt (by omega), testBit_of_le (x := x) (i := i - n + bits x) (by omega)]
      simp [hni]
    · rw [Nat.mod_eq_of_lt (by omega)]; simp [hni]
  · apply ext_testBit (by rw [or_length (by rw [l2, l3]), rotateRight_length h2, l2])
    intro i hi
    rw [bits_eq_of_length (rotateRight_length h2 n)] at hi
    rw [(C21_rotate_right hk h2 h4 n).2 i hi, (C23_or (by rw [l2, l3])).2 i,
      testBit_shr hk h2 hx hn', testBit_shl hk h2 hx (by omega) i hi]
    by_cases hni : i + n < bits x
    · rw [Nat.mod_eq_of_lt hni]
      have : ¬ bits x - n ≤ i := by omega
      simp [this]
    · rw [Nat.mod_eq_sub_mod (by omega), Nat.mod_eq_of_lt (by omega),
        testBit_of_le (x := x) (i := i + n) (by omega), show i - (bits x - n) = i + n - bits x by omega]
      have : bits x - n ≤ i := by omega
      simp [this]

example := C60_rotate_eq_shifts (k := 6) (x := a) rfl (by decide) (by decide) (n := 100) (by decide)
  (by decide)
example : rotateLeft a 70 = Bits.or (wrappingShl a 70) (wrappingShr false a 186) := by decide

/-- C60: rotations and bit reversal keep the number of ones, and bit reversal exchanges leading and
trailing zeros. -/
theorem C60_counts (hk : w = 2 ^ k) (h2 : x.length % 2 = 0) (h4 : 4 ≤ x.length) (be : Bool) (n : Nat) :
    Bits.countOnes (rotateLeft x n) = Bits.countOnes x ∧
    Bits.countOnes (Endian.reverseBits be x) = Bits.countOnes x ∧
    Bits.leadingZeros (Endian.reverseBits be x) = Bits.trailingZeros x ∧
    Bits.trailingZeros (Endian.reverseBits be x) = Bits.leadingZeros x := by
  have hw := pow_pos_width hk
  have hB : 0 < bits x := bits_pos hw (by rintro rfl; simp at h4)
  have br : bits (rotateLeft x n) = bits x := bits_eq_of_length (rotateLeft_length h2 n)
  obtain ⟨lv, tv⟩ := C24_reverse_bits (x := x) (be := be) hw
  have bv : bits (Endian.reverseBits be x) = bits x := bits_eq_of_length lv
  -- the first set bit is unique
  have uniq : ∀ (p : Nat → Bool) (i j : Nat), i ≤ bits x → j ≤ bits x → (∀ t < i, p t = false) →
      (∀ t < j, p t = false) → (i < bits x → p i = true) → (j < bits x → p j = true) → i = j := by
    intro p i j hi hj h1 h2 h3 h4
    by_contra hne
    rcases Nat.lt_or_gt_of_ne hne with h | h
    · have := h3 (by omega); rw [h2 i h] at this; simp at this
    · have := h4 (by omega); rw [h1 j h] at this; simp at this
  refine ⟨?_, ?_, ?_, ?_⟩
  · rw [C22_count_ones, C22_count_ones, br]
    symm
    apply countP_range_bij (fun i => (i + n) % bits x) (fun i _ => Nat.mod_lt _ hB)
    · intro i hi j hj h
      have h' : i ≡ j [MOD bits x] := Nat.ModEq.add_right_cancel' n h
      rwa [Nat.ModEq, Nat.mod_eq_of_lt hi, Nat.mod_eq_of_lt hj] at h'
    · intro i hi; exact rotateLeft_spec hk h2 h4 n hi
  · rw [C22_count_ones, C22_count_ones, bv]
    apply countP_range_bij (fun i => bits x - 1 - i) (fun i hi => by omega)
    · intro i hi j hj h; omega
    · intro i hi; rw [tv i hi]
  · obtain ⟨a1, a2, a3, -⟩ := C22_leading_zeros (x := Endian.reverseBits be x)
    obtain ⟨b1, b2, b3, -⟩ := C22_trailing_zeros (x := x)
    rw [bv] at a1 a2 a3
    refine uniq (fun t => (toNat x).testBit t) _ _ a1 b1 ?_ b2 ?_ b3
    · intro t ht
      have := a2 t ht
      rw [tv _ (by omega)] at this
      rw [← this]; congr 1; omega
    · intro h
      have := a3 h
      rw [tv _ (by omega)] at this
      rw [← this]; congr 1; omega
  · obtain ⟨a1, a2, a3, -⟩ := C22_trailing_zeros (x := Endian.reverseBits be x)
    obtain ⟨b1, b2, b3, -⟩ := C22_leading_zeros (x := x)
    rw [bv] at a1 a3
    refine uniq (fun t => (toNat x).testBit (bits x - 1 - t)) _ _ a1 b1 ?_ b2 ?_ b3
    · intro t ht; rw [← tv t (by omega)]; exact a2 t ht
    · intro h; rw [← tv _ h]; exact a3 h

example := C60_counts (k := 6) (x := a) rfl (by decide) (by decide) true 100
example : Bits.leadingZeros (Endian.reverseBits false (wrappingShl a 9)) = 9 := by decide +kernel

/-! ### C61: power laws -/

/-- C61: `x^(m+n) = x^m * x^n`, `(x^m)^n = x^(m*n)` and `(x*y)^n = x^n * y^n` for the wrapping
operations of the unsigned types. -/
theorem C61_uint_pow_laws (hw : 0 < w) (hx : x ≠ []) (hl : x.length = y.length) {m n : Nat}
    (hs : m + n < 2 ^ 32) (hp : m * n < 2 ^ 32) :
    U.wrappingPow x (m + n) = U.wrappingMul (U.wrappingPow x m) (U.wrappingPow x n) ∧
    U.wrappingPow (U.wrappingPow x m) n = U.wrappingPow x (m * n) ∧
    U.wrappingPow (U.wrappingMul x y) n = U.wrappingMul (U.wrappingPow x n) (U.wrappingPow y n) := by
  have hN := List.length_pos_iff.2 hx
  have hy : y ≠ [] := List.length_pos_iff.1 (by omega)
  have hm := C10_uint_wrapping_pow hw hx (e := m) (by omega)
  have hn := C10_uint_wrapping_pow hw hx (e := n) (by omega)
  have hny := C10_uint_wrapping_pow hw hy (e := n) (by omega)
  rw [← hl] at hny
  have ne : ∀ {v : Limbs w}, v.length = x.length → v ≠ [] := fun h =>
    List.length_pos_iff.1 (by omega)
  refine ⟨?_, ?_, ?_⟩
  · have h := C06_uint_wrapping_mul (ne hm.1) (hm.1.trans hn.1.symm)
    rw [hm.1] at h
    refine (C10_uint_wrapping_pow hw hx hs).unique h ?_
    rw [pow_add]
    exact (hm.modEq.mul hn.modEq).symm
  · have h := C10_uint_wrapping_pow hw (ne hm.1) (e := n) (by omega)
    rw [hm.1] at h
    refine h.unique (C10_uint_wrapping_pow hw hx hp) ?_
    rw [show (toNat x : Int) ^ (m * n) = ((toNat x : Int) ^ m) ^ n from pow_mul _ _ _]
    exact hm.modEq.pow n
  · have hxy := C06_uint_wrapping_mul hx hl
    have h1 := C10_uint_wrapping_pow hw (ne hxy.1) (e := n) (by omega)
    have h2 := C06_uint_wrapping_mul (ne hn.1) (hn.1.trans hny.1.symm)
    rw [hxy.1] at h1
    rw [hn.1] at h2
    refine h1.unique h2 ?_
    refine (hxy.modEq.pow n).trans ?_
    rw [mul_pow]
    exact (hn.modEq.mul hny.modEq).symm

example := C61_uint_pow_laws (x := ones) (y := a) (m := 65536) (n := 65535) (by decide) (by decide)
  (by decide) (by decide) (by decide)
example : U.wrappingPow (U.wrappingPow a 5) 3 = U.wrappingPow a 15 := by decide +kernel

/-- C61: the signed wrapping power has the same limbs as the unsigned one, so the laws carry over. -/
theorem C61_int_pow_eq (hw : 0 < w) (hx : x ≠ []) {e : Nat} (he : e < 2 ^ 32) :
    I.wrappingPow x e = U.wrappingPow x e := by
  refine (C10_int_wrapping_pow hw hx he).wrapU.unique (C10_uint_wrapping_pow hw hx he) ?_
  exact (toInt_modEq x).pow e

example := C61_int_pow_eq (x := m2) (e := 255) (by decide) (by decide) (by decide)
example : I.wrappingPow m2 7 = U.wrappingPow m2 7 := by decide +kernel

/-! ### C62: bit operations and arithmetic -/

/-- C62: addition through bit operations: `x + y = (x ^ y) + ((x & y) << 1)` and
`x + y = (x | y) + (x & y)`. -/
theorem C62_add_bits (hk : w = 2 ^ k) (h2 : x.length % 2 = 0) (h4 : 4 ≤ x.length)
    (hl : x.length = y.length) :
    U.wrappingAdd (Bits.xor x y) (wrappingShl (Bits.and x y) 1) = U.wrappingAdd x y ∧
    U.wrappingAdd (Bits.or x y) (Bits.and x y) = U.wrappingAdd x y := by
  have hw := pow_pos_width hk
  have la := and_length hl
  have hB : 1 < w * x.length := by
    have := Nat.mul_le_mul hw h4
    omega
  have h1 := wrappingShlU hk (x := Bits.and x y) (by rw [la]; exact h2)
    (List.length_pos_iff.1 (by omega)) 1
  rw [bits_eq_of_length la, bits, Nat.mod_eq_of_lt hB, la] at h1
  have A := C01_uint_wrapping_add hw hl
  constructor
  · have h3 := C01_uint_wrapping_add hw (x := Bits.xor x y) (y := wrappingShl (Bits.and x y) 1)
      (by rw [xor_length hl, h1.1])
    rw [xor_length hl] at h3
    refine h3.unique A ?_
    refine (h1.modEq.add_left _).trans ?_
    have := toNat_sum hl
    have e : (toNat (Bits.xor x y) : Int) + (toNat (Bits.and x y) : Int) * 2 ^ 1 =
      toNat x + toNat y := by push_cast [pow_one]; omega
    rw [e]
  · have h3 := C01_uint_wrapping_add hw (x := Bits.or x y) (y := Bits.and x y)
      (by rw [or_length hl, la])
    rw [or_length hl] at h3
    refine h3.unique A ?_
    have := or_add_and (toNat x) (toNat y)
    rw [← or_toNat hl, ← and_toNat hl] at this
    have e : (toNat (Bits.or x y) : Int) + (toNat (Bits.and x y) : Int) = toNat x + toNat y := by
      omega
    rw [e]

example := C62_add_bits (k := 6) (x := ones) (y := a) rfl (by decide) (by decide) (by decide)
example : U.wrappingAdd (Bits.or ones a) (Bits.and ones a) = U.wrappingAdd ones a := by decide

/-- C62: complement and negation: `!x = -x - 1`, and the laws of De Morgan. -/
theorem C62_not (hw : 1 < w) (hx : x ≠ []) (hl : x.length = y.length) :
    Bits.not x = U.wrappingSub (U.wrappingNeg x) (ofU8 x.length 1) ∧
    Bits.not (Bits.not x) = x ∧
    Bits.not (Bits.and x y) = Bits.or (Bits.not x) (Bits.not y) ∧
    Bits.not (Bits.or x y) = Bits.and (Bits.not x) (Bits.not y) ∧
    Bits.xor x y = Bits.and (Bits.or x y) (Bits.not (Bits.and x y)) := by
  have hN := List.length_pos_iff.2 hx
  have hp : 1 < 2 ^ w := Nat.one_lt_two_pow (by omega)
  have h1 := ofU8U (w := w) (N := x.length) (v := 1) (by omega) hp
  have hz := minValueU w x.length
  have hn := C01_uint_wrapping_sub (by omega : 0 < w) (x := U.minValue w x.length) (y := x) hz.1
  rw [hz.1, hz.2] at hn
  have hs := C01_uint_wrapping_sub (by omega : 0 < w) (x := U.wrappingNeg x) (y := ofU8 x.length 1)
    (hn.1.trans h1.1.symm)
  have lneg : (U.wrappingNeg x).length = x.length := hn.1
  rw [lneg, h1.2] at hs
  have key : ∀ {u v : Limbs w}, u.length = v.length →
      (∀ i < bits u, (toNat u).testBit i = (toNat v).testBit i) → u = v := fun h h' => ext_testBit h h'
  refine ⟨?_, ?_, ?_, ?_, ?_⟩
  · apply toNat_inj (by rw [not_length, hs.1])
    have e := (C23_not (x := x) (by omega)).2.2.1
    have hv := hs.2
    have e2 : ((toNat (U.wrappingNeg x) : Int) - (1 : Nat)) % 2 ^ (w * x.length) =
        2 ^ bits x - 1 - toNat x := by
      have h3 : (toNat (U.wrappingNeg x) : Int) ≡ 0 - toNat x [ZMOD 2 ^ (w * x.length)] := hn.modEq
      have h4 := h3.sub_right ((1 : Nat) : Int)
      have h5 : (0 - (toNat x : Int) - (1 : Nat)) ≡ 2 ^ bits x - 1 - toNat x
          [ZMOD 2 ^ (w * x.length)] := by
        rw [Int.modEq_iff_dvd]
        exact ⟨1, by rw [show bits x = w * x.length from rfl]; push_cast; ring⟩
      rw [(h4.trans h5).eq]
      have := toNat_lt_int x
      exact Int.emod_eq_of_lt (by omega) (by rw [show bits x = w * x.length from rfl]; omega)
    have : (toNat (Bits.not x) : Int) = toNat (U.wrappingSub (U.wrappingNeg x) (ofU8 x.length 1)) := by
      rw [e, hv, e2]
    exact_mod_cast this
  · simp [Bits.not, Function.comp_def]
  · refine key (by simp [Bits.not, Bits.and, Bits.or, hl]) fun i hi => ?_
    have hi' : i < bits x := by simpa [bits, Bits.not, Bits.and, hl] using hi
    rw [testBit_not _ i (by rw [bits_eq_of_length (and_length hl)]; exact hi'), (C23_and hl).2 i,
      (C23_or (by simp [Bits.not, hl])).2 i, testBit_not x i hi',
      testBit_not y i (by rw [← bits_eq_of_length hl]; exact hi')]
    simp
  · refine key (by simp [Bits.not, Bits.and, Bits.or, hl]) fun i hi => ?_
    have hi' : i < bits x := by simpa [bits, Bits.not, Bits.or, hl] using hi
    rw [testBit_not _ i (by rw [bits_eq_of_length (or_length hl)]; exact hi'), (C23_or hl).2 i,
      (C23_and (by simp [Bits.not, hl])).2 i, testBit_not x i hi',
      testBit_not y i (by rw [← bits_eq_of_length hl]; exact hi')]
    simp
  · refine key (by simp [Bits.not, Bits.and, Bits.or, Bits.xor, hl]) fun i hi => ?_
    have hi' : i < bits x := by simpa [bits, Bits.xor, hl] using hi
    rw [(C23_xor hl).2 i, (C23_and (by simp [Bits.not, Bits.and, Bits.or, hl])).2 i, (C23_or hl).2 i,
      testBit_not _ i (by rw [bits_eq_of_length (and_length hl)]; exact hi'), (C23_and hl).2 i]
    cases (toNat x).testBit i <;> cases (toNat y).testBit i <;> rfl

example := C62_not (x := a) (y := m2) (by decide) (by decide) (by decide)
example : Bits.not a = U.wrappingSub (U.wrappingNeg a) one := by decide

end I256
