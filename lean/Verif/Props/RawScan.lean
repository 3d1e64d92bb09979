import Verif.SpecRaw
import Verif.Lemmas.RawApi
import Verif.Lemmas.RawRun
import Verif.Props.Ord
import Verif.Props.Bitops
import Verif.Props.Endian
import Verif.Props.Mul

/-!
# C66: comparisons, bit scans, bitwise operators and halves in memory

The theorems are about the literal transcription of the loops of `src/shared/ord.rs`,
`src/shared/bitops.rs`, `src/shared/endian.rs`, `src/int/ops.rs`, `src/uint/extensions.rs` and
`src/util.rs`: arrays in memory order of a little-endian or a big-endian machine, checked indexing and
the assertions.
-/

namespace I256

open Sample

variable {w : Nat} {be : Bool} {a b : Limbs w}

/-- C66: unsigned comparisons. -/
theorem C66_uint_order (h8 : 8 ∣ w) (hw : 0 < w) (hl : a.length = b.length) (h2 : a.length % 2 = 0)
    (h4 : 4 ≤ a.length) :
    Raw.Ord.lt be false a b = .ok (decide (memNat be a < memNat be b)) ∧
      Raw.Ord.le be false a b = .ok (decide (memNat be a ≤ memNat be b)) ∧
      Raw.Ord.cmp be false a b = .ok (compare (memNat be a) (memNat be b)) := by
  obtain ⟨x, rfl⟩ := Raw.exists_mem be a
  obtain ⟨y, rfl⟩ := Raw.exists_mem be b
  simp only [Raw.mem_length, Raw.memNat_mem] at *
  have hx : x ≠ [] := by rintro rfl; simp at h4
  obtain ⟨h1, h3, -, -, h5⟩ := C26_uint_order hw hl h2 h4
  rw [Raw.Ord.lt_ok h8 be false hl h2 hx, Raw.Ord.le_ok h8 be false hl h2 hx,
    Raw.Ord.cmp_ok h8 be false hl h2 hx, h5]
  refine ⟨congrArg _ ?_, congrArg _ ?_, rfl⟩
  · rw [Bool.eq_iff_iff, h1, decide_eq_true_iff]
  · rw [Bool.eq_iff_iff, h3, decide_eq_true_iff]

example := C66_uint_order (be := true) (a := Sample.a) (b := top) (by decide) (by decide) (by decide)
  (by decide) (by decide)
example : Raw.Ord.lt true false ([0, 0, 7, 0] : Limbs 64) [0, 0, 0, 9] = .ok false ∧
    Raw.Ord.cmp true false ([0, 0, 7, 0] : Limbs 64) [0, 0, 0, 9] = .ok .gt := by decide +kernel

/-- C66: signed comparisons. -/
theorem C66_int_order (h8 : 8 ∣ w) (hw : 0 < w) (hl : a.length = b.length) (h2 : a.length % 2 = 0)
    (h4 : 4 ≤ a.length) :
    Raw.Ord.lt be true a b = .ok (decide (memInt be a < memInt be b)) ∧
      Raw.Ord.le be true a b = .ok (decide (memInt be a ≤ memInt be b)) ∧
      Raw.Ord.cmp be true a b = .ok (compare (memInt be a) (memInt be b)) := by
  obtain ⟨x, rfl⟩ := Raw.exists_mem be a
  obtain ⟨y, rfl⟩ := Raw.exists_mem be b
  simp only [Raw.mem_length, Raw.memInt_mem] at *
  have hx : x ≠ [] := by rintro rfl; simp at h4
  obtain ⟨h1, h3, -, -, h5⟩ := C26_int_order hw hl h2 h4
  rw [Raw.Ord.lt_ok h8 be true hl h2 hx, Raw.Ord.le_ok h8 be true hl h2 hx,
    Raw.Ord.cmp_ok h8 be true hl h2 hx, h5]
  refine ⟨congrArg _ ?_, congrArg _ ?_, rfl⟩
  · rw [Bool.eq_iff_iff, h1, decide_eq_true_iff]
  · rw [Bool.eq_iff_iff, h3, decide_eq_true_iff]

example := C66_int_order (be := true) (a := Sample.a) (b := top) (by decide) (by decide) (by decide)
  (by decide) (by decide)
example : Raw.Ord.lt true true ([0x8000000000000000, 0, 7, 0] : Limbs 64) [0, 0, 0, 9] = .ok true := by
  decide +kernel

/-- C66: both equality loops. -/
theorem C66_eq (h8 : 8 ∣ w) (hl : a.length = b.length) (h2 : a.length % 2 = 0) :
    Raw.Ord.eqBranchless be a b = .ok (decide (memNat be a = memNat be b)) ∧
      Raw.Ord.eqBranched be a b = .ok (decide (memNat be a = memNat be b)) := by
  obtain ⟨x, rfl⟩ := Raw.exists_mem be a
  obtain ⟨y, rfl⟩ := Raw.exists_mem be b
  simp only [Raw.mem_length, Raw.memNat_mem] at *
  have e : decide (x = y) = decide (toNat x = toNat y) :=
    decide_eq_decide.2 ⟨fun h => by rw [h], toNat_inj hl⟩
  have h := Raw.Ord.eq_ok h8 be hl h2
  rwa [e] at h

example := C66_eq (be := true) (a := Sample.a) (b := top) (by decide) (by decide) (by decide)
example : Raw.Ord.eqBranched true Sample.a top = .ok false ∧ Raw.Ord.eqBranchless true Sample.a Sample.a = .ok true := by
  decide +kernel

/-- C66: the bitwise operators, bit by bit. -/
theorem C66_bitwise (hl : a.length = b.length) (h128 : 128 ∣ w * a.length) :
    Holds be (fun v => v.length = a.length ∧
        ∀ i, (toNat v).testBit i = ((memNat be a).testBit i && (memNat be b).testBit i))
      (Raw.Bits.zip (· &&& ·) a b) ∧
    Holds be (fun v => v.length = a.length ∧
        ∀ i, (toNat v).testBit i = ((memNat be a).testBit i || (memNat be b).testBit i))
      (Raw.Bits.zip (· ||| ·) a b) ∧
    Holds be (fun v => v.length = a.length ∧
        ∀ i, (toNat v).testBit i = ((memNat be a).testBit i ^^ (memNat be b).testBit i))
      (Raw.Bits.zip (· ^^^ ·) a b) := by
  obtain ⟨x, rfl⟩ := Raw.exists_mem be a
  obtain ⟨y, rfl⟩ := Raw.exists_mem be b
  simp only [Raw.mem_length, Raw.memNat_mem] at *
  rw [Raw.Bits.zip_ok be _ hl h128, Raw.Bits.zip_ok be _ hl h128, Raw.Bits.zip_ok be _ hl h128]
  exact ⟨Raw.holds (C23_and hl), Raw.holds (C23_or hl), Raw.holds (C23_xor hl)⟩

example := C66_bitwise (be := true) (a := Sample.a) (b := m2) (by decide) (by decide)
example : Raw.Bits.zip (· &&& ·) Sample.a m2 = .ok [0xfffffffffffffffe, 0, 5, 0] := by decide +kernel

/-- C66: `not_const`. -/
theorem C66_not (hw : 0 < w) (h128 : 128 ∣ w * a.length) :
    Holds be (ExactU a.length (2 ^ (w * a.length) - 1 - memNat be a)) (Raw.Bits.not a) := by
  obtain ⟨x, rfl⟩ := Raw.exists_mem be a
  simp only [Raw.mem_length, Raw.memNat_mem] at *
  rw [Raw.Bits.not_ok be h128]
  obtain ⟨h1, -, h2, -⟩ := C23_not (x := x) hw
  exact Raw.holds ⟨h1, h2⟩

example := C66_not (be := true) (a := Sample.a) (by decide) (by decide)
example : Raw.Bits.not top = .ok [0xffffffffffffffff, 0xffffffffffffffff, 0xffffffffffffffff,
    0x7fffffffffffffff] := by decide +kernel

/-- C66: a type whose width is not a multiple of 128 bits is rejected by the assertion of
`from_ne_limbs`. -/
theorem C66_width_rejects (h128 : ¬ 128 ∣ w * a.length) (op : BitVec w → BitVec w → BitVec w) :
    Raw.Bits.not a = .panic ∧ (a.length = b.length → Raw.Bits.zip op a b = .panic) := by
  have hn := Raw.loop_fill false (fun i => ~~~ (getLimb a i)) (n := a.length) (L := a.length)
    (body := fun (i, result) => do
      let v ← Raw.at_ a i
      let result ← Raw.set_ result i (~~~ v)
      .ok (i + 1, result))
    (fun i R hi hR => by
      simp only
      rw [Raw.Bits.at_limb hi, Res.mbind_ok, Raw.set_ok (by simp; omega), Res.mbind_ok]
      rfl) (List.replicate a.length 0) (by simp) (le_refl _)
  constructor
  · unfold Raw.Bits.not
    refine (congrArg (fun r => Res.bind r _) hn).trans ?_
    simp only [Res.bind_ok]
    exact Raw.fromNeLimbs_panic (by simpa using h128)
  · intro hl
    have hz := Raw.loop_fill false (fun i => op (getLimb a i) (getLimb b i)) (n := a.length)
      (L := a.length)
      (body := fun (i, result) => do
        let v ← Raw.at_ a i
        let u ← Raw.at_ b i
        let result ← Raw.set_ result i (op v u)
        .ok (i + 1, result))
      (fun i R hi hR => by
        simp only
        rw [Raw.Bits.at_limb hi, Res.mbind_ok, Raw.Bits.at_limb (by omega), Res.mbind_ok,
          Raw.set_ok (by simp; omega), Res.mbind_ok]
        rfl) (List.replicate a.length 0) (by simp) (le_refl _)
    unfold Raw.Bits.zip
    refine (congrArg (fun r => Res.bind r _) hz).trans ?_
    simp only [Res.bind_ok]
    exact Raw.fromNeLimbs_panic (by simpa using h128)

example := C66_width_rejects (a := ([1, 2, 3] : Limbs 64)) (b := [1, 2, 3]) (by decide) (· &&& ·)
example : Raw.Bits.not ([1, 2, 3] : Limbs 64) = .panic := by decide +kernel

/-- C66: `count_ones`. -/
theorem C66_count_ones :
    Raw.Bits.countOnes a =
      .ok ((List.range (w * a.length)).countP (fun i => (memNat be a).testBit i)) := by
  obtain ⟨x, rfl⟩ := Raw.exists_mem be a
  simp only [Raw.mem_length, Raw.memNat_mem] at *
  rw [Raw.Bits.countOnes_ok be, C22_count_ones]
  rfl

example := C66_count_ones (be := true) (a := Sample.a)
example : Raw.Bits.countOnes Sample.a = .ok 66 := by decide +kernel

/-- C66: `leading_zeros` and `trailing_zeros`. -/
theorem C66_zeros :
    (∃ n, Raw.Bits.leadingZeros be a = .ok n ∧ n ≤ w * a.length ∧
      memNat be a < 2 ^ (w * a.length - n) ∧
      (n < w * a.length → 2 ^ (w * a.length - 1 - n) ≤ memNat be a)) ∧
    (∃ n, Raw.Bits.trailingZeros be a = .ok n ∧ n ≤ w * a.length ∧
      2 ^ n ∣ memNat be a ∧ (n < w * a.length → (memNat be a).testBit n = true)) := by
  obtain ⟨x, rfl⟩ := Raw.exists_mem be a
  simp only [Raw.mem_length, Raw.memNat_mem] at *
  obtain ⟨h1, -, -, h2, h3⟩ := C22_leading_zeros (x := x)
  obtain ⟨h4, -, h5, h6⟩ := C22_trailing_zeros (x := x)
  exact ⟨⟨_, Raw.Bits.leadingZeros_ok be x, h1, h2, h3⟩, ⟨_, Raw.Bits.trailingZeros_ok be x, h4, h6, h5⟩⟩

example := C66_zeros (be := true) (a := Sample.a)
example : Raw.Bits.leadingZeros true Sample.a = .ok 0 ∧ Raw.Bits.leadingZeros false Sample.a = .ok 125 ∧
    Raw.Bits.trailingZeros true Sample.a = .ok 64 ∧ Raw.Bits.trailingZeros false Sample.a = .ok 0 := by
  decide +kernel

/-- C66: `swap_bytes` and `reverse_bits`. -/
theorem C66_flip (h8 : 8 ∣ w) (hw : 0 < w) :
    Holds be (fun v => v.length = a.length ∧ ∀ i < w / 8 * a.length,
        byteOf (toNat v) i = byteOf (memNat be a) (w / 8 * a.length - 1 - i))
      (Raw.Bits.flip limbSwapBytes a) ∧
    Holds be (fun v => v.length = a.length ∧ ∀ i < w * a.length,
        (toNat v).testBit i = (memNat be a).testBit (w * a.length - 1 - i))
      (Raw.Bits.flip BitVec.reverse a) := by
  obtain ⟨x, rfl⟩ := Raw.exists_mem be a
  simp only [Raw.mem_length, Raw.memNat_mem] at *
  have h1 := C24_swap_bytes (x := x) (be := be) h8
  have h2 := C24_reverse_bits (x := x) (be := be) hw
  rw [Endian.swapBytes_eq] at h1
  rw [Endian.reverseBits_eq] at h2
  rw [Raw.Bits.flip_ok be, Raw.Bits.flip_ok be]
  exact ⟨Raw.holds h1, Raw.holds h2⟩

example := C66_flip (be := true) (a := Sample.a) (by decide) (by decide)
example : Raw.Bits.flip BitVec.reverse Sample.a = .ok [0, 0xa000000000000000, 0, 0xffffffffffffffff] := by
  decide +kernel

/-- C66: `swap_array!` reverses the array. -/
theorem C66_swap_array : ∃ r, Raw.Bits.swapArray a = .ok r ∧ r.length = a.length ∧
    ∀ i < a.length, r[i]? = a[a.length - 1 - i]? :=
  ⟨_, Raw.Bits.swapArray_ok a, by simp, fun i hi => List.getElem?_reverse hi⟩

example := C66_swap_array (a := Sample.a)
example : Raw.Bits.swapArray ([1, 2, 3] : Limbs 64) = .ok [3, 2, 1] := by decide +kernel

/-- C66: `is_positive` and `is_negative`. -/
theorem C66_sign (hw : 0 < w) (ha : a ≠ []) :
    Raw.Bits.isPositive be a = .ok (decide (0 < memInt be a)) ∧
      Raw.Bits.isNegative be a = .ok (decide (memInt be a < 0)) := by
  obtain ⟨x, rfl⟩ := Raw.exists_mem be a
  have hx : x ≠ [] := by rintro rfl; cases be <;> simp [Raw.mem] at ha
  simp only [Raw.memInt_mem] at *
  rw [Raw.Bits.isPositive_ok be hx, Raw.Bits.isNegative_ok be hx]
  refine ⟨congrArg _ ?_, congrArg _ ?_⟩
  · rw [Bool.eq_iff_iff, isPositive_iff hw hx, decide_eq_true_iff]
  · rw [Bool.eq_iff_iff, isNegative_iff hw hx, decide_eq_true_iff]

example := C66_sign (be := true) (a := top) (by decide) (by decide)
example : Raw.Bits.isPositive true top = .ok true ∧ Raw.Bits.isPositive false top = .ok false ∧
    Raw.Bits.isPositive true zero = .ok false := by decide +kernel

/-- C66: `low` and `high`, the two halves of a number. -/
theorem C66_halves (h2 : a.length % 2 = 0) (h128 : 128 ∣ w * a.length) :
    Holds be (ExactU a.length (memNat be a % 2 ^ (w * a.length / 2))) (Raw.Bits.low be a) ∧
      Holds be (ExactU a.length (memNat be a / 2 ^ (w * a.length / 2))) (Raw.Bits.high be a) := by
  obtain ⟨x, rfl⟩ := Raw.exists_mem be a
  simp only [Raw.mem_length, Raw.memNat_mem] at *
  obtain ⟨h1, h3, h4, h5, -⟩ := C48_low_high (x := x) h2
  rw [Raw.Bits.low_ok be h128, Raw.Bits.high_ok be h128]
  exact ⟨Raw.holds ⟨h1, by rw [h4]; push_cast; rfl⟩, Raw.holds ⟨h3, by rw [h5]; push_cast; rfl⟩⟩

example := C66_halves (be := true) (a := Sample.a) (by decide) (by decide)
example : Raw.Bits.low true Sample.a = .ok [0, 0, 5, 0] ∧
    Raw.Bits.high true Sample.a = .ok [0, 0, 0xffffffffffffffff, 0] := by decide +kernel

end I256
