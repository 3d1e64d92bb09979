import Verif.Lemmas.ShiftApi
import Verif.Props.Samples

/-!
# Shifts and rotations (C20, C21, C38, C39, C49)

The specification of a left shift is multiplication by a power of two, of a right shift the floor
division by a power of two (`Int` division by a positive number rounds towards minus infinity), of
a rotation the permutation of the bits (`Nat.testBit`).

`w = 2 ^ k` holds for both limb types (32 and 64 bits).  All types of the crate have an even number
of limbs, at least four.
-/

namespace I256

open Sample

variable {w k : Nat} {x y : Limbs w}

/-! ### C20: shifts -/

/-- C20: `wrapping_shl` multiplies by `2^(s mod BITS)` modulo `2^BITS`. -/
theorem C20_uint_wrapping_shl (hk : w = 2 ^ k) (h2 : x.length % 2 = 0) (hx : x ≠ []) (s : Nat) :
    WrapU x.length ((toNat x : Int) * 2 ^ (s % (w * x.length))) (wrappingShl x s) :=
  wrappingShlU hk h2 hx s

example := C20_uint_wrapping_shl (k := 6) (x := a) rfl (by decide) (by decide) 70
example : wrappingShl a 70 = [0, 0xffffffffffffffc0, 0x3f, 0x140] := by decide
example : wrappingShl a 128 = [0, 0, 0xffffffffffffffff, 0] := by decide
example : wrappingShl a 256 = a := by decide

/-- C20: `wrapping_shl`, signed. -/
theorem C20_int_wrapping_shl (hk : w = 2 ^ k) (h2 : x.length % 2 = 0) (hx : x ≠ []) (s : Nat) :
    WrapS x.length (toInt x * 2 ^ (s % (w * x.length))) (wrappingShl x s) :=
  wrappingShlS hk h2 hx s

example := C20_int_wrapping_shl (k := 6) (x := m2) rfl (by decide) (by decide) 3
example : wrappingShl m2 3 = [0xfffffffffffffff0, 0xffffffffffffffff, 0xffffffffffffffff,
    0xffffffffffffffff] := by decide

/-- C20: `wrapping_shr` divides by `2^(s mod BITS)`, rounding down. -/
theorem C20_uint_wrapping_shr (hk : w = 2 ^ k) (h2 : x.length % 2 = 0) (hx : x ≠ []) (s : Nat) :
    ExactU x.length ((toNat x : Int) / 2 ^ (s % (w * x.length))) (wrappingShr false x s) :=
  wrappingShrU hk h2 hx s

example := C20_uint_wrapping_shr (k := 5) (x := b32) rfl (by decide) (by decide) 33
example : wrappingShr false b32 33 = [0, 0, 0, 0, 0, 0x80000000, 3, 0] := by decide
example : wrappingShr false a 128 = [5, 0, 0, 0] := by decide

/-- C20: `wrapping_shr`, signed: the arithmetic shift, rounding to minus infinity. -/
theorem C20_int_wrapping_shr (hk : w = 2 ^ k) (h2 : x.length % 2 = 0) (hx : x ≠ []) (s : Nat) :
    ExactS x.length (toInt x / 2 ^ (s % (w * x.length))) (wrappingShr true x s) :=
  wrappingShrS hk h2 hx s

example := C20_int_wrapping_shr (k := 6) (x := top) rfl (by decide) (by decide) 200
example : wrappingShr true top 200 = [0xff80000000000000, 0xffffffffffffffff, 0xffffffffffffffff,
    0xffffffffffffffff] := by decide
example : wrappingShr true m2 255 = ones := by decide

/-- C20: `checked_shl` is `Some` of the wrapping shift exactly for amounts below `BITS`. -/
theorem C20_checked_shl (hk : w = 2 ^ k) (h2 : x.length % 2 = 0) (hx : x ≠ []) (s : Nat) :
    (s < w * x.length → ∃ v, checkedShl x s = some v ∧
      WrapU x.length ((toNat x : Int) * 2 ^ s) v ∧ WrapS x.length (toInt x * 2 ^ s) v) ∧
    (w * x.length ≤ s → checkedShl x s = none) := by
  have hb : bits x = w * x.length := rfl
  refine ⟨fun h => ⟨_, if_pos (by rw [hb]; exact h), ?_, ?_⟩, fun h => if_neg (by rw [hb]; omega)⟩
  · have := wrappingShlU hk h2 hx s
    rwa [Nat.mod_eq_of_lt (by rw [hb]; exact h)] at this
  · have := wrappingShlS hk h2 hx s
    rwa [Nat.mod_eq_of_lt (by rw [hb]; exact h)] at this

example := (C20_checked_shl (k := 6) (x := a) rfl (by decide) (by decide) 70).1 (by decide)
example : checkedShl a 256 = none ∧ (checkedShl a 255).isSome := by decide

/-- C20: `checked_shr` on the unsigned types. -/
theorem C20_uint_checked_shr (hk : w = 2 ^ k) (h2 : x.length % 2 = 0) (hx : x ≠ []) (s : Nat) :
    (s < w * x.length → ∃ v, checkedShr false x s = some v ∧
      ExactU x.length ((toNat x : Int) / 2 ^ s) v) ∧
    (w * x.length ≤ s → checkedShr false x s = none) := by
  have hb : bits x = w * x.length := rfl
  refine ⟨fun h => ⟨_, if_pos (by rw [hb]; exact h), ?_⟩, fun h => if_neg (by rw [hb]; omega)⟩
  have := wrappingShrU hk h2 hx s
  rwa [Nat.mod_eq_of_lt (by rw [hb]; exact h)] at this

example := (C20_uint_checked_shr (k := 6) (x := a) rfl (by decide) (by decide) 70).1 (by decide)
example : checkedShr false a 256 = none ∧ (checkedShr false a 255).isSome := by decide

/-- C20: `checked_shr` on the signed types. -/
theorem C20_int_checked_shr (hk : w = 2 ^ k) (h2 : x.length % 2 = 0) (hx : x ≠ []) (s : Nat) :
    (s < w * x.length → ∃ v, checkedShr true x s = some v ∧
      ExactS x.length (toInt x / 2 ^ s) v) ∧
    (w * x.length ≤ s → checkedShr true x s = none) := by
  have hb : bits x = w * x.length := rfl
  refine ⟨fun h => ⟨_, if_pos (by rw [hb]; exact h), ?_⟩, fun h => if_neg (by rw [hb]; omega)⟩
  have := wrappingShrS hk h2 hx s
  rwa [Nat.mod_eq_of_lt (by rw [hb]; exact h)] at this

example := (C20_int_checked_shr (k := 6) (x := m2) rfl (by decide) (by decide) 70).1 (by decide)
example : checkedShr true m2 256 = none ∧ checkedShr true m2 1 = some ones := by decide

/-- C20: `strict_shl` and `strict_shr` return the checked result and panic exactly for amounts of
`BITS` or more. -/
theorem C20_strict (hk : w = 2 ^ k) (h2 : x.length % 2 = 0) (hx : x ≠ []) (s : Nat) :
    (s < w * x.length →
      (∃ v, strictShl x s = .ok v ∧ WrapU x.length ((toNat x : Int) * 2 ^ s) v) ∧
      (∃ v, strictShr false x s = .ok v ∧ ExactU x.length ((toNat x : Int) / 2 ^ s) v) ∧
      (∃ v, strictShr true x s = .ok v ∧ ExactS x.length (toInt x / 2 ^ s) v)) ∧
    (w * x.length ≤ s →
      strictShl x s = .panic ∧ strictShr false x s = .panic ∧ strictShr true x s = .panic) := by
  have h3 := C20_checked_shl hk h2 hx s
  have h4 := C20_uint_checked_shr hk h2 hx s
  have h5 := C20_int_checked_shr hk h2 hx s
  refine ⟨fun h => ?_, fun h => ?_⟩
  · obtain ⟨v, hv, hw, -⟩ := h3.1 h
    obtain ⟨v', hv', hw'⟩ := h4.1 h
    obtain ⟨v'', hv'', hw''⟩ := h5.1 h
    refine ⟨⟨v, ?_, hw⟩, ⟨v', ?_, hw'⟩, ⟨v'', ?_, hw''⟩⟩
    · rw [strictShl, hv]; rfl
    · rw [strictShr, hv']; rfl
    · rw [strictShr, hv'']; rfl
  · refine ⟨?_, ?_, ?_⟩
    · rw [strictShl, h3.2 h]; rfl
    · rw [strictShr, h4.2 h]; rfl
    · rw [strictShr, h5.2 h]; rfl

example := (C20_strict (k := 6) (x := m2) rfl (by decide) (by decide) 256).2 (by decide)
example : strictShl one 256 = .panic ∧ strictShl one 255 = .ok top := by decide

/-- C20: `overflowing_shl` of the signed types: wrapped value, flag exactly for amounts of `BITS` or
more. -/
theorem C20_int_overflowing_shl (hk : w = 2 ^ k) (h2 : x.length % 2 = 0) (hx : x ≠ []) (s : Nat) :
    WrapS x.length (toInt x * 2 ^ (s % (w * x.length))) (I.overflowingShl x s).1 ∧
    ((I.overflowingShl x s).2 = true ↔ w * x.length ≤ s) :=
  ⟨wrappingShlS hk h2 hx s, decide_eq_true_iff⟩

example := C20_int_overflowing_shl (k := 6) (x := m2) rfl (by decide) (by decide) 257
example : I.overflowingShl one 257 = ([2, 0, 0, 0], true) := by decide

/-- C20: `overflowing_shr` of the signed types. -/
theorem C20_int_overflowing_shr (hk : w = 2 ^ k) (h2 : x.length % 2 = 0) (hx : x ≠ []) (s : Nat) :
    ExactS x.length (toInt x / 2 ^ (s % (w * x.length))) (I.overflowingShr x s).1 ∧
    ((I.overflowingShr x s).2 = true ↔ w * x.length ≤ s) :=
  ⟨wrappingShrS hk h2 hx s, decide_eq_true_iff⟩

example := C20_int_overflowing_shr (k := 6) (x := m2) rfl (by decide) (by decide) 257
example : I.overflowingShr m2 257 = (ones, true) := by decide

/-! ### C21: rotations -/

/-- C21: `rotate_left` by `n` moves bit `i` to bit `(i + n) mod BITS`. -/
theorem C21_rotate_left (hk : w = 2 ^ k) (h2 : x.length % 2 = 0) (h4 : 4 ≤ x.length) (n : Nat) :
    (rotateLeft x n).length = x.length ∧ ∀ i < bits x,
      (toNat (rotateLeft x n)).testBit ((i + n) % bits x) = (toNat x).testBit i :=
  ⟨rotateLeft_length h2 n, fun _ hi => rotateLeft_spec hk h2 h4 n hi⟩

example := C21_rotate_left (k := 6) (x := a) rfl (by decide) (by decide) 200
example : rotateLeft a 136 = [0x500, 0, 0xffffffffffffff00, 0xff] := by decide
example : rotateLeft a 64 = [0, 0xffffffffffffffff, 0, 5] := by decide

/-- C21: `rotate_right` by `n` moves bit `(i + n) mod BITS` to bit `i`. -/
theorem C21_rotate_right (hk : w = 2 ^ k) (h2 : x.length % 2 = 0) (h4 : 4 ≤ x.length) (n : Nat) :
    (rotateRight x n).length = x.length ∧ ∀ i < bits x,
      (toNat (rotateRight x n)).testBit i = (toNat x).testBit ((i + n) % bits x) :=
  ⟨rotateRight_length h2 n, fun _ hi => rotateRight_spec hk h2 h4 n hi⟩

example := C21_rotate_right (k := 5) (x := b32) rfl (by decide) (by decide) 200
example : rotateRight a 8 = [0x00ffffffffffffff, 0x0500000000000000, 0, 0xff00000000000000] := by
  decide

/-- C21: the two rotations are inverse to each other. -/
theorem C21_rotate_inverse (hk : w = 2 ^ k) (h2 : x.length % 2 = 0) (h4 : 4 ≤ x.length) (n : Nat) :
    rotateRight (rotateLeft x n) n = x ∧ rotateLeft (rotateRight x n) n = x := by
  have hl := rotateLeft_length h2 n
  have hr := rotateRight_length h2 n
  have hB : 0 < bits x := bits_pos (pow_pos_width hk) (by rintro rfl; simp at h4)
  have e1 : bits (rotateLeft x n) = bits x := bits_eq_of_length hl
  have e2 : bits (rotateRight x n) = bits x := bits_eq_of_length hr
  have hrl : rotateRight (rotateLeft x n) n = x := by
    have hlen : (rotateRight (rotateLeft x n) n).length = x.length :=
      (rotateRight_length (by omega) n).trans hl
    apply toNat_inj hlen
    apply Nat.eq_of_testBit_eq
    intro i
    by_cases hi : i < bits x
    · rw [rotateRight_spec hk (by omega) (by omega) n (by omega), e1]
      exact rotateLeft_spec hk h2 h4 n hi
    · rw [testBit_of_le (by rw [bits_eq_of_length hlen]; omega), testBit_of_le (by omega)]
  refine ⟨hrl, ?_⟩
  have hlen : (rotateLeft (rotateRight x n) n).length = x.length :=
    (rotateLeft_length (by omega) n).trans hr
  apply toNat_inj hlen
  apply Nat.eq_of_testBit_eq
  intro i
  by_cases hi : i < bits x
  · have hpre : ((i + (bits x - n % bits x)) % bits x + n) % bits x = i := by
      have := Nat.mod_lt n hB
      have hn := Nat.mod_add_div n (bits x)
      rw [Nat.mod_add_mod]
      have : i + (bits x - n % bits x) + n = i + bits x * (n / bits x + 1) := by
        rw [Nat.mul_add, Nat.mul_one]; omega
      rw [this, Nat.add_mul_mod_self_left, Nat.mod_eq_of_lt hi]
    have h1 := Nat.mod_lt (i + (bits x - n % bits x)) hB
    have h5 := rotateLeft_spec hk (x := rotateRight x n) (by omega) (by omega) n
      (i := (i + (bits x - n % bits x)) % bits x) (by omega)
    rw [e2, hpre, rotateRight_spec hk h2 h4 n h1, hpre] at h5
    exact h5
  · rw [testBit_of_le (by rw [bits_eq_of_length hlen]; omega), testBit_of_le (by omega)]

example := C21_rotate_inverse (k := 6) (x := a) rfl (by decide) (by decide) 1000
example : rotateRight (rotateLeft a 77) 77 = a := by decide

/-! ### C38: shift operators with amounts of the primitive types -/

/-- C38: `<<` and `>>` with an amount in range, in a build without overflow checks: the shift, for
every primitive type of the amount. -/
theorem C38_unchecked {n : Nat} (hk : w = 2 ^ k) (h2 : x.length % 2 = 0) (hx : x ≠ [])
    (h32 : w * x.length < 2 ^ 32) (ps : Bool) (c : BitVec n) {s : Nat} (hs : primVal ps c = s)
    (hr : s < w * x.length) :
    (∃ v, shlPrim false ps x c = .ok v ∧ WrapU x.length ((toNat x : Int) * 2 ^ s) v ∧
      WrapS x.length (toInt x * 2 ^ s) v) ∧
    (∃ v, shrPrim false ps false x c = .ok v ∧ ExactU x.length ((toNat x : Int) / 2 ^ s) v) ∧
    (∃ v, shrPrim false ps true x c = .ok v ∧ ExactS x.length (toInt x / 2 ^ s) v) := by
  have hb : bits x = w * x.length := rfl
  have h3 := primAsU32_eq ps c hs (by omega)
  have hm : s % bits x = s := Nat.mod_eq_of_lt (by rw [hb]; exact hr)
  have hU := wrappingShlU hk h2 hx s
  have hS := wrappingShlS hk h2 hx s
  have hRU := wrappingShrU hk h2 hx s
  have hRS := wrappingShrS hk h2 hx s
  rw [hm] at hU hS hRU hRS
  refine ⟨⟨_, rfl, ?_⟩, ⟨_, rfl, ?_⟩, ⟨_, rfl, ?_⟩⟩
  · rw [h3]; exact ⟨hU, hS⟩
  · rw [h3]; exact hRU
  · rw [h3]; exact hRS

example := C38_unchecked (k := 6) (x := a) rfl (by decide) (by decide) (by decide) false (200#8)
  (s := 200) (by decide) (by decide)

/-- C38 is false for the 8-bit types in a build with overflow checks: `1 << 3u8` panics on a
256-bit type (the limit `256 as u8` is 0), also `1 >> 3i8`; on a 384-bit type `1 << 200u8` panics
(`384 as u8` is 128). -/
theorem C38_narrow_false :
    shlPrim true false one (3#8) = .panic ∧ shrPrim true true true one (3#8) = .panic ∧
    shlPrim true false ([1, 0, 0, 0, 0, 0] : Limbs 64) (200#8) = .panic := by decide

/-- C38 with overflow checks, for amount types that can represent `BITS` (every primitive type of
at least 16 bits on all four widths). The full statement would have no condition `hB`; it is false
for `u8` and `i8`, see `C38_narrow_false`. -/
theorem C38_checked_partial {n : Nat} (hk : w = 2 ^ k) (h2 : x.length % 2 = 0) (hx : x ≠ [])
    (h32 : w * x.length < 2 ^ 32) (ps : Bool) (c : BitVec n)
    (hB : if ps then 2 * (w * x.length) < 2 ^ n else w * x.length < 2 ^ n) :
    (∀ s : Nat, primVal ps c = s → s < w * x.length →
      (∃ v, shlPrim true ps x c = .ok v ∧ WrapU x.length ((toNat x : Int) * 2 ^ s) v ∧
        WrapS x.length (toInt x * 2 ^ s) v) ∧
      (∃ v, shrPrim true ps false x c = .ok v ∧ ExactU x.length ((toNat x : Int) / 2 ^ s) v) ∧
      (∃ v, shrPrim true ps true x c = .ok v ∧ ExactS x.length (toInt x / 2 ^ s) v)) ∧
    (primVal ps c < 0 ∨ ((w * x.length : Nat) : Int) ≤ primVal ps c →
      shlPrim true ps x c = .panic ∧ ∀ sg, shrPrim true ps sg x c = .panic) := by
  have hb : bits x = w * x.length := rfl
  have hr := primInRange_iff (B := bits x) ps c hB
  refine ⟨fun s hs hlt => ?_, fun h => ?_⟩
  · have h1 : primInRange ps (bits x) c = true := hr.2 (by rw [hs, hb]; omega)
    have := C38_unchecked hk h2 hx h32 ps c hs hlt
    simpa [shlPrim, shrPrim, h1] using this
  · have h1 : primInRange ps (bits x) c = false := by
      rw [← Bool.not_eq_true, hr, hb]; omega
    simp [shlPrim, shrPrim, h1]

example := (C38_checked_partial (n := 16) (k := 6) (x := a) rfl (by decide) (by decide) (by decide)
  true (200#16) (by decide)).1 200 (by decide) (by decide)
example : shlPrim true true a (300#16) = .panic ∧ shlPrim true true a (0xffff#16) = .panic ∧
    (shlPrim true true a (255#16)) = .ok top := by decide

/-! ### C39: unbounded shifts -/

/-- C39: `unbounded_shl` is the left shift by any amount (modulo `2^BITS`). -/
theorem C39_unbounded_shl (hk : w = 2 ^ k) (h2 : x.length % 2 = 0) (hx : x ≠ []) (s : Nat) :
    WrapU x.length ((toNat x : Int) * 2 ^ s) (unboundedShl x s) := by
  have hb : bits x = w * x.length := rfl
  have hN : 1 ≤ x.length := List.length_pos_iff.2 hx
  unfold unboundedShl
  split
  · rename_i h
    have := wrappingShlU hk h2 hx s
    rwa [Nat.mod_eq_of_lt h] at this
  · rename_i h
    refine ((ofU8U hN (by positivity)).wrap).congr ?_
    have hd : ((2:Int) ^ (w * x.length)) ∣ 2 ^ s := pow_dvd_pow 2 (by omega)
    exact ((Int.modEq_zero_iff_dvd.2 (hd.mul_left _))).symm

example := C39_unbounded_shl (k := 6) (x := a) rfl (by decide) (by decide) 1000
example : unboundedShl a 256 = zero ∧ unboundedShl a 255 = top := by decide

/-- C39: `unbounded_shr` of the unsigned types is the right shift by any amount. -/
theorem C39_uint_unbounded_shr (hk : w = 2 ^ k) (h2 : x.length % 2 = 0) (hx : x ≠ []) (s : Nat) :
    ExactU x.length ((toNat x : Int) / 2 ^ s) (unboundedShr false x s) := by
  have hN : 1 ≤ x.length := List.length_pos_iff.2 hx
  unfold unboundedShr
  split
  · rename_i h
    have := wrappingShrU hk h2 hx s
    rwa [Nat.mod_eq_of_lt h] at this
  · rename_i h
    have hlt := toNat_lt_int x
    have hp : (2:Int) ^ bits x ≤ 2 ^ s := pow_le_pow_right₀ (by norm_num) (by omega)
    rw [Int.ediv_eq_zero_of_lt (by omega) (by omega)]
    exact ofU8U hN (by positivity)

example := C39_uint_unbounded_shr (k := 6) (x := a) rfl (by decide) (by decide) 1000
example : unboundedShr false ones 256 = zero ∧ unboundedShr false ones 255 = one := by decide

/-- C39 is false for the signed `unbounded_shr`: `-1 >> 256` must be `-1`, the code returns 0. -/
theorem C39_int_unbounded_shr_false : toInt ones = -1 ∧ toInt ones / 2 ^ 256 = -1 ∧
    toInt (unboundedShr true ones 256) = 0 := by decide +kernel

/-- C39, signed: the full statement has no condition on `s`; it holds for amounts below `BITS` and
for all non-negative numbers. -/
theorem C39_int_unbounded_shr_partial (hk : w = 2 ^ k) (h2 : x.length % 2 = 0) (hx : x ≠ [])
    (s : Nat) (h : s < w * x.length ∨ 0 ≤ toInt x) :
    ExactS x.length (toInt x / 2 ^ s) (unboundedShr true x s) := by
  have hb : bits x = w * x.length := rfl
  have hw := pow_pos_width hk
  have hN : 1 ≤ x.length := List.length_pos_iff.2 hx
  unfold unboundedShr
  split
  · rename_i h
    have := wrappingShrS hk h2 hx s
    rwa [Nat.mod_eq_of_lt h] at this
  · rename_i hs
    have hlt := toInt_InS x
    have hp : (2:Int) ^ bits x ≤ 2 ^ s := pow_le_pow_right₀ (by norm_num) (by omega)
    have h0 : 0 ≤ toInt x := by omega
    unfold InS at hlt
    rw [Int.ediv_eq_zero_of_lt h0 (by omega)]
    exact ofU8S hw (by omega) (by positivity)

example := C39_int_unbounded_shr_partial (k := 6) (x := a) rfl (by decide) (by decide) 1000
  (Or.inr (by decide +kernel))
example : unboundedShr true m2 1 = ones := by decide

/-! ### C49: shift operators with amounts of the crate's own types -/

/-- C49: the amount is of the type of the other signedness: the shift in range, a panic out of range
in a build with overflow checks. -/
theorem C49_other_type (hk : w = 2 ^ k) (hw : 32 ≤ w) (hl : x.length = y.length)
    (h2 : x.length % 2 = 0) (hx : x ≠ []) (h32 : w * x.length < 2 ^ 32) (oc os : Bool) :
    (∀ s : Nat, (if os then toInt y else toNat y) = s → s < w * x.length →
      (∃ v, shlBig oc os x y = .ok v ∧ WrapU x.length ((toNat x : Int) * 2 ^ s) v ∧
        WrapS x.length (toInt x * 2 ^ s) v) ∧
      (∃ v, shrBig oc os false x y = .ok v ∧ ExactU x.length ((toNat x : Int) / 2 ^ s) v) ∧
      (∃ v, shrBig oc os true x y = .ok v ∧ ExactS x.length (toInt x / 2 ^ s) v)) ∧
    (oc = true → ((if os then toInt y else (toNat y : Int)) < 0 ∨
        ((w * x.length : Nat) : Int) ≤ (if os then toInt y else (toNat y : Int))) →
      shlBig oc os x y = .panic ∧ ∀ sg, shrBig oc os sg x y = .panic) := by
  have hb : bits x = w * x.length := rfl
  have hN : 1 ≤ x.length := List.length_pos_iff.2 hx
  have hr := bigOutOfRange_iff hw os (y := y) (by omega) (by omega) (B := bits x) (by omega)
  refine ⟨fun s hs hlt => ?_, fun hoc h => ?_⟩
  · have h1 : bigOutOfRange os (bits x) y = false := by
      rw [← Bool.not_eq_true, hr]
      simp only [Ord.val]
      rw [hs, hb]; omega
    have hN' : toNat y = s := by
      cases os
      · simp at hs; omega
      · simp only [if_true] at hs
        rcases toInt_cases y with ⟨h0, h⟩ | ⟨h0, h⟩ <;> omega
    have h3 := asU32_eq hw hN' (by omega)
    have hm : s % bits x = s := Nat.mod_eq_of_lt (by rw [hb]; exact hlt)
    have hU := wrappingShlU hk h2 hx s
    have hS := wrappingShlS hk h2 hx s
    have hRU := wrappingShrU hk h2 hx s
    have hRS := wrappingShrS hk h2 hx s
    rw [hm] at hU hS hRU hRS
    unfold shlBig shrBig
    rw [h1, h3]
    simp only [Bool.and_false, Bool.false_eq_true, if_false]
    exact ⟨⟨_, rfl, hU, hS⟩, ⟨_, rfl, hRU⟩, ⟨_, rfl, hRS⟩⟩
  · have h1 : bigOutOfRange os (bits x) y = true := by
      rw [hr, hb]; simp only [Ord.val]; omega
    simp [shlBig, shrBig, h1, hoc]

example := (C49_other_type (k := 6) (x := a) (y := [70, 0, 0, 0]) rfl (by decide) (by decide)
  (by decide) (by decide) (by decide) true true).1 70 (by decide +kernel) (by decide)
example : shlBig true true a m2 = .panic ∧ shlBig true false a (ofU8 4 255) = .ok top := by decide

/-- C49 is false for an amount of the same type: `1 << 256` is `1` and `1 << -1` is `2^255`; there is
no panic in any build. -/
theorem C49_self_false : shlSelf one [256, 0, 0, 0] = one ∧ shlSelf one ones = top ∧
    shrSelf false one [0, 0, 0, 1] = one := by decide

/-- C49, amount of the same type, in range. The full statement also asks for a panic out of range in
a build with overflow checks, which the code does not do (`C49_self_false`). -/
theorem C49_self_partial (hk : w = 2 ^ k) (hw : 32 ≤ w) (h2 : x.length % 2 = 0) (hx : x ≠ [])
    (h32 : w * x.length < 2 ^ 32) (hr : toNat y < w * x.length) :
    WrapU x.length ((toNat x : Int) * 2 ^ toNat y) (shlSelf x y) ∧
    WrapS x.length (toInt x * 2 ^ toNat y) (shlSelf x y) ∧
    ExactU x.length ((toNat x : Int) / 2 ^ toNat y) (shrSelf false x y) ∧
    ExactS x.length (toInt x / 2 ^ toNat y) (shrSelf true x y) := by
  have hb : bits x = w * x.length := rfl
  have h3 := asU32_eq hw (y := y) rfl (by omega)
  have hm : toNat y % bits x = toNat y := Nat.mod_eq_of_lt (by rw [hb]; exact hr)
  have hU := wrappingShlU hk h2 hx (toNat y)
  have hS := wrappingShlS hk h2 hx (toNat y)
  have hRU := wrappingShrU hk h2 hx (toNat y)
  have hRS := wrappingShrS hk h2 hx (toNat y)
  rw [hm] at hU hS hRU hRS
  unfold shlSelf shrSelf
  rw [h3]
  exact ⟨hU, hS, hRU, hRS⟩

example := C49_self_partial (k := 6) (x := a) (y := [70, 0, 0, 0]) rfl (by decide) (by decide)
  (by decide) (by decide) (by decide)

end I256
