import Verif.SpecRaw
import Verif.SpecDiv
import Verif.Lemmas.RawShiftForms
import Verif.Props.ShiftAll
import Verif.Props.Bitops
import Verif.Props.Misc

/-!
# C87: the forms of the shifts, the bit counts, the powers of two and the midpoints in memory

The theorems are about the literal transcription of these methods.  The limbs are in memory order, `cf` is
the kind of build; `B` is the number of bits of the type, `X` and `V` are the unsigned and the signed number
in the array.
-/

namespace I256

open Sample
open Raw (Fit)
open Raw.Div (Cfg)

variable {w : Nat} {cf : Cfg} {be : Bool} {a b : Limbs w}

section
variable (hw : w = 32 ∨ w = 64) (F : Fit w a.length) {B X : Nat} {V : Int} (hB : w * a.length = B)
  (hX : memNat be a = X) (hV : memInt be a = V)
include F hw hB hX hV

/-- C87: the checked and strict left shifts lose the bits above the top, and reject the amounts from `BITS`
on. -/
theorem C87_shl (s : Nat) :
    (s < B → (∃ m, Raw.checkedShl be a s = .ok (some m) ∧
        WrapU a.length ((X : Int) * 2 ^ s) (logical be m) ∧ WrapS a.length (V * 2 ^ s) (logical be m)) ∧
      Holds be (fun v => WrapU a.length ((X : Int) * 2 ^ s) v ∧ WrapS a.length (V * 2 ^ s) v)
        (Raw.strictShl be a s)) ∧
    (B ≤ s → Raw.checkedShl be a s = .ok none ∧ Raw.strictShl be a s = .panic) := by
  obtain ⟨x, rfl⟩ := Raw.exists_mem be a
  obtain ⟨k, hk⟩ := Raw.two_pow_of hw
  subst hB hX hV
  simp only [Raw.mem_length, Raw.memNat_mem, Raw.memInt_mem] at *
  rw [Raw.checkedShl_ok be F hw, Raw.strictShl_ok be F hw]
  obtain ⟨h1, h2⟩ := C20_checked_shl hk F.even F.nil s
  constructor
  · intro hs
    obtain ⟨v, e, hv⟩ := h1 hs
    rw [strictShl, e]
    exact ⟨⟨_, rfl, by simpa only [Raw.logical_mem] using hv⟩, Raw.holds hv⟩
  · intro hs
    rw [strictShl, h2 hs]
    exact ⟨rfl, rfl⟩

/-- C87: the checked and strict right shifts divide, rounding down, and reject the amounts from `BITS` on. -/
theorem C87_shr (s : Nat) :
    (s < B →
      (∃ m, Raw.checkedShr be false a s = .ok (some m) ∧ ExactU a.length ((X : Int) / 2 ^ s) (logical be m)) ∧
      Holds be (ExactU a.length ((X : Int) / 2 ^ s)) (Raw.strictShr be false a s) ∧
      (∃ m, Raw.checkedShr be true a s = .ok (some m) ∧ ExactS a.length (V / 2 ^ s) (logical be m)) ∧
      Holds be (ExactS a.length (V / 2 ^ s)) (Raw.strictShr be true a s)) ∧
    (B ≤ s → ∀ sg, Raw.checkedShr be sg a s = .ok none ∧ Raw.strictShr be sg a s = .panic) := by
  obtain ⟨x, rfl⟩ := Raw.exists_mem be a
  obtain ⟨k, hk⟩ := Raw.two_pow_of hw
  subst hB hX hV
  simp only [Raw.mem_length, Raw.memNat_mem, Raw.memInt_mem] at *
  simp only [Raw.checkedShr_ok be F hw, Raw.strictShr_ok be F hw]
  obtain ⟨h1, h2⟩ := C20_uint_checked_shr hk F.even F.nil s
  obtain ⟨h3, h4⟩ := C20_int_checked_shr hk F.even F.nil s
  constructor
  · intro hs
    obtain ⟨v, e, hv⟩ := h1 hs
    obtain ⟨u, e', hu⟩ := h3 hs
    rw [strictShr, e, strictShr, e']
    exact ⟨⟨_, rfl, by simpa only [Raw.logical_mem] using hv⟩, Raw.holds hv,
      ⟨_, rfl, by simpa only [Raw.logical_mem] using hu⟩, Raw.holds hu⟩
  · intro hs sg
    cases sg
    · rw [strictShr, h2 hs]; exact ⟨rfl, rfl⟩
    · rw [strictShr, h4 hs]; exact ⟨rfl, rfl⟩

/-- C87: the overflowing shifts of the signed types reduce the amount modulo `BITS` and report an amount from
`BITS` on. -/
theorem C87_int_overflowing (s : Nat) :
    HoldsO be (fun r => WrapS a.length (V * 2 ^ (s % B)) r.1 ∧ (r.2 = true ↔ B ≤ s))
      (Raw.I.overflowingShl be a s) ∧
    HoldsO be (fun r => ExactS a.length (V / 2 ^ (s % B)) r.1 ∧ (r.2 = true ↔ B ≤ s))
      (Raw.I.overflowingShr be a s) := by
  obtain ⟨x, rfl⟩ := Raw.exists_mem be a
  obtain ⟨k, hk⟩ := Raw.two_pow_of hw
  subst hB hX hV
  simp only [Raw.mem_length, Raw.memNat_mem, Raw.memInt_mem] at *
  rw [Raw.I.overflowingShl_ok be F hw, Raw.I.overflowingShr_ok be F hw]
  exact ⟨Raw.holdsO (C20_int_overflowing_shl hk F.even F.nil s),
    Raw.holdsO (C20_int_overflowing_shr hk F.even F.nil s)⟩

/-- C87: `unbounded_shl`, and `unbounded_shr` of the unsigned types, for every amount. -/
theorem C87_unbounded (s : Nat) :
    Holds be (WrapU a.length ((X : Int) * 2 ^ s)) (Raw.unboundedShl be a s) ∧
    Holds be (ExactU a.length ((X : Int) / 2 ^ s)) (Raw.unboundedShr be false a s) := by
  obtain ⟨x, rfl⟩ := Raw.exists_mem be a
  obtain ⟨k, hk⟩ := Raw.two_pow_of hw
  subst hB hX hV
  simp only [Raw.mem_length, Raw.memNat_mem, Raw.memInt_mem] at *
  rw [Raw.unboundedShl_ok be F hw, Raw.unboundedShr_ok be F hw]
  exact ⟨Raw.holds (C39_unbounded_shl hk F.even F.nil s),
    Raw.holds (C39_uint_unbounded_shr hk F.even F.nil s)⟩

/-- C87, partial: `unbounded_shr` of the signed types returns 0 for the amounts from `BITS` on.  The full
claim is the rounded quotient for every amount; it holds just if the amount is below `BITS` or the number is
not negative (`C87_int_unbounded_shr_false`). -/
theorem C87_int_unbounded_shr_partial (s : Nat) :
    Holds be (fun v => ExactS a.length (if s < B then V / 2 ^ s else 0) v ∧
      (ExactS a.length (V / 2 ^ s) v ↔ s < B ∨ 0 ≤ V)) (Raw.unboundedShr be true a s) := by
  obtain ⟨x, rfl⟩ := Raw.exists_mem be a
  obtain ⟨k, hk⟩ := Raw.two_pow_of hw
  subst hB hX hV
  simp only [Raw.mem_length, Raw.memNat_mem, Raw.memInt_mem] at *
  rw [Raw.unboundedShr_ok be F hw]
  exact Raw.holds (C39_int_unbounded_shr_all_partial hk F.even F.nil s)

/-- C87, partial: the shift operators with amounts of a primitive type.  In a build with overflow checks the
amount has to be below `BITS` converted to its type; the full claim asks for the limit `BITS` itself
(`C87_narrow_false`). -/
theorem C87_prim_partial {n : Nat} (ps : Bool) (c : BitVec n) :
    Yields (ShiftRejects cf.oc (castLimit ps n B) (primVal ps c)) (fun m =>
        WrapU a.length ((X : Int) * 2 ^ shiftPlaces B (primVal ps c)) (logical be m) ∧
        WrapS a.length (V * 2 ^ shiftPlaces B (primVal ps c)) (logical be m)) (Raw.shlPrim cf be ps a c) ∧
    Yields (ShiftRejects cf.oc (castLimit ps n B) (primVal ps c)) (fun m =>
        ExactU a.length ((X : Int) / 2 ^ shiftPlaces B (primVal ps c)) (logical be m))
      (Raw.shrPrim cf be ps false a c) ∧
    Yields (ShiftRejects cf.oc (castLimit ps n B) (primVal ps c)) (fun m =>
        ExactS a.length (V / 2 ^ shiftPlaces B (primVal ps c)) (logical be m))
      (Raw.shrPrim cf be ps true a c) := by
  obtain ⟨x, rfl⟩ := Raw.exists_mem be a
  obtain ⟨k, hk⟩ := Raw.two_pow_of hw
  subst hB hX hV
  simp only [Raw.mem_length, Raw.memNat_mem, Raw.memInt_mem] at *
  rw [Raw.shlPrim_ok cf be F hw, Raw.shrPrim_ok cf be F hw, Raw.shrPrim_ok cf be F hw]
  obtain ⟨h1, h2, h3⟩ := C38_all_partial hk F.even F.nil cf.oc ps c
  exact ⟨Raw.yields h1, Raw.yields h2, Raw.yields h3⟩

/-- C87: the shift operators whose amount is of the type of the other signedness (signed if `os`) panic just
if overflow checks are on and the amount is out of range, and shift by the low 32 bits of the amount modulo
`BITS` otherwise. -/
theorem C87_other_type (hl : a.length = b.length) (h32 : B < 2 ^ 32) (os : Bool) {Y : Int}
    (hY : (if os then memInt be b else memNat be b) = Y) :
    Yields (ShiftRejects cf.oc B Y) (fun m =>
        WrapU a.length ((X : Int) * 2 ^ shiftPlaces B Y) (logical be m) ∧
        WrapS a.length (V * 2 ^ shiftPlaces B Y) (logical be m)) (Raw.shlBig cf be os a b) ∧
    Yields (ShiftRejects cf.oc B Y) (fun m => ExactU a.length ((X : Int) / 2 ^ shiftPlaces B Y) (logical be m))
      (Raw.shrBig cf be os false a b) ∧
    Yields (ShiftRejects cf.oc B Y) (fun m => ExactS a.length (V / 2 ^ shiftPlaces B Y) (logical be m))
      (Raw.shrBig cf be os true a b) := by
  obtain ⟨x, rfl⟩ := Raw.exists_mem be a
  obtain ⟨y, rfl⟩ := Raw.exists_mem be b
  obtain ⟨k, hk⟩ := Raw.two_pow_of hw
  subst hB hX hV hY
  simp only [Raw.mem_length, Raw.memNat_mem, Raw.memInt_mem] at *
  have h0 : 32 ≤ w := by omega
  have hb : 32 ≤ w * x.length := by have := F.n4; nlinarith
  rw [Raw.shlBig_ok cf be F hw hl h32, Raw.shrBig_ok cf be F hw hl h32, Raw.shrBig_ok cf be F hw hl h32]
  suffices h : Yields (ShiftRejects cf.oc ((w * x.length : Nat) : Int)
      (if os then toInt y else (toNat y : Int))) (fun v =>
        WrapU x.length ((toNat x : Int) * 2 ^ shiftPlaces (w * x.length)
          (if os then toInt y else (toNat y : Int))) v ∧
        WrapS x.length (toInt x * 2 ^ shiftPlaces (w * x.length)
          (if os then toInt y else (toNat y : Int))) v) (shlBig cf.oc os x y) ∧
      Yields (ShiftRejects cf.oc ((w * x.length : Nat) : Int) (if os then toInt y else (toNat y : Int)))
        (ExactU x.length ((toNat x : Int) / 2 ^ shiftPlaces (w * x.length)
          (if os then toInt y else (toNat y : Int)))) (shrBig cf.oc os false x y) ∧
      Yields (ShiftRejects cf.oc ((w * x.length : Nat) : Int) (if os then toInt y else (toNat y : Int)))
        (ExactS x.length (toInt x / 2 ^ shiftPlaces (w * x.length)
          (if os then toInt y else (toNat y : Int)))) (shrBig cf.oc os true x y) from
    ⟨Raw.yields h.1, Raw.yields h.2.1, Raw.yields h.2.2⟩
  cases hoc : cf.oc
  · have hp : shiftPlaces (w * x.length) (if os then toInt y else (toNat y : Int)) =
        shiftPlaces (w * x.length) (toNat y) := by
      cases os
      · rfl
      · have hd : (2 : Int) ^ 32 ∣ 2 ^ bits y := pow_dvd_pow 2 (by rw [bits, ← hl]; exact hb)
        have hm : toInt y % 2 ^ 32 = (toNat y : Int) % 2 ^ 32 := by
          rw [toInt_emod_toNat y, Int.emod_emod_of_dvd _ hd]
        simp only [if_true, shiftPlaces, hm]
    rw [hp]
    obtain ⟨⟨u, e1, h1⟩, ⟨v, e2, h2⟩, z, e3, h3⟩ :=
      C49_other_type_unchecked (x := x) (y := y) hk h0 F.even F.nil os
    exact ⟨⟨fun h => absurd h.1 (by simp), fun _ => ⟨u, e1, h1⟩⟩,
      ⟨fun h => absurd h.1 (by simp), fun _ => ⟨v, e2, h2⟩⟩,
      ⟨fun h => absurd h.1 (by simp), fun _ => ⟨z, e3, h3⟩⟩⟩
  · obtain ⟨k1, k2⟩ := C49_other_type hk h0 hl F.even F.nil h32 true os
    generalize (if os then toInt y else (toNat y : Int)) = Y at *
    by_cases hY : 0 ≤ Y ∧ Y < ((w * x.length : Nat) : Int)
    · have hs : shiftPlaces (w * x.length) Y = Y.toNat := by
        have : Y < 2 ^ 32 := by
          have : ((w * x.length : Nat) : Int) < ((2 ^ 32 : Nat) : Int) := by exact_mod_cast h32
          push_cast at this; omega
        rw [shiftPlaces, Int.emod_eq_of_lt hY.1 this, Nat.mod_eq_of_lt (by omega)]
      obtain ⟨⟨u, e1, h1⟩, ⟨v, e2, h2⟩, z, e3, h3⟩ := k1 Y.toNat (by omega) (by omega)
      rw [hs]
      exact ⟨⟨fun h => absurd hY h.2, fun _ => ⟨u, e1, h1⟩⟩, ⟨fun h => absurd hY h.2, fun _ => ⟨v, e2, h2⟩⟩,
        ⟨fun h => absurd hY h.2, fun _ => ⟨z, e3, h3⟩⟩⟩
    · obtain ⟨e1, e2⟩ := k2 rfl (by omega)
      exact ⟨⟨fun _ => e1, fun h => absurd ⟨rfl, hY⟩ h⟩, ⟨fun _ => e2 _, fun h => absurd ⟨rfl, hY⟩ h⟩,
        ⟨fun _ => e2 _, fun h => absurd ⟨rfl, hY⟩ h⟩⟩

/-- C87, partial: the shift operators whose amount is of the same type shift by its low 32 bits modulo `BITS`
in every build.  The full claim asks for a panic out of range in a build with overflow checks
(`C87_self_false`). -/
theorem C87_self_partial (hl : a.length = b.length) {Y : Nat} (hY : memNat be b = Y) :
    Holds be (fun v => WrapU a.length ((X : Int) * 2 ^ shiftPlaces B Y) v ∧
      WrapS a.length (V * 2 ^ shiftPlaces B Y) v) (Raw.shlSelf be a b) ∧
    Holds be (ExactU a.length ((X : Int) / 2 ^ shiftPlaces B Y)) (Raw.shrSelf be false a b) ∧
    Holds be (ExactS a.length (V / 2 ^ shiftPlaces B Y)) (Raw.shrSelf be true a b) := by
  obtain ⟨x, rfl⟩ := Raw.exists_mem be a
  obtain ⟨y, rfl⟩ := Raw.exists_mem be b
  obtain ⟨k, hk⟩ := Raw.two_pow_of hw
  subst hB hX hV hY
  simp only [Raw.mem_length, Raw.memNat_mem, Raw.memInt_mem] at *
  rw [Raw.shlSelf_ok be F hw hl, Raw.shrSelf_ok be F hw hl, Raw.shrSelf_ok be F hw hl]
  obtain ⟨h1, h2, h3, h4⟩ := C49_self_all_partial (x := x) (y := y) hk (by omega) F.even F.nil
  exact ⟨Raw.holds ⟨h1, h2⟩, Raw.holds h3, Raw.holds h4⟩

end

section
variable (F : Fit w a.length) {B X : Nat} (hB : w * a.length = B) (hX : memNat be a = X)
include F hB hX

/-- C87: `count_zeros` counts the clear bits. -/
theorem C87_count_zeros : Raw.Bits.countZeros a = .ok ((List.range B).countP fun i => !X.testBit i) := by
  obtain ⟨x, rfl⟩ := Raw.exists_mem be a
  subst hB hX
  simp only [Raw.mem_length, Raw.memNat_mem] at *
  rw [Raw.Bits.countZeros_ok be F, C22_count_zeros.1]; rfl

/-- C87: `leading_ones` is the length of the block of set bits at the top. -/
theorem C87_leading_ones : ∃ n, Raw.Bits.leadingOnes be a = .ok n ∧ n ≤ B ∧
    (∀ i < n, X.testBit (B - 1 - i) = true) ∧ (n < B → X.testBit (B - 1 - n) = false) := by
  obtain ⟨x, rfl⟩ := Raw.exists_mem be a
  subst hB hX
  simp only [Raw.mem_length, Raw.memNat_mem] at *
  exact ⟨_, Raw.Bits.leadingOnes_ok be F, C22_leading_ones⟩

/-- C87: `trailing_ones` is the length of the block of set bits at the bottom. -/
theorem C87_trailing_ones : ∃ n, Raw.Bits.trailingOnes be a = .ok n ∧ n ≤ B ∧
    (∀ i < n, X.testBit i = true) ∧ (n < B → X.testBit n = false) := by
  obtain ⟨x, rfl⟩ := Raw.exists_mem be a
  subst hB hX
  simp only [Raw.mem_length, Raw.memNat_mem] at *
  exact ⟨_, Raw.Bits.trailingOnes_ok be F, C22_trailing_ones⟩

/-- C87: `is_power_of_two`. -/
theorem C87_is_power_of_two : ∃ o, Raw.U.isPowerOfTwo a = .ok o ∧ (o = true ↔ ∃ j, X = 2 ^ j) := by
  obtain ⟨x, rfl⟩ := Raw.exists_mem be a
  subst hB hX
  simp only [Raw.mem_length, Raw.memNat_mem] at *
  exact ⟨_, Raw.U.isPowerOfTwo_ok be, C33_is_power_of_two⟩

/-- C87: the forms of `next_power_of_two`: the least power of two not below the number; out of range it
wraps to 0, gives `None` or panics. -/
theorem C87_next_power_of_two (hw : w = 32 ∨ w = 64) :
    Holds be (WrapU a.length (2 ^ Nat.clog 2 X)) (Raw.U.wrappingNextPowerOfTwo be a) ∧
    HoldsC be (CheckU a.length (2 ^ Nat.clog 2 X)) (Raw.U.checkedNextPowerOfTwo be a) ∧
    Ends be (OpU cf.oc a.length (2 ^ Nat.clog 2 X)) (Raw.U.nextPowerOfTwo cf be a) := by
  obtain ⟨x, rfl⟩ := Raw.exists_mem be a
  obtain ⟨k, hk⟩ := Raw.two_pow_of hw
  subst hB hX
  simp only [Raw.mem_length, Raw.memNat_mem] at *
  rw [Raw.U.wrappingNextPowerOfTwo_ok be F hw, Raw.U.checkedNextPowerOfTwo_ok be F hw,
    Raw.U.nextPowerOfTwo_ok cf be F hw]
  exact ⟨Raw.holds (C33_wrapping_next_power_of_two hk F.even F.n4).1,
    Raw.holdsC (C33_checked_next_power_of_two hk F.even F.n4),
    Raw.ends (C33_next_power_of_two cf.oc hk F.even F.n4)⟩

end

section
variable (hw : w = 32 ∨ w = 64) (F : Fit w a.length) (hl : a.length = b.length)
include F hw hl

/-- C87: the unsigned midpoint, rounded down. -/
theorem C87_uint_midpoint :
    Holds be (ExactU a.length (((memNat be a : Int) + memNat be b) / 2)) (Raw.U.midpoint be a b) := by
  obtain ⟨x, rfl⟩ := Raw.exists_mem be a
  obtain ⟨y, rfl⟩ := Raw.exists_mem be b
  obtain ⟨k, hk⟩ := Raw.two_pow_of hw
  simp only [Raw.mem_length, Raw.memNat_mem] at *
  rw [Raw.U.midpoint_ok be F hl hw]
  exact Raw.holds (C35_uint_midpoint hk hl F.even F.nil)

/-- C87, partial: the signed midpoint is rounded towards zero.  The documentation says towards negative
infinity (`C87_int_midpoint_false`). -/
theorem C87_int_midpoint_partial :
    Holds be (ExactS a.length ((memInt be a + memInt be b).tdiv 2)) (Raw.I.midpoint be a b) := by
  obtain ⟨x, rfl⟩ := Raw.exists_mem be a
  obtain ⟨y, rfl⟩ := Raw.exists_mem be b
  obtain ⟨k, hk⟩ := Raw.two_pow_of hw
  simp only [Raw.mem_length, Raw.memInt_mem] at *
  rw [Raw.I.midpoint_ok be F hl hw]
  exact Raw.holds (C43_int_midpoint_partial hk hl F.even F.nil)

end

/-! ### The full claims fail in memory as well -/

/-- C87 is false for narrow amounts: `1 << 3u8` panics in a build with overflow checks. -/
theorem C87_narrow_false :
    Raw.shlPrim ⟨true, true, false⟩ true false ([0, 0, 0, 1] : Limbs 64) (3#8) = .panic ∧
    Raw.shrPrim ⟨true, true, false⟩ true true true ([0, 0, 0, 8] : Limbs 64) (3#8) = .panic := by
  decide +kernel

/-- C87 is false for `unbounded_shr` of a negative number: `-1` shifted by 256 is 0 and not `-1`. -/
theorem C87_int_unbounded_shr_false : memInt true ones / 2 ^ 256 = -1 ∧
    Raw.unboundedShr true true ones 256 = .ok zero ∧ memInt true zero = 0 := by decide +kernel

/-- C87 is false for amounts of the same type: `1 << 256` is 1, without a panic, and `1 << -1` is `MIN`. -/
theorem C87_self_false :
    Raw.shlSelf true ([0, 0, 0, 1] : Limbs 64) [0, 0, 0, 256] = .ok [0, 0, 0, 1] ∧
    Raw.shlSelf true ([0, 0, 0, 1] : Limbs 64) ones = .ok [0x8000000000000000, 0, 0, 0] ∧
    Raw.shrSelf true false ([0, 0, 0, 1] : Limbs 64) [1, 0, 0, 0] = .ok [0, 0, 0, 1] := by decide +kernel

/-- C87 is false with the documented rounding of the signed midpoint: that of `-1` and `0` is `0`. -/
theorem C87_int_midpoint_false : (memInt true ones + memInt true zero) / 2 = -1 ∧
    Raw.I.midpoint true ones zero = .ok zero ∧ memInt true zero = 0 := by decide +kernel

/-! ### The hypotheses are met -/

section examples
variable (cf : Cfg) (be : Bool)

example := C87_shl (a := Sample.a) (be := be) (.inr rfl) Raw.fit4 rfl rfl rfl 70
example := C87_shr (a := b32) (be := be) (.inl rfl) Raw.fit8 rfl rfl rfl 33
example := C87_int_overflowing (a := m2) (be := be) (.inr rfl) Raw.fit4 rfl rfl rfl 300
example := C87_unbounded (a := ones32) (be := be) (.inl rfl) Raw.fit8 rfl rfl rfl 300
example := C87_int_unbounded_shr_partial (a := m2) (be := be) (.inr rfl) Raw.fit4 rfl rfl rfl 300
example := C87_prim_partial (cf := cf) (a := Sample.a) (be := be) (.inr rfl) Raw.fit4 rfl rfl rfl true (70#64)
example := C87_other_type (cf := cf) (a := Sample.a) (b := m2) (be := be) (.inr rfl) Raw.fit4 rfl rfl rfl
  (by decide) (by decide) true rfl
example := C87_self_partial (a := Sample.a) (b := m2) (be := be) (.inr rfl) Raw.fit4 rfl rfl rfl
  (by decide) rfl
example := C87_count_zeros (a := Sample.a) (be := be) Raw.fit4 rfl rfl
example := C87_leading_ones (a := m2) (be := be) Raw.fit4 rfl rfl
example := C87_trailing_ones (a := maxS) (be := be) Raw.fit4 rfl rfl
example := C87_is_power_of_two (a := top) (be := be) Raw.fit4 rfl rfl
example := C87_next_power_of_two (cf := cf) (a := Sample.a) (be := be) Raw.fit4 rfl rfl (.inr rfl)
example := C87_uint_midpoint (a := ones) (b := Sample.a) (be := be) (.inr rfl) Raw.fit4 (by decide)
example := C87_int_midpoint_partial (a := top) (b := maxS) (be := be) (.inr rfl) Raw.fit4 (by decide)

end examples

example : Raw.checkedShl true ([0, 0, 0, 5] : Limbs 64) 65 = .ok (some [0, 0, 10, 0]) ∧
    Raw.checkedShl true ([0, 0, 0, 5] : Limbs 64) 256 = .ok none ∧
    Raw.strictShr true true ones 255 = .ok ones ∧ Raw.strictShr true false ones 256 = .panic ∧
    Raw.I.overflowingShl true ([0, 0, 0, 5] : Limbs 64) 257 = .ok ([0, 0, 0, 10], true) := by decide +kernel
example : Raw.shlPrim ⟨true, true, false⟩ true true ([0, 0, 0, 5] : Limbs 64) (65#16) = .ok [0, 0, 10, 0] ∧
    Raw.shlPrim ⟨true, true, false⟩ true true ([0, 0, 0, 5] : Limbs 64) (256#16) = .panic ∧
    Raw.shlPrim ⟨false, true, false⟩ true true ([0, 0, 0, 5] : Limbs 64) (256#16) = .ok [0, 0, 0, 5] ∧
    Raw.shlBig ⟨true, true, false⟩ true true ([0, 0, 0, 5] : Limbs 64) [0, 0, 0, 65] = .ok [0, 0, 10, 0] ∧
    Raw.shlBig ⟨true, true, false⟩ true true ([0, 0, 0, 5] : Limbs 64) ones = .panic ∧
    Raw.shrBig ⟨true, true, false⟩ true false true ([0, 0, 10, 0] : Limbs 64) [0, 0, 0, 65] =
      .ok [0, 0, 0, 5] := by decide +kernel
example : Raw.Bits.countZeros ([0, 0, 0, 5] : Limbs 64) = .ok 254 ∧
    Raw.Bits.leadingOnes true ([0xc000000000000000, 0, 0, 5] : Limbs 64) = .ok 2 ∧
    Raw.Bits.trailingOnes true ([0, 0, 1, 0xffffffffffffffff] : Limbs 64) = .ok 65 ∧
    Raw.U.isPowerOfTwo ([0, 0, 4, 0] : Limbs 64) = .ok true ∧
    Raw.U.nextPowerOfTwo ⟨true, true, false⟩ true ([0, 0, 4, 1] : Limbs 64) = .ok [0, 0, 8, 0] ∧
    Raw.U.nextPowerOfTwo ⟨true, true, false⟩ true ones = .panic ∧
    Raw.U.midpoint true ([0, 0, 4, 1] : Limbs 64) ones =
      .ok [0x8000000000000000, 0, 2, 0] ∧
    Raw.I.midpoint true ([0, 0, 4, 1] : Limbs 64) ones = .ok [0, 0, 2, 0] := by decide +kernel

end I256
