import Verif.Lemmas.RepairMath
import Verif.Props.MathShift
import Verif.Props.AddSub

/-!
# C82, continued: the public functions of `math` for every array length

The functions are in `Verif/Repair/Math.lean`.
-/

namespace I256

open Sample
open I256.Raw.Div (Cfg)

variable {w k : Nat}

/-! ### Division with unequal lengths (B2, B4, B17) -/

/-- C82, C83: with the numerator extended to the limbs of the divisor, `full` panics exactly for a zero
divisor and otherwise returns the exact quotient and remainder, for all lengths of the two operands. -/
theorem C82_div_rem_any_lengths (hw : 0 < w) (x y : Limbs w) :
    Yields (toNat y = 0)
      (fun r => ExactU x.length ((toNat x / toNat y : Nat) : Int) r.1 ∧
        ExactU y.length ((toNat x % toNat y : Nat) : Int) r.2) (Repair.fullAny x y) := by
  refine (Repair.fullAny_spec hw x y).mono ?_
  rintro r ⟨⟨h1, h2⟩, h3, h4⟩
  exact ⟨⟨h1, by rw [h2]⟩, h3, by rw [h4]⟩

example := (C82_div_rem_any_lengths (w := 64) (by decide) [7] [3, 0, 0]).2 (by decide)
/-- A numerator with fewer limbs than the divisor: the function of the crate panics. -/
example : Raw.Div.full ⟨true, true, true⟩ ([7] : Limbs 64) [3, 0, 0] = .ok ([2], [1, 0, 0]) ∧
    Raw.Div.full ⟨true, true, true⟩ ([7] : Limbs 64) [9, 0, 0] = .panic ∧
    Repair.fullAny (w := 64) [7] [3, 0, 0] = .ok ([2], [1, 0, 0]) ∧
    Repair.fullAny (w := 64) [7] [9, 0, 0] = .ok ([0], [7, 0, 0]) ∧
    Repair.fullAny (w := 64) [7] [9, 1, 0] = .ok ([0], [7, 0, 0]) ∧
    Repair.fullAny (w := 64) [7, 1] [9] = .ok ([0x1c71c71c71c71c72, 0], [5]) ∧
    Repair.fullAny (w := 64) [] [0] = .panic := by decide +kernel

/-- C82, C83: the same for divisors of two limbs and numerators of any length. -/
theorem C82_div_rem_wide_any_length (hw : 0 < w) (x : Limbs w) (d : BitVec (w + w)) :
    Yields (d.toNat = 0)
      (fun r => ExactU x.length ((toNat x / d.toNat : Nat) : Int) r.1 ∧ r.2.toNat = toNat x % d.toNat)
      (Repair.wideAny x d) := by
  refine (Repair.wideAny_spec hw x d).mono ?_
  rintro r ⟨⟨h1, h2⟩, h3⟩
  exact ⟨⟨h1, by rw [h2]⟩, h3⟩

example := (C82_div_rem_wide_any_length (w := 64) (by decide) [7] 9).2 (by decide)
example : Raw.Div.wideDiv (w := 64) ⟨true, true, true⟩ [7] 9 = .panic ∧
    Repair.wideAny (w := 64) [7] 9 = .ok ([0], 7) ∧
    Repair.wideAny (w := 64) [7] 0 = .panic := by decide +kernel

/-- C82, C83: the same for 128-bit divisors and numerators of any number of 32-bit limbs. -/
theorem C82_div_rem_u128_any_length (x : Limbs 32) (d : BitVec 128) :
    Yields (d.toNat = 0)
      (fun r => ExactU x.length ((toNat x / d.toNat : Nat) : Int) r.1 ∧ r.2.toNat = toNat x % d.toNat)
      (Repair.fromU128Any x d) := by
  refine (Repair.fromU128Any_spec x d).mono ?_
  rintro r ⟨⟨h1, h2⟩, h3⟩
  exact ⟨⟨h1, by rw [h2]⟩, h3⟩

example := (C82_div_rem_u128_any_length [7, 1] 9).2 (by decide)
example : Repair.fromU128Any (w := 32) [7, 1] 9 = .ok ([0x1c71c71d, 0], 2) ∧
    Repair.fromU128Any (w := 32) [7, 1, 5] (2 ^ 100) = .ok ([0, 0, 0], 0x50000000100000007) ∧
    Repair.fromU128Any (w := 32) [7, 1] 0 = .panic := by decide +kernel

/-! ### Signed products and sums (B1, B18) -/

/-- C82, C84: with the absolute values multiplied, the signed `wrapping_full` and `overflowing_full` are
exact for operands of any lengths. -/
theorem C82_int_mul_any_lengths (hw : 0 < w) {x y : Limbs w} (hx : x ≠ []) (hy : y ≠ []) :
    WrapS x.length (toInt x * toInt y) (Repair.wrappingFullS x y) ∧
      OverS x.length (toInt x * toInt y) (Repair.overflowingFullS x y) :=
  ⟨(Repair.overflowingFullS_any hw hx hy).1, Repair.overflowingFullS_any hw hx hy⟩

example := C82_int_mul_any_lengths (w := 64) (x := [1, 0]) (y := [-1]) (by decide) (by decide) (by decide)
/-- The product of 1 and -1 with two limbs and one limb, before and after the change. -/
example : Mul.wrappingFull (w := 64) [1, 0] [-1] = [-1, 0] ∧
    Repair.wrappingFullS (w := 64) [1, 0] [-1] = [-1, -1] ∧
    Repair.overflowingFullS (w := 64) [1, 0x8000000000000000] [-1] = ([-1, 0x7fffffffffffffff], false) ∧
    Repair.overflowingFullS (w := 64) [0, 0x8000000000000000] [-1] = ([0, 0x8000000000000000], true) := by
  decide +kernel

/-- C82, C84: with only the sign of the first factor taken, the signed products with unsigned scalars are
exact also for a scalar as wide as the array. -/
theorem C82_int_mul_uscalar (hw : 0 < w) {x : Limbs w} (n : BitVec w) (m : BitVec (w + w)) :
    (1 ≤ x.length → OverS x.length (toInt x * n.toNat) (Repair.overflowingMulULimb x n)) ∧
      (2 ≤ x.length → OverS x.length (toInt x * m.toNat) (Repair.overflowingMulUWide x m)) := by
  refine ⟨fun h => ?_, fun h => ?_⟩
  · have := Repair.overflowingFullSU_spec hw (x := x) (y := extU x.length n)
      (List.length_pos_iff.1 h) (by simp [extU])
    rwa [extU_toNat] at this
  · have := Repair.overflowingFullSU_spec hw (x := x) (y := extUW x.length m)
      (List.length_pos_iff.1 (by omega)) (by simp [extUW])
    rwa [extUW_toNat] at this

example := (C82_int_mul_uscalar (w := 64) (x := [1]) (by decide) (-1) (-1)).1 (by decide)
example : Mul.overflowingULimbS (w := 64) [1] (-1) = ([-1], false) ∧
    Repair.overflowingMulULimb (w := 64) [1] (-1) = ([-1], true) ∧
    Repair.overflowingMulULimb (w := 64) [-1] 0x8000000000000000 = ([0x8000000000000000], false) ∧
    Repair.overflowingMulULimb (w := 64) [-1] 0x8000000000000001 = ([0x7fffffffffffffff], true) ∧
    Repair.overflowingMulUWide (w := 64) [1, 0] (-1) = ([-1, -1], true) := by decide +kernel

/-- C82, C84: with the flag of `overflowing_add_unsigned`, the signed sums and differences with unsigned
scalars of two limbs are exact also for an array of two limbs. -/
theorem C82_int_add_uwide (hw : 1 < w) {x : Limbs w} (h2 : 2 ≤ x.length) (m : BitVec (w + w)) :
    OverS x.length (toInt x + m.toNat) (Repair.overflowingAddUWide x m) ∧
      OverS x.length (toInt x - m.toNat) (Repair.overflowingSubUWide x m) := by
  have hx : x ≠ [] := List.length_pos_iff.1 (by omega)
  have h1 := C04_int_overflowing_add_unsigned hw hx (extUW_length h2 m).symm
  have h2 := C04_int_overflowing_sub_unsigned hw hx (extUW_length h2 m).symm
  rw [extUW_toNat] at h1 h2
  exact ⟨h1, h2.1⟩

example := C82_int_add_uwide (w := 64) (x := [0, 0]) (by decide) (by decide) (-1)
example : Add.sOverflowingUWide (w := 64) [0, 0] (-1) = ([-1, -1], false) ∧
    Repair.overflowingAddUWide (w := 64) [0, 0] (-1) = ([-1, -1], true) ∧
    Repair.overflowingAddUWide (w := 64) [-1, -1] (2 ^ 127) = ([-1, 0x7fffffffffffffff], false) ∧
    Repair.overflowingSubUWide (w := 64) [0, 0] (2 ^ 127) = ([0, 0x8000000000000000], false) ∧
    Repair.overflowingSubUWide (w := 64) [0, 0] (2 ^ 127 + 1) = ([-1, 0x7fffffffffffffff], true) := by
  decide +kernel

/-! ### Shifts (B19) -/

section
variable {be : Bool} {cf : Cfg} {a : Limbs w}

private theorem shr_limb (hk : w = 2 ^ k) {n s : Nat} (h : ¬ n * w ≤ s) : ¬ (n = 2 ∧ 2 ≤ s >>> Nat.log2 w) := by
  rintro ⟨rfl, h2⟩
  have hW : 0 < w := by rw [hk]; positivity
  have e := limbN_eq hk s
  unfold I256.Shift.limbN at e
  rw [e] at h2
  exact h ((Nat.le_div_iff_mul_le hW).1 h2)

/-- C82, C91: with the branch for two elements restricted to amounts below the width, the left shift is
exact for every length and every amount; with debug assertions it panics for an amount of the width or
more. -/
theorem C82_shl_any_amount (hk : w = 2 ^ k) (h32 : w * a.length < 2 ^ 32) (s : Nat) :
    Leaves be (a.length < 2 ∨ (cf.da = true ∧ w * a.length ≤ s))
      (WrapU a.length ((memNat be a : Int) * 2 ^ s)) (Repair.leftIn cf be a s) := by
  have hW : 0 < w := by rw [hk]; positivity
  have h := C91_left (be := be) (cf := cf) (a := a) hk h32 s
  rw [Nat.mul_comm] at h32
  by_cases hs : a.length * w ≤ s
  · by_cases h2 : a.length = 2
    · refine ⟨fun hp => ?_, fun hp => ?_⟩
      · rcases hp with hp | ⟨hd, -⟩
        · omega
        · exact Repair.leftIn_da hW h32 hd be hs
      · have hd : cf.da = false := by
          rw [Nat.mul_comm] at hs
          cases hc : cf.da
          · rfl
          · exact absurd (.inr ⟨hc, hs⟩) hp
        rw [Repair.leftIn_out hk hd be (by omega) hs]
        have e : logical be (List.replicate a.length (0 : BitVec w)) = List.replicate a.length 0 := by
          unfold logical; split <;> simp
        refine ⟨_, rfl, by rw [e]; simp, ?_⟩
        rw [e, toNat_replicate_zero]
        refine (Int.emod_eq_zero_of_dvd ?_).symm
        exact Dvd.dvd.mul_left (pow_dvd_pow 2 (by rwa [Nat.mul_comm])) _
    · rwa [C91_effective (.inl h2), ← Repair.leftIn_same (by omega)] at h
  · rwa [C91_effective (.inr (by rw [Nat.mul_comm]; omega)), ← Repair.leftIn_same (shr_limb hk hs)] at h

example := C82_shl_any_amount (be := true) (k := 6) (a := [0, 1]) (cf := ⟨true, false, false⟩) rfl (by decide) 128
example : Raw.Shift.leftIn ⟨true, false, false⟩ false ([1, 0] : Limbs 64) 128 = .ok [0, 1] ∧
    Repair.leftIn ⟨true, false, false⟩ false ([1, 0] : Limbs 64) 128 = .ok [0, 0] ∧
    Repair.leftIn ⟨true, false, false⟩ false ([1, 0] : Limbs 64) 65 = .ok [0, 2] ∧
    Repair.leftIn ⟨true, true, false⟩ false ([1, 0] : Limbs 64) 128 = .panic := by decide +kernel

/-- C82, C91: the same for the right shifts; copies of the sign are shifted in. -/
theorem C82_shr_any_amount (hk : w = 2 ^ k) (h32 : w * a.length < 2 ^ 32) (s : Nat) :
    Leaves be (a.length < 2 ∨ (cf.da = true ∧ w * a.length ≤ s))
      (ExactU a.length ((memNat be a : Int) / 2 ^ s)) (Repair.rightIn cf be false a s) ∧
    Leaves be (a.length < 2 ∨ (cf.da = true ∧ w * a.length ≤ s))
      (ExactS a.length (memInt be a / 2 ^ s)) (Repair.rightIn cf be true a s) := by
  have hW : 0 < w := by rw [hk]; positivity
  have h := C91_right (be := be) (cf := cf) (a := a) hk h32 s
  rw [Nat.mul_comm] at h32
  by_cases hs : a.length * w ≤ s
  · by_cases h2 : a.length = 2
    · have hpan : ∀ sg, a.length < 2 ∨ (cf.da = true ∧ w * a.length ≤ s) →
          Repair.rightIn cf be sg a s = .panic := by
        rintro sg (hp | ⟨hd, -⟩)
        · omega
        · exact Repair.rightIn_da hW h32 hd be sg hs
      rw [Leaves, Leaves]
      suffices h : ¬ (a.length < 2 ∨ (cf.da = true ∧ w * a.length ≤ s)) →
          Holds be (ExactU a.length ((memNat be a : Int) / 2 ^ s)) (Repair.rightIn cf be false a s) ∧
          Holds be (ExactS a.length (memInt be a / 2 ^ s)) (Repair.rightIn cf be true a s) from
        ⟨⟨hpan false, fun hp => (h hp).1⟩, hpan true, fun hp => (h hp).2⟩
      intro hp
      have hs' : w * a.length ≤ s := by rwa [Nat.mul_comm]
      have hd : cf.da = false := by
        cases hc : cf.da
        · rfl
        · exact absurd (.inr ⟨hc, hs'⟩) hp
      obtain ⟨x, rfl⟩ := Raw.exists_mem be a
      simp only [Raw.mem_length, Raw.memNat_mem, Raw.memInt_mem] at *
      rw [Repair.rightIn_out hk hd be _ (by omega) hs, Repair.rightIn_out hk hd be _ (by omega) hs]
      have hrep : ∀ v : BitVec w, logical be (List.replicate x.length v) = List.replicate x.length v := by
        intro v; unfold logical; split <;> simp
      obtain ⟨e1, e2⟩ := Raw.Shift.shiftedOut hW (x := x) (length_ne (n := 1) (by omega)) hs'
      exact ⟨⟨_, rfl, by simp [hrep], by rw [hrep]; exact e1⟩, _, rfl, by simp [hrep], by rw [hrep]; exact e2⟩
    · rwa [C91_effective (.inl h2), ← Repair.rightIn_same (by omega), ← Repair.rightIn_same (by omega)] at h
  · rwa [C91_effective (.inr (by rw [Nat.mul_comm]; omega)), ← Repair.rightIn_same (shr_limb hk hs),
      ← Repair.rightIn_same (shr_limb hk hs)] at h

example := C82_shr_any_amount (be := true) (k := 6) (a := [0x8000000000000000, 1]) (cf := ⟨true, false, false⟩)
  rfl (by decide) 128
example : Raw.Shift.rightIn ⟨true, false, false⟩ false false ([1, 5] : Limbs 64) 128 = .ok [5, 0] ∧
    Repair.rightIn ⟨true, false, false⟩ false false ([1, 5] : Limbs 64) 128 = .ok [0, 0] ∧
    Repair.rightIn ⟨true, false, false⟩ false true ([1, -5] : Limbs 64) 128 = .ok [-1, -1] ∧
    Repair.rightIn ⟨true, false, false⟩ false true ([1, -5] : Limbs 64) 65 = .ok [-3, -1] := by
  decide +kernel

end

end I256
