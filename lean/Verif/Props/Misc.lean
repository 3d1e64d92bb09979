import Mathlib.Data.List.Nodup
import Verif.Lemmas.Misc
import Verif.Props.Samples

/-!
# Powers of two and midpoint (C33, C35, C43)

`w = 2 ^ k` is the limb width (32 or 64); all types have an even number of limbs.
-/

namespace I256

open Sample

variable {w k : Nat} {x y : Limbs w}

/-! ### C33 -/

/-- C33: `is_power_of_two` is true exactly for the powers of two. -/
theorem C33_is_power_of_two : U.isPowerOfTwo x = true ↔ ∃ k, toNat x = 2 ^ k := by
  rw [U.isPowerOfTwo, countOnes_spec, beq_iff_eq, List.countP_eq_length_filter, List.length_eq_one_iff]
  constructor
  · rintro ⟨j, hj⟩
    refine ⟨j, Nat.eq_of_testBit_eq fun i => ?_⟩
    have hm (i : Nat) : (i < bits x ∧ (toNat x).testBit i = true) ↔ i = j := by
      have : i ∈ (List.range (bits x)).filter (fun i => (toNat x).testBit i) ↔ i ∈ [j] := by rw [hj]
      simpa using this
    rw [Nat.testBit_two_pow]
    by_cases h : i = j
    · rw [((hm i).2 h).2]; simp [h]
    · have : (toNat x).testBit i = false := by
        by_contra hc
        rw [Bool.not_eq_false] at hc
        refine h ((hm i).1 ⟨?_, hc⟩)
        by_contra hb
        rw [testBit_of_le (by omega)] at hc
        exact absurd hc (by decide)
      rw [this]; simp [Ne.symm h]
  · rintro ⟨j, hj⟩
    have hjb : j < bits x := by
      have := toNat_lt x
      rw [hj] at this
      exact (Nat.pow_lt_pow_iff_right (by omega)).1 this
    refine ⟨j, ?_⟩
    rw [hj]
    have hf : (fun i => Nat.testBit (2 ^ j) i) = (fun i => j == i) := by
      funext i; rw [Nat.testBit_two_pow]; rfl
    rw [hf, show (fun i => j == i) = (· == j) by funext i; exact Bool.beq_comm, List.filter_beq,
      List.count_eq_one_of_mem List.nodup_range (List.mem_range.2 hjb)]
    rfl

example := C33_is_power_of_two (x := a)
example : U.isPowerOfTwo top = true ∧ U.isPowerOfTwo a = false ∧ U.isPowerOfTwo zero = false := by decide

/-- C33: the exact result of the power-of-two functions, `2 ^ clog₂ x`, is the least power of two that
is at least `x` (1 for 0). -/
theorem C33_least (n : Nat) : n ≤ 2 ^ Nat.clog 2 n ∧ ∀ j, n ≤ 2 ^ j → 2 ^ Nat.clog 2 n ≤ 2 ^ j :=
  ⟨Nat.le_pow_clog (by omega) n, fun _ h => Nat.pow_le_pow_right (by omega)
    ((Nat.clog_le_iff_le_pow (by omega)).2 h)⟩

example := C33_least 5
example : (2 : Nat) ^ Nat.clog 2 5 = 8 := by decide

/-- C33: `checked_next_power_of_two` is `Some` of the least power of two that is at least `x` iff it is
representable. -/
theorem C33_checked_next_power_of_two (hk : w = 2 ^ k) (h2 : x.length % 2 = 0) (h4 : 4 ≤ x.length) :
    CheckU x.length (2 ^ Nat.clog 2 (toNat x)) (U.checkedNextPowerOfTwo x) := by
  have hw := pow_pos_width hk
  obtain ⟨h1, h3⟩ := oneLess_spec hk h2 h4
  obtain ⟨o1, o2⟩ := ofU8U (w := w) (N := x.length) (v := 1) (by omega) (one_lt_two_pow' hw)
  have h := (Add.overU (x := U.oneLessThanNextPowerOfTwo x) (y := ofU8 x.length 1) hw
    (by rw [h1, o1])).check
  rw [h3, o2, h1] at h
  rwa [show (2 : Int) ^ Nat.clog 2 (toNat x) - 1 + ((1 : Nat) : Int) = 2 ^ Nat.clog 2 (toNat x) by
    push_cast; ring] at h

example := C33_checked_next_power_of_two (k := 6) (x := a) (by decide) (by decide) (by decide)
example : U.checkedNextPowerOfTwo a = some [0, 0, 8, 0] ∧ U.checkedNextPowerOfTwo top = some top ∧
    U.checkedNextPowerOfTwo zero = some one ∧ U.checkedNextPowerOfTwo ones = none := by decide +kernel

/-- C33: `wrapping_next_power_of_two` returns that power modulo `2^BITS`, so 0 exactly if it is not
representable. -/
theorem C33_wrapping_next_power_of_two (hk : w = 2 ^ k) (h2 : x.length % 2 = 0) (h4 : 4 ≤ x.length) :
    WrapU x.length (2 ^ Nat.clog 2 (toNat x)) (U.wrappingNextPowerOfTwo x) ∧
    (toNat (U.wrappingNextPowerOfTwo x) = 0 ↔ ¬ 2 ^ Nat.clog 2 (toNat x) < 2 ^ bits x) := by
  have hw := pow_pos_width hk
  obtain ⟨h1, h3⟩ := oneLess_spec hk h2 h4
  obtain ⟨o1, o2⟩ := ofU8U (w := w) (N := x.length) (v := 1) (by omega) (one_lt_two_pow' hw)
  have h := Add.wrapU (x := U.oneLessThanNextPowerOfTwo x) (y := ofU8 x.length 1) hw (by rw [h1, o1])
  rw [h3, o2, h1, show (2 : Int) ^ Nat.clog 2 (toNat x) - 1 + ((1 : Nat) : Int) =
    2 ^ Nat.clog 2 (toNat x) by push_cast; ring] at h
  refine ⟨h, ?_⟩
  have h' : toNat (U.wrappingNextPowerOfTwo x) = 2 ^ Nat.clog 2 (toNat x) % 2 ^ bits x := by
    exact_mod_cast h.2
  rw [h']
  constructor
  · intro h0 hlt
    rw [Nat.mod_eq_of_lt hlt] at h0
    have := Nat.two_pow_pos (Nat.clog 2 (toNat x))
    omega
  · intro hge
    exact Nat.mod_eq_zero_of_dvd (Nat.pow_dvd_pow 2 ((Nat.pow_le_pow_iff_right (by omega)).1
      (Nat.le_of_not_lt hge)))

example := C33_wrapping_next_power_of_two (k := 6) (x := a) (by decide) (by decide) (by decide)
example : U.wrappingNextPowerOfTwo ones = zero := by decide +kernel

/-- C33: `next_power_of_two` panics (overflow checks on) or wraps (off) if the power is not
representable. -/
theorem C33_next_power_of_two (oc : Bool) (hk : w = 2 ^ k) (h2 : x.length % 2 = 0)
    (h4 : 4 ≤ x.length) :
    OpU oc x.length (2 ^ Nat.clog 2 (toNat x)) (U.nextPowerOfTwo oc x) :=
  (C33_checked_next_power_of_two hk h2 h4).op (C33_wrapping_next_power_of_two hk h2 h4).1 oc

example := C33_next_power_of_two (k := 6) (x := a) true (by decide) (by decide) (by decide)
example : U.nextPowerOfTwo true ones = .panic ∧ U.nextPowerOfTwo false ones = .ok zero := by
  decide +kernel

/-! ### C35, C43 -/

/-- C35: the unsigned midpoint is `⌊(x + y) / 2⌋`, without overflow. -/
theorem C35_uint_midpoint (hk : w = 2 ^ k) (hl : x.length = y.length) (h2 : x.length % 2 = 0)
    (hx : x ≠ []) : ExactU x.length (((toNat x : Int) + toNat y) / 2) (U.midpoint x y) :=
  midpointU hk hl h2 hx

example := C35_uint_midpoint (k := 6) (x := ones) (y := a) (by decide) (by decide) (by decide) (by decide)
example : U.midpoint ones one = top ∧ U.midpoint ones ones = ones := by decide +kernel

/-- C43 (rounding direction different from the documented one): the signed midpoint is the exact
average `(x + y) / 2` rounded towards **zero**, without overflow. -/
theorem C43_int_midpoint_partial (hk : w = 2 ^ k) (hl : x.length = y.length) (h2 : x.length % 2 = 0)
    (hx : x ≠ []) : ExactS x.length ((toInt x + toInt y).tdiv 2) (I.midpoint x y) :=
  midpointS hk hl h2 hx

example := C43_int_midpoint_partial (k := 6) (x := top) (y := a) (by decide) (by decide) (by decide)
  (by decide)
example : I.midpoint top top = top ∧ I.midpoint maxS maxS = maxS := by decide +kernel

/-- C43 is false with the documented rounding "always towards negative infinity": the midpoint of `-1`
and `0` is `0`, the documented value is `-1`. -/
theorem C43_int_midpoint_false : ¬ ∀ (x y : Limbs 64), x.length = 4 → y.length = 4 →
    ExactS 4 ((toInt x + toInt y) / 2) (I.midpoint x y) := by
  intro h
  have := (h ones zero rfl rfl).2
  revert this
  decide +kernel

/-- C43: the values differ from the documented ones exactly for odd negative sums, by one. -/
theorem C43_int_midpoint_deviation_partial (hk : w = 2 ^ k) (hl : x.length = y.length)
    (h2 : x.length % 2 = 0) (hx : x ≠ []) :
    toInt (I.midpoint x y) = (toInt x + toInt y) / 2 +
      (if toInt x + toInt y < 0 ∧ (toInt x + toInt y) % 2 = 1 then 1 else 0) := by
  rw [(midpointS hk hl h2 hx).2, Int.tdiv_eq_ediv, show Int.sign 2 = 1 from rfl]
  split <;> split <;> omega

example := C43_int_midpoint_deviation_partial (k := 6) (x := ones) (y := zero) (by decide) (by decide)
  (by decide) (by decide)

end I256
