import Verif.SpecBench
import Verif.Lemmas.BenchRest
import Verif.Props.Samples

/-!
# C92: the algorithms of `devel/benches`

The benchmarks run their own versions of multiplication, shifts, bit counts and division by a
constant, and never look at the results.
-/

namespace I256

open Sample
open Raw.Div (Cfg)

/-! ### Multiplication -/

section
variable {h : Nat} (cf : Cfg) (x y x0 x1 y0 y1 : BitVec (h + h))

/-- C92: `narrow` gives the full product of two words, in every build and without overflow. -/
theorem C92_narrow (hh : 0 < h) : LowHigh (x.toNat * y.toNat) (Bench.narrow cf x y) :=
  Bench.narrow_ok cf hh x y

example := C92_narrow (h := 32) ⟨true, true, false⟩ (-1) (-2) (by decide)
example : Bench.narrow (h := 32) ⟨true, true, false⟩ (-1) (-1) = .ok (1, -2) := by decide +kernel

/-- C92: the first version of the multiplication is the product modulo the square of the word. -/
theorem C92_mul_v1 (hh : 0 < h) :
    LowHigh ((x0.toNat + 2 ^ (h + h) * x1.toNat) * (y0.toNat + 2 ^ (h + h) * y1.toNat) %
      2 ^ (2 * (h + h))) (Bench.mulV1 cf x0 x1 y0 y1) :=
  Bench.mulV1_ok cf hh x0 x1 y0 y1

example := C92_mul_v1 (h := 64) ⟨true, true, false⟩ (-1) 3 (-5) 7 (by decide)
example : Bench.mulV1 (h := 64) ⟨true, true, false⟩ (-1) 0 3 0 = .ok (-3, 2) := by decide +kernel

/-- C92: the second version likewise; the sums of the digits need three spare bits. -/
theorem C92_mul_v2 (hh : 3 ≤ h) :
    LowHigh ((x0.toNat + 2 ^ (h + h) * x1.toNat) * (y0.toNat + 2 ^ (h + h) * y1.toNat) %
      2 ^ (2 * (h + h))) (Bench.mulV2 cf x0 x1 y0 y1) :=
  Bench.mulV2_ok cf hh x0 x1 y0 y1

example := C92_mul_v2 (h := 64) ⟨true, true, false⟩ (-1) 3 (-5) 7 (by decide)
example : Bench.mulV2 (h := 64) ⟨true, true, false⟩ (-1) (-1) (-1) (-1) = .ok (1, 0) := by
  decide +kernel

/-- C92: the third version likewise; the `break` only leaves out digits beyond the result. -/
theorem C92_mul_v3 (hh : 0 < h) :
    LowHigh ((x0.toNat + 2 ^ (h + h) * x1.toNat) * (y0.toNat + 2 ^ (h + h) * y1.toNat) %
      2 ^ (2 * (h + h))) (Bench.mulV3 cf x0 x1 y0 y1) :=
  Bench.mulV3_ok cf hh x0 x1 y0 y1

example := C92_mul_v3 (h := 64) ⟨true, true, false⟩ (-1) 3 (-5) 7 (by decide)
example : Bench.mulV3 (h := 32) ⟨true, true, false⟩ (-1) (-1) (-1) (-1) = .ok (1, 0) := by
  decide +kernel

end

/-! ### Shifts -/

section
variable {n : Nat} (cf : Cfg) (x0 x1 : BitVec n) (s : Nat)

/-- C92: the three versions of `shl` shift the pair, low word first, by the amount modulo the width;
with debug assertions they panic if the amount is too large. -/
theorem C92_shl (hn : 0 < n) : ∀ f ∈ [Bench.shlV1 cf x0 x1, Bench.shlV2 cf x0 x1, Bench.shlV3 cf x0 x1],
    (cf.da = true → 2 * n ≤ s → f s = .panic) ∧
      (cf.da = false ∨ s < 2 * n → LowHigh
        ((x0.toNat + 2 ^ n * x1.toNat) * 2 ^ (s % (2 * n)) % 2 ^ (2 * n)) (f s)) := by
  have hv := Bench.shlRef_val x0 x1 (Nat.mod_lt s (show 0 < 2 * n by omega))
  intro f hf
  have e : f s = if cf.da = true ∧ 2 * n ≤ s then .panic
      else .ok (Bench.shlRef x0 x1 (s % (2 * n))) := by
    rcases List.mem_cons.1 hf with rfl | hf
    · exact Bench.shlV1_eq cf hn x0 x1 s
    rcases List.mem_cons.1 hf with rfl | hf
    · exact Bench.shlV2_eq cf hn x0 x1 s
    rcases List.mem_cons.1 hf with rfl | hf
    · exact Bench.shlV3_eq cf hn x0 x1 s
    · simp at hf
  rw [e]
  refine ⟨fun h1 h2 => if_pos ⟨h1, h2⟩, fun h => ?_⟩
  rw [if_neg (by rintro ⟨h1, h2⟩; rcases h with h | h; simp [h1] at h; omega)]
  exact ⟨_, _, rfl, hv⟩

example := C92_shl (n := 64) ⟨true, true, false⟩ (-1) 5 70 (by decide)
example : Bench.shlV1 (n := 64) ⟨true, true, false⟩ (-1) 0 4 = .ok (-16, 15) := by decide
example : Bench.shlV2 (n := 64) ⟨true, true, false⟩ 1 0 128 = .panic := by decide

/-- C92: the three versions of `shr` shift the pair with the **high** word first (the other order than
`shl`), rounding down; with debug assertions they panic if the amount is too large. -/
theorem C92_shr (hn : 0 < n) : ∀ f ∈ [Bench.shrV1 cf x0 x1, Bench.shrV2 cf x0 x1, Bench.shrV3 cf x0 x1],
    (cf.da = true → 2 * n ≤ s → f s = .panic) ∧
      (cf.da = false ∨ s < 2 * n → HighLow
        ((2 ^ n * x0.toNat + x1.toNat) / 2 ^ (s % (2 * n))) (f s)) := by
  have hv := Bench.shrRef_val x0 x1 (Nat.mod_lt s (show 0 < 2 * n by omega))
  intro f hf
  have e : f s = if cf.da = true ∧ 2 * n ≤ s then .panic
      else .ok (Bench.shrRef x0 x1 (s % (2 * n))) := by
    rcases List.mem_cons.1 hf with rfl | hf
    · exact Bench.shrV1_eq cf hn x0 x1 s
    rcases List.mem_cons.1 hf with rfl | hf
    · exact Bench.shrV2_eq cf hn x0 x1 s
    rcases List.mem_cons.1 hf with rfl | hf
    · exact Bench.shrV3_eq cf hn x0 x1 s
    · simp at hf
  rw [e]
  refine ⟨fun h1 h2 => if_pos ⟨h1, h2⟩, fun h => ?_⟩
  rw [if_neg (by rintro ⟨h1, h2⟩; rcases h with h | h; simp [h1] at h; omega)]
  exact ⟨_, _, rfl, hv⟩

example := C92_shr (n := 64) ⟨true, true, false⟩ 3 5 1 (by decide)
example : Bench.shrV3 (n := 64) ⟨true, true, false⟩ 3 4 1 = .ok (1, 0x8000000000000002) := by decide

/-- C92: read with the low word first, as `shl` is, `shr` is not a right shift. -/
theorem C92_shr_low_first_false : ¬ ∀ (x0 x1 : BitVec 64) (s : Nat), s < 128 →
    LowHigh ((x0.toNat + 2 ^ 64 * x1.toNat) / 2 ^ s) (Bench.shrV1 ⟨true, true, false⟩ x0 x1 s) := by
  intro h
  obtain ⟨lo, hi, e, v⟩ := h 1 0 1 (by decide)
  rw [show Bench.shrV1 (n := 64) ⟨true, true, false⟩ 1 0 1 = .ok (0, 0x8000000000000000) by decide] at e
  cases e
  revert v
  decide

end

/-! ### Bit counts -/

/-- C92: the two ways of counting set bits agree with the number of set bits of the 256-bit value. -/
theorem C92_count_ones (x y : BitVec 128) (l : Limbs 64) :
    Bench.countOnes128 x y =
        (List.range 256).countP (fun i => (x.toNat + 2 ^ 128 * y.toNat).testBit i) ∧
      Bench.countOnes64 l = .ok ((List.range (64 * l.length)).countP fun i => (toNat l).testBit i) := by
  rw [Bench.countOnes128_eq, Bench.countOnes64_eq, countOnes_spec, countOnes_spec]
  exact ⟨rfl, rfl⟩

example := C92_count_ones 5 7 a
example : Bench.countOnes128 5 7 = 5 ∧ Bench.countOnes64 a = .ok 66 := by decide

/-- C92: the two ways of counting leading zeros locate the most significant set bit of the 256-bit
value. -/
theorem C92_leading_zeros (x y : BitVec 128) {l : Limbs 64} (hl : l.length = 4) :
    (∃ z, Bench.leadingZeros128 x y = z ∧ z ≤ 256 ∧ x.toNat + 2 ^ 128 * y.toNat < 2 ^ (256 - z) ∧
        (z < 256 → 2 ^ (255 - z) ≤ x.toNat + 2 ^ 128 * y.toNat)) ∧
      ∃ z, Bench.leadingZeros64 l = .ok z ∧ z ≤ 256 ∧ toNat l < 2 ^ (256 - z) ∧
        (z < 256 → 2 ^ (255 - z) ≤ toNat l) := by
  rw [Bench.leadingZeros128_eq, Bench.leadingZeros64_eq]
  obtain ⟨a1, a2, a3⟩ := leadingZeros_spec [x, y]
  obtain ⟨b1, b2, b3⟩ := leadingZeros_spec l
  rw [bits, hl] at b1 b2 b3
  exact ⟨⟨_, rfl, a1, a2, a3⟩, ⟨_, rfl, b1, b2, b3⟩⟩

example := C92_leading_zeros 5 7 (l := a) (by decide)
example : Bench.leadingZeros128 5 0 = 253 ∧ Bench.leadingZeros64 a = .ok 125 := by decide

/-! ### Division by multiplication -/

section
variable (be : Bool) {x y : Limbs 64} (hx : x.length = 4) (hy : y.length = 4)

include hx hy

/-- C92, what holds of `mulhi`: it adds the low half of the cross sum where the high half belongs, so
it gives the upper half of the product exactly if these two are equal.  Missing: the upper half of the
product in all cases, see `C92_mulhi_false`. -/
theorem C92_mulhi_partial : ∃ r, Bench.mulhi be x y = .ok r ∧ r.length = 4 ∧
    (toNat r : Int) = ((toNat x * toNat y / 2 ^ 256 : Nat) -
      (crossSum (toNat x) (toNat y) / 2 ^ 128 : Nat) +
      (crossSum (toNat x) (toNat y) % 2 ^ 128 : Nat) : Int) % 2 ^ 256 ∧
    (toNat r = toNat x * toNat y / 2 ^ 256 ↔
      crossSum (toNat x) (toNat y) % 2 ^ 128 = crossSum (toNat x) (toNat y) / 2 ^ 128) := by
  obtain ⟨r, e, l, v⟩ := Bench.mulhi_ok be hx hy
  have hi := Bench.mulhi_right_iff (Bench.lt_256 hx) (Bench.lt_256 hy)
  obtain ⟨-, -, h3, -⟩ := Bench.mulhi_sums (Bench.lt_256 hx) (Bench.lt_256 hy)
  refine ⟨r, e, l, ?_, ?_⟩
  · rw [← Bench.cross, v, h3]
    push_cast
    congr 1
    ring
  · rw [← Bench.cross, v, hi]

/-- C92: with the repaired line 35, `mulhi` gives the upper half of the product. -/
theorem C92_mulhi_repaired : Returns256 (toNat x * toNat y / 2 ^ 256) (Bench.mulhiFix be x y) :=
  Bench.mulhiFix_ok be hx hy

end

example := C92_mulhi_partial true (x := a) (y := ones) (by decide) (by decide)
example := C92_mulhi_repaired true (x := a) (y := ones) (by decide) (by decide)
example : Bench.mulhiFix false ones ones = .ok m2 := by decide +kernel

/-- C92: `mulhi` is not the upper half of the product: for `2^128 · 1` it gives 1 instead of 0. -/
theorem C92_mulhi_false : ¬ ∀ x y : Limbs 64, x.length = 4 → y.length = 4 →
    Returns256 (toNat x * toNat y / 2 ^ 256) (Bench.mulhi false x y) := by
  intro h
  obtain ⟨r, e, -, v⟩ := h [0, 0, 1, 0] one (by decide) (by decide)
  rw [show Bench.mulhi false [0, 0, 1, 0] one = .ok one by decide +kernel] at e
  cases e
  revert v
  decide

section
variable (be : Bool) {num den : Limbs 64} (hn : num.length = 4) (hd : den.length = 4)
  (more : BitVec 32)
include hn hd

/-- C92, what `divide_by_num` computes, with `q` the result of `mulhi`.  Missing: the quotient, see
`C92_divide_by_num_false`. -/
theorem C92_divide_by_num_partial : ∃ q, Bench.mulhi be den num = .ok q ∧
    Returns256 (if toNat den = 0 then toNat num / 2 ^ (more.toNat % 256)
      else if more.toNat.testBit 14 then
        ((toNat num + (2 ^ 256 - 1)) % 2 ^ 256 / 2 + toNat q) % 2 ^ 256 /
          2 ^ (more.toNat % 2 ^ 14 % 256)
      else toNat q / 2 ^ (more.toNat % 256)) (Bench.divideByNum be num den more) := by
  obtain ⟨q, e, -, v⟩ := Bench.mulhi_ok be hd hn
  refine ⟨q, e, ?_⟩
  rw [v]
  exact Bench.divideByNum_ok be hn hd more

/-- C92, what `div_rem_by_num` computes from the quotient of `divide_by_num`: the remainder is formed
with the magic number.  Missing: the remainder, see `C92_div_rem_by_num_false`. -/
theorem C92_div_rem_by_num_partial : ∃ q r, Bench.divideByNum be num den more = .ok q ∧
    Bench.divRemByNum be num den more = .ok (q, r) ∧ r.length = 4 ∧
    (toNat r : Int) = ((toNat num : Int) - toNat q * toNat den) % 2 ^ 256 := by
  obtain ⟨q, e, l, -⟩ := Bench.divideByNum_ok be hn hd more
  obtain ⟨l1, v1⟩ := Bench.mul_len l hd
  obtain ⟨l2, v2⟩ := Bench.sub_len hn l1
  refine ⟨q, _, e, by simp only [Bench.divRemByNum, e, Res.mbind_ok], l2, ?_⟩
  rw [v2, v1]
  push_cast
  rw [Int.sub_emod, Int.emod_emod_of_dvd _ (dvd_refl _), ← Int.sub_emod]

/-- C92: the repaired `divide_by_num` divides by `d` if `den` is a magic number for `d`: with a shift
alone, by the shift path for powers of two, and with the indicator for a number of one bit more. -/
theorem C92_divide_by_num_repaired {d k : Nat} (hk : k < 256) :
    (toNat den = 0 → more.toNat = k →
      Returns256 (toNat num / 2 ^ k) (Bench.divideByNumFix be num den more)) ∧
    (toNat den ≠ 0 → more.toNat = k → IsMagic (toNat den) d (256 + k) →
      Returns256 (toNat num / d) (Bench.divideByNumFix be num den more)) ∧
    (toNat den ≠ 0 → more.toNat = 2 ^ 14 + k → IsMagic (2 ^ 256 + toNat den) d (256 + (k + 1)) →
      Returns256 (toNat num / d) (Bench.divideByNumFix be num den more)) := by
  have hb : k.testBit 14 = false := Nat.testBit_lt_two_pow (by omega)
  refine ⟨fun h0 hm => ?_, fun h0 hm hM => ?_, fun h0 hm hM => ?_⟩ <;>
    obtain ⟨r, e, l, v⟩ := Bench.divideByNumFix_ok be hn hd more <;> refine ⟨r, e, l, ?_⟩ <;>
    rw [v]
  · rw [if_pos h0, hm, Nat.mod_eq_of_lt hk]
  · rw [if_neg h0, hm, hb, if_neg (by decide), Nat.mod_eq_of_lt hk, Nat.div_div_eq_div_mul,
      ← Nat.pow_add]
    exact Bench.magic_div hM.2.1 hM.2.2 (Bench.lt_256 hn) hM.1
  · have hb' : (2 ^ 14 + k).testBit 14 = true := by
      rw [Nat.testBit_two_pow_add_eq, hb]; rfl
    rw [if_neg h0, hm, if_pos hb', Nat.add_mod_left, Nat.mod_mod_of_dvd _ (by decide),
      Nat.mod_eq_of_lt hk, Bench.add_path (by positivity) (Bench.lt_256 hd), ← Nat.pow_add]
    exact Bench.magic_div hM.2.1 hM.2.2 (Bench.lt_256 hn) hM.1

end

example := C92_divide_by_num_partial true (num := a) (den := ones) (by decide) (by decide) 3
example := C92_div_rem_by_num_partial true (num := a) (den := ones) (by decide) (by decide) 3
example := C92_divide_by_num_repaired true (num := a) (den := Bench.div10Magic) (by decide) (by decide)
  3 (d := 10) (k := 3) (by decide)
example : IsMagic (2 ^ 256 + 16541727033902313631938712144098272550467140666520080577065369143987589948563) 7
    (256 + (2 + 1)) := by decide +kernel

/-- C92: the constants of the benchmark are magic numbers for 10 and 0x12345678. -/
theorem C92_magic : IsMagic (toNat Bench.div10Magic) 10 (256 + 3) ∧
    IsMagic (toNat Bench.div1234Magic) 0x12345678 (256 + 28) := by decide +kernel

/-- C92: with the repairs the benchmark divides by 10 and by 0x12345678, with the remainder. -/
theorem C92_div_rem_by_num_repaired (be : Bool) {num : Limbs 64} (hn : num.length = 4) :
    (∃ q r, Bench.divRemByNumFix be num [10, 0, 0, 0] Bench.div10Magic 3 = .ok (q, r) ∧
      toNat q = toNat num / 10 ∧ toNat r = toNat num % 10) ∧
    (∃ q r, Bench.divRemByNumFix be num [0x12345678, 0, 0, 0] Bench.div1234Magic 28 = .ok (q, r) ∧
      toNat q = toNat num / 0x12345678 ∧ toNat r = toNat num % 0x12345678) := by
  have key : ∀ (D M : Limbs 64) (d k : Nat) (more : BitVec 32), D.length = 4 → M.length = 4 →
      toNat D = d → toNat M ≠ 0 → k < 256 → more.toNat = k → IsMagic (toNat M) d (256 + k) →
      ∃ q r, Bench.divRemByNumFix be num D M more = .ok (q, r) ∧
        toNat q = toNat num / d ∧ toNat r = toNat num % d := by
    intro D M d k more hD hM hd h0 hk hm hI
    obtain ⟨q, e, l, v⟩ := (C92_divide_by_num_repaired be hn hM more hk (d := d)).2.1 h0 hm hI
    obtain ⟨l1, v1⟩ := Bench.mul_len l hD
    obtain ⟨l2, v2⟩ := Bench.sub_len hn l1
    refine ⟨q, U.wrappingSub num (U.wrappingMul q D),
      by simp only [Bench.divRemByNumFix, e, Res.mbind_ok], v, ?_⟩
    have h1 := Nat.div_add_mod (toNat num) d
    have h2 := Nat.mod_lt (toNat num) hI.1
    have h3 := Bench.lt_256 hn
    rw [v1, v, hd, Nat.mul_comm] at v2
    generalize d * (toNat num / d) = t at *
    omega
  exact ⟨key _ _ 10 3 3 rfl rfl (by decide) (by decide +kernel) (by decide) rfl C92_magic.1,
    key _ _ 0x12345678 28 28 rfl rfl (by decide) (by decide +kernel) (by decide) rfl C92_magic.2⟩

example := C92_div_rem_by_num_repaired true (num := a) (by decide)
example : Bench.divRemByNumFix false [123, 0, 0, 0] [10, 0, 0, 0] Bench.div10Magic 3 =
    .ok ([12, 0, 0, 0], [3, 0, 0, 0]) := by decide +kernel

/-- C92: the benchmark does not divide by 10: for 10 it gives 0. -/
theorem C92_divide_by_num_false : ¬ ∀ num : Limbs 64, num.length = 4 →
    Returns256 (toNat num / 10) (Bench.divideByNum false num Bench.div10Magic 3) := by
  intro h
  obtain ⟨r, e, -, v⟩ := h [10, 0, 0, 0] (by decide)
  rw [show Bench.divideByNum false [10, 0, 0, 0] Bench.div10Magic 3 = .ok zero by decide +kernel] at e
  cases e
  revert v
  decide

/-- C92: nor is the remainder right, even where the quotient is: the quotient of `10 · 2^128` is right,
and the remainder is not 0. -/
theorem C92_div_rem_by_num_false : ¬ ∀ num q r : Limbs 64, num.length = 4 →
    Bench.divRemByNum false num Bench.div10Magic 3 = .ok (q, r) → toNat q = toNat num / 10 →
    toNat r = toNat num % 10 := by
  intro h
  have := h [0, 0, 10, 0] [0, 0, 1, 0] [0, 0, 0x333333333333333d, 0x3333333333333333] (by decide)
    (by decide +kernel) (by decide)
  revert this
  decide

end I256
