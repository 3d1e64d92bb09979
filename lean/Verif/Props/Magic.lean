import Verif.Lemmas.Magic

/-!
# C94: the magic numbers of `etc/magic.py`

The script computes factors for the division of a number of `2 h` bits by one of `h` bits.
-/

namespace I256

open Magic

/-- C94: the factor and the shift of `choose_multiplier` divide every number of the precision by `d`,
provided that the rounded logarithm is not too small. -/
theorem C94_choose_multiplier {d bits l : Nat} (sg : Bool) (hd : 0 < d) (hl : d ≤ 2 ^ l)
    (hb : 0 < bits ∨ sg = false) : ∃ m s, chooseMultiplier d bits l sg = (m, s, l) ∧ s ≤ l ∧
      ∀ n, n < 2 ^ (if sg then bits - 1 else bits) → m * n / 2 ^ (bits + s) = n / d := by
  obtain ⟨h1, h2⟩ := choose_good sg hd hl hb
  exact ⟨_, _, rfl, h2, fun n hn => good_div h1 hd hn⟩

example := C94_choose_multiplier (d := 10) (bits := 64) (l := 4) true (by decide) (by decide)
  (Or.inl (by decide))
example : chooseMultiplier 10 64 4 false = (0xcccccccccccccccd, 3, 4) := by decide +kernel

/-- C94: `fast_shift` is the number of trailing zeros. -/
theorem C94_fast_shift {d : Nat} (hd : 0 < d) :
    ∃ s, fastShift d = s ∧ 2 ^ s ∣ d ∧ ¬ 2 ^ (s + 1) ∣ d :=
  ⟨_, rfl, fastShift_spec hd⟩

example := C94_fast_shift (d := 40) (by decide)
example : fastShift 40 = 3 := by decide

section
variable {d N h l : Nat} (hd : 0 < d) (hl : d ≤ 2 ^ l)
include hd hl

/-- C94: `calculate_factors` gives the limit of the fast path, the number of trailing zeros, and a
factor and shift that divide every number of `N` bits; odd divisors are not implemented, nor those with
a factor of more than `N` bits. -/
theorem C94_calculate_factors :
    (d % 2 = 1 → calculateFactors d N h l = none) ∧
      ∀ f, calculateFactors d N h l = some f → ∃ s m k, f = (2 ^ (h + s), s, m, k) ∧
        0 < s ∧ 2 ^ s ∣ d ∧ ¬ 2 ^ (s + 1) ∣ d ∧ m < 2 ^ N ∧ k ≤ l ∧
        ∀ n, n < 2 ^ N → m * n / 2 ^ (N + k) = n / d := by
  obtain ⟨m, k, e, hk, hm⟩ := C94_choose_multiplier (bits := N) false hd hl (Or.inr rfl)
  obtain ⟨s1, s2⟩ := fastShift_spec hd
  simp only [calculateFactors, e]
  refine ⟨fun ho => ?_, fun f hf => ?_⟩
  · have : fastShift d = 0 := fastShift_unique hd (by simp) (fun hc => by
      rw [Nat.zero_add, pow_one] at hc
      omega)
    rw [this]
    simp
  · by_cases c1 : m ≥ 2 ^ N
    · rw [if_pos c1] at hf
      cases hf
    rw [if_neg c1] at hf
    by_cases c2 : fastShift d ≠ 0
    · rw [if_pos c2] at hf
      cases hf
      refine ⟨_, _, _, by rw [Nat.one_shiftLeft], by omega, s1, s2, by omega, hk, fun n hn => ?_⟩
      exact hm n hn
    · rw [if_neg c2] at hf
      cases hf

/-- C94: below the limit of the fast path `fast_divrem` gives quotient and remainder.  Missing: the
numerators from the limit on, see `C94_fast_divrem_false`. -/
theorem C94_fast_divrem_partial {f : Nat × Nat × Nat × Nat}
    (hf : calculateFactors d N h l = some f) (hh : d ≤ 2 ^ h) {n : Nat} (hn : n < 2 ^ N)
    (hs : n < f.1) : fastDivrem n d f N h = (n / d, n % d) := by
  obtain ⟨s, m, k, rfl, -, s1, -, -, -, -⟩ := (C94_calculate_factors hd hl).2 f hf
  have hq : (n / 2 ^ s % 2 ^ h) / (d / 2 ^ s) = n / d := by
    rw [Nat.mod_eq_of_lt, shifted_div s1]
    rw [Nat.div_lt_iff_lt_mul (Nat.two_pow_pos s), ← Nat.pow_add]
    exact hs
  simp only [fastDivrem]
  rw [if_pos (show n < 2 ^ (h + s) from hs)]
  simp only [Nat.shiftRight_eq_div_pow]
  rw [Nat.and_two_pow_sub_one_eq_mod (x := n / 2 ^ s), hq, rem_eq hd hh hn rfl]

/-- C94: with the repaired high product `fast_divrem` gives quotient and remainder of every number of
`2 h` bits. -/
theorem C94_fast_divrem_repaired {f : Nat × Nat × Nat × Nat}
    (hf : calculateFactors d (2 * h) h l = some f) (hh : d ≤ 2 ^ h) {n : Nat} (hn : n < 2 ^ (2 * h)) :
    fastDivremFix n d f (2 * h) h = (n / d, n % d) := by
  obtain ⟨s, m, k, rfl, -, s1, -, -, -, hm⟩ := (C94_calculate_factors hd hl).2 f hf
  simp only [fastDivremFix]
  by_cases hs : n < 2 ^ (h + s)
  · have hq : (n / 2 ^ s % 2 ^ h) / (d / 2 ^ s) = n / d := by
      rw [Nat.mod_eq_of_lt, shifted_div s1]
      rw [Nat.div_lt_iff_lt_mul (Nat.two_pow_pos s), ← Nat.pow_add]
      exact hs
    rw [if_pos hs]
    simp only [Nat.shiftRight_eq_div_pow]
    rw [Nat.and_two_pow_sub_one_eq_mod (x := n / 2 ^ s), hq, rem_eq hd hh hn rfl]
  · rw [if_neg hs, mulhiFix_eq, Nat.shiftRight_eq_div_pow, Nat.div_div_eq_div_mul, ← Nat.pow_add,
      Nat.mul_comm n, hm n hn, rem_eq hd hh hn rfl]

end

example : calculateFactors 10 128 64 4 =
    some (2 ^ 65, 1, 0xcccccccccccccccccccccccccccccccd, 3) := by decide +kernel
example := C94_calculate_factors (d := 10) (N := 128) (h := 64) (l := 4) (by decide) (by decide)
example := C94_fast_divrem_partial (d := 10) (N := 128) (h := 64) (l := 4) (by decide) (by decide)
  (f := (2 ^ 65, 1, 0xcccccccccccccccccccccccccccccccd, 3)) (by decide +kernel) (by decide)
  (n := 2 ^ 64 + 7) (by decide) (by decide)
example := C94_fast_divrem_repaired (d := 10) (h := 64) (l := 4) (by decide) (by decide)
  (f := (2 ^ 65, 1, 0xcccccccccccccccccccccccccccccccd, 3)) (by decide +kernel) (by decide)
  (n := 2 ^ 128 - 1) (by decide)
example : fastDivremFix (2 ^ 100) 10 (2 ^ 65, 1, 0xcccccccccccccccccccccccccccccccd, 3) 128 64 =
    (126765060022822940149670320537, 6) := by decide +kernel

/-- C94, what `mulhi` computes: the upper half without the carries of the lower products, cut to `h`
bits.  Missing: the upper half, see `C94_mulhi_false`. -/
theorem C94_mulhi_partial {x y h : Nat} (hx : x < 2 ^ (2 * h)) (hy : y < 2 ^ (2 * h)) :
    mulhi x y h = (x / 2 ^ h * (y / 2 ^ h) +
      (x / 2 ^ h * (y % 2 ^ h) + x % 2 ^ h * (y / 2 ^ h) % 2 ^ h) / 2 ^ h) % 2 ^ h := by
  have g : ∀ z, z < 2 ^ (2 * h) → z / 2 ^ h % 2 ^ h = z / 2 ^ h := fun z hz => by
    refine Nat.mod_eq_of_lt ?_
    rw [Nat.div_lt_iff_lt_mul (Nat.two_pow_pos h), ← Nat.pow_add, ← Nat.two_mul]
    exact hz
  rw [mulhi_eq, g x hx, g y hy]

example := C94_mulhi_partial (x := 1000) (y := 5000) (h := 8) (by decide) (by decide)
example : mulhi 0x100 0x10000 8 = 0 ∧ mulhi 0xff00 0xff00 8 = 1 := by decide

/-- C94, what `fast_divrem` gives from the limit of the fast path on: the value of `mulhi` shifted, and
what is left of the numerator, reduced to `h` bits. -/
theorem C94_fast_divrem_above {d h l s m k : Nat} (hd : 0 < d) (hl : d ≤ 2 ^ l)
    (hf : calculateFactors d (2 * h) h l = some (2 ^ (h + s), s, m, k)) {n : Nat}
    (hn : n < 2 ^ (2 * h)) (hs : 2 ^ (h + s) ≤ n) :
    let q := (n / 2 ^ h * (m / 2 ^ h) +
      (n / 2 ^ h * (m % 2 ^ h) + n % 2 ^ h * (m / 2 ^ h) % 2 ^ h) / 2 ^ h) % 2 ^ h / 2 ^ k
    fastDivrem n d (2 ^ (h + s), s, m, k) (2 * h) h =
      (q, (((n : Int) - (q * d % 2 ^ (2 * h) : Nat)) % 2 ^ h).toNat) := by
  obtain ⟨s', m', k', e, -, -, -, hm, -, -⟩ := (C94_calculate_factors hd hl).2 _ hf
  simp only [Prod.mk.injEq] at e
  obtain ⟨-, -, rfl, rfl⟩ := e
  intro q
  have hq : mulhi n m h >>> k = q := by rw [C94_mulhi_partial hn hm, Nat.shiftRight_eq_div_pow]
  simp only [fastDivrem]
  rw [if_neg (by omega), hq, Nat.and_two_pow_sub_one_eq_mod]

example := C94_fast_divrem_above (d := 10) (h := 64) (l := 4) (s := 1)
  (m := 0xcccccccccccccccccccccccccccccccd) (k := 3) (by decide) (by decide) (by decide +kernel)
  (n := 2 ^ 100) (by decide) (by decide)
example : fastDivrem (2 ^ 65) 10 (2 ^ 65, 1, 0xcccccccccccccccccccccccccccccccd, 3) 128 64 =
    (1383505805528216371, 4611686018427387906) := by decide +kernel

/-- C94: `mulhi` is not the upper half of the product: it loses the carry of `0x00ff · 0xffff`. -/
theorem C94_mulhi_false : ¬ ∀ x y : Nat, x < 2 ^ 16 → y < 2 ^ 16 →
    mulhi x y 8 = x * y / 2 ^ 16 := by
  intro h
  have := h 0xff 0xffff (by decide) (by decide)
  revert this
  decide

/-- C94: from the limit of the fast path on, `fast_divrem` does not divide: `2^65 / 10`. -/
theorem C94_fast_divrem_false : ¬ ∀ f, calculateFactors 10 128 64 4 = some f →
    ∀ n, n < 2 ^ 128 → fastDivrem n 10 f 128 64 = (n / 10, n % 10) := by
  intro h
  have := h (2 ^ 65, 1, 0xcccccccccccccccccccccccccccccccd, 3) (by decide +kernel) (2 ^ 65) (by decide)
  revert this
  decide +kernel

end I256
