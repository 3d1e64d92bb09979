import Verif.Lemmas.Libdivide
import Verif.SpecBench
import Verif.Model.Bench

/-!
# C93: the division by multiplication of `etc/libdivide.py`

The script is meant to validate the division of `devel/benches/div_by_mul.rs`.  The claim is that for
every divisor `1 ≤ d < 2^b` it generates a divider, and that this divides every number of `b` bits.
-/

namespace I256

open Libdivide

/-- C93: a divisor of zero raises `ZeroDivisionError`, a negative one and one above `2^b`
`ValueError`, in both modes. -/
theorem C93_gen_rejects (b : Nat) (d : Int) (bf : Bool) :
    (d = 0 → unsignedGen b d bf = .error .zeroDivision) ∧
      (d < 0 ∨ 2 ^ b < d → unsignedGen b d bf = .error .value) := by
  have hp : (0 : Int) < 2 ^ b := by positivity
  have key : ∀ e, genImpl b d bf = .error e → unsignedGen b d bf = .error e := by
    intro e he
    cases bf
    · exact he
    · rw [unsignedGen, if_pos rfl, genBranchfree, he]
      rfl
  refine ⟨fun h => key _ ?_, fun h => key _ ?_⟩
  · rw [genImpl, if_pos h]
  · rw [genImpl, if_neg (show ¬ d = 0 by omega), if_pos (by omega)]

example := C93_gen_rejects 64 (-3) true
example : unsignedGen 64 (-3) true = .error .value := by decide

section
variable {b d : Nat} (hd : 0 < d) (h : d < 2 ^ b)
include hd h

/-- C93, which divisors the branched mode accepts: the powers of two and those with a factor of `b`
bits.  Missing: all others, for which `more` is read without having been assigned; see
`C93_gen_branched_false`. -/
theorem C93_gen_branched_partial :
    ((∃ k, d = 2 ^ k) ∨ ShortFactor b d → ∃ D, unsignedGen b d false = .ok D) ∧
      (¬ ((∃ k, d = 2 ^ k) ∨ ShortFactor b d) → unsignedGen b d false = .error .unboundLocal) := by
  have e : unsignedGen b d false = genImpl b d false := rfl
  rw [e, genImpl_eq false hd h, pow2_iff hd]
  by_cases p1 : d = 2 ^ d.log2
  · rw [if_pos p1]
    exact ⟨fun _ => ⟨_, rfl⟩, fun h => absurd (Or.inl p1) h⟩
  rw [if_neg p1]
  by_cases p2 : d - 2 ^ (d.log2 + b) % d < 2 ^ d.log2
  · rw [if_pos ⟨rfl, p2⟩]
    exact ⟨fun _ => ⟨_, rfl⟩, fun h => absurd (Or.inr p2) h⟩
  rw [if_neg (fun h => p2 h.2)]
  have hb := (log2_bounds hd).2
  have hr := Nat.mod_lt (2 ^ (d.log2 + b)) hd
  rw [Nat.pow_succ] at hb
  rw [if_neg (by omega)]
  exact ⟨fun h => by rcases h with h | h; exacts [absurd h p1, absurd h p2], fun _ => rfl⟩

/-- C93: a divider of the branched mode gives the quotient and the remainder of every positive number
of `b` bits.  Missing: the numerator zero, see `C93_divide_zero_false`. -/
theorem C93_divide_branched_partial {D : Divider} (hb : b ≤ 2 ^ 14)
    (hD : unsignedGen b d false = .ok D) {n : Nat} (h0 : 0 < n) (hn : n < 2 ^ b) :
    unsignedDivide D n = .ok (n / d) ∧
      unsignedDivideRemainder D n = .ok (n / d, ((n % d : Nat) : Int)) := by
  have hl := log2_lt hd h
  obtain ⟨g1, g2⟩ := log2_bounds hd
  have main : unsignedDivide D n = .ok (n / d) ∧ D.bits = b ∧ D.divisor = d := by
    have e : unsignedGen b d false = genImpl b d false := rfl
    have hn0 : (n : Int) > 0 := by omega
    have nn : ¬ ((d.log2 : Int) < 0) := by omega
    rw [e, genImpl_eq false hd h] at hD
    by_cases p1 : d = 2 ^ d.log2
    · rw [if_pos p1] at hD
      cases hD
      refine ⟨?_, rfl, rfl⟩
      simp only [unsignedDivide, divideBranched]
      rw [if_neg (by decide), if_neg (by decide), if_neg (show ¬ ¬ (n : Int) > 0 by omega)]
      simp only [Bool.toNat_false, Nat.cast_zero, Int.sub_zero, if_neg nn, if_pos,
        Int.toNat_natCast, Nat.shiftRight_eq_div_pow]
      rw [← p1]
    rw [if_neg p1] at hD
    have g1' : 2 ^ d.log2 < d := by omega
    by_cases p2 : d - 2 ^ (d.log2 + b) % d < 2 ^ d.log2
    · rw [if_pos ⟨rfl, p2⟩] at hD
      cases hD
      refine ⟨?_, rfl, rfl⟩
      obtain ⟨-, -, hm, -⟩ := proposal g1' g2 hl
      have hv := fast_div g1' g2 hl p2.le hn
      simp only [unsignedDivide, divideBranched, mulhi]
      rw [if_neg (by decide), if_neg (by decide), if_neg (show ¬ ¬ (n : Int) > 0 by omega)]
      rw [Nat.mod_eq_of_lt (show 1 + 2 ^ (d.log2 + b) / d < 2 ^ b by omega)]
      simp only [if_neg nn, Int.toNat_natCast, Nat.shiftRight_eq_div_pow,
        marker_none (show d.log2 < 2 ^ 14 by omega)]
      rw [if_neg (by rw [Nat.add_comm]; exact Nat.succ_ne_zero _), if_neg (fun h => h rfl), hv]
    rw [if_neg (fun h => p2 h.2)] at hD
    have hr := Nat.mod_lt (2 ^ (d.log2 + b)) hd
    rw [Nat.pow_succ] at g2
    rw [if_neg (by omega)] at hD
    cases hD
  refine ⟨main.1, ?_⟩
  have e := Nat.div_add_mod n d
  have h2 : d * (n / d) < 2 ^ b := by
    have := Nat.mul_div_le n d
    omega
  rw [unsignedDivideRemainder, main.1, main.2.1, main.2.2]
  simp only [mask_eq]
  have e3 : (n : Int) - ((d * (n / d) : Nat) : Int) = ((n % d : Nat) : Int) := by omega
  have e4 : ((n % d : Nat) : Int) % 2 ^ b = ((n % d : Nat) : Int) := by
    refine Int.emod_eq_of_lt (by omega) ?_
    have h5 : n % d < 2 ^ b := lt_of_lt_of_le (Nat.mod_lt n hd) h.le
    exact_mod_cast h5
  show Except.ok _ = _
  rw [Nat.mod_eq_of_lt h2, e3, e4]

/-- C93, which divisors the branch-free mode accepts: the powers of two and those where the doubled
remainder carries.  Missing: all others, for which `more` is read without having been assigned; see
`C93_gen_branchfree_false`. -/
theorem C93_gen_branchfree_partial :
    ((∃ k, d = 2 ^ k) ∨ d ≤ 2 * (2 ^ (d.log2 + b) % d) → ∃ D, unsignedGen b d true = .ok D) ∧
      (¬ ((∃ k, d = 2 ^ k) ∨ d ≤ 2 * (2 ^ (d.log2 + b) % d)) →
        unsignedGen b d true = .error .unboundLocal) := by
  rw [unsignedGen, if_pos rfl, genBranchfree, genImpl_eq true hd h, pow2_iff hd]
  by_cases p1 : d = 2 ^ d.log2
  · rw [if_pos p1]
    exact ⟨fun _ => ⟨_, rfl⟩, fun h => absurd (Or.inl p1) h⟩
  rw [if_neg p1, if_neg (by simp)]
  by_cases p3 : d ≤ 2 * (2 ^ (d.log2 + b) % d)
  · rw [if_pos p3]
    exact ⟨fun _ => ⟨_, rfl⟩, fun h => absurd (Or.inr p3) h⟩
  · rw [if_neg p3]
    exact ⟨fun h => by rcases h with h | h; exacts [absurd h p1, absurd h p3], fun _ => rfl⟩

/-- C93, what a divider of the branch-free mode computes: for a power of two above 1 the quotient of
the number before `n`, for 1 always 0, and for the other accepted divisors half of the number before
`n`, plus the high product, shifted.  Missing: that this is the quotient, see
`C93_divide_branchfree_false`. -/
theorem C93_divide_branchfree_partial {D : Divider} (hb : b ≤ 2 ^ 14)
    (hD : unsignedGen b d true = .ok D) {n : Nat} (h0 : 0 < n) (hn : n < 2 ^ b) :
    (d = 1 → unsignedDivide D n = .ok 0) ∧
      ((∃ k, d = 2 ^ (k + 1)) → unsignedDivide D n = .ok ((n - 1) / d)) ∧
      ((¬ ∃ k, d = 2 ^ k) → unsignedDivide D n = .ok
        (((n - 1) / 2 + (2 ^ (d.log2 + 1 + b) / d + 1 - 2 ^ b) * n / 2 ^ b) % 2 ^ b / 2 ^ d.log2)) := by
  have hl := log2_lt hd h
  obtain ⟨g1, g2⟩ := log2_bounds hd
  have hn1 : (n - 1) % 2 ^ b = n - 1 := Nat.mod_eq_of_lt (by omega)
  have pos : ¬ (¬ (n : Int) > 0) := by omega
  have un : ∀ x : Int, ¬ universal x < 0 := fun x => by
    have : (0 : Int) ≤ x % 0x4000 := Int.emod_nonneg _ (by decide)
    rw [universal]; omega
  rw [unsignedGen, if_pos rfl, genBranchfree, genImpl_eq true hd h] at hD
  by_cases p1 : d = 2 ^ d.log2
  · rw [if_pos p1] at hD
    cases hD
    have e : unsignedDivide ⟨b, d, 0, universal ((d.log2 : Int) - ((true.toNat : Nat) : Int)), .shr,
        true⟩ n = .ok ((n - 1) / 2 / 2 ^ (universal ((d.log2 : Int) - 1)).toNat) := by
      simp only [unsignedDivide, divideBranchfree, mulhi]
      rw [if_pos trivial, if_neg (by decide), if_neg pos, if_neg (un _)]
      simp only [mask_eq, Int.toNat_natCast, Nat.shiftRight_eq_div_pow, hn1, Nat.zero_mul,
        Nat.zero_div, Nat.add_zero, pow_one, Bool.toNat_true, Nat.cast_one]
      rw [Nat.mod_eq_of_lt (show (n - 1) / 2 < 2 ^ b by omega)]
    refine ⟨fun h1 => ?_, fun ⟨k, hk⟩ => ?_, fun hne => absurd ⟨_, p1⟩ hne⟩
    · rw [e, h1, show (universal ((Nat.log2 1 : Nat) - 1 : Int)).toNat = 2 ^ 14 - 1 by decide,
        Nat.div_div_eq_div_mul, ← Nat.pow_succ', Nat.div_eq_of_lt]
      have : 2 ^ b ≤ 2 ^ (2 ^ 14 - 1 + 1) := Nat.pow_le_pow_right (by decide) (by omega)
      omega
    · have hk2 : d.log2 = k + 1 := by rw [hk, Nat.log2_two_pow]
      rw [e, hk2, show (((k + 1 : Nat) : Int) - 1) = (k : Int) by omega,
        universal_small (show k < 2 ^ 14 by omega), Nat.div_div_eq_div_mul, ← Nat.pow_succ', ← hk]
  rw [if_neg p1, if_neg (by simp)] at hD
  have np : ¬ ∃ k, d = 2 ^ k := fun hk => p1 ((pow2_iff hd).1 hk)
  have g1' : 2 ^ d.log2 < d := by omega
  by_cases p3 : d ≤ 2 * (2 ^ (d.log2 + b) % d)
  · rw [if_pos p3] at hD
    cases hD
    refine ⟨fun h1 => absurd ⟨0, h1⟩ np, fun ⟨k, hk⟩ => absurd ⟨_, hk⟩ np, fun _ => ?_⟩
    obtain ⟨M, hM, e1, e2⟩ := general_magic g1' g2 hl
    rw [if_pos p3] at e1
    rw [e1, show 2 ^ (d.log2 + 1 + b) / d + 1 - 2 ^ b = M by omega]
    simp only [unsignedDivide, divideBranchfree, mulhi]
    rw [if_pos trivial, if_neg (by decide), if_neg pos, if_neg (un _)]
    simp only [mask_eq, Int.toNat_natCast, Nat.shiftRight_eq_div_pow, hn1, pow_one,
      (marker_or (show d.log2 < 2 ^ 14 by omega)).2]
  · rw [if_neg p3] at hD
    cases hD

/-- C93: with the repairs the script divides every number of `b` bits by every divisor below `2^b`,
in both modes (the branch-free mode by divisors above 1). -/
theorem C93_divide_repaired (bf : Bool) (h1 : bf = true → d ≠ 1) (hb : b ≤ 2 ^ 14) :
    ∃ D, genFix b d bf = .ok D ∧ ∀ n, n < 2 ^ b → divideFix D n = n / d := by
  have hl := log2_lt hd h
  obtain ⟨g1, g2⟩ := log2_bounds hd
  rw [genFix_eq bf hd h h1]
  by_cases p1 : d = 2 ^ d.log2
  · rw [if_pos p1]
    refine ⟨_, rfl, fun n hn => ?_⟩
    cases bf
    · simp only [divideFix]
      rw [if_pos (by decide)]
      simp only [Bool.toNat_false, Nat.cast_zero, Int.sub_zero, Int.toNat_natCast,
        Nat.shiftRight_eq_div_pow]
      rw [← p1]
    · have hd1 := h1 rfl
      obtain ⟨k, hk⟩ : ∃ k, d.log2 = k + 1 := by
        refine ⟨d.log2 - 1, ?_⟩
        rcases Nat.eq_zero_or_pos d.log2 with h0 | h0
        · rw [h0] at p1
          exact absurd p1 hd1
        · omega
      simp only [divideFix, mulhi, hk]
      rw [if_neg (by simp), if_pos (Or.inl trivial)]
      simp only [mask_eq, Nat.shiftRight_eq_div_pow, Nat.zero_mul, Nat.zero_div, Nat.add_zero,
        pow_one, Bool.toNat_true, Nat.cast_one, Nat.sub_zero]
      rw [show (((k + 1 : Nat) : Int) - 1).toNat = k by omega,
        universal_small (show k < 2 ^ 14 by omega),
        Nat.mod_eq_of_lt (show n / 2 < 2 ^ b by omega), Nat.div_div_eq_div_mul, ← Nat.pow_succ',
        show k.succ = d.log2 from hk.symm, ← p1]
  rw [if_neg p1]
  have g1' : 2 ^ d.log2 < d := by omega
  by_cases p2 : bf = false ∧ d - 2 ^ (d.log2 + b) % d < 2 ^ d.log2
  · rw [if_pos p2]
    obtain ⟨rfl, p2⟩ := p2
    refine ⟨_, rfl, fun n hn => ?_⟩
    obtain ⟨-, -, hm, -⟩ := proposal g1' g2 hl
    have hv := fast_div g1' g2 hl p2.le hn
    rw [Nat.mod_eq_of_lt (show 1 + 2 ^ (d.log2 + b) / d < 2 ^ b by omega)]
    simp only [divideFix, mulhi, Int.toNat_natCast, marker_none (show d.log2 < 2 ^ 14 by omega),
      Nat.shiftRight_eq_div_pow]
    rw [if_neg (fun h => Nat.succ_ne_zero _ ((Nat.add_comm _ _).trans h.2)), if_neg (by simp), hv]
  rw [if_neg p2]
  refine ⟨_, rfl, fun n hn => ?_⟩
  obtain ⟨M, hM, e1, e2⟩ := general_magic g1' g2 hl
  rw [e1]
  have hv := general_div g1' g2 hM e2 hn
  have hM0 : M ≠ 0 := by
    have : 2 ^ b ≤ 2 ^ (d.log2 + 1 + b) / d := by
      rw [Nat.le_div_iff_mul_le hd, Nat.pow_add (m := d.log2 + 1), Nat.mul_comm]
      exact Nat.mul_le_mul_right _ g2.le
    omega
  have hq : M * n / 2 ^ b ≤ n := Nat.div_le_of_le_mul (Nat.mul_le_mul_right _ hM.le)
  have hs : (n - M * n / 2 ^ b) / 2 + M * n / 2 ^ b < 2 ^ b := by omega
  have hlt : d.log2 < 2 ^ 14 := by omega
  simp only [divideFix, mulhi, Int.toNat_natCast]
  rw [if_neg (fun h => hM0 h.2)]
  cases bf
  · rw [if_neg (show ¬ (false = true) by decide), if_pos (Or.inr (marker_or hlt).1)]
    simp only [mask_eq, Nat.shiftRight_eq_div_pow, pow_one, (marker_or hlt).2]
    rw [Nat.mod_eq_of_lt hs, hv]
  · rw [if_pos rfl, if_pos (Or.inl rfl)]
    simp only [mask_eq, Nat.shiftRight_eq_div_pow, pow_one, universal_small hlt]
    rw [Nat.mod_eq_of_lt hs, hv]

end

example := C93_gen_branched_partial (b := 256) (d := 10) (by decide) (by decide +kernel)
example : ShortFactor 256 10 ∧ ¬ ShortFactor 256 7 ∧ ¬ ∃ k, 7 = 2 ^ k := by
  refine ⟨by decide +kernel, by decide +kernel, fun h => ?_⟩
  exact absurd ((pow2_iff (by decide)).1 h) (by decide)
example : ∃ D, unsignedGen 64 10 false = .ok D ∧ unsignedDivideRemainder D 1234 = .ok (123, 4) :=
  ⟨⟨64, 10, 0xcccccccccccccccd, 3, .fast, false⟩, by decide +kernel, by decide +kernel⟩
example {D : Divider} (hD : unsignedGen 64 (10 : Nat) false = .ok D) :=
  C93_divide_branched_partial (b := 64) (d := 10) (by decide) (by decide) (by decide) hD (n := 1234)
    (by decide) (by decide)
example := C93_gen_branchfree_partial (b := 64) (d := 7) (by decide) (by decide)
example {D : Divider} (hD : unsignedGen 64 (8 : Nat) true = .ok D) :=
  C93_divide_branchfree_partial (b := 64) (d := 8) (by decide) (by decide) (by decide) hD (n := 1234)
    (by decide) (by decide)
example : ∃ D, unsignedGen 64 11 true = .ok D ∧ unsignedDivide D 12 = .ok 1 :=
  ⟨⟨64, 11, 0x745d1745d1745d18, 3, .general, true⟩, by decide +kernel, by decide +kernel⟩
example := C93_divide_repaired (b := 64) (d := 7) (by decide) (by decide) true (by decide) (by decide)
example : ∃ D, genFix 64 7 false = .ok D ∧ divideFix D (2 ^ 64 - 1) = (2 ^ 64 - 1) / 7 :=
  ⟨⟨64, 7, 0x2492492492492493, 2 + 2 ^ 14, .general, false⟩, by decide +kernel, by decide +kernel⟩

/-- C93: a numerator that is not positive raises `AssertionError`, whatever the divider. -/
theorem C93_divide_rejects (D : Divider) {n : Int} (hn : n ≤ 0) :
    unsignedDivide D n = .error .assertion ∧ unsignedDivideRemainder D n = .error .assertion := by
  have e : unsignedDivide D n = .error .assertion := by
    rw [unsignedDivide, divideBranchfree, divideBranched]
    cases D.branchfree
    · rw [if_neg (by decide), if_neg (by decide), if_pos (by omega)]
    · rw [if_pos rfl, if_neg (by decide), if_pos (by omega)]
  refine ⟨e, ?_⟩
  rw [unsignedDivideRemainder, e]
  rfl

example := C93_divide_rejects ⟨64, 10, 0xcccccccccccccccd, 3, .fast, false⟩ (n := 0) (by decide)

/-- C93: whatever the divider, the remainder returned is `n - d * q` reduced to `b` bits, `q` being the
quotient returned; so where the quotient is wrong the remainder is still in the range. -/
theorem C93_divide_remainder (D : Divider) (n : Int) :
    (∀ e, unsignedDivide D n = .error e → unsignedDivideRemainder D n = .error e) ∧
      ∀ q, unsignedDivide D n = .ok q → ∃ r, unsignedDivideRemainder D n = .ok (q, r) ∧
        0 ≤ r ∧ r < 2 ^ D.bits ∧ r ≡ n - D.divisor * q [ZMOD 2 ^ D.bits] := by
  refine ⟨fun e h => ?_, fun q h => ?_⟩
  · rw [unsignedDivideRemainder, h]
    rfl
  · have hp : (0 : Int) < 2 ^ D.bits := by positivity
    refine ⟨(n - ((D.divisor * q % 2 ^ D.bits : Nat) : Int)) % 2 ^ D.bits, ?_, Int.emod_nonneg _ hp.ne',
      Int.emod_lt_of_pos _ hp, ?_⟩
    · rw [unsignedDivideRemainder, h]
      simp only [mask_eq]
      rfl
    · refine (Int.mod_modEq _ _).trans (Int.ModEq.sub rfl ?_)
      push_cast
      exact Int.mod_modEq _ _

example := (C93_divide_remainder ⟨64, 8, 0, 2, .shr, true⟩ 8).2 0 (by decide)
/-- The branch-free division of 16 by 8 gives 1 instead of 2; with one shift less it gives 3 and the remainder wraps. -/
example : unsignedDivideRemainder ⟨64, 8, 0, 2, .shr, true⟩ 16 = .ok (1, 8) ∧
    unsignedDivideRemainder ⟨64, 8, 0, 1, .shr, true⟩ 16 = .ok (3, 2 ^ 64 - 8) := by decide +kernel

/-- C93: the divisors that the repaired script rejects: zero, negative numbers, numbers of more than `b`
bits, and in the branch-free mode 1. -/
theorem C93_gen_repaired_rejects (bits : Nat) (divisor : Int) (bf : Bool) :
    (genFix bits divisor bf = .error .zeroDivision ↔ divisor = 0) ∧
      (genFix bits divisor bf = .error .value ↔
        divisor < 0 ∨ 2 ^ bits ≤ divisor ∨ (bf = true ∧ divisor = 1)) := by
  have hp : (0 : Int) < 2 ^ bits := by positivity
  unfold genFix
  by_cases h0 : divisor = 0
  · rw [if_pos h0]
    refine ⟨⟨fun _ => h0, fun _ => rfl⟩, ⟨fun h => by simp at h, fun h => ?_⟩⟩
    rcases h with h | h | ⟨-, h⟩ <;> omega
  rw [if_neg h0]
  by_cases h1 : divisor ≥ 2 ^ bits ∨ divisor < 1 ∨ (bf = true ∧ divisor = 1)
  · rw [if_pos h1]
    refine ⟨⟨fun h => by simp at h, fun h => absurd h h0⟩, ⟨fun _ => ?_, fun _ => rfl⟩⟩
    rcases h1 with h | h | h
    · exact .inr (.inl h)
    · exact .inl (by omega)
    · exact .inr (.inr h)
  · rw [if_neg h1]
    refine ⟨⟨fun h => ?_, fun h => absurd h h0⟩, ⟨fun h => ?_, fun h => absurd ?_ h1⟩⟩
    · simp only at h
      split at h
      · simp at h
      · split at h <;> simp at h
    · simp only at h
      split at h
      · simp at h
      · split at h <;> simp at h
    · rcases h with h | h | h
      · exact .inr (.inl (by omega))
      · exact .inl h
      · exact .inr (.inr h)

example := (C93_gen_repaired_rejects 64 (2 ^ 64) true).2.2 (by decide)
example : genFix 8 256 false = .error .value ∧ (genFix 8 255 false).toOption.isSome ∧
    genFix 8 1 true = .error .value ∧ genFix 8 0 true = .error .zeroDivision := by decide +kernel

/-- C93: the script generates the magic numbers and shifts that the benchmark uses. -/
theorem C93_bench_magic :
    unsignedGen 256 10 false = .ok ⟨256, 10, toNat Bench.div10Magic, 3, .fast, false⟩ ∧
      unsignedGen 256 0x12345678 false =
        .ok ⟨256, 0x12345678, toNat Bench.div1234Magic, 28, .fast, false⟩ := by
  decide +kernel

/-- C93: the numerator 0 is not divided. -/
theorem C93_divide_zero_false : ¬ ∀ (D : Divider), unsignedGen 64 10 false = .ok D →
    ∀ n : Nat, n < 2 ^ 64 → unsignedDivide D n = .ok (n / 10) := by
  intro h
  have := h ⟨64, 10, 0xcccccccccccccccd, 3, .fast, false⟩ (by decide +kernel) 0 (by decide)
  revert this
  decide

/-- C93: the branched mode does not accept every divisor: 7 raises `UnboundLocalError`. -/
theorem C93_gen_branched_false : ¬ ∀ d : Nat, 0 < d → d < 2 ^ 64 →
    ∃ D, unsignedGen 64 d false = .ok D := by
  intro h
  obtain ⟨D, e⟩ := h 7 (by decide) (by decide)
  rw [show unsignedGen 64 (7 : Nat) false = .error .unboundLocal by decide +kernel] at e
  cases e

/-- C93: nor does the branch-free mode: 7 raises `UnboundLocalError`. -/
theorem C93_gen_branchfree_false : ¬ ∀ d : Nat, 0 < d → d < 2 ^ 64 →
    ∃ D, unsignedGen 64 d true = .ok D := by
  intro h
  obtain ⟨D, e⟩ := h 7 (by decide) (by decide)
  rw [show unsignedGen 64 (7 : Nat) true = .error .unboundLocal by decide +kernel] at e
  cases e

/-- C93: the divisor `2^64`, outside the range that the error message gives, is accepted, and then
`2^63` divided by it is 1. -/
theorem C93_gen_range_false :
    (¬ ∀ d : Nat, 2 ^ 64 ≤ d → unsignedGen 64 d false = .error .value) ∧
      ¬ ∀ (d : Nat) (D : Divider), unsignedGen 64 d false = .ok D → ∀ n : Nat, 0 < n → n < 2 ^ 64 →
        unsignedDivide D n = .ok (n / d) := by
  have e : unsignedGen 64 (2 ^ 64 : Nat) false = .ok ⟨64, 2 ^ 64, 0, 63, .shr, false⟩ := by
    decide +kernel
  refine ⟨fun h => ?_, fun h => ?_⟩
  · have := h (2 ^ 64) (by decide)
    rw [e] at this
    cases this
  · have := h (2 ^ 64) _ e (2 ^ 63) (by decide) (by decide)
    revert this
    decide +kernel

/-- C93: the branch-free mode does not divide: `8 / 8` is 0, `1 / 1` is 0, and `10 / 11` is 1. -/
theorem C93_divide_branchfree_false : ∀ d ∈ [8, 1, 11], ¬ ∀ D : Divider,
    unsignedGen 64 d true = .ok D → ∀ n : Nat, 0 < n → n < 2 ^ 64 →
      unsignedDivide D n = .ok (n / d.toNat) := by
  have key : ∀ t ∈ [((8 : Int), (⟨64, 8, 0, 2, .shr, true⟩ : Divider), 8),
      (1, ⟨64, 1, 0, 16383, .shr, true⟩, 1), (11, ⟨64, 11, 0x745d1745d1745d18, 3, .general, true⟩, 10)],
      unsignedGen 64 t.1 true = .ok t.2.1 ∧ 0 < t.2.2 ∧ t.2.2 < 2 ^ 64 ∧
        unsignedDivide t.2.1 (t.2.2 : Nat) ≠ .ok (t.2.2 / t.1.toNat) := by decide +kernel
  intro d hd h
  simp only [List.mem_cons, List.not_mem_nil, or_false] at hd
  rcases hd with rfl | rfl | rfl
  · obtain ⟨k1, k2, k3, k4⟩ := key _ (List.mem_cons_self ..)
    exact k4 (h _ k1 _ k2 k3)
  · obtain ⟨k1, k2, k3, k4⟩ := key _ (List.mem_cons_of_mem _ (List.mem_cons_self ..))
    exact k4 (h _ k1 _ k2 k3)
  · obtain ⟨k1, k2, k3, k4⟩ :=
      key _ (List.mem_cons_of_mem _ (List.mem_cons_of_mem _ (List.mem_cons_self ..)))
    exact k4 (h _ k1 _ k2 k3)

/-- C93: `unsigned_remainder` never returns. -/
theorem C93_remainder_false : ¬ ∀ (D : Divider), unsignedGen 64 10 false = .ok D →
    ∀ n : Nat, 0 < n → n < 2 ^ 64 → unsignedRemainder D n = .ok ((n % 10 : Nat) : Int) := by
  intro h
  have := h ⟨64, 10, 0xcccccccccccccccd, 3, .fast, false⟩ (by decide +kernel) 1 (by decide) (by decide)
  revert this
  decide

end I256
