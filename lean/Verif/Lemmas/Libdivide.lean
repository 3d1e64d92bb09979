import Verif.Model.Libdivide
import Verif.Lemmas.BenchRest

/-! Lemmas for the model of `etc/libdivide.py`. -/

namespace I256

namespace Libdivide

theorem mask_eq (x b : Nat) : x &&& ((1 <<< b) - 1) = x % 2 ^ b := by
  rw [Nat.one_shiftLeft, Nat.and_two_pow_sub_one_eq_mod]

theorem log2_bounds {d : Nat} (hd : 0 < d) : 2 ^ d.log2 ≤ d ∧ d < 2 ^ (d.log2 + 1) :=
  ⟨Nat.log2_self_le (by omega), Nat.lt_log2_self⟩

theorem log2_lt {d b : Nat} (hd : 0 < d) (h : d < 2 ^ b) : d.log2 + 1 ≤ b := by
  have h1 := (log2_bounds hd).1
  have : 2 ^ d.log2 < 2 ^ b := by omega
  exact (Nat.pow_lt_pow_iff_right (by decide)).1 this

theorem floorLog_eq {d b : Nat} (hd : 0 < d) (h : d < 2 ^ b) :
    b - 1 - leadingZeros d b = d.log2 := by
  have := log2_lt hd h
  rw [leadingZeros, if_neg (by omega)]
  omega

theorem floorLog_top (b : Nat) (hb : 0 < b) : b - 1 - leadingZeros (2 ^ b) b = b - 1 := by
  have := Nat.two_pow_pos b
  rw [leadingZeros, if_neg (by omega), Nat.log2_two_pow]
  omega

theorem and_pred {d : Nat} (hd : 0 < d) : d &&& (d - 1) = 0 ↔ d = 2 ^ d.log2 := by
  obtain ⟨h1, h2⟩ := log2_bounds hd
  constructor
  · intro h
    by_contra hne
    have bit : ∀ x, 2 ^ d.log2 ≤ x → x < 2 ^ (d.log2 + 1) → x.testBit d.log2 = true := by
      intro x a1 a2
      rw [Nat.testBit_eq_decide_div_mod_eq]
      rw [Nat.pow_succ] at a2
      have : x / 2 ^ d.log2 = 1 := by
        refine Nat.div_eq_of_lt_le ?_ ?_ <;> omega
      rw [this]
      rfl
    have : (d &&& (d - 1)).testBit d.log2 = true := by
      rw [Nat.testBit_and, bit d h1 h2, bit (d - 1) (by omega) (by omega)]
      rfl
    rw [h, Nat.zero_testBit] at this
    exact absurd this (by decide)
  · intro h
    rw [h, Nat.and_two_pow_sub_one_eq_mod, Nat.mod_self]

theorem pow2_iff {d : Nat} (hd : 0 < d) : (∃ k, d = 2 ^ k) ↔ d = 2 ^ d.log2 :=
  ⟨fun ⟨k, h⟩ => by rw [h, Nat.log2_two_pow], fun h => ⟨_, h⟩⟩

/-- The first proposal for the factor: `m d + r = 2^(l + b)`, and `m` is at most `2^b - 2`. -/
theorem proposal {d b l : Nat} (h1 : 2 ^ l < d) (h2 : d < 2 ^ (l + 1)) (hb : l + 1 ≤ b) :
    d * (2 ^ (l + b) / d) + 2 ^ (l + b) % d = 2 ^ (l + b) ∧ 2 ^ (l + b) % d < d ∧
      2 ^ (l + b) / d + 2 ≤ 2 ^ b ∧ 2 ^ b ≤ 2 * (2 ^ (l + b) / d) + 1 := by
  have e := Nat.div_add_mod (2 ^ (l + b)) d
  have hr := Nat.mod_lt (2 ^ (l + b)) (show d > 0 by omega)
  have hl := Nat.two_pow_pos l
  have hB : 2 ^ (l + 1) ≤ 2 ^ b := Nat.pow_le_pow_right (by decide) hb
  refine ⟨e, hr, ?_, ?_⟩
  · rw [Nat.pow_succ] at h2 hB
    have hlt : 2 ^ (l + b) / d < 2 ^ b - 1 := by
      rw [Nat.div_lt_iff_lt_mul (by omega), Nat.pow_add]
      obtain ⟨B, hB'⟩ : ∃ B, 2 ^ b = B + 1 := ⟨2 ^ b - 1, by omega⟩
      obtain ⟨c, rfl⟩ : ∃ c, d = 2 ^ l + 1 + c := ⟨d - 2 ^ l - 1, by omega⟩
      rw [hB', Nat.add_sub_cancel]
      have : 2 ^ l < B := by omega
      nlinarith
    omega
  · by_contra hlt
    have h3 : 2 * (2 ^ (l + b) / d) + 2 ≤ 2 ^ b := by omega
    have h4 : d * (2 * (2 ^ (l + b) / d) + 2) ≤ d * 2 ^ b := Nat.mul_le_mul_left _ h3
    have h5 : d * 2 ^ b < 2 ^ (l + 1) * 2 ^ b :=
      Nat.mul_lt_mul_of_pos_right h2 (Nat.two_pow_pos b)
    rw [Nat.pow_succ] at h5
    have e2 : 2 ^ (l + b) = 2 ^ l * 2 ^ b := Nat.pow_add _ _ _
    nlinarith

/-- The test for the carry of the doubled remainder is right although the sum is masked. -/
theorem carry_iff {d r B : Nat} (hr : r < d) (hd : d < B) :
    ((r + r) % B ≥ d ∨ (r + r) % B < r) ↔ d ≤ 2 * r := by
  rcases Nat.lt_or_ge (r + r) B with h | h
  · rw [Nat.mod_eq_of_lt h]
    omega
  · have : (r + r) % B = r + r - B := by
      rw [Nat.mod_eq_sub_mod h, Nat.mod_eq_of_lt (by omega)]
    rw [this]
    omega

/-- The factor of the fast path. -/
theorem fast_div {d b l n : Nat} (h1 : 2 ^ l < d) (h2 : d < 2 ^ (l + 1)) (hb : l + 1 ≤ b)
    (he : d - 2 ^ (l + b) % d ≤ 2 ^ l) (hn : n < 2 ^ b) :
    (1 + 2 ^ (l + b) / d) * n / 2 ^ b / 2 ^ l = n / d := by
  obtain ⟨e, hr, -, -⟩ := proposal h1 h2 hb
  generalize 2 ^ (l + b) / d = m at *
  generalize 2 ^ (l + b) % d = r at *
  have key : (1 + m) * d = 2 ^ (l + b) + (d - r) := by
    rw [Nat.add_mul, Nat.one_mul, Nat.mul_comm m]
    omega
  rw [Nat.div_div_eq_div_mul, ← Nat.pow_add, Nat.add_comm b l]
  refine Bench.magic_div (N := 2 ^ b) (by omega) ?_ hn (by omega)
  rw [key, Nat.add_sub_cancel_left, Nat.pow_add]
  exact Nat.mul_le_mul_right _ he

/-- The factor of the general path: `2^b + magic` is `2^(l + 1 + b) / d` rounded up. -/
theorem general_magic {d b l : Nat} (h1 : 2 ^ l < d) (h2 : d < 2 ^ (l + 1)) (hb : l + 1 ≤ b) :
    ∃ D, D < 2 ^ b ∧
      (1 + (if d ≤ 2 * (2 ^ (l + b) % d) then (2 * (2 ^ (l + b) / d) % 2 ^ b + 1) % 2 ^ b
        else 2 * (2 ^ (l + b) / d) % 2 ^ b)) % 2 ^ b = D ∧
      2 ^ b + D = 2 ^ (l + 1 + b) / d + 1 := by
  obtain ⟨e, hr, hm1, hm2⟩ := proposal h1 h2 hb
  have e2 : 2 ^ (l + 1 + b) = 2 * 2 ^ (l + b) := by
    rw [show l + 1 + b = l + b + 1 by omega, Nat.pow_succ']
  have e3 : 2 ^ (l + 1 + b) / d = 2 * (2 ^ (l + b) / d) + 2 * (2 ^ (l + b) % d) / d := by
    rw [e2]
    conv_lhs => rw [← e]
    rw [Nat.mul_add, show 2 * (d * (2 ^ (l + b) / d)) = d * (2 * (2 ^ (l + b) / d)) by ring,
      Nat.mul_add_div (by omega)]
  rw [e3]
  generalize 2 ^ (l + b) / d = m at *
  generalize 2 ^ (l + b) % d = r at *
  generalize 2 ^ b = B at *
  have hd0 : 0 < d := by omega
  by_cases hc : d ≤ 2 * r
  · have : 2 * r / d = 1 := Nat.div_eq_of_lt_le (by omega) (by omega)
    rw [this, if_pos hc]
    refine ⟨2 * m + 2 - B, by omega, ?_, by omega⟩
    rcases Nat.lt_or_ge (2 * m) B with h | h
    · have hmB : 2 * m + 1 = B := by omega
      rw [Nat.mod_eq_of_lt h, hmB, Nat.mod_self, Nat.mod_eq_of_lt (by omega)]
      omega
    · rw [show 2 * m % B = 2 * m - B by
          rw [Nat.mod_eq_sub_mod h, Nat.mod_eq_of_lt (by omega)],
        Nat.mod_eq_of_lt (show 2 * m - B + 1 < B by omega), Nat.mod_eq_of_lt (by omega)]
      omega
  · have : 2 * r / d = 0 := Nat.div_eq_of_lt (by omega)
    rw [this, if_neg hc]
    refine ⟨2 * m + 1 - B, by omega, ?_, by omega⟩
    rcases Nat.lt_or_ge (2 * m) B with h | h
    · have hmB : 2 * m + 1 = B := by omega
      rw [Nat.mod_eq_of_lt h, Nat.add_comm 1, hmB, Nat.mod_self]
      omega
    · rw [show 2 * m % B = 2 * m - B by
          rw [Nat.mod_eq_sub_mod h, Nat.mod_eq_of_lt (by omega)], Nat.mod_eq_of_lt (by omega)]
      omega

theorem general_div {d b l n D : Nat} (h1 : 2 ^ l < d) (h2 : d < 2 ^ (l + 1)) (hD : D < 2 ^ b)
    (hM : 2 ^ b + D = 2 ^ (l + 1 + b) / d + 1) (hn : n < 2 ^ b) :
    ((n - D * n / 2 ^ b) / 2 + D * n / 2 ^ b) / 2 ^ l = n / d := by
  have hd0 : 0 < d := by omega
  rw [Bench.add_path (Nat.two_pow_pos b) hD, ← Nat.pow_add, hM, Nat.add_comm b]
  have e := Nat.div_add_mod (2 ^ (l + 1 + b)) d
  have hr := Nat.mod_lt (2 ^ (l + 1 + b)) hd0
  have key : (2 ^ (l + 1 + b) / d + 1) * d =
      2 ^ (l + 1 + b) + (d - 2 ^ (l + 1 + b) % d) := by
    rw [Nat.add_mul, Nat.one_mul, Nat.mul_comm _ d]
    omega
  refine Bench.magic_div (N := 2 ^ b) (by omega) ?_ hn hd0
  rw [key, Nat.add_sub_cancel_left]
  conv_rhs => rw [Nat.pow_add]
  exact Nat.mul_le_mul_right _ (by omega)

/-! ### Generation -/

/-- `unsigned_gen_impl` on a divisor in range, with the tests on the integers. -/
theorem genImpl_eq {b d : Nat} (bf : Bool) (hd : 0 < d) (h : d < 2 ^ b) :
    genImpl b d bf =
      if d = 2 ^ d.log2 then
        .ok ⟨b, d, 0, (d.log2 : Int) - (bf.toNat : Int), .shr, bf⟩
      else if bf = false ∧ d - 2 ^ (d.log2 + b) % d < 2 ^ d.log2 then
        .ok ⟨b, d, (1 + 2 ^ (d.log2 + b) / d) % 2 ^ b, d.log2, .fast, bf⟩
      else if d ≤ 2 * (2 ^ (d.log2 + b) % d) then
        .ok ⟨b, d, (1 + (2 * (2 ^ (d.log2 + b) / d) % 2 ^ b + 1) % 2 ^ b) % 2 ^ b,
          ((d.log2 ||| addMarker : Nat) : Int), .general, bf⟩
      else .error .unboundLocal := by
  have c1 : ¬ ((d : Int) = 0) := by omega
  have c2 : ¬ ((d : Int) > 2 ^ b ∨ (d : Int) < 1) := by
    have : ((d : Nat) : Int) < ((2 ^ b : Nat) : Int) := by exact_mod_cast h
    push_cast at this
    omega
  rw [genImpl, if_neg c1, if_neg c2]
  simp only [Int.toNat_natCast, floorLog_eq hd h, and_pred hd, Nat.one_shiftLeft,
    Nat.and_two_pow_sub_one_eq_mod]
  have hc := carry_iff (Nat.mod_lt (2 ^ (d.log2 + b)) hd) h
  by_cases p1 : d = 2 ^ d.log2
  · rw [if_pos p1, if_pos p1]
  rw [if_neg p1, if_neg p1]
  by_cases p2 : bf = false ∧ d - 2 ^ (d.log2 + b) % d < 2 ^ d.log2
  · rw [if_pos p2, if_pos p2]
  rw [if_neg p2, if_neg p2]
  by_cases p3 : d ≤ 2 * (2 ^ (d.log2 + b) % d)
  · rw [if_pos p3, if_pos (hc.2 p3)]
  · rw [if_neg p3, if_neg (fun h' => p3 (hc.1 h'))]

theorem genFix_eq {b d : Nat} (bf : Bool) (hd : 0 < d) (h : d < 2 ^ b) (h1 : bf = true → d ≠ 1) :
    genFix b d bf =
      if d = 2 ^ d.log2 then
        .ok ⟨b, d, 0, (d.log2 : Int) - (bf.toNat : Int), .shr, bf⟩
      else if bf = false ∧ d - 2 ^ (d.log2 + b) % d < 2 ^ d.log2 then
        .ok ⟨b, d, (1 + 2 ^ (d.log2 + b) / d) % 2 ^ b, d.log2, .fast, bf⟩
      else .ok ⟨b, d, (1 + (if d ≤ 2 * (2 ^ (d.log2 + b) % d) then
          (2 * (2 ^ (d.log2 + b) / d) % 2 ^ b + 1) % 2 ^ b
            else 2 * (2 ^ (d.log2 + b) / d) % 2 ^ b)) % 2 ^ b,
          ((if bf then d.log2 else d.log2 ||| addMarker : Nat) : Int), .general, bf⟩ := by
  have c1 : ¬ ((d : Int) = 0) := by omega
  have c2 : ¬ ((d : Int) ≥ 2 ^ b ∨ (d : Int) < 1 ∨ (bf = true ∧ (d : Int) = 1)) := by
    have : ((d : Nat) : Int) < ((2 ^ b : Nat) : Int) := by exact_mod_cast h
    push_cast at this
    rintro (h | h | ⟨h, h'⟩)
    · omega
    · omega
    · exact h1 h (by omega)
  rw [genFix, if_neg c1, if_neg c2]
  simp only [Int.toNat_natCast, floorLog_eq hd h, and_pred hd, Nat.one_shiftLeft,
    Nat.and_two_pow_sub_one_eq_mod]
  have hc := carry_iff (Nat.mod_lt (2 ^ (d.log2 + b)) hd) h
  simp only [hc]

/-! ### The field `more` -/

theorem marker_or {l : Nat} (h : l < 2 ^ 14) :
    (l ||| addMarker) &&& addMarker ≠ 0 ∧ (universal ((l ||| addMarker : Nat) : Int)).toNat = l := by
  have e : l ||| addMarker = 2 ^ 14 * 1 + l := by
    rw [Nat.or_comm]
    have := Nat.two_pow_add_eq_or_of_lt h 1
    rw [this]
    rfl
  refine ⟨?_, ?_⟩
  · intro h0
    have := congrArg (Nat.testBit · 14) h0
    rw [Nat.testBit_and, Nat.testBit_or, show addMarker.testBit 14 = true by decide] at this
    simp at this
  · rw [e, universal]
    omega

theorem marker_none {l : Nat} (h : l < 2 ^ 14) : l &&& addMarker = 0 := by
  refine Nat.eq_of_testBit_eq fun i => ?_
  rw [Nat.testBit_and, Nat.zero_testBit, show addMarker = 2 ^ 14 from rfl, Nat.testBit_two_pow]
  by_cases hi : 14 = i
  · subst hi
    rw [Nat.testBit_lt_two_pow h]
    rfl
  · simp [hi]

theorem universal_small {l : Nat} (h : l < 2 ^ 14) : (universal (l : Int)).toNat = l := by
  rw [universal]; omega

end Libdivide

end I256
