import Verif.Lemmas.DivSigned

/-!
# Divisors for which no estimate is ever wrong
-/

namespace I256

variable {w : Nat}

theorem bitLen_le_of_lt {y m : Nat} (h : y < 2 ^ m) : bitLen y ≤ m := by
  unfold bitLen
  split
  · omega
  · rename_i h0
    exact (Nat.log2_lt h0).2 h

/-- A divisor `c * 2^k` with `c` of one limb: the leading limb of the normalised divisor is all there
is, so every estimate is exact. -/
theorem clean_of_one_limb (hw : 0 < w) {x c k : Nat} (hc : c < 2 ^ w) : Clean w x (c * 2 ^ k) := by
  intro j
  by_contra hcon
  have hj : addBack w x (c * 2 ^ k) j = true := by simpa using hcon
  simp only [addBack, Bool.and_eq_true, decide_eq_true_eq] at hj
  obtain ⟨⟨⟨h2, hlt⟩, hjn⟩, ho⟩ := hj
  have hb : bitLen (c * 2 ^ k) ≤ w + k := by
    apply bitLen_le_of_lt
    rw [pow_add]
    exact Nat.mul_lt_mul_of_pos_right hc (by positivity)
  have hbl := bitLen_le (y := c * 2 ^ k) hw
  obtain ⟨s, hs⟩ : ∃ s, s = normShift w (c * 2 ^ k) := ⟨_, rfl⟩
  rw [← hs] at ho
  have hs' : s = w * nLimbs w (c * 2 ^ k) - bitLen (c * 2 ^ k) := hs
  obtain ⟨m, hm⟩ : ∃ m, nLimbs w (c * 2 ^ k) = m + 2 := ⟨nLimbs w (c * 2 ^ k) - 2, by omega⟩
  rw [hm] at ho hs' hbl
  have e1 : w * (m + 2) = w * (m + 1) + w := by ring
  obtain ⟨a, ha⟩ : ∃ a, k + s = w * (m + 1) + a := ⟨k + s - w * (m + 1), by omega⟩
  have hv : c * 2 ^ k * 2 ^ s = c * 2 ^ a * (2 ^ w) ^ (m + 1) := by
    rw [Nat.mul_assoc, ← pow_add, ha, ← pow_mul, pow_add]; ring
  rw [hv] at ho
  generalize hB : 2 ^ w = B at *
  have hB0 : 0 < B := by rw [← hB]; positivity
  generalize c * 2 ^ a = d at *
  generalize c * 2 ^ k = y at *
  simp only [overEst, bne_iff_ne, ne_eq] at ho
  have hy0 : 0 < y * 2 ^ s := by
    rcases Nat.eq_zero_or_pos y with h | h
    · rw [h, nLimbs_zero hw] at hm; omega
    · positivity
  have hd0 : 0 < d := by
    rcases Nat.eq_zero_or_pos d with h | h
    · rw [hv, h] at hy0; simp at hy0
    · exact h
  have hU : partRem B (x * 2 ^ s) (d * B ^ (m + 1)) j < d * B ^ (m + 1) * B :=
    Nat.mod_lt _ (by positivity)
  generalize partRem B (x * 2 ^ s) (d * B ^ (m + 1)) j = U at *
  apply ho
  unfold digitEst
  have c1 : d * B ^ (m + 1) / B ^ (m + 2 - 1) = d := Nat.mul_div_cancel _ (by positivity)
  have c2 : d * B ^ (m + 1) / B ^ (m + 2 - 2) = d * B := by
    rw [pow_succ, show m + 2 - 2 = m by omega, show d * (B ^ m * B) = d * B * B ^ m by ring]
    exact Nat.mul_div_cancel _ (by positivity)
  rw [c1, c2, if_pos, Nat.div_div_eq_div_mul]
  · congr 1
    rw [show m + 2 - 2 = m by omega]; ring
  · rw [Nat.div_lt_iff_lt_mul (by positivity)]
    calc U < d * B ^ (m + 1) * B := hU
      _ = d * B ^ (m + 2) := by ring

end I256
