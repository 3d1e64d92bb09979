import Verif.Lemmas.BadWide

/-!
# Long division of exact multiples
-/

namespace I256

variable {w N : Nat}

/-- The last digit of an exact quotient is estimated right. -/
theorem addBack_exact (hw : 0 < w) (Q y : Nat) : addBack w (Q * y) y 0 = false := by
  rw [← Bool.not_eq_true]
  intro hc
  have hn : 2 ≤ nLimbs w y := by
    simp only [addBack, Bool.and_eq_true, decide_eq_true_eq] at hc
    exact hc.1.1.1
  obtain ⟨n, s, v, P, hN⟩ : ∃ n s v P, Normal w y n s v P := ⟨_, _, _, _, normal hw hn⟩
  rw [addBack_iff hN] at hc
  obtain ⟨-, -, hc⟩ := hc
  have hhalf := hN.half hw
  obtain ⟨hy, hgn, -, hv, hP, n2, sw, len, top, top1, lo, hi, v0, P0⟩ := hN
  have hB2 : 2 ≤ 2 ^ w := one_lt_two_pow' hw
  have hw2 : 2 ^ w = 2 * 2 ^ (w - 1) := by rw [← Nat.pow_succ', Nat.succ_eq_add_one, Nat.sub_add_cancel (by omega)]
  have hU : Q * y * 2 ^ s / 2 ^ (w * 0) % (v * 2 ^ w) = v * (Q % 2 ^ w) := by
    rw [Nat.mul_zero, Nat.pow_zero, Nat.div_one, Nat.mul_assoc, ← hv, Nat.mul_comm Q, Nat.mul_mod_mul_left]
  have hq := Nat.mod_lt Q (show 0 < 2 ^ w by positivity)
  rw [hU, Nat.mul_div_cancel_left _ v0] at hc
  generalize Q % 2 ^ w = q at *
  generalize hB : 2 ^ w = B at *
  have hvP := Nat.div_add_mod v P
  have hr := Nat.mod_lt v P0
  split at hc
  · apply hc
    have hBP : B ≤ v / P := by
      rw [Nat.le_div_iff_mul_le P0]
      have : 2 * (B * P) ≤ B * (B * P) := Nat.mul_le_mul_right _ hB2
      rw [Nat.mul_assoc] at lo
      omega
    apply Nat.div_eq_of_lt_le
    · rw [Nat.le_div_iff_mul_le P0]
      have : q * (P * (v / P) + v % P) = q * (v / P) * P + q * (v % P) := by ring
      rw [hvP] at this
      rw [Nat.mul_comm v]
      omega
    · apply Nat.div_lt_of_lt_mul
      have h1 : q * (P * (v / P) + v % P) = P * (q * (v / P)) + q * (v % P) := by ring
      rw [hvP] at h1
      have h2 : q * (v % P) < P * (v / P) := by
        calc q * (v % P) ≤ q * P := Nat.mul_le_mul_left _ hr.le
          _ < B * P := Nat.mul_lt_mul_of_pos_right hq P0
          _ ≤ v / P * P := Nat.mul_le_mul_right _ hBP
          _ = _ := Nat.mul_comm _ _
      rw [Nat.succ_mul, Nat.mul_add, Nat.mul_comm v]
      omega
  · rename_i hb
    apply hc
    rw [Nat.not_lt, Nat.le_div_iff_mul_le (by positivity)] at hb
    by_contra hne
    have h1 : q + 2 ≤ B := by omega
    have h3 := Nat.lt_div_mul_add (a := v) (show 0 < B * P by positivity)
    generalize v / (B * P) = h at *
    have h4 : v * (q + 2) ≤ v * B := Nat.mul_le_mul_left _ h1
    have h5 : v * B < (h * (B * P) + B * P) * B := Nat.mul_lt_mul_of_pos_right h3 (by omega)
    have h6 : (h * (B * P) + B * P) * B = h * (B * B * P) + B * B * P := by ring
    rw [Nat.mul_add] at h4
    omega

/-- An exact quotient of one digit. -/
theorem addBack_one_digit (hw : 0 < w) {Q y : Nat} (hQ : Q < 2 ^ w) (j : Nat) : addBack w (Q * y) y j = false := by
  rcases Nat.eq_zero_or_pos j with rfl | hj
  · exact addBack_exact hw Q y
  rw [← Bool.not_eq_true]
  intro hc
  have hn : 2 ≤ nLimbs w y := by
    simp only [addBack, Bool.and_eq_true, decide_eq_true_eq] at hc
    exact hc.1.1.1
  obtain ⟨n, s, v, P, hN⟩ : ∃ n s v P, Normal w y n s v P := ⟨_, _, _, _, normal hw hn⟩
  rw [addBack_iff hN] at hc
  obtain ⟨-, -, hc⟩ := hc
  have hhalf := hN.half hw
  obtain ⟨hy, hgn, -, hv, hP, n2, sw, len, top, top1, lo, hi, v0, P0⟩ := hN
  have hB2 : 2 ≤ 2 ^ w := one_lt_two_pow' hw
  have hBj : 2 ^ w ≤ 2 ^ (w * j) := Nat.pow_le_pow_right (by omega) (Nat.le_mul_of_pos_right _ hj)
  have hw1 : 0 < 2 ^ (w - 1) := by positivity
  have hU : Q * y * 2 ^ s / 2 ^ (w * j) + P ≤ v := by
    rw [Nat.mul_assoc, ← hv]
    have h1 : Q * v / 2 ^ (w * j) ≤ Q * v / 2 ^ w := Nat.div_le_div_left hBj (by positivity)
    have h2 : Q * v / 2 ^ w * 2 ^ w ≤ Q * v := Nat.div_mul_le_self _ _
    have h3 : (Q + 1) * v ≤ 2 ^ w * v := Nat.mul_le_mul_right _ hQ
    have h4 : 2 ^ w * P ≤ v := by
      have : 2 * (2 ^ w * P) ≤ 2 ^ w * (2 ^ w * P) := Nat.mul_le_mul_right _ hB2
      rw [Nat.mul_assoc] at lo
      omega
    have h5 : (Q * v / 2 ^ w + P) * 2 ^ w ≤ v * 2 ^ w := by
      rw [Nat.add_mul, Nat.mul_comm P, Nat.mul_comm v]
      rw [Nat.succ_mul] at h3
      omega
    have := Nat.le_of_mul_le_mul_right h5 (by positivity)
    omega
  have hv1 : v ≤ v * 2 ^ w := Nat.le_mul_of_pos_right _ (by positivity)
  rw [Nat.mod_eq_of_lt (by omega)] at hc
  generalize Q * y * 2 ^ s / 2 ^ (w * j) = U at *
  rw [Nat.div_eq_of_lt (show U < 2 ^ w * 2 ^ w * P by omega), Nat.div_eq_of_lt (show U < v by omega),
    if_pos (by omega)] at hc
  apply hc
  apply Nat.div_eq_of_lt
  calc U / P < (U + P) / P := by rw [Nat.add_div_right _ P0]; omega
    _ ≤ v / P := Nat.div_le_div_right hU

/-- Exact multiples do not make the division panic. -/
theorem noPanic_multiple (hw : 0 < w) {x y : Nat} (hx : x < 2 ^ (w * N)) (hd : y ∣ x) : ¬ DivPanics w N x y := by
  rintro ⟨hn, j, hj⟩
  obtain ⟨Q, rfl⟩ := hd
  have hnx := nLimbs_le_of_lt hw hx
  have hj0 : j = 0 := by
    simp only [addBack, Bool.and_eq_true, decide_eq_true_eq] at hj
    omega
  rw [hj0, Nat.mul_comm, addBack_exact hw] at hj
  cases hj

/-- Exact multiples by a quotient of one digit or a divisor with at most one leading zero limb. -/
theorem divExact_multiple (hw : 0 < w) {x y : Nat} (hx : x < 2 ^ (w * N)) (hd : y ∣ x)
    (h : 2 ^ (w * (N - 2)) ≤ y ∨ x < y * 2 ^ w) : DivExact w N x y := by
  refine ⟨noPanic_multiple hw hx hd, ?_⟩
  obtain ⟨Q, rfl⟩ := hd
  unfold strayRem
  rw [flagNum_eq_zero, Nat.mul_zero]
  intro j hj
  rw [Nat.mul_comm]
  rcases h with h | h
  · have hn : N - 1 ≤ nLimbs w y := by
      have hy0 : y ≠ 0 := by rintro rfl; simp at h
      obtain ⟨-, -, a3⟩ := nLimbs_spec (w := w) hw hy0
      have h3 := (Nat.pow_lt_pow_iff_right (a := 2) (by omega)).1 (Nat.lt_of_le_of_lt h a3)
      have := Nat.lt_of_mul_lt_mul_left h3
      omega
    rw [show j = 0 by omega]
    exact addBack_exact hw Q y
  · exact addBack_one_digit hw (Nat.lt_of_mul_lt_mul_left h) j

/-- Divisors of two limbs: when the second last digit of an exact quotient can be estimated wrong. -/
theorem addBack_second (hw : 1 < w) {Q y : Nat} (hn : nLimbs w y = 2) (h : addBack w (Q * y) y 1 = true) :
    y * 2 ^ (2 * w) / 2 ^ bitLen y / 2 ^ w + 2 ≤ y * 2 ^ (2 * w) / 2 ^ bitLen y % 2 ^ w := by
  obtain ⟨n, s, v, P, hN⟩ : ∃ n s v P, Normal w y n s v P := ⟨_, _, _, _, normal (by omega) (by omega)⟩
  rw [addBack_iff hN] at h
  obtain ⟨-, -, h⟩ := h
  have hhalf := hN.half (by omega)
  have htwo := hN.two
  obtain ⟨hy, hgn, -, hv, hP, n2, sw, len, top, top1, lo, hi, v0, P0⟩ := hN
  obtain rfl : P = 1 := by rw [hP, ← hgn, hn]; simp
  have hB2 : 4 ≤ 2 ^ w := by
    calc 4 = 2 ^ 2 := rfl
      _ ≤ _ := Nat.pow_le_pow_right (by omega) hw
  have hw2 : 2 ^ w = 2 * 2 ^ (w - 1) := by rw [← Nat.pow_succ', Nat.succ_eq_add_one, Nat.sub_add_cancel (by omega)]
  rw [← htwo, Nat.div_one]
  have hU : Q * y * 2 ^ s / 2 ^ (w * 1) % (v * 2 ^ w) = v * (Q % (2 ^ w * 2 ^ w)) / 2 ^ w := by
    rw [Nat.mul_one, ← Nat.mod_mul_right_div_self, Nat.mul_assoc, ← hv,
      show 2 ^ w * (v * 2 ^ w) = v * (2 ^ w * 2 ^ w) by ring, Nat.mul_comm Q, Nat.mul_mod_mul_left]
  have hR := Nat.mod_lt Q (show 0 < 2 ^ w * 2 ^ w by positivity)
  rw [hU] at h
  simp only [Nat.mul_one, Nat.div_one] at h hhalf
  generalize Q % (2 ^ w * 2 ^ w) = R at *
  have hz := Nat.div_add_mod v (2 ^ w)
  generalize v / 2 ^ w = u at *
  generalize v % 2 ^ w = l at *
  generalize hB : 2 ^ w = B at *
  have hdig : v * R / B / v = R / B := by
    rw [Nat.div_div_eq_div_mul, Nat.mul_comm B v, Nat.mul_div_mul_left _ _ v0]
  rw [hdig] at h
  split at h
  · exact absurd rfl h
  rename_i hb
  rw [Nat.not_lt, Nat.le_div_iff_mul_le (by positivity), Nat.le_div_iff_mul_le (by omega)] at hb
  have hRB : R / B < B := Nat.div_lt_of_lt_mul hR
  have hR2 : R < (B - 1) * B := by
    rw [← Nat.div_lt_iff_lt_mul (by omega)]
    omega
  obtain ⟨b, rfl⟩ : ∃ b, B = b + 1 := ⟨B - 1, by omega⟩
  rw [Nat.add_sub_cancel] at hR2
  have h1 : v * (R + 1) ≤ v * (b * (b + 1)) := Nat.mul_le_mul_left _ hR2
  by_contra hc
  have hl : l ≤ u + 1 := by omega
  have h2 : v ≤ (b + 1) * u + u + 1 := by omega
  have h3 : v * (b * (b + 1)) = v + v * (b * (b + 1) - 1) := by
    have : 1 ≤ b * (b + 1) := Nat.mul_pos (by omega) (by omega)
    obtain ⟨c, hc⟩ : ∃ c, b * (b + 1) = c + 1 := ⟨b * (b + 1) - 1, by omega⟩
    rw [hc, Nat.add_sub_cancel]; ring
  -- compare with `u * B ^ 3`
  have h4 : u * ((b + 1) * (b + 1)) * (b + 1) + v ≤ v * (b * (b + 1)) := by
    rw [Nat.mul_add] at h1
    omega
  have h5 : 2 * u ≥ b + 1 := by omega
  nlinarith [Nat.mul_le_mul_right (b * (b + 1)) h2, Nat.mul_le_mul_right b h5]

/-- A multiple for which it is. -/
theorem addBack_second_of (hw : 1 < w) {y : Nat} (hn : nLimbs w y = 2)
    (h : y * 2 ^ (2 * w) / 2 ^ bitLen y / 2 ^ w + 2 ≤ y * 2 ^ (2 * w) / 2 ^ bitLen y % 2 ^ w) :
    addBack w (((2 ^ w - 1) * 2 ^ w - 1) * y) y 1 = true := by
  obtain ⟨n, s, v, P, hN⟩ : ∃ n s v P, Normal w y n s v P := ⟨_, _, _, _, normal (by omega) (by omega)⟩
  rw [addBack_iff hN]
  have htwo := hN.two
  obtain ⟨hy, hgn, -, hv, hP, n2, sw, len, top, top1, lo, hi, v0, P0⟩ := hN
  obtain rfl : P = 1 := by rw [hP, ← hgn, hn]; simp
  have hB2 : 4 ≤ 2 ^ w := by
    calc 4 = 2 ^ 2 := rfl
      _ ≤ _ := Nat.pow_le_pow_right (by omega) hw
  rw [← htwo, Nat.div_one] at h
  obtain ⟨b1, b2, b3⟩ := bitLen_spec hy
  have hyB : 2 ^ w ≤ y := by
    by_contra hc
    have := nLimbs_le_of_lt (w := w) (N := 1) (y := y) (by omega) (by rw [Nat.mul_one]; omega)
    omega
  have hRB : 2 ^ w + 1 ≤ (2 ^ w - 1) * 2 ^ w - 1 := by
    have : 3 * 2 ^ w ≤ (2 ^ w - 1) * 2 ^ w := Nat.mul_le_mul_right _ (by omega)
    omega
  have hRB2 : (2 ^ w - 1) * 2 ^ w - 1 < 2 ^ w * 2 ^ w := by
    have : (2 ^ w - 1) * 2 ^ w ≤ 2 ^ w * 2 ^ w := Nat.mul_le_mul_right _ (by omega)
    omega
  have hdv : ((2 ^ w - 1) * 2 ^ w - 1) / 2 ^ w = 2 ^ w - 2 := by
    obtain ⟨c, hc⟩ : ∃ c, 2 ^ w = c + 2 := ⟨2 ^ w - 2, by omega⟩
    rw [hc]
    apply Nat.div_eq_of_lt_le
    · rw [show c + 2 - 1 = c + 1 by omega, Nat.add_sub_cancel, Nat.succ_mul]; omega
    · rw [show c + 2 - 1 = c + 1 by omega, Nat.add_sub_cancel]
      have : 0 < (c + 1) * (c + 2) := by positivity
      show _ < (c + 1) * (c + 2)
      omega
  have hRv : ((2 ^ w - 1) * 2 ^ w - 1) + 2 ^ w + 1 = 2 ^ w * 2 ^ w := by
    obtain ⟨c, hc⟩ : ∃ c, 2 ^ w = c + 2 := ⟨2 ^ w - 2, by omega⟩
    have : (c + 1) * (c + 2) + (c + 2) = (c + 2) * (c + 2) := by ring
    have : 0 < (c + 1) * (c + 2) := by positivity
    rw [hc, show c + 2 - 1 = c + 1 by omega]
    omega
  generalize (2 ^ w - 1) * 2 ^ w - 1 = R at *
  have hyx : 2 ^ w * 2 ^ w < R * y := by
    calc 2 ^ w * 2 ^ w < R * 2 ^ w := Nat.mul_lt_mul_of_pos_right (by omega) (by positivity)
      _ ≤ R * y := Nat.mul_le_mul_left _ hyB
  refine ⟨?_, ?_, ?_⟩
  · calc y = 1 * y := (Nat.one_mul y).symm
      _ < R * y := Nat.mul_lt_mul_of_pos_right (by omega) (by omega)
  · obtain ⟨-, -, a3⟩ := nLimbs_spec (w := w) (by omega) (show R * y ≠ 0 by omega)
    rw [← Nat.pow_add] at hyx
    have h3 := (Nat.pow_lt_pow_iff_right (a := 2) (by omega)).1 (hyx.trans a3)
    rw [← Nat.mul_two] at h3
    have := Nat.lt_of_mul_lt_mul_left h3
    omega
  have hU : R * y * 2 ^ s / 2 ^ (w * 1) % (v * 2 ^ w) = v * R / 2 ^ w := by
    rw [Nat.mul_one, ← Nat.mod_mul_right_div_self, Nat.mul_assoc, ← hv,
      show 2 ^ w * (v * 2 ^ w) = v * (2 ^ w * 2 ^ w) by ring, Nat.mul_comm R, Nat.mul_mod_mul_left, Nat.mod_eq_of_lt hRB2]
  rw [hU]
  simp only [Nat.mul_one]
  have hz := Nat.div_add_mod v (2 ^ w)
  have hlB := Nat.mod_lt v (show 0 < 2 ^ w by positivity)
  generalize v / 2 ^ w = u at *
  generalize v % 2 ^ w = l at *
  generalize hB : 2 ^ w = B at *
  rw [if_neg]
  · rw [Nat.div_div_eq_div_mul, Nat.mul_comm B v, Nat.mul_div_mul_left _ _ v0, hdv]
    omega
  · rw [Nat.not_lt, Nat.le_div_iff_mul_le (by positivity), Nat.le_div_iff_mul_le (by omega)]
    have e1 : (u + 3) * (2 * B + 1) ≤ B * (2 * B + 1) := Nat.mul_le_mul_right _ (by omega)
    have e2 : (u + 2) * R ≤ l * R := Nat.mul_le_mul_right _ h
    have e3 : u * (2 * B + 1) ≤ 2 * R := by
      have : B * (2 * B + 1) = 2 * (B * B) + B := by ring
      have : (u + 3) * (2 * B + 1) = u * (2 * B + 1) + 3 * (2 * B + 1) := by ring
      omega
    have e4 : u * (B * B) * B = B * u * R + u * R + u * (2 * B + 1) := by
      calc u * (B * B) * B = u * B * (B * B) := by ring
        _ = u * B * (R + B + 1) := by rw [← hRv]
        _ = B * u * R + u * (B * B) + u * B := by ring
        _ = B * u * R + u * (R + B + 1) + u * B := by rw [← hRv]
        _ = _ := by ring
    rw [e4, ← hz, Nat.add_mul]
    rw [Nat.add_mul] at e2
    omega

/-- Divisors of two limbs, more than four limbs in all: the third last digit. -/
theorem addBack_third_of (hw : 1 < w) {y : Nat} (hn : nLimbs w y = 2)
    (h : y * 2 ^ (2 * w) / 2 ^ bitLen y / 2 ^ w < y * 2 ^ (2 * w) / 2 ^ bitLen y % 2 ^ w) :
    addBack w (((2 ^ w - 1) * (2 ^ w * 2 ^ w) - 1) * y) y 2 = true := by
  obtain ⟨n, s, v, P, hN⟩ : ∃ n s v P, Normal w y n s v P := ⟨_, _, _, _, normal (by omega) (by omega)⟩
  rw [addBack_iff hN]
  have htwo := hN.two
  obtain ⟨hy, hgn, -, hv, hP, n2, sw, len, top, top1, lo, hi, v0, P0⟩ := hN
  obtain rfl : P = 1 := by rw [hP, ← hgn, hn]; simp
  have hB2 : 4 ≤ 2 ^ w := by
    calc 4 = 2 ^ 2 := rfl
      _ ≤ _ := Nat.pow_le_pow_right (by omega) hw
  rw [← htwo, Nat.div_one] at h
  have hyB : 2 ^ w ≤ y := by
    by_contra hc
    have := nLimbs_le_of_lt (w := w) (N := 1) (y := y) (by omega) (by rw [Nat.mul_one]; omega)
    omega
  have hBB : 4 * 2 ^ w ≤ 2 ^ w * 2 ^ w := Nat.mul_le_mul_right _ hB2
  have hRv : ((2 ^ w - 1) * (2 ^ w * 2 ^ w) - 1) + 2 ^ w * 2 ^ w + 1 = 2 ^ w * (2 ^ w * 2 ^ w) := by
    obtain ⟨c, hc⟩ : ∃ c, 2 ^ w = c + 1 := ⟨2 ^ w - 1, by omega⟩
    rw [hc] at hB2 ⊢
    have : c * ((c + 1) * (c + 1)) + (c + 1) * (c + 1) = (c + 1) * ((c + 1) * (c + 1)) := by ring
    have : 0 < c * ((c + 1) * (c + 1)) := Nat.mul_pos (by omega) (by positivity)
    rw [Nat.add_sub_cancel]
    omega
  have hB3 : 4 * (2 ^ w * 2 ^ w) ≤ 2 ^ w * (2 ^ w * 2 ^ w) := Nat.mul_le_mul_right _ hB2
  generalize (2 ^ w - 1) * (2 ^ w * 2 ^ w) - 1 = R at *
  have hdv : R / (2 ^ w * 2 ^ w) = 2 ^ w - 2 := by
    obtain ⟨c, hc⟩ : ∃ c, 2 ^ w = c + 2 := ⟨2 ^ w - 2, by omega⟩
    rw [hc] at hRv hB3 hBB ⊢
    rw [Nat.add_sub_cancel]
    have e : (c + 2) * ((c + 2) * (c + 2)) = c * ((c + 2) * (c + 2)) + 2 * ((c + 2) * (c + 2)) := by ring
    apply Nat.div_eq_of_lt_le
    · omega
    · rw [Nat.succ_mul]; omega
  have hyx : 2 ^ w * 2 ^ w * 2 ^ w < R * y := by
    calc 2 ^ w * 2 ^ w * 2 ^ w < R * 2 ^ w := Nat.mul_lt_mul_of_pos_right (by omega) (by positivity)
      _ ≤ R * y := Nat.mul_le_mul_left _ hyB
  refine ⟨?_, ?_, ?_⟩
  · calc y = 1 * y := (Nat.one_mul y).symm
      _ < R * y := Nat.mul_lt_mul_of_pos_right (by omega) (by omega)
  · obtain ⟨-, -, a3⟩ := nLimbs_spec (w := w) (by omega) (show R * y ≠ 0 by omega)
    rw [← Nat.pow_add, ← Nat.pow_add] at hyx
    have h3 := (Nat.pow_lt_pow_iff_right (a := 2) (by omega)).1 (hyx.trans a3)
    rw [show w + w + w = w * 3 by omega] at h3
    have := Nat.lt_of_mul_lt_mul_left h3
    omega
  have hU : R * y * 2 ^ s / 2 ^ (w * 2) % (v * 2 ^ w) = v * R / (2 ^ w * 2 ^ w) := by
    rw [show 2 ^ (w * 2) = 2 ^ w * 2 ^ w by rw [Nat.mul_two, Nat.pow_add], ← Nat.mod_mul_right_div_self, Nat.mul_assoc R, ← hv,
      show 2 ^ w * 2 ^ w * (v * 2 ^ w) = v * (2 ^ w * (2 ^ w * 2 ^ w)) by ring, Nat.mul_comm R, Nat.mul_mod_mul_left,
      Nat.mod_eq_of_lt (by omega)]
  rw [hU]
  simp only [Nat.mul_one]
  have hz := Nat.div_add_mod v (2 ^ w)
  have hlB := Nat.mod_lt v (show 0 < 2 ^ w by positivity)
  generalize v / 2 ^ w = u at *
  generalize v % 2 ^ w = l at *
  generalize hB : 2 ^ w = B at *
  rw [if_neg]
  · rw [Nat.div_div_eq_div_mul, Nat.mul_comm (B * B) v, Nat.mul_div_mul_left _ _ v0, hdv]
    omega
  · rw [Nat.not_lt, Nat.le_div_iff_mul_le (by positivity), Nat.le_div_iff_mul_le (by positivity)]
    have e1 : (u + 2) * (B * B + B + 1) ≤ B * (B * B + B + 1) := Nat.mul_le_mul_right _ (by omega)
    have e2 : (u + 1) * R ≤ l * R := Nat.mul_le_mul_right _ h
    have e3 : u * (B * B + B + 1) ≤ R := by
      have : B * (B * B + B + 1) = B * (B * B) + B * B + B := by ring
      have : (u + 2) * (B * B + B + 1) = u * (B * B + B + 1) + 2 * (B * B + B + 1) := by ring
      omega
    have e4 : u * (B * B) * (B * B) = B * u * R + u * R + u * (B * B + B + 1) := by
      calc u * (B * B) * (B * B) = u * B * (B * (B * B)) := by ring
        _ = u * B * (R + B * B + 1) := by rw [← hRv]
        _ = B * u * R + u * (B * (B * B)) + u * B := by ring
        _ = B * u * R + u * (R + B * B + 1) + u * B := by rw [← hRv]
        _ = _ := by ring
    rw [e4, ← hz, Nat.add_mul]
    rw [Nat.add_mul, Nat.one_mul] at e2
    omega

/-- Divisors with bits below their top two limbs: a digit with as many digits behind it as the divisor has limbs. -/
theorem addBack_long (hw : 1 < w) {y : Nat} (hd : ¬ 2 ^ (bitLen y - 2 * w) ∣ y) :
    addBack w ((2 ^ (w * nLimbs w y + 1) - 1) * y) y (nLimbs w y) = true := by
  have hL : 2 * w < bitLen y := by
    by_contra hc
    rw [show bitLen y - 2 * w = 0 by omega] at hd
    simp at hd
  have hn : 2 ≤ nLimbs w y := by
    obtain ⟨n1, -⟩ := nLimbs_bound (w := w) (by omega) y
    by_contra hc
    have : w * nLimbs w y ≤ w * 1 := Nat.mul_le_mul_left _ (by omega)
    omega
  obtain ⟨n, s, v, P, hN⟩ : ∃ n s v P, Normal w y n s v P := ⟨_, _, _, _, normal (by omega) hn⟩
  rw [addBack_iff hN]
  have hdv := mt hN.dvd.1 hd
  have hhalf := hN.half (by omega)
  obtain ⟨hy, hgn, -, hv, hP, n2, sw, len, top, top1, lo, hi, v0, P0⟩ := hN
  rw [hgn]
  have hw1 : 2 ≤ 2 ^ (w - 1) := by
    calc 2 = 2 ^ 1 := rfl
      _ ≤ _ := Nat.pow_le_pow_right (by omega) (by omega)
  obtain ⟨a1, a2, -⟩ := nLimbs_spec (w := w) (by omega) hy
  have hBn : 0 < 2 ^ (w * n) := by positivity
  have hR : 2 ^ (w * n + 1) = 2 * 2 ^ (w * n) := by rw [Nat.pow_succ']
  rw [hR]
  have hB1 : 2 ≤ 2 ^ (w * n) := one_lt_two_pow' (Nat.mul_pos (by omega) (by omega))
  refine ⟨?_, ?_, ?_⟩
  · calc y = 1 * y := (Nat.one_mul y).symm
      _ < (2 * 2 ^ (w * n) - 1) * y := Nat.mul_lt_mul_of_pos_right (by omega) (by omega)
  · have hx0 : (2 * 2 ^ (w * n) - 1) * y ≠ 0 := Nat.mul_ne_zero (by omega) hy
    obtain ⟨-, -, a3⟩ := nLimbs_spec (w := w) (by omega) hx0
    rw [hgn] at a2
    have h1 : 2 ^ (w * n) * 2 ^ (w * (n - 1)) ≤ (2 * 2 ^ (w * n) - 1) * y := Nat.mul_le_mul (by omega) a2
    rw [← Nat.pow_add] at h1
    have h3 := (Nat.pow_lt_pow_iff_right (a := 2) (by omega)).1 (Nat.lt_of_le_of_lt h1 a3)
    rw [← Nat.mul_add] at h3
    have := Nat.lt_of_mul_lt_mul_left h3
    omega
  have hU : (2 * 2 ^ (w * n) - 1) * y * 2 ^ s / 2 ^ (w * n) % (v * 2 ^ w) = 2 * v - 1 := by
    have h1 : (2 * 2 ^ (w * n) - 1) * y * 2 ^ s / 2 ^ (w * n) = 2 * v - 1 := by
      rw [Nat.mul_assoc, ← hv]
      rw [top] at hi
      generalize 2 ^ (w * n) = E at *
      obtain ⟨e, rfl⟩ : ∃ e, E = v + e := ⟨E - v, by omega⟩
      obtain ⟨c, rfl⟩ : ∃ c, v = c + 1 := ⟨v - 1, by omega⟩
      have e1 : (2 * (c + 1 + e) - 1) * (c + 1) = (2 * c + 1) * (c + 1 + e) + e := by
        rw [show 2 * (c + 1 + e) - 1 = 2 * c + 2 * e + 1 by omega]; ring
      rw [e1, show 2 * (c + 1) - 1 = 2 * c + 1 by omega]
      apply Nat.div_eq_of_lt_le
      · omega
      · have : (2 * c + 1 + 1) * (c + 1 + e) = (2 * c + 1) * (c + 1 + e) + (c + 1 + e) := by ring
        omega
    rw [h1, Nat.mod_eq_of_lt]
    have : v * 4 ≤ v * 2 ^ w := Nat.mul_le_mul_left _ (by
      calc 4 = 2 ^ 2 := rfl
        _ ≤ _ := Nat.pow_le_pow_right (by omega) hw)
    omega
  rw [hU]
  have hm : 0 < v % P := Nat.pos_of_ne_zero fun h => hdv (Nat.dvd_of_mod_eq_zero h)
  have hP2 : P ≤ v := by
    by_contra hc
    rw [Nat.div_eq_of_lt (Nat.lt_of_lt_of_le (Nat.lt_of_not_le hc) (Nat.le_mul_of_pos_left _ (by positivity)))] at hhalf
    omega
  rw [if_pos]
  · have h1 : (2 * v - 1) / v = 1 := by apply Nat.div_eq_of_lt_le <;> omega
    have h2 : 2 ≤ (2 * v - 1) / P / (v / P) := by
      rw [Nat.le_div_iff_mul_le (Nat.div_pos hP2 P0), Nat.le_div_iff_mul_le P0]
      have h3 := Nat.div_add_mod v P
      have h4 : 2 * (v / P) * P = 2 * (P * (v / P)) := by ring
      omega
    omega
  · refine Nat.lt_of_lt_of_le ?_ (hw1.trans hhalf)
    apply Nat.div_lt_of_lt_mul
    omega

end I256
