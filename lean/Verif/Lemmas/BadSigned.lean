import Verif.Lemmas.BadWide

/-!
# Divisors of signed numbers

The numerators are at most half as large as those of `Lemmas/BadDivisor.lean`.
-/

namespace I256

variable {w N : Nat}

/-- Powers of two of an `N`-limb number. -/
theorem pow_facts (hw : 1 < w) (h3 : 3 ≤ N) :
    2 ^ (w * N) = 2 * 2 ^ (w * N - 1) ∧ 2 ^ (w * N - 1) = 2 * 2 ^ (w * N - 2) ∧
    2 ^ (w * (N - 1)) = 2 * 2 ^ (w * (N - 1) - 1) ∧ 2 ^ (w * (N - 2)) = 2 * 2 ^ (w * (N - 2) - 1) ∧
    2 ^ (w * (N - 1)) = 2 ^ w * 2 ^ (w * (N - 2)) ∧ 2 ^ (w * N) = 2 ^ w * 2 ^ (w * (N - 1)) ∧
    2 ^ w = 2 * 2 ^ (w - 1) ∧ 2 ≤ 2 ^ (w - 1) ∧ w * N = w * (N - 1) + w ∧ w * (N - 1) = w * (N - 2) + w ∧
    w ≤ w * (N - 2) := by
  obtain ⟨k, rfl⟩ : ∃ k, N = k + 3 := ⟨N - 3, by omega⟩
  have e1 : w * (k + 3) = w * k + 3 * w := by ring
  have e2 : w * (k + 3 - 1) = w * k + 2 * w := by rw [show k + 3 - 1 = k + 2 by omega]; ring
  have e3 : w * (k + 3 - 2) = w * k + w := by rw [show k + 3 - 2 = k + 1 by omega]; ring
  rw [e1, e2, e3]
  refine ⟨?_, ?_, ?_, ?_, ?_, ?_, ?_, ?_, by omega, by omega, by omega⟩
  · rw [← Nat.pow_succ']; congr 1; omega
  · rw [← Nat.pow_succ']; congr 1; omega
  · rw [← Nat.pow_succ']; congr 1; omega
  · rw [← Nat.pow_succ']; congr 1; omega
  · rw [← Nat.pow_add]; congr 1; omega
  · rw [← Nat.pow_add]; congr 1; omega
  · rw [← Nat.pow_succ']; congr 1; omega
  · calc 2 = 2 ^ 1 := rfl
      _ ≤ _ := Nat.pow_le_pow_right (by omega) (by omega)

/-- The absolute value of the minimum by a divisor just above a quarter of the range. -/
theorem addBack_min (hw : 1 < w) (h3 : 3 ≤ N) {y : Nat} (h1 : 2 ^ (w * N - 2) < y)
    (h2 : y < 2 ^ (w * N - 2) + 2 ^ (w * (N - 2) - 1)) : addBack w (2 ^ (w * N - 1)) y 0 = true := by
  obtain ⟨p1, p2, p3, p4, p5, p6, p7, p8, p9, p10, p11⟩ := pow_facts hw h3
  have hy0 : y ≠ 0 := by omega
  have hyx : y < 2 ^ (w * N - 1) := by
    have : 2 ^ (w * (N - 2) - 1) ≤ 2 ^ (w * N - 2) := Nat.pow_le_pow_right (by omega) (by omega)
    omega
  have hnN : nLimbs w y = N := by
    refine Nat.le_antisymm (nLimbs_le_of_lt (by omega) (by omega)) ?_
    obtain ⟨-, -, a3⟩ := nLimbs_spec (w := w) (by omega) hy0
    have := (Nat.pow_lt_pow_iff_right (a := 2) (by omega)).1 (h1.trans a3)
    have : w * (N - 1) < w * nLimbs w y := by omega
    have := Nat.lt_of_mul_lt_mul_left this
    omega
  have hL : bitLen y = w * N - 1 := by
    refine Nat.le_antisymm (bitLen_le_of_lt hyx) ?_
    obtain ⟨-, -, b3⟩ := bitLen_spec hy0
    have := (Nat.pow_lt_pow_iff_right (a := 2) (by omega)).1 (h1.trans b3)
    omega
  obtain ⟨n, s, v, P, hN⟩ : ∃ n s v P, Normal w y n s v P := ⟨_, _, _, _, normal (by omega) (by omega)⟩
  rw [addBack_iff hN]
  have hhalf := hN.half (by omega)
  obtain ⟨hy, hgn, -, hv, hP, n2, sw, len, top, top1, lo, hi, v0, P0⟩ := hN
  obtain rfl : N = n := by omega
  obtain rfl : s = 1 := by omega
  refine ⟨hyx, ?_, ?_⟩
  · rw [Nat.zero_add]
    exact hgn.ge.trans (nLimbs_mono (by omega) hyx.le hy0)
  have hBP : 2 ^ w * 2 ^ w * P = 2 * (2 ^ (w - 1) * 2 ^ w * P) := by
    conv_lhs => lhs; lhs; rw [p7]
    ring
  rw [Nat.mul_zero, Nat.pow_zero, Nat.div_one, Nat.pow_one, Nat.mul_comm _ 2, ← p1, ← top]
  rw [← hP] at p4
  rw [Nat.pow_one] at hv
  have hU : 2 ^ w * 2 ^ w * P < v * 2 ^ w := by
    have : v * 4 ≤ v * 2 ^ w := Nat.mul_le_mul_left _ (by omega)
    omega
  rw [Nat.mod_eq_of_lt hU, Nat.div_self (by positivity), if_pos (by omega), Nat.mul_div_cancel _ P0]
  have hvP : v / P = 2 ^ (w - 1) * 2 ^ w := by
    apply Nat.div_eq_of_lt_le
    · omega
    · rw [Nat.succ_mul]; omega
  have hq : 2 ^ w * 2 ^ w * P / v = 1 := by apply Nat.div_eq_of_lt_le <;> omega
  have he : 2 ^ w * 2 ^ w / (v / P) = 2 := by
    rw [hvP]
    conv_lhs => lhs; lhs; rw [p7]
    rw [Nat.mul_assoc, Nat.mul_div_cancel _ (by positivity)]
  rw [hq, he]
  omega

/-- Divisors that need no corrections for a numerator of at most half the range. -/
theorem clean_signed (hw : 1 < w) (h3 : 3 ≤ N) {x y : Nat} (hx : x ≤ 2 ^ (w * N - 1)) (hyN : y ≤ 2 ^ (w * N - 1))
    (h1 : y < 2 ^ (w * N - 2) + 2 ^ (w * (N - 2) - 1) → 2 ^ (bitLen y - 2 * w) ∣ y)
    (h2 : y < 2 ^ (w * (N - 1) - 1) + 2 ^ (w * (N - 2)) → y * 2 ^ (2 * w) / 2 ^ bitLen y % 2 ^ w * (2 ^ w - 1) ≤
      y * 2 ^ (2 * w) / 2 ^ bitLen y / 2 ^ w * 2 ^ w) : Clean w x y := by
  obtain ⟨p1, p2, p3, p4, p5, p6, p7, p8, p9, p10, p11⟩ := pow_facts hw h3
  have hpos : 0 < 2 ^ (w * N - 2) := by positivity
  by_cases hd : 2 ^ (bitLen y - 2 * w) ∣ y
  · rcases Nat.lt_or_ge y (2 ^ (w * (N - 1) - 1) + 2 ^ (w * (N - 2))) with hlt | hge
    · exact clean_of (N := N) (by omega) (by omega) (by omega) (fun _ => hd) (fun _ => h2 hlt)
    rcases Nat.lt_or_ge y (2 ^ (w * (N - 1))) with hlt | hge2
    · intro j
      rw [← Bool.not_eq_true]
      intro hc
      have hy0 : y ≠ 0 := by
        have : 0 < 2 ^ (w * (N - 2)) := by positivity
        omega
      have hn : 2 ≤ nLimbs w y := by
        simp only [addBack, Bool.and_eq_true, decide_eq_true_eq] at hc
        exact hc.1.1.1
      have hL : bitLen y = w * (N - 1) := by
        refine Nat.le_antisymm (bitLen_le_of_lt hlt) ?_
        obtain ⟨-, -, b3⟩ := bitLen_spec hy0
        have h4 : 2 ^ (w * (N - 1) - 1) < 2 ^ bitLen y := by omega
        have := (Nat.pow_lt_pow_iff_right (a := 2) (by omega)).1 h4
        omega
      have hnN := nLimbs_le_of_lt (w := w) (by omega) hlt
      obtain ⟨n, s, v, P, hN⟩ : ∃ n s v P, Normal w y n s v P := ⟨_, _, _, _, normal (by omega) hn⟩
      rw [addBack_iff hN] at hc
      obtain ⟨z, hz⟩ := hN.dvd.2 hd
      obtain ⟨hy, hgn, -, hv, hP, n2, sw, len, top, top1, lo, hi, v0, P0⟩ := hN
      have hn1 : n = N - 1 := by
        refine Nat.le_antisymm (by omega) ?_
        have : w * (N - 1) ≤ w * n := by omega
        exact Nat.le_of_mul_le_mul_left this (by omega)
      subst hn1
      obtain rfl : s = 0 := by omega
      rw [Nat.pow_zero, Nat.mul_one] at hv
      obtain ⟨-, -, hc⟩ := hc
      apply hc
      rw [if_pos]
      · rw [hz, Nat.mul_div_cancel_left _ P0, Nat.div_div_eq_div_mul]
      · have hh : 2 ^ (w - 1) + 1 ≤ v / (2 ^ w * P) := by
          rw [top1, show N - 1 - 1 = N - 2 by omega, Nat.le_div_iff_mul_le (by positivity), Nat.succ_mul, hv]
          have : 2 ^ (w - 1) * 2 ^ (w * (N - 2)) = 2 ^ (w * (N - 1) - 1) := by
            rw [← Nat.pow_add]; congr 1; omega
          omega
        refine Nat.lt_of_lt_of_le ?_ hh
        apply Nat.div_lt_of_lt_mul
        rw [top]
        have h5 : x * 2 ^ 0 / 2 ^ (w * j) % (v * 2 ^ w) ≤ x :=
          (Nat.mod_le _ _).trans ((Nat.div_le_self _ _).trans (by rw [Nat.pow_zero, Nat.mul_one]))
        have h6 : 2 ^ (w * (N - 1)) * (2 ^ (w - 1) + 1) = 2 ^ (w * N - 1) + 2 ^ (w * (N - 1)) := by
          rw [Nat.mul_add, ← Nat.pow_add, Nat.mul_one]; congr 2; omega
        have : 0 < 2 ^ (w * (N - 1)) := by positivity
        omega
    · exact clean_of (N := N) (by omega) (by omega) (by omega) (fun _ => hd) (fun h => absurd h (by omega))
  · have hge : 2 ^ (w * N - 2) + 2 ^ (w * (N - 2) - 1) ≤ y := by
      by_contra hlt
      exact hd (h1 (by omega))
    intro j
    rw [← Bool.not_eq_true]
    intro hc
    have hn : 2 ≤ nLimbs w y := by
      simp only [addBack, Bool.and_eq_true, decide_eq_true_eq] at hc
      exact hc.1.1.1
    have hy0 : y ≠ 0 := by omega
    have hyx : y < x := by
      simp only [addBack, Bool.and_eq_true, decide_eq_true_eq] at hc
      exact hc.1.1.2
    have hpos2 : 0 < 2 ^ (w * (N - 2) - 1) := by positivity
    have hL : bitLen y = w * N - 1 := by
      refine Nat.le_antisymm (bitLen_le_of_lt (by omega)) ?_
      obtain ⟨-, -, b3⟩ := bitLen_spec hy0
      have h4 : 2 ^ (w * N - 2) < 2 ^ bitLen y := by omega
      have := (Nat.pow_lt_pow_iff_right (a := 2) (by omega)).1 h4
      omega
    have hnx := nLimbs_le_of_lt (w := w) (N := N) (y := x) (by omega) (by omega)
    obtain ⟨n, s, v, P, hN⟩ : ∃ n s v P, Normal w y n s v P := ⟨_, _, _, _, normal (by omega) hn⟩
    rw [addBack_iff hN] at hc
    have hhalf := hN.half (by omega)
    obtain ⟨hy, hgn, -, hv, hP, n2, sw, len, top, top1, lo, hi, v0, P0⟩ := hN
    obtain ⟨-, hjn, hc⟩ := hc
    have hn1 : n = N := by
      refine Nat.le_antisymm (by omega) ?_
      have : w * (N - 1) < w * n := by omega
      have := Nat.lt_of_mul_lt_mul_left this
      omega
    subst hn1
    obtain rfl : j = 0 := by omega
    obtain rfl : s = 1 := by omega
    rw [Nat.pow_one] at hv
    rw [← hP] at p4
    rw [Nat.mul_zero, Nat.pow_zero, Nat.div_one, Nat.pow_one] at hc
    have hBP : 2 ^ w * 2 ^ w * P = 2 * (2 ^ (w - 1) * 2 ^ w * P) := by
      conv_lhs => lhs; lhs; rw [p7]
      ring
    have hv4 : v * 4 ≤ v * 2 ^ w := Nat.mul_le_mul_left _ (by omega)
    rw [Nat.mod_eq_of_lt (by omega)] at hc
    have hq : x * 2 / v = 1 := by apply Nat.div_eq_of_lt_le <;> omega
    apply hc
    rw [hq, if_pos]
    · have h5 : 2 ^ (w - 1) * 2 ^ w + 1 ≤ v / P := by
        rw [Nat.le_div_iff_mul_le P0, Nat.succ_mul]
        omega
      have h6 : v / P ≤ x * 2 / P := Nat.div_le_div_right (by omega)
      have h7 : x * 2 / P ≤ 2 ^ w * 2 ^ w := by
        apply Nat.div_le_of_le_mul
        rw [Nat.mul_comm P]
        omega
      have h9 : 2 ^ w * 2 ^ w = 2 * (2 ^ (w - 1) * 2 ^ w) := by
        conv_lhs => lhs; rw [p7]
        ring
      apply Nat.div_eq_of_lt_le <;> omega
    · have : x * 2 / (2 ^ w * 2 ^ w * P) ≤ 1 := by
        apply Nat.div_le_of_le_mul
        omega
      omega

/-- The divisors for which some numerator of at most half the range needs a correction of its last digit. -/
theorem addBack_signed (hw : 1 < w) (h3 : 3 ≤ N) {y : Nat} (hy : y ≠ 0)
    (h : (y < 2 ^ (w * N - 2) + 2 ^ (w * (N - 2) - 1) ∧ ¬ 2 ^ (bitLen y - 2 * w) ∣ y) ∨
      (y < 2 ^ (w * (N - 1) - 1) + 2 ^ (w * (N - 2)) ∧
        y * 2 ^ (2 * w) / 2 ^ bitLen y / 2 ^ w < y * 2 ^ (2 * w) / 2 ^ bitLen y % 2 ^ w)) :
    ∃ x, x ≤ 2 ^ (w * N - 1) ∧ addBack w x y 0 = true := by
  obtain ⟨p1, p2, p3, p4, p5, p6, p7, p8, p9, p10, p11⟩ := pow_facts hw h3
  have first : y < 2 ^ (w * N - 2) + 2 ^ (w * (N - 2) - 1) → ¬ 2 ^ (bitLen y - 2 * w) ∣ y →
      ∃ x, x ≤ 2 ^ (w * N - 1) ∧ addBack w x y 0 = true := by
    intro h1 hd
    rcases Nat.lt_or_ge (2 ^ (w * N - 2)) y with hlt | hge
    · exact ⟨_, Nat.le_refl _, addBack_min hw h3 hlt h1⟩
    · exact ⟨2 * y - 1, by omega, addBack_multiple hw hd (Nat.le_refl 2) p8 (Nat.le_refl 1) (by omega)⟩
  rcases h with ⟨h1, hd⟩ | ⟨h1, hl⟩
  · exact first h1 hd
  by_cases hd : 2 ^ (bitLen y - 2 * w) ∣ y
  · rw [← half_iff (Nat.mod_lt _ (show 0 < 2 ^ w by positivity))] at hl
    refine ⟨_, ?_, addBack_top (by omega) hd hl⟩
    obtain ⟨b1, b2, b3⟩ := bitLen_spec hy
    rcases Nat.lt_or_ge y (2 ^ (w * (N - 1) - 1)) with hlt | hge
    · have hL := bitLen_le_of_lt hlt
      have hz : y * 2 ^ (2 * w) / 2 ^ bitLen y / 2 ^ w ≤ 2 ^ w := by
        rw [Nat.div_div_eq_div_mul]
        apply Nat.div_le_of_le_mul
        calc y * 2 ^ (2 * w) ≤ 2 ^ bitLen y * 2 ^ (2 * w) := Nat.mul_le_mul_right _ b3.le
          _ = _ := by rw [show 2 * w = w + w by omega, Nat.pow_add]; ring
      calc _ ≤ 2 ^ w * 2 ^ bitLen y := Nat.mul_le_mul_right _ hz
        _ ≤ 2 ^ w * 2 ^ (w * (N - 1) - 1) := Nat.mul_le_mul_left _ (Nat.pow_le_pow_right (by omega) hL)
        _ = 2 ^ (w * N - 1) := by rw [← Nat.pow_add]; congr 1; omega
    · have hlt : y < 2 ^ (w * (N - 1)) := by
        have : 2 ^ (w * (N - 2)) ≤ 2 ^ (w * (N - 1) - 1) := Nat.pow_le_pow_right (by omega) (by omega)
        omega
      have hL : bitLen y = w * (N - 1) := by
        refine Nat.le_antisymm (bitLen_le_of_lt hlt) ?_
        have := (Nat.pow_lt_pow_iff_right (a := 2) (by omega)).1 (Nat.lt_of_le_of_lt hge b3)
        omega
      have hz : y * 2 ^ (2 * w) / 2 ^ bitLen y / 2 ^ w ≤ 2 ^ (w - 1) := by
        rw [Nat.div_div_eq_div_mul]
        apply Nat.le_of_lt_succ
        apply Nat.div_lt_of_lt_mul
        have e1 : 2 ^ bitLen y * 2 ^ w * (2 ^ (w - 1)).succ =
            (2 ^ (w * (N - 1) - 1) + 2 ^ (w * (N - 2))) * 2 ^ (2 * w) := by
          rw [hL, p10, Nat.succ_eq_add_one, Nat.mul_add, Nat.add_mul, ← Nat.pow_add, ← Nat.pow_add, ← Nat.pow_add,
            ← Nat.pow_add, Nat.mul_one]
          congr 2 <;> omega
        rw [e1]
        exact Nat.mul_lt_mul_of_pos_right h1 (by positivity)
      calc _ ≤ 2 ^ (w - 1) * 2 ^ bitLen y := Nat.mul_le_mul_right _ hz
        _ = 2 ^ (w * N - 1) := by rw [hL, ← Nat.pow_add]; congr 1; omega
        _ ≤ _ := Nat.le_refl _
  · refine first ?_ hd
    have : 2 ^ (w * (N - 2)) ≤ 2 ^ (w * (N - 1) - 1) := Nat.pow_le_pow_right (by omega) (by omega)
    have : 2 ^ (w * (N - 1)) ≤ 2 ^ (w * N - 2) := Nat.pow_le_pow_right (by omega) (by omega)
    omega

end I256
