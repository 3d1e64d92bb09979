import Verif.SpecDiv
import Mathlib.Tactic.Ring
import Mathlib.Tactic.Linarith
import Mathlib.Algebra.Order.Ring.Nat

/-! # Arithmetic of quotient digit estimates -/

namespace I256.DivNat

/-- The test on the third limb turns the two-by-one estimate into the three-by-two quotient. -/
theorem refine_eq {B a0 a1 a2 b0 b1 : Nat} (hb : B ≤ 2 * b0) (hb1 : b1 < B) (ha2 : a2 < B)
    (h : a0 < b0) (ha1 : a1 < B) :
    let q := (a0 * B + a1) / b0
    let r := (a0 * B + a1) % b0
    (a0 * B * B + a1 * B + a2) / (b0 * B + b1) =
      if r * B + a2 < q * b1 then
        if r + b0 < B then
          if (r + b0) * B + a2 < (q - 1) * b1 then q - 1 - 1 else q - 1
        else q - 1
      else q := by
  intro q r
  have hb0 : 0 < b0 := by omega
  have hB : 0 < B := by omega
  have hqr : b0 * q + r = a0 * B + a1 := Nat.div_add_mod _ _
  have hr : r < b0 := Nat.mod_lt _ hb0
  have hqB : q < B := by
    apply Nat.div_lt_of_lt_mul
    calc a0 * B + a1 < a0 * B + B := by omega
      _ = (a0 + 1) * B := by ring
      _ ≤ b0 * B := Nat.mul_le_mul_right _ h
  have hT : a0 * B * B + a1 * B + a2 = (b0 * q + r) * B + a2 := by rw [hqr]; ring
  have hD : 0 < b0 * B + b1 := by positivity
  rw [hT]
  have hlow : ∀ c, c * (b0 * B + b1) ≤ (b0 * q + r) * B + a2 →
      (b0 * q + r) * B + a2 < (c + 1) * (b0 * B + b1) →
      ((b0 * q + r) * B + a2) / (b0 * B + b1) = c := by
    intro c h1 h2
    apply Nat.div_eq_of_lt_le
    · exact h1
    · exact h2
  split
  · rename_i h1
    have hq1 : 1 ≤ q := by
      rcases Nat.eq_zero_or_pos q with h0 | h0
      · rw [h0] at h1; simp at h1
      · exact h0
    obtain ⟨p, hp⟩ : ∃ p, q = p + 1 := ⟨q - 1, by omega⟩
    rw [hp] at h1 hqB ⊢
    simp only [Nat.add_sub_cancel]
    have up1 : (b0 * (p + 1) + r) * B + a2 < (p + 1) * (b0 * B + b1) := by nlinarith
    split
    · rename_i h2
      split
      · rename_i h3
        have hp1 : 1 ≤ p := by
          rcases Nat.eq_zero_or_pos p with h0 | h0
          · rw [h0] at h3; simp at h3
          · exact h0
        obtain ⟨t, ht⟩ : ∃ t, p = t + 1 := ⟨p - 1, by omega⟩
        rw [ht] at h1 h3 hqB up1 ⊢
        simp only [Nat.add_sub_cancel]
        rw [← ht, ← hp, hp, ht]
        rw [hp, ht] at hlow
        apply hlow
        · have e1 : (t + 1 + 1) * b1 ≤ B * B := Nat.mul_le_mul (by omega) (by omega)
          have e2 : B * B ≤ 2 * b0 * B := Nat.mul_le_mul_right _ hb
          nlinarith
        · nlinarith
      · rename_i h3
        rw [hp] at hlow
        apply hlow
        · nlinarith
        · exact up1
    · rename_i h2
      rw [hp] at hlow
      apply hlow
      · have e1 : p * b1 ≤ B * B := Nat.mul_le_mul (by omega) (by omega)
        have e2 : B * B ≤ (r + b0) * B := Nat.mul_le_mul_right _ (by omega)
        nlinarith
      · exact up1
  · rename_i h1
    apply hlow
    · nlinarith
    · have : r * B + B ≤ b0 * B := by
        have := Nat.mul_le_mul_right B hr
        rw [Nat.succ_mul] at this; exact this
      nlinarith

/-- The estimate is the quotient digit or one more. -/
theorem est_bounds {B P U v : Nat} (hB : 2 ≤ B) (hP : 0 < P) (hv : B * B * P ≤ 2 * v)
    (hU : U < v * B) :
    let est := if U / (B * B * P) < v / (B * P) then U / P / (v / P) else B - 1
    U / v ≤ est ∧ est ≤ U / v + 1 ∧ est ≤ B - 1 := by
  intro est
  have hv0 : 0 < v := by
    have : 0 < B * B * P := by positivity
    omega
  have hqB : U / v < B := Nat.div_lt_of_lt_mul hU
  have hdm := Nat.div_add_mod U v
  have hml := Nat.mod_lt U hv0
  set q := U / v with hq
  have hd : v = v / P * P + v % P := by rw [Nat.mul_comm]; exact (Nat.div_add_mod v P).symm
  have hdl := Nat.mod_lt v hP
  have hu : U = U / P * P + U % P := by rw [Nat.mul_comm]; exact (Nat.div_add_mod U P).symm
  have hul := Nat.mod_lt U hP
  set D := v / P with hDdef
  set T := U / P with hTdef
  have hDB : B * B ≤ 2 * D + 1 := by
    have : B * B * P < (2 * D + 2) * P := by
      have e : (2 * D + 2) * P = 2 * (D * P) + 2 * P := by ring
      omega
    have := Nat.lt_of_mul_lt_mul_right this
    omega
  have hDB' : B ≤ D + 1 := by nlinarith
  have hD0 : 0 < D := by omega
  by_cases hc : U / (B * B * P) < v / (B * P)
  · have he : est = T / D := if_pos hc
    have hb0 : v / (B * P) ≤ D / B := by
      rw [hDdef, Nat.div_div_eq_div_mul, Nat.mul_comm]
    have hTB : T < D * B := by
      have h1 : U / (B * B * P) = T / B / B := by
        rw [hTdef, Nat.div_div_eq_div_mul, Nat.div_div_eq_div_mul]; congr 1; ring
      rw [h1] at hc
      have h2 : T / B / B + 1 ≤ D / B := by omega
      have h3 : (D / B) * B ≤ D := Nat.div_mul_le_self D B
      have h4 : T < (T / B / B + 1) * (B * B) := by
        rw [Nat.div_div_eq_div_mul]
        have := Nat.div_add_mod T (B * B)
        have := Nat.mod_lt T (show 0 < B * B by positivity)
        nlinarith
      calc T < (T / B / B + 1) * (B * B) := h4
        _ ≤ (D / B) * (B * B) := Nat.mul_le_mul_right _ h2
        _ = (D / B) * B * B := by ring
        _ ≤ D * B := Nat.mul_le_mul_right _ h3
    have hestB : T / D < B := Nat.div_lt_of_lt_mul hTB
    refine ⟨?_, ?_, by omega⟩
    · rw [he, Nat.le_div_iff_mul_le hD0]
      have h1 : q * D * P ≤ q * v := by
        rw [Nat.mul_assoc]; exact Nat.mul_le_mul_left _ (by omega)
      have h2 : q * v ≤ U := by rw [Nat.mul_comm]; omega
      have : q * D * P < (T + 1) * P := by rw [Nat.add_mul, Nat.one_mul]; omega
      have := Nat.lt_of_mul_lt_mul_right this
      omega
    · rw [he]
      by_contra hcon
      have h1 : q + 2 ≤ T / D := by omega
      rw [Nat.le_div_iff_mul_le hD0] at h1
      have hqb : q + 2 < B := by
        have : q + 2 ≤ T / D := by omega
        omega
      -- (q + 1) * v ≤ T * P ≤ U contradicts U < (q + 1) * v
      have h2 : (q + 1) * (D + 1) ≤ T := by
        have e : (q + 2) * D = (q + 1) * D + D := by ring
        rw [Nat.mul_add, Nat.mul_one]
        omega
      have h3 : (q + 1) * v ≤ T * P := by
        calc (q + 1) * v ≤ (q + 1) * ((D + 1) * P) :=
              Nat.mul_le_mul_left _ (by rw [Nat.add_mul, Nat.one_mul]; omega)
          _ = (q + 1) * (D + 1) * P := by ring
          _ ≤ T * P := Nat.mul_le_mul_right _ h2
      have h4 : (q + 1) * v = v * q + v := by ring
      omega
  · have he : est = B - 1 := if_neg hc
    refine ⟨by omega, ?_, by omega⟩
    rw [he]
    -- (B - 2) * v ≤ U
    have hBP : 0 < B * P := by positivity
    have h1 := Nat.div_add_mod v (B * P)
    have h2 := Nat.mod_lt v hBP
    set b0 := v / (B * P)
    have h3 : b0 ≤ U / (B * B * P) := by omega
    rw [Nat.le_div_iff_mul_le (by positivity)] at h3
    have hb0 : B ≤ 2 * b0 + 1 := by
      have : B * (B * P) < (2 * b0 + 2) * (B * P) := by
        have e : (2 * b0 + 2) * (B * P) = 2 * (B * P * b0) + 2 * (B * P) := by ring
        have e2 : B * (B * P) = B * B * P := by ring
        omega
      have := Nat.lt_of_mul_lt_mul_right this
      omega
    obtain ⟨c, hcB⟩ : ∃ c, B = c + 2 := ⟨B - 2, by omega⟩
    have h4 : c * (b0 + 1) ≤ b0 * B := by rw [hcB] at hb0 ⊢; nlinarith
    have h5 : c * v ≤ U := by
      calc c * v ≤ c * ((b0 + 1) * (B * P)) :=
            Nat.mul_le_mul_left _ (by rw [Nat.add_mul, Nat.one_mul, Nat.mul_comm b0]; omega)
        _ = c * (b0 + 1) * (B * P) := by ring
        _ ≤ b0 * B * (B * P) := Nat.mul_le_mul_right _ h4
        _ = b0 * (B * B * P) := by ring
        _ ≤ U := h3
    have h6 : c ≤ q := by
      rw [hq, Nat.le_div_iff_mul_le hv0]; exact h5
    omega

end I256.DivNat
