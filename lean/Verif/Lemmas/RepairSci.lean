import Verif.Repair.Sci
import Verif.Lemmas.Sci
import Verif.Lemmas.RepairMore

/-!
# Lemmas on the repaired exponent form
-/

namespace I256

namespace Repair

theorem digitByte_ten {d : Nat} (h : d < 10) : (digitByte d).toNat = 48 + d := by
  rw [digitByte, BitVec.toNat_ofNat, if_pos h]
  omega

/-- The last `j` decimal digits. -/
def low : Nat → Nat → List Byte
  | 0, _ => []
  | j + 1, n => low j (n / 10) ++ [digitByte (n % 10)]

theorem low_cons (j n : Nat) : low (j + 1) n = digitByte (n / 10 ^ j % 10) :: low j n := by
  induction j generalizing n with
  | zero => simp [low]
  | succ j ih =>
    rw [low, ih, low, List.cons_append, Nat.div_div_eq_div_mul, Nat.pow_succ, Nat.mul_comm 10]

theorem low_length (j n : Nat) : (low j n).length = j := by
  induction j generalizing n with
  | zero => rfl
  | succ j ih => simp [low, ih]

theorem low_zero (j n : Nat) : (low j n).any (· != 48#8) = true ↔ n % 10 ^ j ≠ 0 := by
  induction j generalizing n with
  | zero => simp [low, Nat.mod_one]
  | succ j ih =>
    have h48 : digitByte (n % 10) = 48#8 ↔ n % 10 = 0 := by
      rw [← BitVec.toNat_inj, digitByte_ten (Nat.mod_lt _ (by decide))]
      simp
    rw [low, List.any_append, Bool.or_eq_true, ih, Nat.pow_succ, Nat.mul_comm, Nat.mod_mul]
    simp only [List.any_cons, List.any_nil, Bool.or_false, bne_iff_ne, ne_eq, h48]
    omega

theorem numeral_low (j n : Nat) (h : j < (numeral 10 n).length) :
    numeral 10 n = numeral 10 (n / 10 ^ j) ++ low j n := by
  induction j generalizing n with
  | zero => simp [low]
  | succ j ih =>
    by_cases hn : n < 10
    · rw [numeral_of_lt hn] at h
      simp at h
    · have hg := numeral_of_ge (r := 10) (by decide) (Nat.le_of_not_lt hn)
      have hl := congrArg List.length hg
      rw [List.length_append, List.length_singleton] at hl
      rw [hg, ih (n / 10) (by omega), low, Nat.div_div_eq_div_mul, Nat.pow_succ, Nat.mul_comm 10,
        List.append_assoc]

theorem incr_eq (m : Nat) : incr (numeral 10 m).reverse = (numeral 10 (m + 1)).reverse := by
  have hsucc : ∀ d < 9, digitByte d ≠ 57#8 ∧ digitByte d + 1 = digitByte (d + 1) := by decide
  induction m using Nat.strong_induction_on with
  | _ m ih =>
    by_cases hm : m < 10
    · by_cases h9 : m = 9
      · subst h9
        decide
      · obtain ⟨h1, h2⟩ := hsucc m (by omega)
        rw [numeral_of_lt hm, numeral_of_lt (by omega), List.reverse_singleton, List.reverse_singleton,
          incr, if_neg h1, h2]
    · rw [numeral_of_ge (by decide) (show 10 ≤ m by omega),
        numeral_of_ge (n := m + 1) (by decide) (by omega), List.reverse_append, List.reverse_append,
        List.reverse_singleton, List.reverse_singleton, List.singleton_append, List.singleton_append, incr]
      by_cases h9 : m % 10 = 9
      · rw [h9, if_pos (by decide), ih (m / 10) (by omega), show (m + 1) / 10 = m / 10 + 1 by omega,
          show (m + 1) % 10 = 0 by omega]
        rfl
      · obtain ⟨h1, h2⟩ := hsucc (m % 10) (by omega)
        rw [if_neg h1, h2, show (m + 1) / 10 = m / 10 by omega, show (m + 1) % 10 = m % 10 + 1 by omega]

theorem numeral_last (m : Nat) : (numeral 10 m).getLast?.getD 48#8 = digitByte (m % 10) := by
  by_cases h : m < 10
  · rw [numeral_of_lt h, Nat.mod_eq_of_lt h]
    rfl
  · rw [numeral_of_ge (by decide) (by omega)]
    simp

theorem roundsUp_iff (q j n : Nat) : roundsUp (numeral 10 q) (low (j + 1) n) = true ↔
    10 ^ (j + 1) < 2 * (n % 10 ^ (j + 1)) ∨ (10 ^ (j + 1) = 2 * (n % 10 ^ (j + 1)) ∧ q % 2 = 1) := by
  have hc : n / 10 ^ j % 10 < 10 := Nat.mod_lt _ (by decide)
  have hv : n % 10 ^ j < 10 ^ j := Nat.mod_lt _ (by positivity)
  have hm : n % 10 ^ (j + 1) = n % 10 ^ j + 10 ^ j * (n / 10 ^ j % 10) := by
    rw [Nat.pow_succ, Nat.mod_mul]
  rw [low_cons, roundsUp, hm, Nat.pow_succ]
  simp only [Bool.or_eq_true, Bool.and_eq_true, low_zero, decide_eq_true_eq, beq_iff_eq, numeral_last,
    BitVec.lt_def, ← BitVec.toNat_inj, digitByte_ten hc, digitByte_ten (Nat.mod_lt q (by decide : 0 < 10))]
  rw [show (53#8 : Byte).toNat = 53 from rfl]
  have hq : (48 + q % 10) % 2 = q % 2 := by omega
  rw [hq]
  generalize n / 10 ^ j % 10 = c at *
  generalize n % 10 ^ j = v at *
  generalize 10 ^ j = P at *
  interval_cases c <;> omega

theorem expPrec_eq (e : Byte) (n p : Nat) : expPrec e (numeral 10 n) p = sciPrec e n p := by
  have hlen := List.length_pos_iff.2 (numeral_ne_nil 10 n)
  unfold expPrec sciPrec
  dsimp only
  by_cases hk : (numeral 10 n).length - 1 ≤ p
  · rw [if_pos hk, if_pos hk]
  rw [if_neg hk, if_neg hk]
  obtain ⟨j, hj⟩ : ∃ j, (numeral 10 n).length - 1 - p = j + 1 := ⟨(numeral 10 n).length - 2 - p, by omega⟩
  rw [hj]
  have hsplit := numeral_low (j + 1) n (by omega)
  have hl := congrArg List.length hsplit
  rw [List.length_append, low_length] at hl
  have hkeep : (numeral 10 n).take (p + 1) = numeral 10 (n / 10 ^ (j + 1)) := by
    rw [hsplit, List.take_left' (by omega)]
  have hrest : (numeral 10 n).drop (p + 1) = low (j + 1) n := by
    rw [hsplit, List.drop_left' (by omega)]
  rw [hkeep, hrest]
  have hs : (if roundsUp (numeral 10 (n / 10 ^ (j + 1))) (low (j + 1) n) = true then
      (incr (numeral 10 (n / 10 ^ (j + 1))).reverse).reverse else numeral 10 (n / 10 ^ (j + 1))) =
      numeral 10 (roundEven n (j + 1)) := by
    unfold roundEven
    dsimp only
    by_cases h : roundsUp (numeral 10 (n / 10 ^ (j + 1))) (low (j + 1) n) = true
    · rw [if_pos h, if_pos ((roundsUp_iff _ _ _).1 h), incr_eq, List.reverse_reverse]
    · rw [if_neg h, if_neg (fun hc => h ((roundsUp_iff _ _ _).2 hc))]
  rw [hs]
  by_cases hm : roundEven n (j + 1) = 10 ^ (p + 1)
  · have e1 : (numeral 10 (10 ^ (p + 1))).length = p + 2 := by
      rw [numeral_length 10 _ (by decide), Nat.log_pow (by decide)]
    have e2 : (numeral 10 (10 ^ p)).length = p + 1 := by
      rw [numeral_length 10 _ (by decide), Nat.log_pow (by decide)]
    have e3 : 10 ^ (p + 1) / 10 = 10 ^ p := by rw [Nat.pow_succ, Nat.mul_div_cancel _ (by decide)]
    have e4 : (numeral 10 (10 ^ (p + 1))).take (p + 1) = numeral 10 (10 ^ p) := by
      rw [numeral_of_ge (by decide) (by rw [Nat.pow_succ]; have : 1 ≤ 10 ^ p := Nat.one_le_pow _ _ (by decide); omega),
        e3, List.take_left' e2]
    rw [hm, if_pos e1, if_pos rfl, e4]
  · rw [if_neg hm, if_neg]
    have := rounded_length (n := n) (k := (numeral 10 n).length - 1) (p := p) (by omega) (by omega)
      (by rw [hj]; exact hm)
    rw [hj] at this
    omega

end Repair

end I256
