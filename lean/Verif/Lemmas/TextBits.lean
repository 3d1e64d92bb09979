import Mathlib.Data.Nat.Digits.Lemmas
import Mathlib.Tactic.IntervalCases
import Verif.SpecHex
import Verif.SpecBytes

/-! Digits of numerals: positions, lengths and counts. -/

namespace I256

theorem numeral_getElem? (r n : Nat) (hr : 2 ≤ r) (i : Nat) (hi : i < (numeral r n).length) :
    (numeral r n).reverse[i]? = some (digitByte (n / r ^ i % r)) := by
  unfold numeral at hi ⊢
  by_cases h0 : n = 0
  · subst h0
    simp at hi ⊢
    subst hi
    simp
  · rw [if_neg h0] at hi ⊢
    rw [List.reverse_reverse, List.getElem?_map]
    simp only [List.length_reverse, List.length_map] at hi
    rw [List.getElem?_eq_getElem hi, Option.map_some]
    have := Nat.getD_digits n i hr
    rw [List.getD_eq_getElem?_getD, List.getElem?_eq_getElem hi, Option.getD_some] at this
    rw [this]

theorem numeral_length (r n : Nat) (hr : 2 ≤ r) :
    (numeral r n).length = Nat.log r n + 1 := by
  unfold numeral
  by_cases h0 : n = 0
  · simp [h0]
  · rw [if_neg h0]
    simp only [List.length_reverse, List.length_map]
    exact Nat.digits_len r n (by omega) h0

theorem digits_count_one (B n : Nat) (hn : n < 2 ^ B) :
    (Nat.digits 2 n).count 1 = (List.range B).countP (fun i => n.testBit i) := by
  induction B generalizing n with
  | zero => obtain rfl : n = 0 := by simpa using hn
            simp
  | succ B ih =>
    rcases Nat.eq_zero_or_pos n with rfl | h0
    · simp
    · rw [Nat.digits_def' (by decide) h0, List.range_succ_eq_map, List.countP_cons, List.count_cons,
        List.countP_map, ih (n / 2) (by omega)]
      congr 1
      · apply List.countP_congr
        intro i _
        simp [Nat.testBit_succ]
      · simp only [Nat.testBit_zero, decide_eq_true_eq, beq_iff_eq]

theorem numeral_count_one (B n : Nat) (hn : n < 2 ^ B) :
    (numeral 2 n).count 49#8 = (List.range B).countP (fun i => n.testBit i) := by
  rw [← digits_count_one B n hn]
  unfold numeral
  by_cases h0 : n = 0
  · subst h0; decide
  · rw [if_neg h0, List.count_reverse, List.count, List.count, List.countP_map]
    apply List.countP_congr
    intro d hd
    have : d < 2 := Nat.digits_lt_base (by decide) hd
    interval_cases d <;> decide

theorem takeWhile_length_of {α : Type} (p : α → Bool) (l : List α) (t : Nat)
    (h : ∀ i < t, ∃ c, l[i]? = some c ∧ p c = true) (h' : ∃ c, l[t]? = some c ∧ p c = false) :
    (l.takeWhile p).length = t := by
  induction t generalizing l with
  | zero =>
    obtain ⟨c, hc, hp⟩ := h'
    cases l with
    | nil => simp at hc
    | cons a l => simp at hc; subst hc; simp [hp]
  | succ t ih =>
    obtain ⟨c, hc, hp⟩ := h 0 (by omega)
    cases l with
    | nil => simp at hc
    | cons a l =>
      simp at hc; subst hc
      rw [List.takeWhile_cons, hp, if_pos rfl, List.length_cons,
        ih l (fun i hi => by simpa using h (i + 1) (by omega)) (by simpa using h')]

theorem numeral_padded (r n m : Nat) (hr : 2 ≤ r) (hm : 0 < m) (hn : n < r ^ m) :
    List.replicate (m - (numeral r n).length) 48#8 ++ numeral r n =
      ((List.range m).map fun i => digitByte (n / r ^ i % r)).reverse := by
  have hlen : (numeral r n).length ≤ m := by
    rw [numeral_length r n hr]
    rcases Nat.eq_zero_or_pos n with rfl | h0
    · simpa using Nat.succ_le_of_lt hm
    · exact Nat.log_lt_of_lt_pow (by omega) hn
  rw [← List.reverse_inj, List.reverse_reverse, List.reverse_append, List.reverse_replicate]
  apply List.ext_getElem?
  intro i
  have hrange : (List.range m)[i]? = if i < m then some i else none := by
    by_cases h : i < m
    · rw [if_pos h, List.getElem?_range h]
    · rw [if_neg h, List.getElem?_eq_none (by simpa using h)]
  rw [List.getElem?_map, hrange]
  by_cases h1 : i < (numeral r n).length
  · rw [List.getElem?_append_left (by simpa using h1), numeral_getElem? r n hr i h1,
      if_pos (by omega)]
    rfl
  · rw [List.getElem?_append_right (by simpa using h1), List.length_reverse, List.getElem?_replicate]
    by_cases h2 : i < m
    · rw [if_pos (by omega), if_pos h2, Option.map_some]
      have : n / r ^ i = 0 := by
        apply Nat.div_eq_of_lt
        rw [numeral_length r n hr] at h1
        exact Nat.lt_pow_of_log_lt (by omega) (by omega)
      rw [this, Nat.zero_mod]
      rfl
    · rw [if_neg (by omega), if_neg h2]
      rfl

theorem bytes_hex (n k : Nat) :
    (((List.range k).map fun i => BitVec.ofNat 8 (byteOf n i)).reverse).flatMap hexPair =
      ((List.range (2 * k)).map fun i => digitByte (n / 16 ^ i % 16)).reverse := by
  induction k with
  | zero => rfl
  | succ k ih =>
    rw [show 2 * (k + 1) = 2 * k + 1 + 1 by ring, List.range_succ, List.range_succ, List.range_succ]
    simp only [List.map_append, List.reverse_append, List.map_cons, List.map_nil, List.reverse_cons,
      List.reverse_nil, List.nil_append, List.singleton_append, List.flatMap_cons, ih, List.cons_append]
    have h16 : (16 : Nat) ^ (2 * k) = 256 ^ k := by rw [pow_mul]; norm_num
    have h16' : (16 : Nat) ^ (2 * k + 1) = 256 ^ k * 16 := by rw [pow_succ, h16]
    have hb : (BitVec.ofNat 8 (byteOf n k)).toNat = n / 256 ^ k % 256 := by
      rw [BitVec.toNat_ofNat, byteOf]; omega
    rw [hexPair, hb, h16, h16', ← Nat.div_div_eq_div_mul]
    generalize n / 256 ^ k = q
    rw [show q % 256 / 16 = q / 16 % 16 by omega, show q % 256 % 16 = q % 16 by omega]
    rfl

end I256
