import Mathlib.Data.Set.Card
import Mathlib.Order.Interval.Finset.Nat
import Verif.Lemmas.Contract
import Verif.Lemmas.NegAbs

/-!
# Counting the signed products below the least number
-/

namespace I256

variable {w N : Nat}

/-- Every natural number below `2 ^ (w * N)` is the value of `N` limbs. -/
theorem exists_toNat (w N : Nat) (n : Nat) (h : n < 2 ^ (w * N)) : ∃ x : Limbs w, x.length = N ∧ toNat x = n := by
  induction N generalizing n with
  | zero => exact ⟨[], rfl, by simp at h; simp [h]⟩
  | succ N ih =>
    obtain ⟨x, hx, e⟩ := ih (n / 2 ^ w) (Nat.div_lt_of_lt_mul (by rwa [← Nat.pow_add, Nat.add_comm, ← Nat.mul_succ]))
    refine ⟨BitVec.ofNat w n :: x, by simpa using hx, ?_⟩
    rw [toNat_cons, e, BitVec.toNat_ofNat, Nat.mod_add_div]

/-- Every representable integer is the value of `N` limbs. -/
theorem exists_toInt {z : Int} (h : InS (w * N) z) : ∃ x : Limbs w, x.length = N ∧ toInt x = z := by
  unfold InS at h
  have e : ((2 ^ (w * N) : Nat) : Int) = 2 ^ (w * N) := by push_cast; rfl
  rw [← e] at h
  by_cases hz : 0 ≤ z
  · obtain ⟨x, hx, hv⟩ := exists_toNat w N z.toNat (by omega)
    refine ⟨x, hx, ?_⟩
    rw [toInt, bits, hx, if_pos (by omega)]
    omega
  · obtain ⟨x, hx, hv⟩ := exists_toNat w N (z + (2 ^ (w * N) : Nat)).toNat (by omega)
    refine ⟨x, hx, ?_⟩
    rw [toInt, bits, hx, if_neg (by omega), ← e]
    omega

/-- The gap in terms of absolute values. -/
theorem gap_iff (z : Int) : Mul.Gap w N z ↔ z < 0 ∧ 2 ^ (w * N - 1) < z.natAbs ∧
    z.natAbs < 2 ^ (w * N - 1) + 2 ^ (w * (N - 1)) := by
  have e : ((2 ^ (w * N - 1) : Nat) : Int) = 2 ^ (w * N - 1) := by push_cast; rfl
  have e2 : ((2 ^ (w * (N - 1)) : Nat) : Int) = 2 ^ (w * (N - 1)) := by push_cast; rfl
  have h0 : 0 < 2 ^ (w * N - 1) := by positivity
  unfold Mul.Gap
  rw [← e, ← e2]
  omega

/-- At most `L / a + 1` multiples of `a` lie between `H` and `H + L`. -/
theorem card_gap_le (y : Limbs w) :
    {x : Limbs w | x.length = N ∧ Mul.Gap w N (toInt x * toInt y)}.ncard ≤
      2 ^ (w * (N - 1)) / (toInt y).natAbs + 1 := by
  have hc : {x : Limbs w | x.length = N ∧ Mul.Gap w N (toInt x * toInt y)}.ncard ≤
      (Finset.Ioc (2 ^ (w * N - 1) / (toInt y).natAbs)
        ((2 ^ (w * N - 1) + 2 ^ (w * (N - 1))) / (toInt y).natAbs)).card := by
    rw [← Set.ncard_coe_finset]
    refine Set.ncard_le_ncard_of_injOn (fun x => (toInt x).natAbs) ?_ ?_ (Finset.finite_toSet _)
    · rintro x ⟨-, h⟩
      rw [gap_iff, Int.natAbs_mul] at h
      have hy : 0 < (toInt y).natAbs := by
        rcases Nat.eq_zero_or_pos (toInt y).natAbs with h0 | h0
        · rw [h0, Nat.mul_zero] at h; exact absurd h.2.1 (Nat.not_lt_zero _)
        · exact h0
      simp only [Finset.coe_Ioc, Set.mem_Ioc]
      exact ⟨(Nat.div_lt_iff_lt_mul hy).2 h.2.1, (Nat.le_div_iff_mul_le hy).2 h.2.2.le⟩
    · rintro a ⟨ha, hga⟩ b ⟨hb, hgb⟩ e
      rw [gap_iff, Int.mul_neg_iff] at hga hgb
      dsimp only at e
      exact toInt_inj (by rw [ha, hb]) (by omega)
  refine hc.trans ?_
  rw [Nat.card_Ioc]
  generalize 2 ^ (w * N - 1) = H
  generalize 2 ^ (w * (N - 1)) = L
  clear hc
  rcases Nat.eq_zero_or_pos (toInt y).natAbs with h0 | h0
  · simp [h0]
  · have h1 := Nat.add_div (a := H) (b := L) h0
    rw [h1]
    generalize H / (toInt y).natAbs = p
    generalize L / (toInt y).natAbs = q
    split <;> omega

/-- At least `(L - 1) / a` multiples of `a` lie between `H` and `H + L`. -/
theorem le_card_gap (hw : 0 < w) (hN : 0 < N) (y : Limbs w) (hy : 2 ≤ (toInt y).natAbs) :
    (2 ^ (w * (N - 1)) - 1) / (toInt y).natAbs ≤
      {x : Limbs w | x.length = N ∧ Mul.Gap w N (toInt x * toInt y)}.ncard := by
  have hf : {x : Limbs w | x.length = N ∧ Mul.Gap w N (toInt x * toInt y)}.Finite := by
    refine Set.Finite.of_injOn (f := toNat) (t := (Finset.range (2 ^ (w * N)) : Set Nat)) ?_ ?_ (Finset.finite_toSet _)
    · rintro x ⟨hx, -⟩
      have := toNat_lt x
      rw [bits, hx] at this
      simpa using this
    · rintro a ⟨ha, -⟩ b ⟨hb, -⟩ e
      exact toNat_inj (by rw [ha, hb]) e
  have hHL : 2 ^ (w * (N - 1)) ≤ 2 ^ (w * N - 1) := by
    rw [pow_pred_mul hw hN]
    exact Nat.pow_le_pow_right (by omega) (by omega)
  have e2 : 2 ^ (w * N) = 2 * 2 ^ (w * N - 1) := by
    rw [← Nat.pow_succ', Nat.succ_eq_add_one, Nat.sub_add_cancel (Nat.mul_pos hw hN)]
  have key : ∀ i < (2 ^ (w * (N - 1)) - 1) / (toInt y).natAbs, ∃ x : Limbs w, x.length = N ∧
      Mul.Gap w N (toInt x * toInt y) ∧ (toInt x).natAbs = 2 ^ (w * N - 1) / (toInt y).natAbs + 1 + i := by
    intro i hi
    have hE : ((2 ^ (w * N) : Nat) : Int) = 2 ^ (w * N) := by push_cast; rfl
    simp only [gap_iff, Int.natAbs_mul]
    have hsur : ∀ z : Int, z.natAbs < 2 ^ (w * N - 1) → ∃ x : Limbs w, x.length = N ∧ toInt x = z := by
      intro z hz
      refine exists_toInt ?_
      unfold InS
      rw [← hE]
      omega
    generalize hH : 2 ^ (w * N - 1) = H at *
    generalize hL : 2 ^ (w * (N - 1)) = L at *
    generalize ha : (toInt y).natAbs = a at *
    have h1 := Nat.div_add_mod H a
    have h2 := Nat.mod_lt H (show 0 < a by omega)
    have h3 : a * (i + 1) ≤ L - 1 := (Nat.mul_le_mul_left a hi).trans (Nat.mul_div_le _ _)
    have h4 : (H / a + 1 + i) * a = a * (H / a) + a * (i + 1) := by ring
    have h5 : a ≤ a * (i + 1) := Nat.le_mul_of_pos_right a (by omega)
    have h6 : (H / a + 1 + i) * 2 ≤ (H / a + 1 + i) * a := Nat.mul_le_mul_left _ hy
    have hy0 : 0 < (toInt y).natAbs := by omega
    generalize hq : H / a + 1 + i = q at *
    have h7 : q * a = H - H % a + a * (i + 1) := by omega
    have h8 : 0 < q := by rw [← hq]; positivity
    rcases lt_or_ge 0 (toInt y) with hp | hp
    · obtain ⟨x, hx, e⟩ := hsur (-(q : Int)) (by rw [Int.natAbs_neg, Int.natAbs_natCast]; omega)
      have hn : (toInt x).natAbs = q := by rw [e, Int.natAbs_neg, Int.natAbs_natCast]
      refine ⟨x, hx, ⟨Int.mul_neg_of_neg_of_pos (by omega) hp, ?_, ?_⟩, hn⟩ <;> rw [hn] <;> omega
    · obtain ⟨x, hx, e⟩ := hsur (q : Int) (by rw [Int.natAbs_natCast]; omega)
      have hn : (toInt x).natAbs = q := by rw [e, Int.natAbs_natCast]
      refine ⟨x, hx, ⟨Int.mul_neg_of_pos_of_neg (by omega) (by omega), ?_, ?_⟩, hn⟩ <;> rw [hn] <;> omega
  choose! f h1 h2 h3 using key
  have := Set.ncard_le_ncard_of_injOn (s := (Finset.range ((2 ^ (w * (N - 1)) - 1) / (toInt y).natAbs) : Set Nat)) f
    (t := {x : Limbs w | x.length = N ∧ Mul.Gap w N (toInt x * toInt y)})
    (fun i hi => by simp only [Finset.coe_range, Set.mem_Iio] at hi; exact ⟨h1 i hi, h2 i hi⟩)
    (fun i hi j hj e => by
      simp only [Finset.coe_range, Set.mem_Iio] at hi hj
      have e1 := h3 i hi
      have e2 := h3 j hj
      rw [e] at e1
      omega) hf
  rwa [Set.ncard_coe_finset, Finset.card_range] at this

end I256
