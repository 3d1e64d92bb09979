import Verif.Lemmas.ManyDiv
import Verif.Props.BadDivisor
import Verif.Props.BadSigned
import Verif.Props.BadWide

/-!
# C121: how many divisors are affected

Few numerators are divided wrongly by a given divisor (C115), but half of all divisors have such a numerator, up to a
negligible part.
-/

namespace I256

open Sample

variable {w N : Nat}

/-- C121: the divisors for which some remainder is wrong or panics are half of all numbers, less at most
`w * N * 2 ^ (2 * w)`. -/
theorem C121_rem (hw : 1 < w) (h2 : 2 ≤ N) (he : N % 2 = 0) (oc : Bool) :
    ∀ f ∈ [U.wrappingRem, U.wrappingRemEuclid, U.strictRem, U.strictRemEuclid, U.rem oc, U.remEuclid oc],
    let bad := {y : Limbs w | y.length = N ∧ toNat y ≠ 0 ∧
      ∃ x : Limbs w, x.length = N ∧ ¬ ∃ v, f x y = .ok v ∧ ExactU N (toNat x % toNat y) v}
    bad.ncard ≤ 2 ^ (w * N - 1) ∧ 2 ^ (w * N - 1) ≤ bad.ncard + w * N * 2 ^ (2 * w) := by
  intro f hf bad
  have hpos : 0 < w * N := Nat.mul_pos (by omega) (by omega)
  have e2 : 2 ^ (w * N) = 2 * 2 ^ (w * N - 1) := by
    rw [← Nat.pow_succ', Nat.succ_eq_add_one, Nat.sub_add_cancel hpos]
  let p : Nat → Prop := fun y => y ≠ 0 ∧ ((y < 2 ^ (w * N - 1) ∧ ¬ 2 ^ (bitLen y - 2 * w) ∣ y) ∨
      (y < 2 ^ (w * (N - 1)) ∧ y * 2 ^ (2 * w) / 2 ^ bitLen y / 2 ^ w < y * 2 ^ (2 * w) / 2 ^ bitLen y % 2 ^ w))
  have hb : bad = {y : Limbs w | y.length = N ∧ p (toNat y)} := by
    ext y
    refine and_congr_right fun hy => and_congr_right fun hy0 => ?_
    exact C117_divisors hw hy h2 he hy0 oc f hf
  have hlt : 2 ^ (w * (N - 1)) ≤ 2 ^ (w * N - 1) := by
    apply Nat.pow_le_pow_right (by omega)
    obtain ⟨k, rfl⟩ : ∃ k, N = k + 1 := ⟨N - 1, by omega⟩
    rw [Nat.add_sub_cancel, Nat.mul_succ]
    omega
  classical
  rw [hb, image_toNat]
  constructor
  · refine (Finset.card_le_card (t := Finset.range (2 ^ (w * N - 1))) fun n hn => ?_).trans_eq (Finset.card_range _)
    simp only [Finset.mem_filter, Finset.mem_range] at hn ⊢
    rcases hn.2.2 with h | h
    · exact h.1
    · omega
  · have h := card_long w (w * N - 1)
    rw [Nat.sub_add_cancel hpos] at h
    refine h.trans (Nat.add_le_add_right (Finset.card_le_card fun n hn => ?_) _)
    simp only [Finset.mem_filter, Finset.mem_range] at hn ⊢
    refine ⟨by omega, fun h0 => hn.2 ?_, .inl hn⟩
    rw [h0]
    exact Nat.dvd_zero _

example := C121_rem (w := 64) (N := 4) (by decide) (by decide) rfl true U.wrappingRem (by simp)
/-- `U256` on 64-bit limbs: `2 ^ 255` divisors, less at most `2 ^ 136`. -/
example : 2 ^ 255 - 2 ^ 136 ≤ {y : Limbs 64 | y.length = 4 ∧ toNat y ≠ 0 ∧
    ∃ x : Limbs 64, x.length = 4 ∧ ¬ ∃ v, U.rem false x y = .ok v ∧ ExactU 4 (toNat x % toNat y) v}.ncard := by
  have := (C121_rem (w := 64) (N := 4) (by decide) (by decide) rfl false (U.rem false) (by simp)).2
  norm_num at this ⊢
  omega

/-- C121: the divisors for which some division panics are half of all numbers, up to one part in `2 ^ (w - 2)`. -/
theorem C121_panics (hw : 1 < w) (h3 : 3 ≤ N) (he : N % 2 = 0) (oc : Bool) :
    ∀ f ∈ [U.wrappingDiv, U.wrappingDivEuclid, U.saturatingDiv, U.divFloor, U.strictDiv, U.strictDivEuclid, U.div oc,
      U.divEuclid oc],
    let bad := {y : Limbs w | y.length = N ∧ toNat y ≠ 0 ∧ ∃ x : Limbs w, x.length = N ∧ f x y = .panic}
    bad.ncard ≤ 2 ^ (w * N - 1) ∧ 2 ^ (w * N - 1) ≤ bad.ncard + 2 ^ (w * (N - 1)) + w * N * 2 ^ (2 * w) := by
  intro f hf bad
  have hpos : 0 < w * N := Nat.mul_pos (by omega) (by omega)
  have e2 : 2 ^ (w * N) = 2 * 2 ^ (w * N - 1) := by
    rw [← Nat.pow_succ', Nat.succ_eq_add_one, Nat.sub_add_cancel hpos]
  let p : Nat → Prop := fun y => y ≠ 0 ∧
    (2 ^ (w * (N - 1)) ≤ y ∧ y < 2 ^ (w * N - 1) ∧ ¬ 2 ^ (bitLen y - 2 * w) ∣ y)
  have hb : bad = {y : Limbs w | y.length = N ∧ p (toNat y)} := by
    ext y
    refine and_congr_right fun hy => and_congr_right fun hy0 => ?_
    exact (C120_uint hw hy h3 he hy0 oc).1 f hf
  classical
  rw [hb, image_toNat]
  constructor
  · refine (Finset.card_le_card (t := Finset.range (2 ^ (w * N - 1))) fun n hn => ?_).trans_eq (Finset.card_range _)
    simp only [Finset.mem_filter, Finset.mem_range] at hn ⊢
    exact hn.2.2.2.1
  · have h := card_long w (w * N - 1)
    rw [Nat.sub_add_cancel hpos] at h
    refine h.trans (Nat.add_le_add_right ?_ _)
    refine le_trans (Finset.card_le_card fun n hn => ?_) ((Finset.card_union_le {n ∈ Finset.range (2 ^ (w * N)) | p n}
      (Finset.range (2 ^ (w * (N - 1))))).trans_eq (congrArg _ (Finset.card_range _)))
    simp only [Finset.mem_filter, Finset.mem_range, Finset.mem_union] at hn ⊢
    rcases Nat.lt_or_ge n (2 ^ (w * (N - 1))) with h1 | h1
    · exact .inr h1
    · refine .inl ⟨by omega, ?_, h1, hn⟩
      have : 0 < 2 ^ (w * (N - 1)) := by positivity
      omega

example := C121_panics (w := 64) (N := 4) (by decide) (by decide) rfl true (U.div true) (by simp)
/-- `U256` on 64-bit limbs: all but one in `2 ^ 62` of the numbers below `2 ^ 255`. -/
example : 2 ^ 255 - 2 ^ 193 ≤ {y : Limbs 64 | y.length = 4 ∧ toNat y ≠ 0 ∧
    ∃ x : Limbs 64, x.length = 4 ∧ U.div false x y = .panic}.ncard := by
  have := (C121_panics (w := 64) (N := 4) (by decide) (by decide) rfl false (U.div false) (by simp)).2
  norm_num at this ⊢
  omega

/-- C121: the same for signed remainders. -/
theorem C121_rem_signed (hw : 1 < w) (h3 : 3 ≤ N) (he : N % 2 = 0) :
    let bad := {y : Limbs w | y.length = N ∧ toInt y ≠ 0 ∧
      ∃ x : Limbs w, x.length = N ∧ ¬ ∃ v, I.wrappingRem x y = .ok v ∧ ExactS N ((toInt x).tmod (toInt y)) v}
    bad.ncard ≤ 2 ^ (w * N - 1) + 2 ^ (w * (N - 2)) ∧ 2 ^ (w * N - 1) ≤ bad.ncard + 2 * (w * N) * 2 ^ (2 * w) := by
  intro bad
  obtain ⟨p1, p2, p3, p4, p5, p6, p7, p8, p9, p10, p11⟩ := pow_facts hw h3
  let q : Nat → Prop := fun a => (a < 2 ^ (w * N - 2) + 2 ^ (w * (N - 2) - 1) ∧ ¬ 2 ^ (bitLen a - 2 * w) ∣ a) ∨
      (a < 2 ^ (w * (N - 1) - 1) + 2 ^ (w * (N - 2)) ∧
        a * 2 ^ (2 * w) / 2 ^ bitLen a / 2 ^ w < a * 2 ^ (2 * w) / 2 ^ bitLen a % 2 ^ w)
  let p : Int → Prop := fun z => z ≠ 0 ∧ q z.natAbs
  have hb : bad = {y : Limbs w | y.length = N ∧ p (toInt y)} := by
    ext y
    refine and_congr_right fun hy => and_congr_right fun hy0 => ?_
    exact C120_rem hw hy h3 he hy0
  have l1 : 2 ^ (w * (N - 2)) ≤ 2 ^ (w * (N - 1) - 1) := Nat.pow_le_pow_right (by omega) (by omega)
  have l2 : 2 ^ (w * (N - 1)) ≤ 2 ^ (w * N - 2) := Nat.pow_le_pow_right (by omega) (by omega)
  have hpos : 0 < w * N := by omega
  rw [hb]
  constructor
  · refine (ncard_toInt_le (b := 2 ^ (w * N - 2) + 2 ^ (w * (N - 2) - 1)) ?_).trans (by omega)
    rintro z ⟨-, h | h⟩
    · exact h.1
    · have := h.1
      omega
  · have h := card_long w (w * N - 2)
    have hz : (w * N - 2 + 1) * 2 ^ (2 * w) ≤ w * N * 2 ^ (2 * w) := Nat.mul_le_mul_right _ (by omega)
    have h1 := le_ncard_toInt (w := w) (N := N) (p := p)
      (A := {y ∈ Finset.range (2 ^ (w * N - 2)) | ¬ 2 ^ (bitLen y - 2 * w) ∣ y}) hpos (by simp) (by
        intro a ha
        simp only [Finset.mem_filter, Finset.mem_range] at ha
        have ha0 : a ≠ 0 := by
          intro h0
          apply ha.2
          rw [h0]
          exact Nat.dvd_zero _
        refine ⟨by omega, ⟨by omega, .inl ?_⟩, ⟨by omega, .inl ?_⟩⟩
        · rw [Int.natAbs_natCast]
          exact ⟨by omega, ha.2⟩
        · rw [Int.natAbs_neg, Int.natAbs_natCast]
          exact ⟨by omega, ha.2⟩)
    rw [Nat.mul_assoc]
    omega

example := C121_rem_signed (w := 64) (N := 4) (by decide) (by decide) rfl
/-- `I256` on 64-bit limbs. -/
example : 2 ^ 255 - 2 ^ 137 ≤ {y : Limbs 64 | y.length = 4 ∧ toInt y ≠ 0 ∧ ∃ x : Limbs 64, x.length = 4 ∧
    ¬ ∃ v, I.wrappingRem x y = .ok v ∧ ExactS 4 ((toInt x).tmod (toInt y)) v}.ncard := by
  have := (C121_rem_signed (w := 64) (N := 4) (by decide) (by decide) rfl).2
  norm_num at this ⊢
  omega

/-- C121: of the `2 ^ (2 * w)` double-limb divisors about an eighth or more panic for some number. -/
theorem C121_wide (hw : 1 < w) (h3 : 3 ≤ N) (oc : Bool) :
    ∀ f ∈ [U.divUWide oc, U.wrappingDivUWide],
    2 ^ (2 * w - 3) ≤ {n : BitVec (w + w) | n ≠ 0 ∧ ∃ x : Limbs w, x.length = N ∧ f x n = .panic}.ncard
      + 2 ^ (w - 2) := by
  intro f hf
  have e1 : 2 ^ w = 2 * 2 ^ (w - 1) := by
    rw [← Nat.pow_succ', Nat.succ_eq_add_one, Nat.sub_add_cancel (by omega)]
  have e2 : 2 ^ (w - 1) = 2 * 2 ^ (w - 2) := by
    rw [← Nat.pow_succ', Nat.succ_eq_add_one, show w - 2 + 1 = w - 1 by omega]
  have e3 : 2 ^ (2 * w - 3) = 2 ^ (w - 2) * 2 ^ (w - 1) := by
    rw [← Nat.pow_add]
    congr 1
    omega
  have h := le_ncard_halves (w := w)
    (p := fun n => n ≠ 0 ∧ ∃ x : Limbs w, x.length = N ∧ f x n = .panic) (by omega) (by
      intro u l hu hl hl'
      have hlt : u * 2 ^ w + l < 2 ^ (w + w) := by
        have := Nat.mul_le_mul_right (2 ^ w) (show u + 1 ≤ 2 ^ w by omega)
        rw [Nat.pow_add]
        linarith
      have hge : 2 ^ (w + w - 1) ≤ u * 2 ^ w + l := by
        rw [show w + w - 1 = (w - 1) + w by omega, Nat.pow_add]
        have := Nat.mul_le_mul_right (2 ^ w) hu
        omega
      have hv : (BitVec.ofNat (w + w) (u * 2 ^ w + l)).toNat = u * 2 ^ w + l := by
        rw [BitVec.toNat_ofNat, Nat.mod_eq_of_lt hlt]
      have hL : bitLen (u * 2 ^ w + l) = 2 * w := by
        rw [bitLen_unique hge (by rwa [show w + w - 1 + 1 = w + w by omega])]
        omega
      have hn : BitVec.ofNat (w + w) (u * 2 ^ w + l) ≠ 0 := by
        intro h0
        rw [h0] at hv
        have : 0 < 2 ^ (w + w - 1) := by positivity
        rw [show (0 : BitVec (w + w)).toNat = 0 by simp] at hv
        omega
      refine ⟨hn, ((C118_divisors hw h3 hn oc).2.2.2.1 f hf).2 ?_⟩
      rw [hv, hL, Nat.sub_self, Nat.pow_zero, Nat.mul_one, Nat.add_comm, Nat.add_mul_div_right _ _ (by positivity),
        Nat.div_eq_of_lt hl', Nat.zero_add, Nat.add_mul_mod_self_right, Nat.mod_eq_of_lt hl']
      exact hl)
  have e4 : 2 ^ (w - 1) * (2 ^ (w - 1) - 1) / 2 = 2 ^ (w - 2) * (2 ^ (w - 1) - 1) := by
    conv_lhs => rw [e2, Nat.mul_assoc, Nat.mul_div_cancel_left _ (by omega)]
    rw [← e2]
  rw [e4, Nat.mul_sub, Nat.mul_one] at h
  omega

example := C121_wide (w := 64) (N := 4) (by decide) (by decide) true (U.divUWide true) (by simp)
/-- `U256` and `u128` on 64-bit limbs: `2 ^ 125` divisors, less at most `2 ^ 62`. -/
example : 2 ^ 125 - 2 ^ 62 ≤ {n : BitVec (64 + 64) | n ≠ 0 ∧ ∃ x : Limbs 64, x.length = 4 ∧
    U.wrappingDivUWide x n = .panic}.ncard := by
  have := C121_wide (w := 64) (N := 4) (by decide) (by decide) true U.wrappingDivUWide (by simp)
  norm_num at this ⊢
  omega

end I256
