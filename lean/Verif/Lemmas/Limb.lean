import Verif.Lemmas.Basic

namespace I256

variable {w : Nat}

theorem one_lt_two_pow' (hw : 0 < w) : 1 < 2 ^ w := Nat.one_lt_two_pow (by omega)

theorem boolLimb_toNat (hw : 0 < w) (c : Bool) : (boolLimb w c).toNat = c.toNat := by
  have := one_lt_two_pow' hw
  unfold boolLimb
  rw [BitVec.toNat_ofNat]
  apply Nat.mod_eq_of_lt
  cases c
  · simp
  · simp; omega

theorem uAddO_spec (x y : BitVec w) :
    (uAddO x y).1.toNat + 2 ^ w * (uAddO x y).2.toNat = x.toNat + y.toNat := by
  have hx := x.isLt
  have hy := y.isLt
  simp only [uAddO, BitVec.toNat_add, BitVec.uaddOverflow]
  by_cases h : x.toNat + y.toNat ≥ 2 ^ w
  · rw [Nat.mod_eq_sub_mod h, Nat.mod_eq_of_lt (by omega)]; simp [h]
  · rw [Nat.mod_eq_of_lt (by omega)]; simp [h]

theorem uSubO_spec (x y : BitVec w) :
    (uSubO x y).1.toNat + y.toNat = x.toNat + 2 ^ w * (uSubO x y).2.toNat := by
  have hx := x.isLt
  have hy := y.isLt
  simp only [uSubO, BitVec.toNat_sub, BitVec.usubOverflow]
  by_cases h : x.toNat < y.toNat
  · rw [Nat.mod_eq_of_lt (by omega)]; simp [h]; omega
  · rw [show 2 ^ w - y.toNat + x.toNat = 2 ^ w + (x.toNat - y.toNat) by omega,
      Nat.add_mod_left, Nat.mod_eq_of_lt (by omega)]; simp [h]; omega

theorem carryingAdd_spec (hw : 0 < w) (x y : BitVec w) (c : Bool) :
    (carryingAdd x y c).1.toNat + 2 ^ w * (carryingAdd x y c).2.toNat
      = x.toNat + y.toNat + c.toNat := by
  have h1 := uAddO_spec x y
  have h2 := uAddO_spec (uAddO x y).1 (boolLimb w c)
  rw [boolLimb_toNat hw] at h2
  have hx := x.isLt
  have hy := y.isLt
  have hc : c.toNat ≤ 1 := Bool.toNat_le c
  have hv := (uAddO (uAddO x y).1 (boolLimb w c)).1.isLt
  simp only [carryingAdd]
  rcases hb0 : (uAddO x y).2 <;> rcases hb1 : (uAddO (uAddO x y).1 (boolLimb w c)).2 <;>
    simp [hb0, hb1] at * <;> omega

theorem borrowingSub_spec (hw : 0 < w) (x y : BitVec w) (c : Bool) :
    (borrowingSub x y c).1.toNat + y.toNat + c.toNat
      = x.toNat + 2 ^ w * (borrowingSub x y c).2.toNat := by
  have h1 := uSubO_spec x y
  have h2 := uSubO_spec (uSubO x y).1 (boolLimb w c)
  rw [boolLimb_toNat hw] at h2
  have hx := x.isLt
  have hy := y.isLt
  have hc : c.toNat ≤ 1 := Bool.toNat_le c
  have hv := (uSubO (uSubO x y).1 (boolLimb w c)).1.isLt
  simp only [borrowingSub]
  rcases hb0 : (uSubO x y).2 <;> rcases hb1 : (uSubO (uSubO x y).1 (boolLimb w c)).2 <;>
    simp [hb0, hb1] at * <;> omega

@[simp] theorem wide_toNat (x : BitVec w) : (wide x).toNat = x.toNat := by
  simp only [wide, BitVec.toNat_setWidth]
  exact Nat.mod_eq_of_lt (lt_of_lt_of_le x.isLt (Nat.pow_le_pow_right (by omega) (by omega)))

theorem loLimb_toNat (v : BitVec (w + w)) : (loLimb v).toNat = v.toNat % 2 ^ w := by
  simp [loLimb]

theorem hiLimb_toNat (v : BitVec (w + w)) : (hiLimb v).toNat = v.toNat / 2 ^ w := by
  simp only [hiLimb, BitVec.toNat_setWidth, BitVec.toNat_ushiftRight, Nat.shiftRight_eq_div_pow]
  apply Nat.mod_eq_of_lt
  have := v.isLt
  rw [Nat.pow_add] at this
  exact Nat.div_lt_of_lt_mul this

theorem lo_hi (v : BitVec (w + w)) : (loLimb v).toNat + 2 ^ w * (hiLimb v).toNat = v.toNat := by
  rw [loLimb_toNat, hiLimb_toNat]; exact Nat.mod_add_div _ _

theorem mac_bound (a b c d : BitVec w) :
    a.toNat + b.toNat * c.toNat + d.toNat < 2 ^ w * 2 ^ w := by
  have ha := a.isLt
  have hb := b.isLt
  have hc := c.isLt
  have hd := d.isLt
  obtain ⟨B, hB⟩ : ∃ B, 2 ^ w = B + 1 := ⟨2 ^ w - 1, by omega⟩
  have h1 : b.toNat * c.toNat ≤ B * B := Nat.mul_le_mul (by omega) (by omega)
  rw [hB] at ha hd ⊢
  nlinarith

/-- No intermediate overflow in `mac`: the exact value is returned in two limbs. -/
theorem mac_spec (a b c d : BitVec w) :
    (mac a b c d).1.toNat + 2 ^ w * (mac a b c d).2.toNat
      = a.toNat + b.toNat * c.toNat + d.toNat := by
  have h := mac_bound a b c d
  have ha := a.isLt
  have hb := b.isLt
  have hc := c.isLt
  have hd := d.isLt
  simp only [mac, lo_hi]
  simp only [BitVec.toNat_add, BitVec.toNat_mul, wide_toNat]
  rw [Nat.pow_add]
  simp only [Nat.add_mod_mod, Nat.mod_add_mod]
  exact Nat.mod_eq_of_lt h

theorem carryingMul_spec (b c d : BitVec w) :
    (carryingMul b c d).1.toNat + 2 ^ w * (carryingMul b c d).2.toNat
      = b.toNat * c.toNat + d.toNat := by
  have h := mac_bound 0 b c d
  simp only [carryingMul, lo_hi]
  simp only [BitVec.toNat_add, BitVec.toNat_mul, wide_toNat]
  rw [Nat.pow_add]
  simp only [Nat.mod_add_mod]
  apply Nat.mod_eq_of_lt
  simpa using h

end I256
