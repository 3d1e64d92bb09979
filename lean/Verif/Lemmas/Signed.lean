import Verif.Lemmas.Limb

namespace I256

variable {w : Nat}

theorem natCast_two_pow (n : Nat) : ((2 ^ n : Nat) : Int) = (2 : Int) ^ n := by push_cast; rfl

theorem toNat_lt_int (x : Limbs w) : (toNat x : Int) < (2 : Int) ^ bits x := by
  rw [← natCast_two_pow]; exact_mod_cast toNat_lt x

theorem bv_lt_int (x : BitVec w) : (x.toNat : Int) < (2 : Int) ^ w := by
  rw [← natCast_two_pow]; exact_mod_cast x.isLt

theorem toInt_singleton (x : BitVec w) : toInt [x] = x.toInt := by
  have hb : bits [x] = w := by simp [bits]
  unfold toInt
  rw [hb, BitVec.toInt_eq_toNat_cond]
  simp

theorem bits_pos {x : Limbs w} (hw : 0 < w) (h : x ≠ []) : 0 < bits x := by
  unfold bits; exact Nat.mul_pos hw (List.length_pos_iff.2 h)

/-- The lower limb contributes an unsigned digit to the signed value. -/
theorem toInt_cons (hw : 0 < w) (x : BitVec w) {xs : Limbs w} (h : xs ≠ []) :
    toInt (x :: xs) = x.toNat + 2 ^ w * toInt xs := by
  have hx := x.isLt
  have hb := bits_pos hw h
  unfold toInt
  have e1 : (2:Nat) ^ bits xs = 2 * 2 ^ (bits xs - 1) := by
    rw [← Nat.pow_succ']; congr 1; omega
  have hc : (2 * toNat (x :: xs) < 2 ^ bits (x :: xs)) ↔ 2 * toNat xs < 2 ^ bits xs := by
    rw [pow_bits_cons, toNat_cons, e1]
    constructor
    · intro h
      have : 2 ^ w * toNat xs < 2 ^ w * 2 ^ (bits xs - 1) := by nlinarith
      have := Nat.lt_of_mul_lt_mul_left this
      omega
    · intro h
      have h' : toNat xs + 1 ≤ 2 ^ (bits xs - 1) := by omega
      have := Nat.mul_le_mul_left (2 ^ w) h'
      nlinarith
  have e2 : (2:Int) ^ bits (x :: xs) = 2 ^ w * 2 ^ bits xs := by rw [bits_cons, pow_add]
  by_cases h1 : 2 * toNat xs < 2 ^ bits xs
  · rw [if_pos h1, if_pos (hc.2 h1)]; simp
  · rw [if_neg h1, if_neg (mt hc.1 h1), e2]; push_cast [toNat_cons]; ring

theorem InS_step {n v : Nat} {z : Int} (hn : 0 < n) (hv : v < 2 ^ w) :
    InS (w + n) (v + 2 ^ w * z) ↔ InS n z := by
  unfold InS
  have hv' : (v : Int) < 2 ^ w := by rw [← natCast_two_pow]; exact_mod_cast hv
  have hv0 : (0 : Int) ≤ v := by omega
  have e1 : (2:Int) ^ n = 2 * 2 ^ (n - 1) := by
    rw [← pow_succ']; congr 1; omega
  rw [pow_add, e1]
  generalize (2:Int) ^ (n-1) = m
  have hp : (0:Int) < 2 ^ w := by positivity
  generalize (2:Int) ^ w = P at *
  constructor
  · rintro ⟨h1, h2⟩
    constructor
    · have : P * (-m - 1) < P * z := by nlinarith
      have := lt_of_mul_lt_mul_left this hp.le
      omega
    · have : P * z < P * m := by nlinarith
      have := lt_of_mul_lt_mul_left this hp.le
      omega
  · rintro ⟨h1, h2⟩
    constructor
    · have : P * (-m) ≤ P * z := mul_le_mul_of_nonneg_left (by omega) hp.le
      nlinarith
    · have : P * (z + 1) ≤ P * m := mul_le_mul_of_nonneg_left (by omega) hp.le
      nlinarith

theorem boolLimb_toInt (hw : 1 < w) (c : Bool) : (boolLimb w c).toInt = c.toNat := by
  have h4 : 4 ≤ 2 ^ w := by
    calc 4 = 2 ^ 2 := rfl
      _ ≤ 2 ^ w := Nat.pow_le_pow_right (by omega) hw
  rw [BitVec.toInt_eq_toNat_cond, boolLimb_toNat (by omega)]
  cases c <;> simp; omega

theorem bv_InS (x : BitVec w) : InS w x.toInt := by
  have := toInt_InS [x]
  rw [toInt_singleton] at this
  simpa [bits] using this

theorem two_pow_pred (hw : 0 < w) : (2:Int) ^ w = 2 * 2 ^ (w - 1) := by
  rw [← pow_succ']; congr 1; omega

theorem saddOverflow_iff (hw : 0 < w) (x y : BitVec w) :
    BitVec.saddOverflow x y = true ↔ ¬ InS w (x.toInt + y.toInt) := by
  unfold BitVec.saddOverflow InS
  rw [two_pow_pred hw]
  simp only [Bool.or_eq_true, decide_eq_true_eq]
  omega

theorem ssubOverflow_iff (hw : 0 < w) (x y : BitVec w) :
    BitVec.ssubOverflow x y = true ↔ ¬ InS w (x.toInt - y.toInt) := by
  unfold BitVec.ssubOverflow InS
  rw [two_pow_pred hw]
  simp only [Bool.or_eq_true, decide_eq_true_eq]
  omega

theorem bmod_cases {n : Nat} {z : Int} (h1 : -2 ^ n ≤ z) (h2 : z < 2 ^ n) :
    (InS n z → Int.bmod z (2 ^ n) = z) ∧
    (¬ InS n z → 0 ≤ z → Int.bmod z (2 ^ n) = z - 2 ^ n) ∧
    (¬ InS n z → z < 0 → Int.bmod z (2 ^ n) = z + 2 ^ n) := by
  refine ⟨bmod_of_InS, ?_, ?_⟩
  · intro h h0
    have : InS n (z - 2 ^ n) := by unfold InS at *; omega
    rw [← bmod_of_InS this, ← natCast_two_pow]
    exact (Int.sub_bmod_right _ _).symm
  · intro h h0
    have : InS n (z + 2 ^ n) := by unfold InS at *; omega
    rw [← bmod_of_InS this, ← natCast_two_pow]
    exact (Int.add_bmod_right _ _).symm

theorem sAddTop (hw : 1 < w) (x y : BitVec w) (c : Bool) :
    (((sAddO x y).2 ^^ (sAddO (sAddO x y).1 (boolLimb w c)).2) = true)
      ↔ ¬ InS w (x.toInt + y.toInt + c.toNat) := by
  have a1 := saddOverflow_iff (by omega) x y
  have a2 := saddOverflow_iff (by omega) (x + y) (boolLimb w c)
  rw [boolLimb_toInt hw, BitVec.toInt_add] at a2
  simp only [sAddO, bne_iff_ne, ne_eq]
  have hx := bv_InS x
  have hy := bv_InS y
  have hc : c.toNat ≤ 1 := Bool.toNat_le c
  have h4 : (4 : Int) ≤ 2 ^ w := by
    rw [← natCast_two_pow]
    have : 4 ≤ 2 ^ w := by
      calc 4 = 2 ^ 2 := rfl
        _ ≤ 2 ^ w := Nat.pow_le_pow_right (by omega) hw
    exact_mod_cast this
  have h2 := two_pow_pred (w := w) (by omega)
  obtain ⟨b1, b2, b3⟩ := bmod_cases (n := w) (z := x.toInt + y.toInt)
    (by unfold InS at hx hy; omega) (by unfold InS at hx hy; omega)
  generalize x.toInt = X at *
  generalize y.toInt = Y at *
  generalize c.toNat = C at *
  generalize (X + Y).bmod (2 ^ w) = V at *
  generalize BitVec.saddOverflow x y = f1 at *
  generalize BitVec.saddOverflow (x + y) (boolLimb w c) = f2 at *
  unfold InS at *
  generalize (2:Int) ^ w = P at *
  cases f1 <;> cases f2 <;> simp at * <;> omega

theorem sSubTop (hw : 1 < w) (x y : BitVec w) (c : Bool) :
    (((sSubO x y).2 ^^ (sSubO (sSubO x y).1 (boolLimb w c)).2) = true)
      ↔ ¬ InS w (x.toInt - y.toInt - c.toNat) := by
  have a1 := ssubOverflow_iff (by omega) x y
  have a2 := ssubOverflow_iff (by omega) (x - y) (boolLimb w c)
  rw [boolLimb_toInt hw, BitVec.toInt_sub] at a2
  simp only [sSubO, bne_iff_ne, ne_eq]
  have hx := bv_InS x
  have hy := bv_InS y
  have hc : c.toNat ≤ 1 := Bool.toNat_le c
  have h4 : (4 : Int) ≤ 2 ^ w := by
    rw [← natCast_two_pow]
    have : 4 ≤ 2 ^ w := by
      calc 4 = 2 ^ 2 := rfl
        _ ≤ 2 ^ w := Nat.pow_le_pow_right (by omega) hw
    exact_mod_cast this
  have h2 := two_pow_pred (w := w) (by omega)
  obtain ⟨b1, b2, b3⟩ := bmod_cases (n := w) (z := x.toInt - y.toInt)
    (by unfold InS at hx hy; omega) (by unfold InS at hx hy; omega)
  generalize x.toInt = X at *
  generalize y.toInt = Y at *
  generalize c.toNat = C at *
  generalize (X - Y).bmod (2 ^ w) = V at *
  generalize BitVec.ssubOverflow x y = f1 at *
  generalize BitVec.ssubOverflow (x - y) (boolLimb w c) = f2 at *
  unfold InS at *
  generalize (2:Int) ^ w = P at *
  cases f1 <;> cases f2 <;> simp at * <;> omega

end I256
