import Verif.Model.Add
import Verif.Lemmas.Signed

namespace I256

variable {w : Nat}

/-! ### extension of scalars -/

theorem signLimb_toNat (neg : Bool) : (signLimb w neg).toNat = if neg then 2 ^ w - 1 else 0 := by
  have := Nat.two_pow_pos w
  rcases Nat.eq_zero_or_pos w with h | hw
  · subst h; cases neg <;> simp [signLimb, boolLimb] <;> rfl
  · unfold signLimb
    rw [BitVec.toNat_sub, boolLimb_toNat hw]
    cases neg
    · simp
    · have h1 : (1:Nat) < 2 ^ w := one_lt_two_pow' hw
      simp

theorem extU_length {N : Nat} (hN : 1 ≤ N) (y : BitVec w) : (extU N y).length = N := by
  simp [extU]; omega
theorem extUW_length {N : Nat} (hN : 2 ≤ N) (y : BitVec (w + w)) : (extUW N y).length = N := by
  simp [extUW]; omega
theorem extI_length {N : Nat} (hN : 1 ≤ N) (y : BitVec w) : (extI N y).length = N := by
  simp [extI]; omega
theorem extIW_length {N : Nat} (hN : 2 ≤ N) (y : BitVec (w + w)) : (extIW N y).length = N := by
  simp [extIW]; omega

theorem extU_toNat (N : Nat) (y : BitVec w) : toNat (extU N y) = y.toNat := by
  rw [extU, toNat_cons, toNat_replicate_zero]; simp

theorem extUW_toNat (N : Nat) (y : BitVec (w + w)) : toNat (extUW N y) = y.toNat := by
  rw [extUW, toNat_cons, toNat_cons, toNat_replicate_zero, ← lo_hi y]; simp

theorem twoLimbs_toNat (y : BitVec (w + w)) : toNat (twoLimbs y) = y.toNat := by
  rw [twoLimbs, toNat_cons, toNat_cons, ← lo_hi y]; simp

theorem toNat_signFill (n : Nat) (neg : Bool) :
    (toNat (List.replicate n (signLimb w neg)) : Int) = if neg then 2 ^ (w * n) - 1 else 0 := by
  induction n with
  | zero => simp
  | succ n ih =>
    rw [List.replicate_succ, toNat_cons]
    push_cast
    rw [ih, signLimb_toNat]
    have : 1 ≤ 2 ^ w := Nat.one_le_two_pow
    cases neg
    · simp
    · simp only [if_true]
      push_cast [this]
      rw [Nat.mul_succ, pow_add]; ring

theorem InS_mono {m n : Nat} (h : m ≤ n) {z : Int} (hz : InS m z) : InS n z := by
  unfold InS at *
  have : (2:Int) ^ m ≤ 2 ^ n := pow_le_pow_right₀ (by norm_num) h
  omega

theorem bv_toInt_eq (y : BitVec w) : y.toInt = (y.toNat : Int) - if y.msb then 2 ^ w else 0 := by
  rw [BitVec.toInt_eq_msb_cond]
  split <;> simp

theorem extI_toInt {N : Nat} (hN : 1 ≤ N) (y : BitVec w) : toInt (extI N y) = y.toInt := by
  have hb : bits (extI N y) = w + w * (N - 1) := by
    rw [bits, extI_length hN, Nat.add_comm, ← Nat.mul_succ]; congr 1; omega
  have hi : InS (bits (extI N y)) y.toInt := InS_mono (by omega) (bv_InS y)
  rw [← bmod_of_InS hi]
  apply toInt_of_modEq
  rw [Int.emod_eq_emod_iff_emod_sub_eq_zero]
  rw [bv_toInt_eq, hb, extI, toNat_cons]
  push_cast
  rw [toNat_signFill, pow_add]
  apply Int.emod_eq_zero_of_dvd
  cases y.msb
  · simp
  · simp only [if_true]
    exact ⟨1, by ring⟩

theorem extIW_toInt {N : Nat} (hN : 2 ≤ N) (y : BitVec (w + w)) : toInt (extIW N y) = y.toInt := by
  have hb : bits (extIW N y) = (w + w) + w * (N - 2) := by
    have : N = (N - 2) + 1 + 1 := by omega
    rw [bits, extIW_length hN, this, Nat.mul_succ, Nat.mul_succ]; simp; omega
  have hi : InS (bits (extIW N y)) y.toInt := InS_mono (by omega) (bv_InS y)
  rw [← bmod_of_InS hi]
  apply toInt_of_modEq
  rw [Int.emod_eq_emod_iff_emod_sub_eq_zero]
  rw [bv_toInt_eq, hb, extIW, toNat_cons, toNat_cons, ← lo_hi y]
  push_cast
  rw [toNat_signFill, pow_add, pow_add]
  apply Int.emod_eq_zero_of_dvd
  cases y.msb
  · simp only [Bool.false_eq_true, if_false]; exact ⟨0, by ring⟩
  · simp only [if_true]
    exact ⟨1, by ring⟩

theorem extU_toInt {N : Nat} (hw : 0 < w) (hN : 2 ≤ N) (y : BitVec w) :
    toInt (extU N y) = y.toNat := by
  unfold toInt
  rw [extU_toNat, if_pos]
  have hy := y.isLt
  have : bits (extU N y) = w * (N - 1) + w := by
    rw [bits, extU_length (by omega), ← Nat.mul_succ]; congr 1; omega
  rw [this, Nat.pow_add]
  have h2 : 2 ≤ 2 ^ (w * (N - 1)) := by
    calc 2 = 2 ^ 1 := rfl
      _ ≤ _ := Nat.pow_le_pow_right (by omega) (Nat.mul_pos hw (by omega))
  nlinarith

theorem extUW_toInt {N : Nat} (hw : 0 < w) (hN : 3 ≤ N) (y : BitVec (w + w)) :
    toInt (extUW N y) = y.toNat := by
  unfold toInt
  rw [extUW_toNat, if_pos]
  have hy := y.isLt
  have : bits (extUW N y) = w * (N - 2) + (w + w) := by
    have : N = (N - 2) + 1 + 1 := by omega
    rw [bits, extUW_length (by omega), this, Nat.mul_succ, Nat.mul_succ]; simp; omega
  rw [this, Nat.pow_add]
  have h2 : 2 ≤ 2 ^ (w * (N - 2)) := by
    calc 2 = 2 ^ 1 := rfl
      _ ≤ _ := Nat.pow_le_pow_right (by omega) (Nat.mul_pos hw (by omega))
  nlinarith

namespace Add

theorem overflowingLoop_length (x y : Limbs w) (c : Bool) (h : x.length = y.length) :
    (overflowingLoop x y c).1.length = x.length := by
  induction x generalizing y c with
  | nil => rfl
  | cons a xs ih =>
    cases y with
    | nil => simp at h
    | cons b ys => simp only [overflowingLoop, List.length_cons]; rw [ih]; simpa using h

theorem overflowingLoop_spec (hw : 0 < w) (x y : Limbs w) (c : Bool) (h : x.length = y.length) :
    toNat (overflowingLoop x y c).1 + 2 ^ bits x * (overflowingLoop x y c).2.toNat
      = toNat x + toNat y + c.toNat := by
  induction x generalizing y c with
  | nil => cases y <;> simp_all [overflowingLoop]
  | cons a xs ih =>
    cases y with
    | nil => simp at h
    | cons b ys =>
      have h1 := carryingAdd_spec hw a b c
      have h2 := ih ys (carryingAdd a b c).2 (by simpa using h)
      simp only [overflowingLoop, toNat_cons, pow_bits_cons]
      linear_combination h1 + 2 ^ w * h2

theorem wrappingLoop_eq (x y : Limbs w) (c : Bool) (h : x.length = y.length) :
    wrappingLoop x y c = (overflowingLoop x y c).1 := by
  induction x generalizing y c with
  | nil => cases y <;> rfl
  | cons a xs ih =>
    cases y with
    | nil => simp at h
    | cons b ys =>
      cases xs with
      | nil =>
        cases ys with
        | nil => rfl
        | cons => simp at h
      | cons a' xs =>
        cases ys with
        | nil => simp at h
        | cons b' ys =>
          simp only [wrappingLoop]
          rw [ih _ _ (by simpa using h)]
          rfl

theorem wrappingLoop_length (x y : Limbs w) (c : Bool) (h : x.length = y.length) :
    (wrappingLoop x y c).length = x.length := by
  rw [wrappingLoop_eq _ _ _ h, overflowingLoop_length _ _ _ h]

/-! ### one-limb and m×n operands: the shorter operand may be padded with zeros -/

theorem carryOverflowing_eq (x : Limbs w) (c : Bool) :
    carryOverflowing x c = overflowingLoop x (List.replicate x.length 0) c := by
  induction x generalizing c with
  | nil => rfl
  | cons a xs ih =>
    simp only [carryOverflowing, List.length_cons, List.replicate_succ, overflowingLoop]
    have e : carryingAdd a 0 c = uAddO a (boolLimb w c) := by
      simp [carryingAdd, uAddO, BitVec.uaddOverflow, a.isLt]
    rw [e, ih]

theorem carryWrapping_eq (x : Limbs w) (c : Bool) :
    carryWrapping x c = (carryOverflowing x c).1 := by
  induction x generalizing c with
  | nil => rfl
  | cons a xs ih =>
    cases xs with
    | nil => rfl
    | cons b xs => simp only [carryWrapping, ih]; rfl

theorem overflowingMnLoop_eq (x y : Limbs w) (c : Bool) (h : y.length ≤ x.length) :
    overflowingMnLoop x y c
      = overflowingLoop x (y ++ List.replicate (x.length - y.length) 0) c := by
  induction x generalizing y c with
  | nil => cases y <;> simp_all [overflowingMnLoop, overflowingLoop, carryOverflowing]
  | cons a xs ih =>
    cases y with
    | nil => simp only [overflowingMnLoop, carryOverflowing_eq]; simp
    | cons b ys =>
      simp only [overflowingMnLoop, List.cons_append, overflowingLoop]
      rw [ih _ _ (by simpa using h)]
      simp

theorem wrappingMnLoop_eq (x y : Limbs w) (c : Bool) :
    wrappingMnLoop x y c = (overflowingMnLoop x y c).1 := by
  induction x generalizing y c with
  | nil => cases y <;> rfl
  | cons a xs ih =>
    cases y with
    | nil => simp only [wrappingMnLoop, overflowingMnLoop, carryWrapping_eq]
    | cons b ys => simp only [wrappingMnLoop, overflowingMnLoop, ih]

theorem carryingAdd_false (a b : BitVec w) : carryingAdd a b false = uAddO a b := by
  simp [carryingAdd, uAddO, boolLimb, BitVec.uaddOverflow, (a + b).isLt]
  intro h
  have := (a + b).isLt
  simp at this
  omega

theorem overflowingLimb_eq (x : Limbs w) (y : BitVec w) (hx : x ≠ []) :
    overflowingLimb x y = overflowingFull x (extU x.length y) := by
  cases x with
  | nil => contradiction
  | cons a xs =>
    simp only [overflowingLimb, overflowingFull, extU, overflowingLoop, carryingAdd_false,
      carryOverflowing_eq]
    simp

theorem wrappingLimb_eq (x : Limbs w) (y : BitVec w) :
    wrappingLimb x y = (overflowingLimb x y).1 := by
  cases x with
  | nil => rfl
  | cons a xs => simp only [wrappingLimb, overflowingLimb, carryWrapping_eq]

/-! ### signed -/

theorem sOverflowingLoop_fst (x y : Limbs w) (c : Bool) (h : x.length = y.length) :
    (sOverflowingLoop x y c).1 = wrappingLoop x y c := by
  induction x generalizing y c with
  | nil => cases y <;> rfl
  | cons a xs ih =>
    cases y with
    | nil => simp at h
    | cons b ys =>
      cases xs with
      | nil =>
        cases ys with
        | nil => rfl
        | cons => simp at h
      | cons a' xs =>
        cases ys with
        | nil => simp at h
        | cons b' ys =>
          simp only [wrappingLoop, sOverflowingLoop]
          rw [ih _ _ (by simpa using h)]

theorem sOverflowingLoop_snd (hw : 1 < w) (x y : Limbs w) (c : Bool) (h : x.length = y.length)
    (hx : x ≠ []) :
    (sOverflowingLoop x y c).2 = true ↔ ¬ InS (bits x) (toInt x + toInt y + c.toNat) := by
  induction x generalizing y c with
  | nil => contradiction
  | cons a xs ih =>
    cases y with
    | nil => simp at h
    | cons b ys =>
      cases xs with
      | nil =>
        cases ys with
        | nil =>
          have := sAddTop hw a b c
          simp only [sOverflowingLoop, toInt_singleton]
          rw [this]
          simp [bits]
        | cons => simp at h
      | cons a' xs =>
        cases ys with
        | nil => simp at h
        | cons b' ys =>
          simp only [sOverflowingLoop]
          rw [ih _ _ (by simpa using h) (by simp)]
          have h1 := carryingAdd_spec (by omega) a b c
          rw [toInt_cons (by omega) a (xs := a' :: xs) (by simp),
            toInt_cons (by omega) b (xs := b' :: ys) (by simp), bits_cons a,
            ← InS_step (w := w) (v := (carryingAdd a b c).1.toNat)
              (bits_pos (by omega) (by simp)) (carryingAdd a b c).1.isLt]
          have h2 : ((carryingAdd a b c).1.toNat : Int)
              + 2 ^ w * ((carryingAdd a b c).2.toNat : Int) = a.toNat + b.toNat + c.toNat := by
            exact_mod_cast h1
          rw [show ((carryingAdd a b c).1.toNat : Int) + 2 ^ w * (toInt (a' :: xs)
            + toInt (b' :: ys) + ((carryingAdd a b c).2.toNat : Int)) =
            ↑a.toNat + 2 ^ w * toInt (a' :: xs) + (↑b.toNat + 2 ^ w * toInt (b' :: ys)) + c.toNat by
            linear_combination h2]

theorem sCarryOverflowing_eq (hw : 1 < w) (x : Limbs w) (c : Bool) (hx : x ≠ []) :
    sCarryOverflowing x c = sOverflowingLoop x (List.replicate x.length 0) c := by
  induction x generalizing c with
  | nil => contradiction
  | cons a xs ih =>
    cases xs with
    | nil =>
      have h : BitVec.saddOverflow a 0 = false := by
        rw [← Bool.not_eq_true, saddOverflow_iff (by omega)]
        simpa using bv_InS a
      simp only [sCarryOverflowing, sOverflowingLoop, List.length_cons, List.length_nil,
        List.replicate, sAddO, h]
      simp
    | cons b xs =>
      simp only [sCarryOverflowing, List.length_cons, List.replicate_succ, sOverflowingLoop]
      have e : carryingAdd a 0 c = uAddO a (boolLimb w c) := by
        simp [carryingAdd, uAddO, BitVec.uaddOverflow, a.isLt]
      rw [e, ih _ (by simp)]
      simp only [List.length_cons, List.replicate_succ]

theorem sOverflowingULimb_eq (hw : 1 < w) (x : Limbs w) (y : BitVec w) (hx : 2 ≤ x.length) :
    sOverflowingULimb x y = sOverflowingFull x (extU x.length y) := by
  match x, hx with
  | a :: b :: xs, _ =>
    simp only [sOverflowingULimb, sOverflowingFull, extU]
    rw [sCarryOverflowing_eq hw _ _ (by simp)]
    simp [sOverflowingLoop, carryingAdd_false, List.replicate_succ]

end Add

end I256
