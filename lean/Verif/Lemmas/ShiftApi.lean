import Verif.Lemmas.Rotate

/-! Contracts of the shift and rotation functions of the types. -/

namespace I256

variable {w k : Nat} {x : Limbs w}

theorem two_mul_pow (hk : w = 2 ^ k) : w + w = 2 ^ (k + 1) := by rw [hk, pow_succ]; ring

theorem pow_pos_width (hk : w = 2 ^ k) : 0 < w := by rw [hk]; positivity

theorem wrappingShl_spec (hk : w = 2 ^ k) (h2 : x.length % 2 = 0) (hx : x ≠ []) (s : Nat) :
    (wrappingShl x s).length = x.length ∧
      toNat (wrappingShl x s) = toNat x * 2 ^ (s % bits x) % 2 ^ bits x := by
  have hB := bits_pos (pow_pos_width hk) hx
  have hs : s % bits x < bits (toWide x) := by rw [toWide_bits x h2]; exact Nat.mod_lt _ hB
  obtain ⟨h3, h4⟩ := left_spec (two_mul_pow hk) (toWide x) hs
  rw [toWide_toNat x h2, toWide_bits x h2] at h4
  refine ⟨?_, by rw [wrappingShl, fromWide_toNat, h4]⟩
  rw [wrappingShl, fromWide_length, h3, toWide_length]; omega

theorem wrappingShlU (hk : w = 2 ^ k) (h2 : x.length % 2 = 0) (hx : x ≠ []) (s : Nat) :
    WrapU x.length ((toNat x : Int) * 2 ^ (s % bits x)) (wrappingShl x s) := by
  obtain ⟨h1, h3⟩ := wrappingShl_spec hk h2 hx s
  refine ⟨h1, ?_⟩
  rw [h3, show w * x.length = bits x from rfl]; push_cast; rfl

theorem wrappingShlS (hk : w = 2 ^ k) (h2 : x.length % 2 = 0) (hx : x ≠ []) (s : Nat) :
    WrapS x.length (toInt x * 2 ^ (s % bits x)) (wrappingShl x s) := by
  refine ((wrappingShlU hk h2 hx s).congr ?_).wrapS
  exact (toInt_modEq x).symm.mul_right _

theorem wrappingShr_spec (hk : w = 2 ^ k) (h2 : x.length % 2 = 0) (hx : x ≠ []) (signed : Bool)
    (s : Nat) : (wrappingShr signed x s).length = x.length ∧
      Ord.val signed (wrappingShr signed x s) = Ord.val signed x / 2 ^ (s % bits x) := by
  have hB := bits_pos (pow_pos_width hk) hx
  have hs : s % bits x < bits (toWide x) := by rw [toWide_bits x h2]; exact Nat.mod_lt _ hB
  obtain ⟨h3, h4⟩ := right_spec (two_mul_pow hk) signed (toWide x) hs
  simp only [Ord.val, toWide_toNat x h2, toWide_toInt x h2] at h4
  refine ⟨?_, by simp only [Ord.val, wrappingShr, fromWide_toNat, fromWide_toInt, h4]⟩
  rw [wrappingShr, fromWide_length, h3, toWide_length]; omega

theorem wrappingShrU (hk : w = 2 ^ k) (h2 : x.length % 2 = 0) (hx : x ≠ []) (s : Nat) :
    ExactU x.length ((toNat x : Int) / 2 ^ (s % bits x)) (wrappingShr false x s) :=
  wrappingShr_spec hk h2 hx false s

theorem wrappingShrS (hk : w = 2 ^ k) (h2 : x.length % 2 = 0) (hx : x ≠ []) (s : Nat) :
    ExactS x.length (toInt x / 2 ^ (s % bits x)) (wrappingShr true x s) :=
  wrappingShr_spec hk h2 hx true s

/-! ### Rotations -/

theorem rotateLeft_length (h2 : x.length % 2 = 0) (n : Nat) :
    (rotateLeft x n).length = x.length := by
  rw [rotateLeft, fromWide_length, rotLeft_length, toWide_length]; omega

theorem rotateRight_length (h2 : x.length % 2 = 0) (n : Nat) :
    (rotateRight x n).length = x.length := by
  rw [rotateRight, fromWide_length, Rot.right, rotLeft_length, toWide_length]; omega

theorem rotateLeft_spec (hk : w = 2 ^ k) (h2 : x.length % 2 = 0) (h4 : 4 ≤ x.length) (n : Nat)
    {i : Nat} (hi : i < bits x) :
    (toNat (rotateLeft x n)).testBit ((i + n) % bits x) = (toNat x).testBit i := by
  have := rotLeft_spec (two_mul_pow hk) (x := toWide x) (by rw [toWide_length]; omega) n (i := i)
    (by rw [toWide_bits x h2]; exact hi)
  rwa [toWide_bits x h2, toWide_toNat x h2, ← fromWide_toNat] at this

theorem rotateRight_spec (hk : w = 2 ^ k) (h2 : x.length % 2 = 0) (h4 : 4 ≤ x.length) (n : Nat)
    {i : Nat} (hi : i < bits x) :
    (toNat (rotateRight x n)).testBit i = (toNat x).testBit ((i + n) % bits x) := by
  have := rotRight_spec (two_mul_pow hk) (x := toWide x) (by rw [toWide_length]; omega) n (i := i)
    (by rw [toWide_bits x h2]; exact hi)
  rwa [toWide_bits x h2, toWide_toNat x h2, ← fromWide_toNat] at this

/-! ### Shift amounts of other types -/

theorem primAsU32_eq {n : Nat} (ps : Bool) (a : BitVec n) {v : Nat} (hv : primVal ps a = v)
    (hlt : v < 2 ^ 32) : primAsU32 ps a = v := by
  unfold primAsU32
  cases ps
  · simp only [primVal, Bool.false_eq_true, if_false] at hv ⊢
    rw [BitVec.toNat_setWidth, Nat.mod_eq_of_lt (by omega)]; omega
  · simp only [primVal, if_true] at hv ⊢
    have h0 : a.msb = false := by rw [BitVec.msb_eq_toInt]; simp; omega
    rw [BitVec.signExtend_eq_setWidth_of_msb_false h0, BitVec.toNat_setWidth]
    rw [BitVec.toInt_eq_toNat_of_msb h0] at hv
    rw [Nat.mod_eq_of_lt (by omega)]; omega

theorem primInRange_iff {n : Nat} (ps : Bool) {B : Nat} (a : BitVec n)
    (hB : if ps then 2 * B < 2 ^ n else B < 2 ^ n) :
    primInRange ps B a = true ↔ 0 ≤ primVal ps a ∧ primVal ps a < B := by
  unfold primInRange
  cases ps
  · simp only [primVal, Bool.false_eq_true, if_false] at hB ⊢
    rw [BitVec.ult_iff_lt, BitVec.lt_def, BitVec.toNat_ofNat, Nat.mod_eq_of_lt hB]; omega
  · simp only [primVal, if_true] at hB ⊢
    have h1 : (BitVec.ofNat n B).toInt = B := by
      rw [BitVec.toInt_eq_toNat_cond, BitVec.toNat_ofNat, Nat.mod_eq_of_lt (by omega), if_pos hB]
    rw [Bool.and_eq_true, BitVec.slt_iff_toInt_lt, h1, Bool.not_eq_true', ← Bool.not_eq_true,
      BitVec.slt_iff_toInt_lt]
    simp; omega

theorem asU32_eq (hw : 32 ≤ w) {y : Limbs w} {v : Nat} (hv : toNat y = v) (hlt : v < 2 ^ 32) :
    asU32 y = v := by
  have hp : 2 ^ 32 ≤ 2 ^ w := Nat.pow_le_pow_right (by decide) hw
  unfold asU32 getLimb
  rw [BitVec.toNat_setWidth]
  cases y with
  | nil => simp at hv ⊢; exact hv
  | cons a y =>
    rw [toNat_cons] at hv
    have h0 : toNat y = 0 := by
      by_contra h
      have := Nat.mul_le_mul_left (2 ^ w) (show 1 ≤ toNat y by omega)
      omega
    rw [h0] at hv
    simp only [List.getD_cons_zero]
    rw [Nat.mod_eq_of_lt (by omega)]; omega

theorem bigOutOfRange_iff (hw : 32 ≤ w) (os : Bool) {y : Limbs w} (h2 : y.length % 2 = 0)
    (hy : 2 ≤ y.length) {B : Nat} (hB : B < 2 ^ 32) :
    bigOutOfRange os B y = true ↔ ¬ (0 ≤ Ord.val os y ∧ Ord.val os y < B) := by
  have hp : 2 ^ 32 ≤ 2 ^ w := Nat.pow_le_pow_right (by decide) hw
  have e : ∀ v : BitVec w, Ord.val os (extU y.length v) = v.toNat := by
    intro v; cases os
    · simp [Ord.val, extU_toNat]
    · simp only [Ord.val, if_true]; rw [extU_toInt (by omega) hy]
  unfold bigOutOfRange Ord.ge
  rw [Bool.or_eq_true, Bool.not_eq_true', ← Bool.not_eq_true,
    Ord.lt_iff (by omega) os (extU_length (by omega) _).symm h2 hy,
    Ord.lt_iff (by omega) os (extU_length (by omega) _).symm h2 hy, e, e, BitVec.toNat_ofNat,
    Nat.mod_eq_of_lt (by omega)]
  simp; omega

end I256
