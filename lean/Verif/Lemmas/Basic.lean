import Verif.Model.Limb
import Mathlib.Tactic.Ring
import Mathlib.Tactic.Linarith
import Mathlib.Tactic.LinearCombination

namespace I256

variable {w : Nat}

@[simp] theorem toNat_nil : toNat ([] : Limbs w) = 0 := rfl
@[simp] theorem toNat_cons (x : BitVec w) (xs : Limbs w) :
    toNat (x :: xs) = x.toNat + 2 ^ w * toNat xs := rfl

@[simp] theorem bits_nil : bits ([] : Limbs w) = 0 := by simp [bits]
theorem bits_cons (x : BitVec w) (xs : Limbs w) : bits (x :: xs) = w + bits xs := by
  simp [bits, Nat.mul_add]; omega

theorem pow_bits_cons (x : BitVec w) (xs : Limbs w) :
    2 ^ bits (x :: xs) = 2 ^ w * 2 ^ bits xs := by
  rw [bits_cons, Nat.pow_add]

theorem toNat_lt (x : Limbs w) : toNat x < 2 ^ bits x := by
  induction x with
  | nil => simp
  | cons x xs ih =>
    rw [pow_bits_cons, toNat_cons]
    have hx := x.isLt
    calc x.toNat + 2 ^ w * toNat xs < 2 ^ w + 2 ^ w * toNat xs := by omega
      _ = 2 ^ w * (toNat xs + 1) := by ring
      _ ≤ 2 ^ w * 2 ^ bits xs := Nat.mul_le_mul_left _ ih

theorem toNat_append (x y : Limbs w) : toNat (x ++ y) = toNat x + 2 ^ bits x * toNat y := by
  induction x with
  | nil => simp
  | cons a xs ih =>
    rw [List.cons_append, toNat_cons, toNat_cons, ih, pow_bits_cons]; ring

theorem bits_append (x y : Limbs w) : bits (x ++ y) = bits x + bits y := by
  simp [bits, Nat.mul_add]

theorem bits_eq_of_length {x y : Limbs w} (h : x.length = y.length) : bits x = bits y := by
  simp [bits, h]

/-- The value determines the limbs. -/
theorem toNat_inj {x y : Limbs w} (hl : x.length = y.length) (h : toNat x = toNat y) : x = y := by
  induction x generalizing y with
  | nil => cases y <;> simp_all
  | cons a xs ih =>
    cases y with
    | nil => simp at hl
    | cons b ys =>
      simp only [List.length_cons, Nat.add_right_cancel_iff] at hl
      simp only [toNat_cons] at h
      have ha := a.isLt
      have hb := b.isLt
      have h1 : a.toNat = b.toNat := by
        have := congrArg (· % 2 ^ w) h
        simpa [Nat.mod_eq_of_lt ha, Nat.mod_eq_of_lt hb] using this
      have h2 : toNat xs = toNat ys := by
        rw [h1] at h
        exact Nat.eq_of_mul_eq_mul_left (Nat.two_pow_pos w) (by omega)
      rw [BitVec.eq_of_toNat_eq h1, ih hl h2]

theorem toNat_replicate_zero (n : Nat) : toNat (List.replicate n (0 : BitVec w)) = 0 := by
  induction n with
  | zero => rfl
  | succ n ih => rw [List.replicate_succ, toNat_cons, ih]; simp

@[simp] theorem bits_replicate (n : Nat) (a : BitVec w) : bits (List.replicate n a) = w * n := by
  simp [bits]

/-! ### signed value -/

theorem toInt_eq_bmod (x : Limbs w) : toInt x = Int.bmod (toNat x) (2 ^ bits x) := by
  have h := toNat_lt x
  unfold toInt
  rw [Int.bmod_def]
  have h1 : ((toNat x : Int) % ((2 ^ bits x : Nat) : Int)) = toNat x :=
    Int.emod_eq_of_lt (by omega) (by exact_mod_cast h)
  rw [h1]
  have h2 : ((2 ^ bits x : Nat) : Int) = (2 : Int) ^ bits x := by push_cast; rfl
  rw [h2]
  have h2' : (2:Int) ^ bits x > 0 := by positivity
  have h3 : (2 * toNat x < 2 ^ bits x) ↔ (2 * (toNat x : Int) < (2 : Int) ^ bits x) := by
    rw [← h2]; norm_cast
  by_cases hc : 2 * toNat x < 2 ^ bits x
  · have hc' := h3.1 hc
    rw [if_pos hc, if_pos]; omega
  · have hc' := mt h3.2 hc
    rw [if_neg hc, if_neg]; omega

/-- The unsigned and the signed value agree modulo `2^bits`. -/
theorem toInt_emod (x : Limbs w) : toInt x % 2 ^ bits x = (toNat x : Int) % 2 ^ bits x := by
  unfold toInt; split
  · rfl
  · simp

theorem toInt_InS (x : Limbs w) : InS (bits x) (toInt x) := by
  have h := toNat_lt x
  have h2 : ((2 ^ bits x : Nat) : Int) = (2 : Int) ^ bits x := by push_cast; rfl
  have h' : (toNat x : Int) < (2 : Int) ^ bits x := by rw [← h2]; exact_mod_cast h
  unfold toInt InS
  split
  · rename_i hc
    have : 2 * (toNat x : Int) < (2 : Int) ^ bits x := by rw [← h2]; exact_mod_cast hc
    omega
  · rename_i hc
    have : ¬ 2 * (toNat x : Int) < (2 : Int) ^ bits x := by rw [← h2]; exact_mod_cast hc
    omega

theorem bmod_of_InS {n : Nat} {z : Int} (h : InS n z) : Int.bmod z (2 ^ n) = z := by
  obtain ⟨h1, h2⟩ := h
  rw [Int.bmod_eq_of_le_mul_two] <;> push_cast <;> omega

theorem InS_bmod (n : Nat) (z : Int) : InS n (Int.bmod z (2 ^ n)) := by
  have hp : 0 < 2 ^ n := Nat.two_pow_pos n
  have h1 := Int.le_bmod (x := z) hp
  have h2 := Int.bmod_lt (x := z) hp
  have h3 : ((2 ^ n : Nat) : Int) = (2 : Int) ^ n := by push_cast; rfl
  rw [h3] at h1 h2
  unfold InS
  omega

/-- Criterion: a limb array whose unsigned value is congruent to `z` denotes the two's complement
reduction of `z`. -/
theorem toInt_of_modEq {x : Limbs w} {z : Int}
    (h : (toNat x : Int) % 2 ^ bits x = z % 2 ^ bits x) : toInt x = Int.bmod z (2 ^ bits x) := by
  rw [toInt_eq_bmod]
  have h3 : ((2 ^ bits x : Nat) : Int) = (2 : Int) ^ bits x := by push_cast; rfl
  rw [← Int.emod_bmod (z) (2 ^ bits x), ← Int.emod_bmod (toNat x : Int) (2 ^ bits x), h3, h]

end I256
