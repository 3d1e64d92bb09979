import Verif.SpecBits
import Verif.SpecGap
import Verif.Lemmas.Contract

/-!
# From result contracts to bit vectors
-/

namespace I256

variable {w n N : Nat} {z : Int} {v : Limbs w} {a b : BitVec n}

namespace SameBits

theorem toInt (h : SameBits b v) : I256.toInt v = b.toInt := by
  obtain ⟨h1, h2⟩ := h
  rw [I256.toInt, h1, h2, BitVec.toInt]
  split <;> simp

theorem toNat (h : SameBits b v) : I256.toNat v = b.toNat := h.2

theorem length_mul (h : SameBits b v) : w * v.length = n := h.1

theorem of_wrapU (hN : w * N = n) (h : WrapU N z v) : SameBits (BitVec.ofInt n z) v := by
  subst hN
  refine ⟨by rw [I256.bits, h.1], ?_⟩
  have h2 := h.2
  rw [BitVec.toNat_ofInt]
  push_cast
  omega

theorem of_wrapS (hN : w * N = n) (h : WrapS N z v) : SameBits (BitVec.ofInt n z) v := by
  refine of_wrapU hN ⟨h.1, ?_⟩
  have h1 := toInt_emod v
  have h3 : (I256.toNat v : Int) < 2 ^ bits v := by exact_mod_cast toNat_lt v
  rw [Int.emod_eq_of_lt (by omega) h3, h.2, I256.bits, h.1] at h1
  rw [← h1]
  exact_mod_cast Int.bmod_emod

theorem of_exactU (hN : w * N = n) (h : ExactU N z v) : SameBits (BitVec.ofInt n z) v := by
  refine of_wrapU hN ⟨h.1, ?_⟩
  have h3 : (I256.toNat v : Int) < 2 ^ bits v := by exact_mod_cast toNat_lt v
  rw [I256.bits, h.1, h.2] at h3
  have := h.2
  rw [this, Int.emod_eq_of_lt (by omega) h3]

theorem of_exactS (hN : w * N = n) (h : ExactS N z v) : SameBits (BitVec.ofInt n z) v := by
  refine of_wrapS hN ⟨h.1, ?_⟩
  have h3 := toInt_InS v
  rw [I256.bits, h.1] at h3
  rw [← h.2, bmod_of_InS h3]

end SameBits

/-! ### Representability and the overflow predicates -/

namespace SameBits

theorem uaddOverflow_iff : a.uaddOverflow b = decide (¬ InU n (a.toNat + b.toNat)) := by
  rw [BitVec.uaddOverflow, decide_eq_decide, InU]
  have : ((2 ^ n : Nat) : Int) = 2 ^ n := by push_cast; rfl
  omega

theorem usubOverflow_iff : a.usubOverflow b = decide (¬ InU n (a.toNat - b.toNat)) := by
  rw [BitVec.usubOverflow, decide_eq_decide, InU]
  have : ((2 ^ n : Nat) : Int) = 2 ^ n := by push_cast; rfl
  have := a.isLt
  omega

theorem umulOverflow_iff : a.umulOverflow b = decide (¬ InU n ((a.toNat : Int) * b.toNat)) := by
  rw [BitVec.umulOverflow, decide_eq_decide, InU]
  have : ((2 ^ n : Nat) : Int) = 2 ^ n := by push_cast; rfl
  have : ((a.toNat * b.toNat : Nat) : Int) = (a.toNat : Int) * b.toNat := by push_cast; rfl
  omega

theorem not_InS_iff (hn : 0 < n) : ¬ InS n z ↔ z ≥ 2 ^ (n - 1) ∨ z < - 2 ^ (n - 1) := by
  obtain ⟨m, rfl⟩ : ∃ m, n = m + 1 := ⟨n - 1, by omega⟩
  rw [InS, Nat.add_sub_cancel, pow_succ]
  omega

theorem saddOverflow_iff (hn : 0 < n) : a.saddOverflow b = decide (¬ InS n (a.toInt + b.toInt)) := by
  rw [BitVec.saddOverflow, decide_eq_decide.mpr (not_InS_iff hn), Bool.decide_or]

theorem ssubOverflow_iff (hn : 0 < n) : a.ssubOverflow b = decide (¬ InS n (a.toInt - b.toInt)) := by
  rw [BitVec.ssubOverflow, decide_eq_decide.mpr (not_InS_iff hn), Bool.decide_or]

theorem smulOverflow_iff (hn : 0 < n) : a.smulOverflow b = decide (¬ InS n (a.toInt * b.toInt)) := by
  rw [BitVec.smulOverflow, decide_eq_decide.mpr (not_InS_iff hn), Bool.decide_or]

/-! ### The bit vector of an exact result -/

theorem ofInt_toNat : BitVec.ofInt n (a.toNat : Int) = a := by simp

theorem ofInt_toNat_add : BitVec.ofInt n ((a.toNat : Int) + b.toNat) = a + b := by
  rw [BitVec.ofInt_add, ofInt_toNat, ofInt_toNat]

theorem ofInt_toInt_add : BitVec.ofInt n (a.toInt + b.toInt) = a + b := by
  rw [BitVec.ofInt_add, BitVec.ofInt_toInt, BitVec.ofInt_toInt]

theorem ofInt_sub (x y : Int) : BitVec.ofInt n (x - y) = BitVec.ofInt n x - BitVec.ofInt n y := by
  rw [Int.sub_eq_add_neg, BitVec.ofInt_add, BitVec.ofInt_neg, BitVec.sub_eq_add_neg]

theorem ofInt_toNat_sub : BitVec.ofInt n ((a.toNat : Int) - b.toNat) = a - b := by
  rw [ofInt_sub, ofInt_toNat, ofInt_toNat]

theorem ofInt_toInt_sub : BitVec.ofInt n (a.toInt - b.toInt) = a - b := by
  rw [ofInt_sub, BitVec.ofInt_toInt, BitVec.ofInt_toInt]

theorem ofInt_toNat_mul : BitVec.ofInt n ((a.toNat : Int) * b.toNat) = a * b := by
  rw [BitVec.ofInt_mul, ofInt_toNat, ofInt_toNat]

theorem ofInt_toInt_mul : BitVec.ofInt n (a.toInt * b.toInt) = a * b := by
  rw [BitVec.ofInt_mul, BitVec.ofInt_toInt, BitVec.ofInt_toInt]

theorem ofInt_shl (s : Nat) : BitVec.ofInt n ((a.toNat : Int) * 2 ^ s) = a <<< s := by
  apply BitVec.eq_of_toNat_eq
  have : (a.toNat : Int) * 2 ^ s = ((a.toNat * 2 ^ s : Nat) : Int) := by push_cast; rfl
  rw [this, BitVec.ofInt_natCast, BitVec.toNat_ofNat, BitVec.toNat_shiftLeft, Nat.shiftLeft_eq]

theorem ofInt_ushr (s : Nat) : BitVec.ofInt n ((a.toNat : Int) / 2 ^ s) = a >>> s := by
  apply BitVec.eq_of_toNat_eq
  have : (a.toNat : Int) / 2 ^ s = ((a.toNat / 2 ^ s : Nat) : Int) := by push_cast; rfl
  rw [this, BitVec.ofInt_natCast, BitVec.toNat_ofNat, BitVec.toNat_ushiftRight, Nat.shiftRight_eq_div_pow,
    Nat.mod_eq_of_lt (lt_of_le_of_lt (Nat.div_le_self _ _) a.isLt)]

theorem ofInt_sshr (s : Nat) : BitVec.ofInt n (a.toInt / 2 ^ s) = a.sshiftRight s := by
  have h : a.toInt / 2 ^ s = (a.sshiftRight s).toInt := by
    rw [BitVec.toInt_sshiftRight, Int.shiftRight_eq_div_pow]; push_cast; rfl
  rw [h, BitVec.ofInt_toInt]

/-! ### Rotations -/

theorem of_testBit (hb : bits v = n) (h : ∀ i < n, (I256.toNat v).testBit i = a.getLsbD i) : SameBits a v := by
  refine ⟨hb, Nat.eq_of_testBit_eq fun i => ?_⟩
  by_cases hi : i < n
  · rw [h i hi, BitVec.testBit_toNat]
  · have h1 : I256.toNat v < 2 ^ i :=
      lt_of_lt_of_le (toNat_lt v) (Nat.pow_le_pow_right (by decide) (by omega))
    rw [Nat.testBit_lt_two_pow h1, Nat.testBit_lt_two_pow
      (lt_of_lt_of_le a.isLt (Nat.pow_le_pow_right (by decide) (by omega)))]

theorem of_rotl {s : Nat} (hb : bits v = n)
    (h : ∀ i < n, (I256.toNat v).testBit ((i + s) % n) = a.toNat.testBit i) : SameBits (a.rotateLeft s) v := by
  refine of_testBit hb fun i hi => ?_
  have hn : 0 < n := by omega
  have hr := Nat.mod_lt s hn
  rw [BitVec.getLsbD_rotateLeft, Bool.cond_decide]
  split
  · rename_i hlt
    have h1 := h (n - s % n + i) (by omega)
    have h2 : (n - s % n + i + s) % n = i := by
      rw [show n - s % n + i + s = i + (n + (s - s % n)) by have := Nat.mod_le s n; omega, Nat.add_mod,
        Nat.add_mod n, Nat.mod_self, Nat.zero_add, Nat.mod_mod,
        Nat.mod_eq_zero_of_dvd (Nat.dvd_sub_mod s), Nat.add_zero, Nat.mod_mod, Nat.mod_eq_of_lt hi]
    rw [h2] at h1
    rw [h1, BitVec.testBit_toNat]
  · rename_i hlt
    have h1 := h (i - s % n) (by omega)
    have h2 : (i - s % n + s) % n = i := by
      rw [show i - s % n + s = i + (s - s % n) by have := Nat.mod_le s n; omega, Nat.add_mod,
        Nat.mod_eq_zero_of_dvd (Nat.dvd_sub_mod s), Nat.add_zero, Nat.mod_mod, Nat.mod_eq_of_lt hi]
    rw [h2] at h1
    rw [h1, BitVec.testBit_toNat, decide_eq_true hi, Bool.true_and]

theorem of_rotr {s : Nat} (hb : bits v = n)
    (h : ∀ i < n, (I256.toNat v).testBit i = a.toNat.testBit ((i + s) % n)) : SameBits (a.rotateRight s) v := by
  refine of_testBit hb fun i hi => ?_
  have hn : 0 < n := by omega
  have hr := Nat.mod_lt s hn
  rw [BitVec.getLsbD_rotateRight, h i hi, BitVec.testBit_toNat, Bool.cond_decide]
  split
  · rw [Nat.add_mod, Nat.mod_eq_of_lt hi, Nat.mod_eq_of_lt (a := i + s % n) (by omega), Nat.add_comm]
  · have h2 : (i + s) % n = i - (n - s % n) := by
      rw [Nat.add_mod, Nat.mod_eq_of_lt hi, Nat.mod_eq_sub_mod (by omega), Nat.mod_eq_of_lt (by omega)]
      omega
    rw [h2, decide_eq_true hi, Bool.true_and]

end SameBits

end I256
