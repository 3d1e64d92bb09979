import Verif.Lemmas.Casts
import Verif.Props.AddSub
import Verif.Props.Bitops
import Verif.Props.Laws
import Verif.Props.Shift

/-!
# Lemmas for C77
-/

namespace I256

variable {w k : Nat} {x : Limbs w}

theorem strayRem_large {N X Y : Nat} (h : strayRem w N X Y ≠ 0) : Y < strayRem w N X Y := by
  have h1 : Y < 2 ^ bitLen Y := by
    unfold bitLen
    split
    · omega
    · exact Nat.lt_log2_self
  unfold strayRem at h ⊢
  have h2 : 0 < flagNum w (addBack w X Y) (N - nLimbs w Y) :=
    Nat.pos_of_ne_zero fun h0 => h (by rw [h0, Nat.mul_zero])
  exact lt_of_lt_of_le h1 (Nat.le_mul_of_pos_right _ h2)

theorem pow2U (hk : w = 2 ^ k) {N : Nat} (h2 : N % 2 = 0) (h0 : 2 ≤ N) {s : Nat} (hs : s < w * N) :
    ExactU N (2 ^ s : Nat) (wrappingShl (ofU8 N 1 : Limbs w) s) := by
  have hw := pow_pos_width hk
  obtain ⟨o1, o2⟩ := ofU8U (w := w) (N := N) (v := 1) (by omega) (one_lt_two_pow' hw)
  have h := C20_uint_wrapping_shl (x := (ofU8 N 1 : Limbs w)) hk (by rw [o1]; exact h2)
    (length_ne (n := 1) (by rw [o1]; omega)) s
  rw [o1, o2, Nat.mod_eq_of_lt hs] at h
  push_cast at h ⊢
  rw [one_mul] at h
  exact h.exact ⟨by positivity, pow_lt_pow_right₀ (by decide) hs⟩

/-- Masking with `2^s - 1`. -/
theorem and_mask (hk : w = 2 ^ k) (h2 : x.length % 2 = 0) (h0 : 2 ≤ x.length) {s : Nat}
    (hs : s < w * x.length) :
    (Bits.and x (U.wrappingSub (wrappingShl (ofU8 x.length 1) s) (ofU8 x.length 1))).length = x.length ∧
    toNat (Bits.and x (U.wrappingSub (wrappingShl (ofU8 x.length 1) s) (ofU8 x.length 1))) =
      toNat x % 2 ^ s := by
  have hw := pow_pos_width hk
  obtain ⟨o1, o2⟩ := ofU8U (w := w) (N := x.length) (v := 1) (by omega) (one_lt_two_pow' hw)
  obtain ⟨p1, p2⟩ := pow2U hk h2 h0 hs
  have hm := C01_uint_wrapping_sub (x := wrappingShl (ofU8 x.length 1 : Limbs w) s)
    (y := ofU8 x.length 1) hw (by rw [p1, o1])
  rw [p1, p2, o2] at hm
  have h1 : 1 ≤ 2 ^ s := Nat.one_le_two_pow
  have hlt : (2 : Nat) ^ s < 2 ^ (w * x.length) := Nat.pow_lt_pow_right (by decide) hs
  rw [show ((2 ^ s : Nat) : Int) - ((1 : Nat) : Int) = ((2 ^ s - 1 : Nat) : Int) by
    push_cast [Nat.cast_sub h1]; ring] at hm
  obtain ⟨m1, m2⟩ := hm.nat (by omega)
  obtain ⟨a1, a2⟩ := C23_and (x := x)
    (y := U.wrappingSub (wrappingShl (ofU8 x.length 1) s) (ofU8 x.length 1)) m1.symm
  refine ⟨a1, Nat.eq_of_testBit_eq fun i => ?_⟩
  rw [a2, m2, Nat.testBit_two_pow_sub_one, Nat.testBit_mod_two_pow, Bool.and_comm]

end I256
