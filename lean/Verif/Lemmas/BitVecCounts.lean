import Verif.Lemmas.BitVecForms
import Mathlib.Algebra.Ring.Int.Parity

/-!
# Bitwise operations, counts, powers and conversions of bit vectors
-/

namespace I256

variable {w n N : Nat} {z : Int} {v : Limbs w} {a b c : BitVec n} {o : Bool}

namespace SameBits

theorem of_testBit_all (hb : bits v = n) (h : ∀ i, (I256.toNat v).testBit i = a.getLsbD i) : SameBits a v :=
  of_testBit hb fun i _ => h i

theorem clz_unique {k : Nat} (hk : k ≤ n) (h0 : ∀ i < k, a.getLsbD (n - 1 - i) = false)
    (h1 : k < n → a.getLsbD (n - 1 - k) = true) : a.clz.toNat = k := by
  have hnp : n < 2 ^ n := Nat.lt_two_pow_self
  rcases Nat.eq_zero_or_pos n with rfl | hn
  · have := a.clz.isLt
    simp at this
    omega
  by_cases hz : a = 0#n
  · have e : a.clz = (n : BitVec n) := BitVec.clz_eq_iff_eq_zero.2 hz
    rw [e, show ((n : BitVec n)).toNat = n by simp [hnp]]
    by_contra hne
    have := h1 (by omega)
    rw [hz] at this
    simp at this
  · have e1 := BitVec.getLsbD_true_clz_of_ne_zero hn hz
    have e2 := BitVec.toNat_lt_two_pow_sub_clz (x := a)
    have e3 : a.clz.toNat < n := by
      have := BitVec.clz_lt_iff_ne_zero.2 hz
      rw [BitVec.lt_def] at this
      simpa [hnp] using this
    rcases Nat.lt_trichotomy a.clz.toNat k with hlt | heq | hgt
    · rw [h0 _ hlt] at e1
      cases e1
    · exact heq
    · have e4 := h1 (by omega)
      rw [← BitVec.testBit_toNat, Nat.testBit_lt_two_pow
        (lt_of_lt_of_le e2 (Nat.pow_le_pow_right (by decide) (by omega)))] at e4
      cases e4

theorem ctz_unique {k : Nat} (hk : k ≤ n) (h0 : ∀ i < k, a.getLsbD i = false)
    (h1 : k < n → a.getLsbD k = true) : a.ctz.toNat = k := by
  have key : ∀ i < n, a.reverse.getLsbD (n - 1 - i) = a.getLsbD i := by
    intro i hi
    rw [BitVec.getLsbD_reverse, BitVec.getMsbD_eq_getLsbD, decide_eq_true (by omega), Bool.true_and]
    congr 1
    omega
  refine clz_unique hk (fun i hi => ?_) fun h => ?_
  · rw [key i (by omega), h0 i hi]
  · rw [key k h, h1 h]

theorem cpopNatRec_count (k acc : Nat) :
    a.cpopNatRec k acc = acc + (List.range k).countP (fun i => a.getLsbD i) := by
  induction k generalizing acc with
  | zero => simp
  | succ k ih =>
    rw [BitVec.cpopNatRec_succ, ih, List.range_succ, List.countP_append, List.countP_singleton]
    cases a.getLsbD k <;> simp <;> omega

theorem cpop_toNat : a.cpop.toNat = (List.range n).countP (fun i => a.getLsbD i) := by
  rw [BitVec.cpop, BitVec.toNat_ofNat, cpopNatRec_count, Nat.zero_add, Nat.mod_eq_of_lt]
  refine lt_of_le_of_lt List.countP_le_length ?_
  rw [List.length_range]
  exact Nat.lt_two_pow_self

theorem ofInt_pow (z : Int) (e : Nat) : BitVec.ofInt n (z ^ e) = BitVec.ofInt n z ^ e := by
  induction e with
  | zero => rw [pow_zero, BitVec.pow_zero]; simp
  | succ e ih => rw [pow_succ, BitVec.ofInt_mul, ih, BitVec.pow_succ]

theorem ofInt_toNat_pow (e : Nat) : BitVec.ofInt n ((a.toNat : Int) ^ e) = a ^ e := by
  rw [ofInt_pow, ofInt_toNat]

theorem ofInt_toInt_pow (e : Nat) : BitVec.ofInt n (a.toInt ^ e) = a ^ e := by
  rw [ofInt_pow, BitVec.ofInt_toInt]

theorem ofInt_setWidth {m : Nat} (b : BitVec m) : BitVec.ofInt n (b.toNat : Int) = b.setWidth n := by
  rw [BitVec.ofInt_natCast, BitVec.ofNat_toNat]

theorem ofInt_signExtend {m : Nat} (b : BitVec m) : BitVec.ofInt n b.toInt = b.signExtend n := rfl

end SameBits

end I256
