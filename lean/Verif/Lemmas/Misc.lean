import Mathlib.Data.Nat.Log
import Verif.Model.Misc
import Verif.Lemmas.AddSubApi
import Verif.Lemmas.ShiftApi
import Verif.Lemmas.Bitops
import Verif.Lemmas.Ord

/-!
# Lemmas about midpoint and powers of two
-/

namespace I256

variable {w k : Nat} {x y : Limbs w}

/-! ### Sums through bit operations -/

theorem xor_add_and (a b : Nat) : (a ^^^ b) + 2 * (a &&& b) = a + b := by
  induction a using Nat.div2Induction generalizing b with
  | ind a ih =>
    rcases Nat.eq_zero_or_pos a with rfl | ha
    · simp
    have h := ih ha (b / 2)
    have e1 : (a ^^^ b) = 2 * (a / 2 ^^^ b / 2) + (a ^^^ b) % 2 := by
      have := Nat.div_add_mod (a ^^^ b) 2
      rw [Nat.xor_div_two] at this; omega
    have e2 : (a &&& b) = 2 * (a / 2 &&& b / 2) + (a &&& b) % 2 := by
      have := Nat.div_add_mod (a &&& b) 2
      rw [Nat.and_div_two] at this; omega
    have m1 : (a ^^^ b) % 2 = (a + b) % 2 := by rw [Nat.xor_mod_two_eq]
    have m2 : (a &&& b) % 2 = 1 ↔ a % 2 = 1 ∧ b % 2 = 1 := Nat.and_mod_two_eq_one
    have := Nat.div_add_mod a 2
    have := Nat.div_add_mod b 2
    by_cases c : a % 2 = 1 ∧ b % 2 = 1
    · have := m2.2 c; omega
    · have := mt m2.1 c; omega

theorem xor_length (hl : x.length = y.length) : (Bits.xor x y).length = x.length := by
  simp [Bits.xor, hl]

theorem and_length (hl : x.length = y.length) : (Bits.and x y).length = x.length := by
  simp [Bits.and, hl]

theorem xor_toNat (hl : x.length = y.length) : toNat (Bits.xor x y) = toNat x ^^^ toNat y := by
  apply Nat.eq_of_testBit_eq
  intro i
  rw [Nat.testBit_xor, Bits.xor, testBit_zipWith _ (· ^^ ·) rfl (by simp) x y hl i]

theorem and_toNat (hl : x.length = y.length) : toNat (Bits.and x y) = toNat x &&& toNat y := by
  apply Nat.eq_of_testBit_eq
  intro i
  rw [Nat.testBit_and, Bits.and, testBit_zipWith _ (· && ·) rfl (by simp) x y hl i]

theorem toNat_sum (hl : x.length = y.length) :
    toNat (Bits.xor x y) + 2 * toNat (Bits.and x y) = toNat x + toNat y := by
  rw [xor_toNat hl, and_toNat hl, xor_add_and]

theorem testBit_top (hw : 0 < w) (hx : x ≠ []) :
    (toNat x).testBit (bits x - 1) = true ↔ toInt x = (toNat x : Int) - 2 ^ bits x := by
  have hB := bits_pos hw hx
  have hlt := toNat_lt x
  have h2 : 2 ^ bits x = 2 * 2 ^ (bits x - 1) := by
    rw [Nat.mul_comm, ← Nat.pow_succ, Nat.succ_eq_add_one, Nat.sub_add_cancel hB]
  have hcast : ((2 ^ bits x : Nat) : Int) = (2 : Int) ^ bits x := by push_cast; rfl
  have hp := Nat.two_pow_pos (bits x)
  have hbit : (toNat x).testBit (bits x - 1) = true ↔ 2 ^ (bits x - 1) ≤ toNat x := by
    constructor
    · exact Nat.ge_two_pow_of_testBit
    · intro h
      exact Nat.testBit_of_two_pow_le_and_two_pow_add_one_gt h (by rwa [Nat.sub_add_cancel hB])
  rw [hbit, toInt, ← hcast]
  split <;> omega

theorem toInt_ind (hw : 0 < w) (hx : x ≠ []) :
    toInt x = (toNat x : Int) - 2 ^ bits x * ((toNat x).testBit (bits x - 1)).toNat := by
  rcases h : (toNat x).testBit (bits x - 1)
  · have := mt (testBit_top hw hx).2 (by rw [h]; decide)
    rcases toInt_cases x with h' | h'
    · simpa using h'.2.symm
    · exact absurd (by omega) this
  · simpa using (testBit_top hw hx).1 h

theorem toInt_sum (hw : 0 < w) (hl : x.length = y.length) (hx : x ≠ []) :
    toInt (Bits.xor x y) + 2 * toInt (Bits.and x y) = toInt x + toInt y := by
  have h := toNat_sum hl
  have hx1 : Bits.xor x y ≠ [] := by
    rw [ne_eq, ← List.length_eq_zero_iff, xor_length hl, List.length_eq_zero_iff]; exact hx
  have hx2 : Bits.and x y ≠ [] := by
    rw [ne_eq, ← List.length_eq_zero_iff, and_length hl, List.length_eq_zero_iff]; exact hx
  have hy : y ≠ [] := by
    rw [ne_eq, ← List.length_eq_zero_iff, ← hl, List.length_eq_zero_iff]; exact hx
  rw [toInt_ind hw hx1, toInt_ind hw hx2, toInt_ind hw hx, toInt_ind hw hy,
    bits_eq_of_length (xor_length hl), bits_eq_of_length (and_length hl), ← bits_eq_of_length hl,
    xor_toNat hl, and_toNat hl, Nat.testBit_xor, Nat.testBit_and]
  rw [xor_toNat hl, and_toNat hl] at h
  generalize (2 : Int) ^ bits x = P
  cases (toNat x).testBit (bits x - 1) <;> cases (toNat y).testBit (bits x - 1) <;> simp <;> omega

/-! ### Midpoint -/

theorem midpointU (hk : w = 2 ^ k) (hl : x.length = y.length) (h2 : x.length % 2 = 0) (hx : x ≠ []) :
    ExactU x.length (((toNat x : Int) + toNat y) / 2) (U.midpoint x y) := by
  have hw := pow_pos_width hk
  have hxl := xor_length hl
  have hal := and_length hl
  have hs := toNat_sum hl
  have hB : 1 < bits x := by
    have := List.length_pos_iff.2 hx
    have : 2 ≤ x.length := by omega
    have := Nat.mul_le_mul hw this
    rw [bits]; omega
  have hsh := wrappingShrU hk (x := Bits.xor x y) (by omega) (List.ne_nil_of_length_pos (by
    rw [hxl]; exact List.length_pos_iff.2 hx)) 1
  rw [hxl, bits_eq_of_length hxl, Nat.mod_eq_of_lt hB, Int.pow_one] at hsh
  have ha := Add.wrapU (x := wrappingShr false (Bits.xor x y) 1) (y := Bits.and x y)
    hw (by rw [hsh.1, hal])
  rw [hsh.1, hsh.2] at ha
  have h1 := toNat_lt_int x
  have h3 := toNat_lt_int y
  rw [← bits_eq_of_length hl] at h3
  refine (ha.congr (z' := ((toNat x : Int) + toNat y) / 2) (by congr 1; omega)).exact ?_
  constructor
  · omega
  · rw [show w * x.length = bits x from rfl]; omega

theorem midpointS (hk : w = 2 ^ k) (hl : x.length = y.length) (h2 : x.length % 2 = 0) (hx : x ≠ []) :
    ExactS x.length ((toInt x + toInt y).tdiv 2) (I.midpoint x y) := by
  have hw := pow_pos_width hk
  have hxl := xor_length hl
  have hal := and_length hl
  have hs := toInt_sum hw hl hx
  have hlen := List.length_pos_iff.2 hx
  have hB : 1 < bits x := by
    have : 2 ≤ x.length := by omega
    have := Nat.mul_le_mul hw this
    rw [bits]; omega
  have hx1 : Bits.xor x y ≠ [] := List.ne_nil_of_length_pos (by rw [hxl]; exact hlen)
  have hsh := wrappingShrS hk (x := Bits.xor x y) (by omega) hx1 1
  rw [hxl, bits_eq_of_length hxl, Nat.mod_eq_of_lt hB, Int.pow_one] at hsh
  have ht := Add.wrapS (x := wrappingShr true (Bits.xor x y) 1) (y := Bits.and x y)
    hw (by rw [hsh.1, hal])
  rw [hsh.1, hsh.2] at ht
  have h1 := toInt_InS x
  have h3 := toInt_InS y
  rw [← bits_eq_of_length hl] at h3
  have he : toInt (Bits.xor x y) / 2 + toInt (Bits.and x y) = (toInt x + toInt y) / 2 := by omega
  rw [he] at ht
  obtain ⟨a1, a2⟩ := h1
  obtain ⟨b1, b2⟩ := h3
  have hBe : (2 : Int) ^ bits x = 2 * 2 ^ (bits x - 1) := by
    rw [mul_comm, ← pow_succ, Nat.sub_add_cancel (by omega)]
  have ht' := ht.exact (by
    rw [show w * x.length = bits x from rfl]; constructor <;> omega)
  obtain ⟨t1, t2⟩ := ht'
  generalize hte : Add.wrappingFull (wrappingShr true (Bits.xor x y) 1) (Bits.and x y) = t at *
  have htn : t ≠ [] := List.ne_nil_of_length_pos (by rw [t1]; exact hlen)
  have hmid : I.midpoint x y = Add.wrappingFull t
      (Bits.and (ofU8 x.length (I.isNegative t).toNat) (Bits.xor x y)) := by
    simp only [I.midpoint, I.wrappingAdd, hte]
  have h1w := one_lt_two_pow' hw
  have hob : (I.isNegative t).toNat < 2 ^ w := by cases I.isNegative t <;> simp <;> omega
  obtain ⟨o1, o2⟩ := ofU8U (N := x.length) hlen hob
  have hn : toNat (Bits.and (ofU8 x.length (I.isNegative t).toNat) (Bits.xor x y)) =
      if toInt t < 0 then toNat (Bits.xor x y) % 2 else 0 := by
    have o2' : toNat (ofU8 x.length (I.isNegative t).toNat : Limbs w) = (I.isNegative t).toNat := by
      exact_mod_cast o2
    rw [and_toNat (by rw [o1, hxl]), o2', isNegative_eq hw htn]
    split
    · rename_i h; simp [h, Nat.one_and_eq_mod_two]
    · rename_i h; simp [h]
  have hal2 : (Bits.and (ofU8 x.length (I.isNegative t).toNat) (Bits.xor x y)).length = x.length := by
    rw [and_length (by rw [o1, hxl]), o1]
  have hp4 : (4 : Int) ≤ 2 ^ bits x := by
    have : 2 ^ 2 ≤ 2 ^ bits x := Nat.pow_le_pow_right (by omega) (by omega)
    exact_mod_cast this
  have hni : toInt (Bits.and (ofU8 x.length (I.isNegative t).toNat) (Bits.xor x y)) =
      if toInt t < 0 then (toInt x + toInt y) % 2 else 0 := by
    have hc := toInt_cases (Bits.xor x y)
    rw [bits_eq_of_length hxl] at hc
    rcases toInt_cases (Bits.and (ofU8 x.length (I.isNegative t).toNat) (Bits.xor x y)) with h | h
    · rw [← h.2, hn]
      split
      · push_cast; omega
      · rfl
    · rw [bits_eq_of_length hal2, hn] at h
      have := toInt_InS (Bits.and (ofU8 x.length (I.isNegative t).toNat) (Bits.xor x y))
      rw [bits_eq_of_length hal2] at this
      obtain ⟨c1, c2⟩ := this
      split at h <;> omega
  have hfin := Add.wrapS (x := t) (y := Bits.and (ofU8 x.length (I.isNegative t).toNat) (Bits.xor x y))
    hw (by rw [t1, hal2])
  rw [t1, hni, t2] at hfin
  rw [hmid]
  have hz : (toInt x + toInt y) / 2 + (if (toInt x + toInt y) / 2 < 0 then (toInt x + toInt y) % 2 else 0)
      = (toInt x + toInt y).tdiv 2 := by
    rw [Int.tdiv_eq_ediv, show Int.sign 2 = 1 from rfl]
    split <;> split <;> omega
  rw [hz] at hfin
  refine hfin.exact ?_
  rw [show w * x.length = bits x from rfl]
  have : (toInt x + toInt y).tdiv 2 = (toInt x + toInt y) / 2 ∨
      (toInt x + toInt y).tdiv 2 = (toInt x + toInt y) / 2 + 1 ∧ (toInt x + toInt y) / 2 < 0 := by
    rw [← hz]; split <;> omega
  constructor <;> omega

/-! ### Powers of two -/

theorem clog_two {n : Nat} (h : 2 ≤ n) : Nat.clog 2 n = (n - 1).log2 + 1 := by
  apply le_antisymm
  · rw [Nat.clog_le_iff_le_pow (by omega)]
    have := Nat.lt_log2_self (n := n - 1)
    omega
  · by_contra hc
    have hc' : Nat.clog 2 n ≤ (n - 1).log2 := by omega
    rw [Nat.clog_le_iff_le_pow (by omega)] at hc'
    have := Nat.log2_self_le (n := n - 1) (by omega)
    omega

theorem oneLess_spec (hk : w = 2 ^ k) (h2 : x.length % 2 = 0) (h4 : 4 ≤ x.length) :
    ExactU x.length (2 ^ Nat.clog 2 (toNat x) - 1) (U.oneLessThanNextPowerOfTwo x) := by
  have hw := pow_pos_width hk
  have h1w := one_lt_two_pow' hw
  have hone := ofU8U (N := x.length) (v := 1) (by omega) h1w
  have hle := Ord.le_iff hw false (x := x) (y := ofU8 x.length 1) (by rw [hone.1]) h2 h4
  rw [Ord.val, Ord.val] at hle
  simp only [Bool.false_eq_true, if_false] at hle
  rw [hone.2] at hle
  unfold U.oneLessThanNextPowerOfTwo
  by_cases c : toNat x ≤ 1
  · rw [if_pos (hle.2 (by exact_mod_cast c)), Nat.clog_of_right_le_one c]
    exact minValueU w x.length
  · rw [if_neg (fun h => c (by exact_mod_cast hle.1 h))]
    have hsub : ExactU x.length (toNat x - 1 : Int) (U.wrappingSub x (ofU8 x.length 1)) := by
      have := Sub.wrapU (x := x) (y := ofU8 x.length 1) hw (by rw [hone.1])
      rw [hone.2] at this
      refine this.exact ?_
      have := toNat_lt_int x
      constructor
      · omega
      · rw [show w * x.length = bits x from rfl]; omega
    obtain ⟨s1, s2⟩ := hsub
    have hlz := leadingZeros_spec (U.wrappingSub x (ofU8 x.length 1))
    generalize U.wrappingSub x (ofU8 x.length 1) = p at *
    have hpn : toNat p = toNat x - 1 := by omega
    have hpb : bits p = bits x := bits_eq_of_length s1
    have hlog := hlz.log2 (by omega)
    obtain ⟨z1, z2, z3⟩ := hlz
    have hzlt : Bits.leadingZeros p < bits x := by
      rcases Nat.lt_or_ge (Bits.leadingZeros p) (bits x) with h | h
      · exact h
      · rw [show bits p - Bits.leadingZeros p = 0 by omega] at z2; omega
    have hm := maxValueU w x.length
    have hs := wrappingShrU hk (x := U.maxValue w x.length) (by rw [hm.1]; exact h2)
      (List.ne_nil_of_length_pos (by rw [hm.1]; omega)) (Bits.leadingZeros p)
    rw [hm.1, hm.2, bits_eq_of_length hm.1, Nat.mod_eq_of_lt hzlt] at hs
    rw [clog_two (by omega), ← hpn, ← hlog]
    show ExactU _ _ (wrappingShr false (U.maxValue w x.length) (Bits.leadingZeros p))
    have he : bits p - 1 - Bits.leadingZeros p + 1 = bits x - Bits.leadingZeros p := by omega
    rw [he]
    have hdiv : ((2 : Int) ^ (w * x.length) - 1) / 2 ^ Bits.leadingZeros p =
        2 ^ (bits x - Bits.leadingZeros p) - 1 := by
      have hpz : (0 : Int) < 2 ^ Bits.leadingZeros p := by positivity
      rw [show w * x.length = bits x from rfl,
        show (2 : Int) ^ bits x = 2 ^ (bits x - Bits.leadingZeros p) * 2 ^ Bits.leadingZeros p by
          rw [← pow_add]; congr 1; omega]
      rw [Int.ediv_eq_iff_of_pos hpz]
      constructor <;> ring_nf <;> omega
    rwa [hdiv] at hs

end I256
