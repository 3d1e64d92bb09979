import Verif.Lemmas.BitVecs
import Verif.SpecDiv

/-!
# From the contracts of the overflow forms to bit vectors
-/

namespace I256

variable {w n N : Nat} {z : Int} {v : Limbs w} {a b c : BitVec n} {o : Bool}

namespace SameBits

theorem length_eq {x y : Limbs w} (hw : 0 < w) (hx : SameBits a x) (hy : SameBits b y) :
    x.length = y.length :=
  Nat.eq_of_mul_eq_mul_left hw (hx.1.trans hy.1.symm)

theorem pos {x : Limbs w} (hw : 0 < w) (hx : SameBits a x) (h : x ≠ []) : 0 < n := by
  rw [← hx.1]; exact Nat.mul_pos hw (List.length_pos_iff.2 h)

section U
variable (hN : w * N = n) (hc : BitVec.ofInt n z = c)
include hN hc

theorem wU (h : WrapU N z v) : SameBits c v := hc ▸ of_wrapU hN h

theorem wS (h : WrapS N z v) : SameBits c v := hc ▸ of_wrapS hN h

theorem xU (h : ExactU N z v) : SameBits c v := hc ▸ of_exactU hN h

theorem xS (h : ExactS N z v) : SameBits c v := hc ▸ of_exactS hN h

theorem flagU {r : Limbs w × Bool} (ho : o = decide (¬ InU n z)) (h : OverU N z r) : FlagBits c o r := by
  refine ⟨wU hN hc h.1, ?_⟩
  have h2 := h.2
  rw [hN] at h2
  rw [ho, Bool.eq_iff_iff, h2, decide_eq_true_eq]

theorem flagS {r : Limbs w × Bool} (ho : o = decide (¬ InS n z)) (h : OverS N z r) : FlagBits c o r := by
  refine ⟨wS hN hc h.1, ?_⟩
  have h2 := h.2
  rw [hN] at h2
  rw [ho, Bool.eq_iff_iff, h2, decide_eq_true_eq]

theorem someU {r : Option (Limbs w)} (ho : o = decide (¬ InU n z)) (h : CheckU N z r) : SomeBits c o r := by
  obtain ⟨h1, h2⟩ := h
  rw [hN] at h1 h2
  by_cases hz : InU n z
  · obtain ⟨v, rfl, hv⟩ := h1 hz
    exact ⟨by rw [ho]; simpa using hz, xU hN hc hv⟩
  · rw [h2 hz]
    show o = true
    rw [ho]; simpa using hz

theorem someS {r : Option (Limbs w)} (ho : o = decide (¬ InS n z)) (h : CheckS N z r) : SomeBits c o r := by
  obtain ⟨h1, h2⟩ := h
  rw [hN] at h1 h2
  by_cases hz : InS n z
  · obtain ⟨v, rfl, hv⟩ := h1 hz
    exact ⟨by rw [ho]; simpa using hz, xS hN hc hv⟩
  · rw [h2 hz]
    show o = true
    rw [ho]; simpa using hz

theorem okU {r : Res (Limbs w)} (ho : o = decide (¬ InU n z)) (h : StrictU N z r) : OkBits c o r := by
  obtain ⟨h1, h2⟩ := h
  rw [hN] at h1 h2
  by_cases hz : InU n z
  · obtain ⟨v, rfl, hv⟩ := h1 hz
    exact ⟨by rw [ho]; simpa using hz, xU hN hc hv⟩
  · rw [h2 hz]
    show o = true
    rw [ho]; simpa using hz

theorem okS {r : Res (Limbs w)} (ho : o = decide (¬ InS n z)) (h : StrictS N z r) : OkBits c o r := by
  obtain ⟨h1, h2⟩ := h
  rw [hN] at h1 h2
  by_cases hz : InS n z
  · obtain ⟨v, rfl, hv⟩ := h1 hz
    exact ⟨by rw [ho]; simpa using hz, xS hN hc hv⟩
  · rw [h2 hz]
    show o = true
    rw [ho]; simpa using hz

theorem opU {r : Res (Limbs w)} {oc : Bool} (ho : o = decide (¬ InU n z)) (h : OpU oc N z r) :
    OkBits c (oc && o) r := by
  cases oc
  · obtain ⟨v, rfl, hv⟩ : ∃ v, r = .ok v ∧ WrapU N z v := h
    exact ⟨rfl, wU hN hc hv⟩
  · exact okU hN hc ho h

theorem opS {r : Res (Limbs w)} {oc : Bool} (ho : o = decide (¬ InS n z)) (h : OpS oc N z r) :
    OkBits c (oc && o) r := by
  cases oc
  · obtain ⟨v, rfl, hv⟩ : ∃ v, r = .ok v ∧ WrapS N z v := h
    exact ⟨rfl, wS hN hc hv⟩
  · exact okS hN hc ho h

theorem satU (ho : o = decide (¬ InU n z)) (h : SatU N z v) :
    SameBits (if o then (if z < 0 then 0 else BitVec.allOnes n) else c) v := by
  obtain ⟨h1, h2⟩ := h
  rw [hN] at h2
  have hp : (0 : Int) < 2 ^ n := by positivity
  rw [ho]
  by_cases hz : InU n z
  · rw [if_neg (by simpa using hz)]
    refine xU hN hc ⟨h1, ?_⟩
    rw [h2]
    rw [InU] at hz
    omega
  · rw [if_pos (by simpa using hz)]
    rw [InU] at hz
    refine ⟨by rw [bits, h1, hN], ?_⟩
    split
    · rw [show (0 : BitVec n).toNat = 0 by simp]
      omega
    · rw [BitVec.toNat_allOnes]
      have h3 : ((2 ^ n - 1 : Nat) : Int) = 2 ^ n - 1 := by
        rw [Nat.cast_sub Nat.one_le_two_pow]; push_cast; rfl
      omega

theorem satS (hn : 0 < n) (ho : o = decide (¬ InS n z)) (h : SatS N z v) :
    SameBits (if o then (if z < 0 then BitVec.intMin n else BitVec.intMax n) else c) v := by
  obtain ⟨h1, h2⟩ := h
  rw [hN] at h2
  have hp : (0 : Int) < 2 ^ (n - 1) := by positivity
  rw [ho]
  by_cases hz : InS n z
  · rw [if_neg (by simpa using hz)]
    refine xS hN hc ⟨h1, ?_⟩
    rw [h2]
    have := mt (not_InS_iff hn).2 (not_not.2 hz)
    omega
  · rw [if_pos (by simpa using hz)]
    have hz' := (not_InS_iff hn).1 hz
    split
    · refine xS hN (z := -2 ^ (n - 1)) ?_ ⟨h1, by omega⟩
      rw [← BitVec.toInt_intMin_of_pos hn, BitVec.ofInt_toInt]
    · refine xS hN (z := 2 ^ (n - 1) - 1) ?_ ⟨h1, by omega⟩
      rw [← BitVec.toInt_intMax, BitVec.ofInt_toInt]

/-! ### Signed products -/

theorem passes {g : Bool} (ho : o = decide (¬ InS n z)) (hg : g = decide (Mul.Gap w N z)) :
    (o && !g) = false ↔ Passes w N z := by
  have h : (o = true ↔ ¬ InS n z) ∧ (g = true ↔ Mul.Gap w N z) := by
    rw [ho, hg]; exact ⟨decide_eq_true_iff, decide_eq_true_iff⟩
  rw [Passes, hN, ← h.2]
  cases o <;> cases g <;> simp_all

variable {g : Bool} (ho : o = decide (¬ InS n z)) (hg : g = decide (Mul.Gap w N z))
include ho hg

theorem flagG {r : Limbs w × Bool} (h : OverG N z r) : FlagBits c (o && !g) r := by
  refine ⟨wS hN hc h.1, ?_⟩
  have h3 := passes hN hc ho hg
  have h2 := h.2
  rw [← h3] at h2
  cases h4 : r.2 <;> cases h5 : (o && !g) <;> simp_all

theorem someG {r : Option (Limbs w)} (h : CheckG N z r) : SomeBits c (o && !g) r := by
  obtain ⟨h1, h2⟩ := h
  rw [← passes hN hc ho hg] at h1 h2
  cases h5 : (o && !g)
  · obtain ⟨v, rfl, hv⟩ := h1 h5
    exact ⟨rfl, wS hN hc hv⟩
  · rw [h2 (by rw [h5]; decide)]
    rfl

theorem okG {r : Res (Limbs w)} (h : StrictG N z r) : OkBits c (o && !g) r := by
  obtain ⟨h1, h2⟩ := h
  rw [← passes hN hc ho hg] at h1 h2
  cases h5 : (o && !g)
  · obtain ⟨v, rfl, hv⟩ := h1 h5
    exact ⟨rfl, wS hN hc hv⟩
  · rw [h2 (by rw [h5]; decide)]
    rfl

theorem opG {r : Res (Limbs w)} {oc : Bool} (h : OpG oc N z r) : OkBits c (oc && (o && !g)) r := by
  cases oc
  · obtain ⟨v, rfl, hv⟩ : ∃ v, r = .ok v ∧ WrapS N z v := h
    exact ⟨rfl, wS hN hc hv⟩
  · exact okG hN hc ho hg h

theorem satG (hn : 0 < n) (h : SatG N z v) :
    SameBits (if (o && !g) then (if z < 0 then BitVec.intMin n else BitVec.intMax n) else c) v := by
  cases g
  · have := satS hN hc hn ho (h.1 (by simpa using hg.symm))
    simpa using this
  · have h2 := (h.2 (by simpa using hg.symm)).1
    rw [Bool.not_true, Bool.and_false, if_neg (by decide)]
    refine xS hN ?_ h2
    rw [← hc, BitVec.ofInt_add, hN]
    have : BitVec.ofInt n (2 ^ n) = 0 := by
      rw [show (2 : Int) ^ n = ((2 ^ n : Nat) : Int) by push_cast; rfl, BitVec.ofInt_natCast]
      apply BitVec.eq_of_toNat_eq
      simp
    rw [this]
    simp

end U

/-! ### Signs of overflowing results -/

theorem msb_iff : a.msb = true ↔ a.toInt < 0 := by rw [BitVec.msb_eq_toInt, decide_eq_true_eq]

theorem add_sign (hn : 0 < n) (h : a.saddOverflow b = true) : (a.toInt + b.toInt < 0) = (a.msb = true) := by
  have h1 := BitVec.two_mul_toInt_lt (x := a)
  have h2 := BitVec.two_mul_toInt_lt (x := b)
  have h3 := BitVec.le_two_mul_toInt (x := a)
  have h4 := BitVec.le_two_mul_toInt (x := b)
  rw [saddOverflow_iff hn, decide_eq_true_eq, InS] at h
  rw [msb_iff, eq_iff_iff]
  omega

theorem sub_sign (hn : 0 < n) (h : a.ssubOverflow b = true) : (a.toInt - b.toInt < 0) = (a.msb = true) := by
  have h1 := BitVec.two_mul_toInt_lt (x := a)
  have h2 := BitVec.two_mul_toInt_lt (x := b)
  have h3 := BitVec.le_two_mul_toInt (x := a)
  have h4 := BitVec.le_two_mul_toInt (x := b)
  rw [ssubOverflow_iff hn, decide_eq_true_eq, InS] at h
  rw [msb_iff, eq_iff_iff]
  omega

theorem mul_sign (h : a.toInt * b.toInt ≠ 0) : (a.toInt * b.toInt < 0) = ((a.msb ^^ b.msb) = true) := by
  rw [eq_iff_iff, ← Bool.bne_eq_xor, bne_iff_ne, Ne, Bool.eq_iff_iff, msb_iff, msb_iff, mul_neg_iff]
  have h1 : a.toInt ≠ 0 := fun e => h (by rw [e, zero_mul])
  have h2 : b.toInt ≠ 0 := fun e => h (by rw [e, mul_zero])
  omega

/-! ### Negation and absolute value -/

theorem ofInt_neg_toInt : BitVec.ofInt n (-a.toInt) = -a := by rw [BitVec.ofInt_neg, BitVec.ofInt_toInt]

theorem ofInt_neg_toNat : BitVec.ofInt n (-(a.toNat : Int)) = -a := by rw [BitVec.ofInt_neg, ofInt_toNat]

theorem negOverflow_iff (hn : 0 < n) : a.negOverflow = decide (¬ InS n (-a.toInt)) := by
  have h1 := BitVec.two_mul_toInt_lt (x := a)
  have h3 := BitVec.le_two_mul_toInt (x := a)
  obtain ⟨m, rfl⟩ : ∃ m, n = m + 1 := ⟨n - 1, by omega⟩
  rw [BitVec.negOverflow, Bool.eq_iff_iff, decide_eq_true_eq, not_InS_iff hn, beq_iff_eq,
    Nat.add_sub_cancel]
  rw [pow_succ] at h1 h3
  omega

theorem ofInt_abs : BitVec.ofInt n |a.toInt| = a.abs := by
  rw [BitVec.abs]
  split
  · rename_i h
    rw [abs_of_neg (msb_iff.1 h), ofInt_neg_toInt]; rfl
  · rename_i h
    rw [abs_of_nonneg (by rw [msb_iff] at h; omega), BitVec.ofInt_toInt]

theorem absOverflow_iff (hn : 0 < n) : a.negOverflow = decide (¬ InS n |a.toInt|) := by
  have h1 := BitVec.two_mul_toInt_lt (x := a)
  have h3 := BitVec.le_two_mul_toInt (x := a)
  rw [negOverflow_iff hn, decide_eq_decide]
  rcases abs_cases a.toInt with ⟨h, _⟩ | ⟨h, _⟩ <;> rw [h] <;> simp only [InS] <;> omega

/-! ### Division -/

theorem ofInt_udiv : BitVec.ofInt n (((a.toNat / b.toNat : Nat)) : Int) = a / b := by
  apply BitVec.eq_of_toNat_eq
  rw [BitVec.ofInt_natCast, BitVec.toNat_ofNat, BitVec.toNat_udiv,
    Nat.mod_eq_of_lt (lt_of_le_of_lt (Nat.div_le_self _ _) a.isLt)]

theorem ofInt_umod : BitVec.ofInt n (((a.toNat % b.toNat : Nat)) : Int) = a % b := by
  apply BitVec.eq_of_toNat_eq
  rw [BitVec.ofInt_natCast, BitVec.toNat_ofNat, BitVec.toNat_umod,
    Nat.mod_eq_of_lt (lt_of_le_of_lt (Nat.mod_le _ _) a.isLt)]

theorem ofInt_sdiv : BitVec.ofInt n (a.toInt.tdiv b.toInt) = a.sdiv b := by
  apply BitVec.eq_of_toInt_eq
  rw [BitVec.toInt_ofInt, BitVec.toInt_sdiv]

theorem ofInt_srem : BitVec.ofInt n (a.toInt.tmod b.toInt) = a.srem b := by
  rw [← BitVec.toInt_srem, BitVec.ofInt_toInt]

theorem tdiv_InS (hn : 0 < n) : ¬ InS n (a.toInt.tdiv b.toInt) ↔ a.toInt = -2 ^ (n - 1) ∧ b.toInt = -1 := by
  have h1 := BitVec.two_mul_toInt_lt (x := a)
  have h3 := BitVec.le_two_mul_toInt (x := a)
  obtain ⟨m, rfl⟩ : ∃ m, n = m + 1 := ⟨n - 1, by omega⟩
  rw [not_InS_iff hn, Nat.add_sub_cancel]
  rw [pow_succ] at h1 h3
  have hp : (0 : Int) < 2 ^ m := by positivity
  generalize (2 : Int) ^ m = P at *
  generalize a.toInt = A at *
  generalize b.toInt = B at *
  constructor
  · intro h
    by_cases hB : B = -1
    · subst hB
      rw [Int.tdiv_neg, Int.tdiv_one] at h
      omega
    by_cases hB1 : B = 1
    · subst hB1
      rw [Int.tdiv_one] at h
      omega
    exfalso
    have h4 : (A.tdiv B).natAbs ≤ A.natAbs / 2 := by
      rw [Int.natAbs_tdiv]
      show A.natAbs / B.natAbs ≤ _
      by_cases hB0 : B = 0
      · subst hB0; simp
      exact Nat.div_le_div_left (by omega) (by decide)
    omega
  · rintro ⟨rfl, rfl⟩
    rw [Int.tdiv_neg, Int.tdiv_one]
    omega

theorem sdivOverflow_eq (hn : 0 < n) :
    a.sdivOverflow b = true ↔ a.toInt = -2 ^ (n - 1) ∧ b.toInt = -1 := by
  rw [BitVec.sdivOverflow_eq, decide_eq_true hn, Bool.true_and, Bool.and_eq_true, decide_eq_true_eq,
    decide_eq_true_eq, ← BitVec.toInt_inj, ← BitVec.toInt_inj, BitVec.toInt_intMin_of_pos hn,
    BitVec.toInt_allOnes, if_pos hn]

theorem sdivOverflow_iff (hn : 0 < n) : a.sdivOverflow b = decide (¬ InS n (a.toInt.tdiv b.toInt)) := by
  rw [Bool.eq_iff_iff, sdivOverflow_eq hn, decide_eq_true_eq, tdiv_InS hn]

end SameBits

end I256
