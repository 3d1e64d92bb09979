import Verif.Lemmas.NegAbs
import Verif.Props.Samples

/-!
# C35 (absolute difference), C36 (negation, absolute value, sign), C37 (carry chains), C42 (operators
`+` and `-`), C45 (`checked_signed_diff`, unsigned negation)
-/

namespace I256

open Sample

variable {w : Nat} {x y : Limbs w}

/-! ## C35 -/

/-- C35: unsigned `abs_diff` is `|x - y|`. -/
theorem C35_uint_abs_diff (hw : 0 < w) (hl : x.length = y.length) (h2 : x.length % 2 = 0)
    (hN : 2 ≤ x.length) :
    ExactU x.length |(toNat x : Int) - toNat y| (U.absDiff x y) := by
  have h := Ord.lt_iff hw false hl h2 hN
  simp only [Ord.val, Bool.false_eq_true, if_false] at h
  have hx := InU_toNat x
  have hy := InU_toNat y
  rw [show bits y = w * x.length by simp [bits, hl]] at hy
  rw [show bits x = w * x.length from rfl] at hx
  unfold U.absDiff
  by_cases hlt : Ord.lt false x y = true
  · rw [if_pos hlt]
    rw [abs_of_neg (by have := h.1 hlt; omega)]
    have := Sub.wrapU hw hl.symm
    rw [← hl] at this
    refine WrapU.exact (z := -((toNat x : Int) - toNat y)) (by rw [neg_sub]; exact this) ?_
    have := h.1 hlt
    unfold InU at *
    omega
  · rw [if_neg hlt]
    have h0 : ¬ ((toNat x : Int) < toNat y) := fun hc => hlt (h.2 hc)
    rw [abs_of_nonneg (by omega)]
    refine (Sub.wrapU hw hl).exact ?_
    unfold InU at *
    omega

example := C35_uint_abs_diff (x := one) (y := a) (by decide) (by decide) (by decide) (by decide)
example : U.absDiff zero a = a ∧ U.absDiff a zero = a := by decide

/-! ## C36 -/

/-- C36: signed `wrapping_neg`. -/
theorem C36_int_wrapping_neg (hw : 0 < w) (hx : 2 ≤ x.length) :
    WrapS x.length (-toInt x) (I.wrappingNeg x) := wrappingNegS hw hx

example := C36_int_wrapping_neg (x := top) (by decide) (by decide)
example : I.wrappingNeg top = top ∧ I.wrappingNeg ones = one := by decide

/-- C36: `overflowing_neg`, `checked_neg`, `strict_neg` and the operator `-x`; the flag is set iff
`x = MIN`. -/
theorem C36_int_neg (hw : 0 < w) (hx : 2 ≤ x.length) (h2 : x.length % 2 = 0) (oc : Bool) :
    OverS x.length (-toInt x) (I.overflowingNeg x) ∧
      ((I.overflowingNeg x).2 = true ↔ toInt x = -2 ^ (bits x - 1)) ∧
      CheckS x.length (-toInt x) (I.checkedNeg x) ∧
      StrictS x.length (-toInt x) (I.strictNeg x) ∧
      OpS oc x.length (-toInt x) (I.neg oc x) := by
  have h := overflowingNegS hw hx h2
  refine ⟨h, h.2.trans ?_, h.check, h.check.strict, h.check.op (wrappingNegS hw hx) oc⟩
  have hS := toInt_InS x
  rw [show bits x = w * x.length from rfl] at *
  have hP := two_pow_half (w := w) (N := x.length) hw (by omega)
  unfold InS at *
  omega

example := C36_int_neg (x := top) (by decide) (by decide) (by decide) true
example : I.checkedNeg top = none ∧ I.checkedNeg one = some ones ∧ I.neg true top = .panic ∧
    I.neg false top = .ok top := by decide

/-- C36: `saturating_neg`. -/
theorem C36_int_saturating_neg (hw : 1 < w) (hx : 2 ≤ x.length) :
    SatS x.length (-toInt x) (I.saturatingNeg x) := by
  have h0 := ofU8S (w := w) (N := x.length) (v := 0) (by omega) hx (by positivity)
  have hne : (ofU8 x.length 0 : Limbs w) ≠ [] := length_ne (n := 0) (by rw [h0.1]; omega)
  have h := (Sub.overS hw hne h0.1).check.saturate (by omega) hne (by
    rw [h0.1, h0.2]
    have := toInt_InS x
    rw [show bits x = w * x.length from rfl] at this
    unfold InS at *
    omega)
  rw [h0.1, h0.2, Nat.cast_zero, zero_sub] at h
  exact h

example := C36_int_saturating_neg (x := top) (by decide) (by decide)
example : I.saturatingNeg top = maxS := by decide

/-- C36: the abs family; overflow exactly at `MIN`. -/
theorem C36_int_abs (hw : 0 < w) (hx : 2 ≤ x.length) (h2 : x.length % 2 = 0) :
    WrapS x.length |toInt x| (I.wrappingAbs x) ∧
      OverS x.length |toInt x| (I.overflowingAbs x) ∧
      ((I.overflowingAbs x).2 = true ↔ toInt x = -2 ^ (bits x - 1)) ∧
      CheckS x.length |toInt x| (I.checkedAbs x) ∧
      StrictS x.length |toInt x| (I.abs x) ∧
      SatS x.length |toInt x| (I.saturatingAbs x) := by
  have h := overflowingAbsS hw hx h2
  refine ⟨h.1, h, h.2.trans ?_, h.check, h.check.strict, ?_⟩
  · have hS := toInt_InS x
    rw [show bits x = w * x.length from rfl] at *
    have hP := two_pow_half (w := w) (N := x.length) hw (by omega)
    unfold InS at *
    rcases abs_cases (toInt x) with ⟨h1, h3⟩ | ⟨h1, h3⟩ <;> rw [h1] <;> omega
  · have hc := h.check
    by_cases hi : InS (w * x.length) |toInt x|
    · obtain ⟨v, hv, hv2⟩ := hc.1 hi
      rw [I.saturatingAbs, I.checkedAbs, hv]
      exact SatS.some hw (by omega) hi hv2
    · rw [I.saturatingAbs, I.checkedAbs, hc.2 hi]
      exact SatS.max hw (by omega) hi (abs_nonneg _)

example := C36_int_abs (x := m2) (by decide) (by decide) (by decide)
example : I.wrappingAbs m2 = [2, 0, 0, 0] ∧ I.checkedAbs top = none ∧ I.saturatingAbs top = maxS := by
  decide

/-- C36: `unsigned_abs` is `|x|` for every `x`, including `MIN`. -/
theorem C36_int_unsigned_abs (hw : 0 < w) (hx : 2 ≤ x.length) (h2 : x.length % 2 = 0) :
    ExactU x.length |toInt x| (I.unsignedAbs x) := unsignedAbsU hw hx h2

example := C36_int_unsigned_abs (x := top) (by decide) (by decide) (by decide)
example : I.unsignedAbs top = top := by decide

/-- C36: `is_negative` and `is_positive` are the sign tests. -/
theorem C36_int_sign_tests (hw : 0 < w) (hx : x ≠ []) :
    (I.isNegative x = true ↔ toInt x < 0) ∧ (I.isPositive x = true ↔ 0 < toInt x) :=
  ⟨isNegative_iff hw hx, isPositive_iff hw hx⟩

example := C36_int_sign_tests (x := top) (by decide) (by decide)
example : I.isNegative top = true ∧ I.isPositive one = true ∧ I.isPositive zero = false := by decide

/-- C36: `signum`. -/
theorem C36_int_signum (hw : 1 < w) (hx : 2 ≤ x.length) (h2 : x.length % 2 = 0) :
    ExactS x.length (toInt x).sign (I.signum x) := by
  have h1w : 1 < 2 ^ w := Nat.one_lt_two_pow (by omega)
  have h4 : 2 ^ 2 ≤ 2 ^ w := Nat.pow_le_pow_right (by omega) hw
  have h0 := ofU8S (w := w) (N := x.length) (v := 0) (by omega) hx (by omega)
  have h1 := ofU8S (w := w) (N := x.length) (v := 1) (by omega) hx h1w
  have hm := ofI8S (w := w) (N := x.length) (v := -1) (by omega) (by
    unfold InS
    rw [← natCast_two_pow]
    omega)
  unfold I.signum
  rw [Ord.cmp_iff (by omega) true h0.1.symm h2 hx]
  simp only [Ord.val, if_true]
  rw [h0.2, Nat.cast_zero, Int.compare_eq_ite_lt]
  by_cases hl : toInt x < 0
  · rw [if_pos hl, Int.sign_eq_neg_one_of_neg hl]
    exact hm
  · rw [if_neg hl]
    by_cases hg : toInt x = 0
    · rw [hg]; simpa using h0
    · rw [if_pos (by omega), Int.sign_eq_one_of_pos (by omega)]
      simpa using h1

example := C36_int_signum (x := m2) (by decide) (by decide) (by decide)
example : I.signum m2 = ones ∧ I.signum zero = zero ∧ I.signum maxS = one := by decide

/-- C36: signed `abs_diff` is `|x - y|` as an unsigned number. -/
theorem C36_int_abs_diff (hw : 0 < w) (hl : x.length = y.length) (h2 : x.length % 2 = 0)
    (hN : 2 ≤ x.length) :
    ExactU x.length |toInt x - toInt y| (I.absDiff x y) := by
  have h := Ord.lt_iff hw true hl h2 hN
  simp only [Ord.val, if_true] at h
  have hx := toInt_InS x
  have hy := toInt_InS y
  rw [show bits y = w * x.length by simp [bits, hl]] at hy
  rw [show bits x = w * x.length from rfl] at hx
  have hxm := toInt_modEq x
  have hym := toInt_modEq y
  rw [← hl] at hym
  unfold I.absDiff
  by_cases hlt : Ord.lt true x y = true
  · rw [if_pos hlt, abs_of_neg (by have := h.1 hlt; omega)]
    have := Sub.wrapU hw hl.symm
    rw [← hl] at this
    refine WrapU.exact (z := -(toInt x - toInt y)) ?_ ?_
    · rw [neg_sub]
      exact this.congr ((hym.sub hxm).symm)
    · have := h.1 hlt
      unfold InU InS at *
      omega
  · rw [if_neg hlt]
    have h0 : ¬ (toInt x < toInt y) := fun hc => hlt (h.2 hc)
    rw [abs_of_nonneg (by omega)]
    refine ((Sub.wrapU hw hl).congr ((hxm.sub hym).symm)).exact ?_
    unfold InU InS at *
    omega

example := C36_int_abs_diff (x := top) (y := maxS) (by decide) (by decide) (by decide) (by decide)
example : I.absDiff top maxS = ones := by decide

/-! ## C37 -/

/-- C37: unsigned `carrying_add` and `borrowing_sub`: value and carry are exact. -/
theorem C37_uint_carrying (hw : 0 < w) (hx : x ≠ []) (hl : x.length = y.length) (c : Bool) :
    OverU x.length (toNat x + toNat y + c.toNat) (U.carryingAdd x y c) ∧
      OverU x.length (toNat x - toNat y - c.toNat) (U.borrowingSub x y c) :=
  ⟨carryingAddU hw hx hl c, borrowingSubU hw hx hl c⟩

example := C37_uint_carrying (x := ones) (y := ones) (by decide) (by decide) (by decide) true
example : U.carryingAdd ones ones true = (ones, true) ∧
    U.borrowingSub zero ones true = (zero, true) := by decide

/-- The number denoted by a sequence of words, least significant word first. -/
def wordsNat : List (Limbs w) → Nat
  | [] => 0
  | x :: xs => toNat x + 2 ^ bits x * wordsNat xs

/-- The number of bits of a sequence of words. -/
def wordsBits : List (Limbs w) → Nat
  | [] => 0
  | x :: xs => bits x + wordsBits xs

/-- Addition of word sequences by chaining `carrying_add`. -/
def chainAdd : List (Limbs w × Limbs w) → Bool → List (Limbs w) × Bool
  | [], c => ([], c)
  | (x, y) :: rest, c =>
    let (s, c) := U.carryingAdd x y c
    let (r, c) := chainAdd rest c
    (s :: r, c)

/-- Subtraction of word sequences by chaining `borrowing_sub`. -/
def chainSub : List (Limbs w × Limbs w) → Bool → List (Limbs w) × Bool
  | [], c => ([], c)
  | (x, y) :: rest, c =>
    let (s, c) := U.borrowingSub x y c
    let (r, c) := chainSub rest c
    (s :: r, c)

theorem OverU.value {z : Int} {N : Nat} {r : Limbs w × Bool} (h : OverU N z r) (h0 : 0 ≤ z)
    (h1 : z < 2 * 2 ^ (w * N)) : (toNat r.1 : Int) + 2 ^ (w * N) * r.2.toNat = z := by
  obtain ⟨⟨hl, hv⟩, hf⟩ := h
  obtain ⟨v, f⟩ := r
  simp only at *
  unfold InU at hf
  cases f
  · simp at hf
    rw [hv, Int.emod_eq_of_lt h0 hf.2]
    simp
  · simp at hf
    have : z % 2 ^ (w * N) = z - 2 ^ (w * N) := by
      rw [← Int.sub_emod_right, Int.emod_eq_of_lt (by omega) (by omega)]
    rw [hv, this]
    simp

theorem OverU.value_sub {z : Int} {N : Nat} {r : Limbs w × Bool} (h : OverU N z r)
    (h0 : -2 ^ (w * N) ≤ z) (h1 : z < 2 ^ (w * N)) :
    (toNat r.1 : Int) - 2 ^ (w * N) * r.2.toNat = z := by
  obtain ⟨⟨hl, hv⟩, hf⟩ := h
  obtain ⟨v, f⟩ := r
  simp only at *
  unfold InU at hf
  cases f
  · simp at hf
    rw [hv, Int.emod_eq_of_lt hf.1 hf.2]
    simp
  · simp at hf
    have : z % 2 ^ (w * N) = z + 2 ^ (w * N) := by
      rw [← Int.add_emod_right, Int.emod_eq_of_lt (by omega) (by omega)]
    rw [hv, this]
    simp

/-- C37: chaining `carrying_add` over any number of words adds exactly. -/
theorem C37_uint_chain_add (hw : 0 < w) (l : List (Limbs w × Limbs w)) (c : Bool)
    (hl : ∀ p ∈ l, p.1 ≠ [] ∧ p.1.length = p.2.length) :
    (wordsNat (chainAdd l c).1 : Int) + 2 ^ wordsBits (l.map (·.1)) * (chainAdd l c).2.toNat
      = wordsNat (l.map (·.1)) + wordsNat (l.map (·.2)) + c.toNat := by
  induction l generalizing c with
  | nil => simp [chainAdd, wordsNat, wordsBits]
  | cons p l ih =>
    obtain ⟨x, y⟩ := p
    have hp := hl (x, y) (by simp)
    simp only at hp
    have h1 := carryingAddU hw hp.1 hp.2 c
    have hx := toNat_lt_int x
    have hy := toNat_lt_int y
    rw [show bits y = bits x from (bits_eq_of_length hp.2).symm] at hy
    have hc : (c.toNat : Int) ≤ 1 := by cases c <;> simp
    have h2 := h1.value (by omega) (by rw [show w * x.length = bits x from rfl]; omega)
    have h3 := ih (U.carryingAdd x y c).2 (fun p hp => hl p (by simp [hp]))
    have hb : bits (U.carryingAdd x y c).1 = bits x := bits_eq_of_length h1.1.1
    have hb2 : bits y = bits x := (bits_eq_of_length hp.2).symm
    simp only [chainAdd, List.map_cons, wordsNat, wordsBits]
    rw [hb, hb2, pow_add]
    rw [show w * x.length = bits x from rfl] at h2
    push_cast
    linear_combination h2 + 2 ^ bits x * h3

example := C37_uint_chain_add (w := 64) (by decide) [(ones, one), (ones, zero), (a, a)] false
  (by decide)
example : chainAdd [(ones, one), (ones, zero), (zero, zero)] false = ([zero, zero, one], false) := by
  decide

/-- C37: chaining `borrowing_sub` over any number of words subtracts exactly. -/
theorem C37_uint_chain_sub (hw : 0 < w) (l : List (Limbs w × Limbs w)) (c : Bool)
    (hl : ∀ p ∈ l, p.1 ≠ [] ∧ p.1.length = p.2.length) :
    (wordsNat (chainSub l c).1 : Int) - 2 ^ wordsBits (l.map (·.1)) * (chainSub l c).2.toNat
      = wordsNat (l.map (·.1)) - wordsNat (l.map (·.2)) - c.toNat := by
  induction l generalizing c with
  | nil => simp [chainSub, wordsNat, wordsBits]
  | cons p l ih =>
    obtain ⟨x, y⟩ := p
    have hp := hl (x, y) (by simp)
    simp only at hp
    have h1 := borrowingSubU hw hp.1 hp.2 c
    have hx := toNat_lt_int x
    have hy := toNat_lt_int y
    rw [show bits y = bits x from (bits_eq_of_length hp.2).symm] at hy
    have hc : (c.toNat : Int) ≤ 1 := by cases c <;> simp
    have h2 := h1.value_sub (by rw [show w * x.length = bits x from rfl]; omega)
      (by rw [show w * x.length = bits x from rfl]; omega)
    have h3 := ih (U.borrowingSub x y c).2 (fun p hp => hl p (by simp [hp]))
    have hb : bits (U.borrowingSub x y c).1 = bits x := bits_eq_of_length h1.1.1
    have hb2 : bits y = bits x := (bits_eq_of_length hp.2).symm
    simp only [chainSub, List.map_cons, wordsNat, wordsBits]
    rw [hb, hb2, pow_add]
    rw [show w * x.length = bits x from rfl] at h2
    push_cast
    linear_combination h2 + 2 ^ bits x * h3

example := C37_uint_chain_sub (w := 64) (by decide) [(zero, one), (zero, zero), (a, one)] false
  (by decide)
example : chainSub [(zero, one), (zero, zero), (one, zero)] false = ([ones, ones, zero], false) := by
  decide

/-- C37, signed, as claimed: value exact and the flag set iff the exact result is out of range.
The code violates it (`C37_int_carrying_add_false`). -/
def C37IntCarryingAdd : Prop :=
  ∀ (x y : Limbs 64) (c : Bool), x.length = 4 → y.length = 4 →
    OverS 4 (toInt x + toInt y + c.toNat) (I.carryingAdd x y c)

/-- C37 fails on the signed types: `MIN + (-1) + 1 = MIN` is representable, but the flag is set
(src/shared/bigint.rs L23-27 combines the flags of the two additions with `|`). -/
theorem C37_int_carrying_add_false : ¬ C37IntCarryingAdd := by
  intro h
  have h1 := (h top ones true (by decide) (by decide)).2.1 (by decide)
  exact h1 (by decide)

/-- C37 fails on the signed types for `borrowing_sub`: `MAX - (-1) - 1 = MAX`. -/
theorem C37_int_borrowing_sub_false :
    ¬ ∀ (x y : Limbs 64) (c : Bool), x.length = 4 → y.length = 4 →
      OverS 4 (toInt x - toInt y - c.toNat) (I.borrowingSub x y c) := by
  intro h
  have h1 := (h maxS ones true (by decide) (by decide)).2.1 (by decide)
  exact h1 (by decide)

/-- C37, signed, what holds. The full claim is `OverS x.length (x + y + c) (carrying_add x y c)`, and
the same for `borrowing_sub`. The value is exact; the flag is set iff the first addition or the
whole sum is out of range, so no overflow is missed, and it is exact unless `x ± y` alone is out of
range while the total is in range. -/
theorem C37_int_carrying_partial (hw : 1 < w) (hx : 2 ≤ x.length) (hl : x.length = y.length)
    (c : Bool) :
    (WrapS x.length (toInt x + toInt y + c.toNat) (I.carryingAdd x y c).1 ∧
      ((I.carryingAdd x y c).2 = true ↔
        ¬ InS (bits x) (toInt x + toInt y) ∨ ¬ InS (bits x) (toInt x + toInt y + c.toNat))) ∧
    (WrapS x.length (toInt x - toInt y - c.toNat) (I.borrowingSub x y c).1 ∧
      ((I.borrowingSub x y c).2 = true ↔
        ¬ InS (bits x) (toInt x - toInt y) ∨ ¬ InS (bits x) (toInt x - toInt y - c.toNat))) :=
  ⟨carryingAddS hw hx hl c, borrowingSubS hw hx hl c⟩

example := C37_int_carrying_partial (x := maxS) (y := one) (by decide) (by decide) (by decide) true
example : I.carryingAdd maxS zero true = (top, true) ∧ I.carryingAdd m2 zero true = (ones, false) := by
  decide

/-! ## C42 -/

/-- C42: the operators `+` and `-` of the unsigned types in builds with and without overflow
checks. -/
theorem C42_uint_add_sub (hw : 0 < w) (hl : x.length = y.length) (oc : Bool) :
    OpU oc x.length (toNat x + toNat y) (U.add oc x y) ∧
      OpU oc x.length (toNat x - toNat y) (U.sub oc x y) :=
  ⟨(Add.overU hw hl).check.op (Add.wrapU hw hl) oc, (Sub.overU hw hl).check.op (Sub.wrapU hw hl) oc⟩

example := C42_uint_add_sub (x := ones) (y := one) (by decide) (by decide) true
example : U.add true ones one = .panic ∧ U.add false ones one = .ok zero ∧
    U.sub true zero one = .panic := by decide

/-- C42: the operators `+` and `-` of the signed types. -/
theorem C42_int_add_sub (hw : 1 < w) (hx : x ≠ []) (hl : x.length = y.length) (oc : Bool) :
    OpS oc x.length (toInt x + toInt y) (I.add oc x y) ∧
      OpS oc x.length (toInt x - toInt y) (I.sub oc x y) :=
  ⟨(Add.overS hw hx hl).check.op (Add.wrapS (by omega) hl) oc,
    (Sub.overS hw hx hl).check.op (Sub.wrapS (by omega) hl) oc⟩

example := C42_int_add_sub (x := maxS) (y := one) (by decide) (by decide) (by decide) true
example : I.add true maxS one = .panic ∧ I.add false maxS one = .ok top := by decide

/-! ## C45 -/

/-- C45: `checked_signed_diff` is `Some (x - y)` iff the difference fits the signed type. -/
theorem C45_checked_signed_diff (hw : 0 < w) (hl : x.length = y.length) (h2 : x.length % 2 = 0)
    (hN : 2 ≤ x.length) :
    CheckS x.length ((toNat x : Int) - toNat y) (U.checkedSignedDiff x y) := by
  have hlt := Ord.lt_iff hw false hl h2 hN
  simp only [Ord.val, Bool.false_eq_true, if_false] at hlt
  have h0 := ofU8S (w := w) (N := x.length) (v := 0) hw hN (by positivity)
  have hs := Sub.wrapU hw hl
  have hs2 := hs.wrapS
  have hx := InU_toNat x
  have hy := InU_toNat y
  rw [show bits y = w * x.length by simp [bits, hl]] at hy
  rw [show bits x = w * x.length from rfl] at hx
  have hneg := Ord.lt_iff (x := U.wrappingSub x y) (y := ofU8 x.length 0) hw true
    (hs.1.trans h0.1.symm) (by rw [U.wrappingSub, hs.1]; exact h2)
    (by rw [U.wrappingSub, hs.1]; exact hN)
  simp only [Ord.val, if_true] at hneg
  rw [h0.2, Nat.cast_zero] at hneg
  have hge : Ord.ge false x y = true ↔ (toNat y : Int) ≤ toNat x := by
    rw [Ord.ge, Bool.not_eq_true', ← Bool.not_eq_true, hlt]; omega
  have hb := bmod_two (n := w * x.length) (z := (toNat x : Int) - toNat y)
    (by unfold InU at *; omega) (by unfold InU at *; omega)
  rw [← hs2.2] at hb
  rw [← U.wrappingSub] at *
  unfold U.checkedSignedDiff
  simp only
  generalize Ord.ge false x y = g at *
  generalize Ord.lt true (U.wrappingSub x y) (ofU8 x.length 0) = n at *
  constructor
  · intro hi
    have hv : toInt (U.wrappingSub x y) = (toNat x : Int) - toNat y := by
      rcases hb with h | h | h
      · exact h.2
      · exact absurd hi h.2.1
      · exact absurd hi h.2.1
    refine ⟨U.wrappingSub x y, ?_, hs.1, hv⟩
    rw [hv] at hneg
    cases g <;> cases n <;> simp at * <;> omega
  · intro hi
    have := hi
    unfold InS at this
    unfold InU at *
    rcases hb with h | h | h
    · exact absurd h.1 hi
    · cases g <;> cases n <;> simp at * <;> omega
    · cases g <;> cases n <;> simp at * <;> omega

example := C45_checked_signed_diff (x := one) (y := a) (by decide) (by decide) (by decide)
  (by decide)
example : U.checkedSignedDiff one [3, 0, 0, 0] = some m2 ∧ U.checkedSignedDiff ones zero = none ∧
    U.checkedSignedDiff zero top = some top := by decide

/-- C45: unsigned `wrapping_neg` and `checked_neg`. -/
theorem C45_uint_neg (hw : 0 < w) (h2 : x.length % 2 = 0) :
    WrapU x.length (-(toNat x : Int)) (U.wrappingNeg x) ∧
      CheckU x.length (-(toNat x : Int)) (U.checkedNeg x) ∧
      (U.checkedNeg x = if toNat x = 0 then some x else none) := by
  have h0 := minValueU w x.length
  have h1 := Sub.wrapU hw h0.1
  rw [h0.1, h0.2, zero_sub] at h1
  have he := Ord.eqConst_iff (x := x) (y := U.minValue w x.length) h0.1.symm h2
  have hz : x = U.minValue w x.length ↔ toNat x = 0 := by
    constructor
    · intro h; rw [h]; exact_mod_cast h0.2
    · intro h
      exact toNat_inj h0.1.symm (by have := h0.2; omega)
  rw [hz] at he
  have e : U.checkedNeg x = if toNat x = 0 then some x else none := by
    unfold U.checkedNeg
    by_cases h : toNat x = 0
    · rw [if_pos (he.2 h), if_pos h]
    · rw [if_neg (fun hc => h (he.1 hc)), if_neg h]
  refine ⟨h1, ?_, e⟩
  rw [e]
  have hP : (0 : Int) < 2 ^ (w * x.length) := by positivity
  constructor
  · intro hi
    have : toNat x = 0 := by unfold InU at hi; omega
    exact ⟨x, if_pos this, rfl, by omega⟩
  · intro hi
    refine if_neg fun h => hi ?_
    rw [h]
    exact ⟨by simp, by simpa using hP⟩

example := C45_uint_neg (x := one) (by decide) (by decide)
example : U.wrappingNeg one = ones ∧ U.checkedNeg one = none ∧ U.checkedNeg zero = some zero := by
  decide

end I256
