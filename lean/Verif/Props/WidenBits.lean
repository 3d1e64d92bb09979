import Verif.Props.Widen
import Verif.Props.LimbSizeBits
import Verif.Props.ShiftAll
import Verif.Props.BitVecs

/-!
# Types of different widths (C99): order, bits, shifts, conversions

`x`, `y` are operands of one type and `x'`, `y'` the same numbers in a type with at least as many bits.
-/

namespace I256

open Sample

variable {w v : Nat} {x y : Limbs w} {x' y' : Limbs v}

/-! ### Order -/

/-- C99: comparisons of unsigned numbers. -/
theorem C99_uint_order (hx : WidenU x x') (hy : WidenU y y') (hl : x.length = y.length)
    (hl' : x'.length = y'.length) :
    Ord.lt false x y = Ord.lt false x' y' ∧ Ord.le false x y = Ord.le false x' y' ∧
    Ord.gt false x y = Ord.gt false x' y' ∧ Ord.ge false x y = Ord.ge false x' y' ∧
    Ord.cmp false x y = Ord.cmp false x' y' ∧ Ord.eqConst x y = Ord.eqConst x' y' := by
  have e := (C26_eq hl hx.l.even).1
  have e' := (C26_eq hl' hx.r.even).1
  have h := C26_uint_order hx.l.pos hl hx.l.even hx.l.four
  have h' := C26_uint_order hx.r.pos hl' hx.r.even hx.r.four
  simp only [Bool.eq_iff_iff, h.1, h.2.1, h.2.2.1, h.2.2.2.1, h.2.2.2.2, h'.1, h'.2.1, h'.2.2.1,
    h'.2.2.2.1, h'.2.2.2.2, e, e', hx.value, hy.value, and_self]

example := C99_uint_order wide_b wide_max rfl rfl
example : Ord.lt false b32 ones32 = true ∧ Ord.lt false b512 max512 = true := by decide

/-- C99: comparisons of signed numbers. -/
theorem C99_int_order (hx : WidenS x x') (hy : WidenS y y') (hl : x.length = y.length)
    (hl' : x'.length = y'.length) :
    Ord.lt true x y = Ord.lt true x' y' ∧ Ord.le true x y = Ord.le true x' y' ∧
    Ord.gt true x y = Ord.gt true x' y' ∧ Ord.ge true x y = Ord.ge true x' y' ∧
    Ord.cmp true x y = Ord.cmp true x' y' ∧ Ord.eqConst x y = Ord.eqConst x' y' := by
  have e := (C26_eq hl hx.l.even).1
  have e' := (C26_eq hl' hx.r.even).1
  have h := C26_int_order hx.l.pos hl hx.l.even hx.l.four
  have h' := C26_int_order hx.r.pos hl' hx.r.even hx.r.four
  have eq : toNat x = toNat y ↔ toNat x' = toNat y' := by
    have c : ∀ {u : Nat} {a b : Limbs u}, a.length = b.length → (toNat a = toNat b ↔ toInt a = toInt b) :=
      fun h => ⟨fun e => by rw [toNat_inj h e], fun e => by rw [toInt_inj h e]⟩
    rw [c hl, c hl', hx.value, hy.value]
  refine ⟨?_, ?_, ?_, ?_, ?_, Bool.eq_iff_iff.2 (by rw [e, e', eq])⟩
  all_goals
    simp only [Bool.eq_iff_iff, h.1, h.2.1, h.2.2.1, h.2.2.2.1, h.2.2.2.2, h'.1, h'.2.1, h'.2.2.1,
      h'.2.2.2.1, h'.2.2.2.2, hx.value, hy.value]

example := C99_int_order wideS_b wideS_neg rfl rfl
example : Ord.lt true b32 ones32 = false ∧ Ord.lt true b512 neg512 = false := by decide

/-- C99: sign and parity of signed numbers. -/
theorem C99_sign_tests (hx : WidenS x x') :
    I.isNegative x = I.isNegative x' ∧ I.isPositive x = I.isPositive x' ∧ isEven x = isEven x' ∧
    isOdd x = isOdd x' := by
  have h := C36_int_sign_tests hx.l.pos hx.l.ne
  have h' := C36_int_sign_tests hx.r.pos hx.r.ne
  have p : toNat x % 2 = toNat x' % 2 := by
    have c : ∀ {u : Nat} {a : Limbs u}, 0 < bits a → toInt a % 2 = (toNat a : Int) % 2 := by
      intro u a h
      have d : (2 : Int) ∣ 2 ^ bits a := dvd_pow_self 2 (by omega)
      rw [← Int.emod_emod_of_dvd (toInt a) d, toInt_emod, Int.emod_emod_of_dvd _ d]
    have m := c (a := x) (lt_of_lt_of_le (by decide) hx.l.builds.large)
    have m' := c (a := x') (lt_of_lt_of_le (by decide) hx.r.builds.large)
    rw [hx.value] at m
    omega
  simp only [Bool.eq_iff_iff, h.1, h.2, h'.1, h'.2, (C48_parity hx.l.pos hx.l.ne).1,
    (C48_parity hx.r.pos hx.r.ne).1, (C48_parity hx.l.pos hx.l.ne).2.1,
    (C48_parity hx.r.pos hx.r.ne).2.1, hx.value, p, and_self]

example := C99_sign_tests wideS_neg

/-! ### Bits -/

/-- C99: bitwise operators on unsigned numbers. -/
theorem C99_uint_bitops (hx : WidenU x x') (hy : WidenU y y') (hl : x.length = y.length)
    (hl' : x'.length = y'.length) :
    EqU (Bits.and x y) (Bits.and x' y') ∧ EqU (Bits.or x y) (Bits.or x' y') ∧
    EqU (Bits.xor x y) (Bits.xor x' y') ∧ Cuts (Bits.not x) (Bits.not x') := by
  refine ⟨Nat.eq_of_testBit_eq fun i => ?_, Nat.eq_of_testBit_eq fun i => ?_,
    Nat.eq_of_testBit_eq fun i => ?_, ?_⟩
  · rw [(C23_and hl).2, (C23_and hl').2, hx.value, hy.value]
  · rw [(C23_or hl).2, (C23_or hl').2, hx.value, hy.value]
  · rw [(C23_xor hl).2, (C23_xor hl').2, hx.value, hy.value]
  · have h := (C23_not hx.l.pos (x := x)).2.2.1
    have h' := (C23_not hx.r.pos (x := x')).2.2.1
    have e : bits (Bits.not x) = bits x := by rw [bits, (C23_not hx.l.pos).1, ← bits]
    have lt : toNat x < 2 ^ bits x := toNat_lt x
    rw [Cuts, e]
    obtain ⟨d, hd⟩ := Nat.exists_eq_add_of_le hx.le
    change bits x' = bits x + d at hd
    rw [← hx.value, hd, pow_add] at h'
    have hp := Nat.two_pow_pos d
    have key : toNat (Bits.not x') = toNat (Bits.not x) + 2 ^ bits x * (2 ^ d - 1) := by
      obtain ⟨c, hc⟩ := Nat.exists_eq_add_of_le' hp
      zify
      rw [h, h']
      have : (2 : Int) ^ d = c + 1 := by exact_mod_cast hc
      rw [hc, Nat.add_sub_cancel, this]
      push_cast
      ring
    rw [key, Nat.add_mul_mod_self_left, Nat.mod_eq_of_lt]
    have : (toNat (Bits.not x) : Int) < 2 ^ bits x := by omega
    exact_mod_cast this

example := C99_uint_bitops wide_b wide_max rfl rfl

/-- C99: bitwise operators on signed numbers. -/
theorem C99_int_bitops (hx : WidenS x x') (hy : WidenS y y') (hl : x.length = y.length)
    (hl' : x'.length = y'.length) :
    EqS (Bits.and x y) (Bits.and x' y') ∧ EqS (Bits.or x y) (Bits.or x' y') ∧
    EqS (Bits.xor x y) (Bits.xor x' y') ∧ EqS (Bits.not x) (Bits.not x') := by
  have sb : ∀ {u : Nat} (a : Limbs u), SameBits (BitVec.ofNat (bits a) (toNat a)) a := fun a => C97_total a
  have le : bits x ≤ bits x' := hx.le
  have by_ : SameBits (BitVec.ofNat (bits x) (toNat y)) y := by
    have := sb y
    rwa [show bits y = bits x by rw [bits, bits, hl]] at this
  have by' : SameBits (BitVec.ofNat (bits x') (toNat y')) y' := by
    have := sb y'
    rwa [show bits y' = bits x' by rw [bits, bits, hl']] at this
  have ex : BitVec.ofNat (bits x') (toNat x') = (BitVec.ofNat (bits x) (toNat x)).signExtend (bits x') := by
    apply BitVec.eq_of_toInt_eq
    rw [BitVec.toInt_signExtend_of_le le, ← (sb x).toInt, ← (sb x').toInt, hx.value]
  have ey : BitVec.ofNat (bits x') (toNat y') = (BitVec.ofNat (bits x) (toNat y)).signExtend (bits x') := by
    apply BitVec.eq_of_toInt_eq
    rw [BitVec.toInt_signExtend_of_le le, ← by_.toInt, ← by'.toInt, hy.value]
  obtain ⟨h1, h2, h3⟩ := C97_bitwise hx.l.one hx.l.four hx.l.even (sb x) by_
  obtain ⟨g1, g2, g3⟩ := C97_bitwise hx.r.one hx.r.four hx.r.even (sb x') by'
  rw [ex, ey] at g1 g2 g3
  refine ⟨?_, ?_, ?_, ?_⟩
  · rw [EqS, h1.toInt, g1.toInt, ← BitVec.signExtend_and, BitVec.toInt_signExtend_of_le le]
  · rw [EqS, h2.toInt, g2.toInt, ← BitVec.signExtend_or, BitVec.toInt_signExtend_of_le le]
  · rw [EqS, h3.toInt, g3.toInt, ← BitVec.signExtend_xor, BitVec.toInt_signExtend_of_le le]
  · rw [EqS, (C23_not hx.l.pos).2.2.2 hx.l.ne, (C23_not hx.r.pos).2.2.2 hx.r.ne, hx.value]

example := C99_int_bitops wideS_b wideS_neg rfl rfl
example : toInt (Bits.xor b32 ones32) = toInt (Bits.xor b512 neg512) := by decide +kernel

/-- C99: bit counts of unsigned numbers. The wider type has `bits x' - bits x` further leading zeros; the
trailing ones are the same, and so are the trailing zeros of a number other than 0. -/
theorem C99_uint_counts (hx : WidenU x x') :
    Bits.countOnes x' = Bits.countOnes x ∧
    Bits.countZeros x' = Bits.countZeros x + (bits x' - bits x) ∧
    Bits.leadingZeros x' = Bits.leadingZeros x + (bits x' - bits x) ∧
    Bits.trailingOnes x' = Bits.trailingOnes x ∧
    (toNat x ≠ 0 → Bits.trailingZeros x' = Bits.trailingZeros x) ∧
    checkedIlog2 false x' = checkedIlog2 false x ∧ ilog2 false x' = ilog2 false x := by
  have le : bits x ≤ bits x' := hx.le
  have lt : toNat x < 2 ^ bits x := toNat_lt x
  have hi : ∀ i, bits x ≤ i → (toNat x).testBit i = false := fun i h =>
    Nat.testBit_lt_two_pow (lt_of_lt_of_le lt (Nat.pow_le_pow_right (by decide) h))
  have ones : Bits.countOnes x' = Bits.countOnes x := by
    obtain ⟨d, hd⟩ := Nat.exists_eq_add_of_le le
    rw [C22_count_ones, C22_count_ones, ← hx.value, hd, List.range_add, List.countP_append, List.countP_map]
    refine Nat.add_eq_left.2 (List.countP_eq_zero.2 fun i _ => ?_)
    simp only [Function.comp_apply, hi _ (Nat.le_add_right _ _), Bool.false_eq_true, not_false_eq_true]
  -- the first set position is determined
  have key : ∀ {a b : Nat} {t : Nat → Bool} (_ : ∀ i, i < a → t i = false) (_ : ∀ i, i < b → t i = false)
      (_ : t a = true) (_ : t b = true), a = b := by
    intro a b t h1 h2 h3 h4
    rcases Nat.lt_trichotomy a b with h | h | h
    · have := h2 a h
      rw [h3] at this
      cases this
    · exact h
    · have := h1 b h
      rw [h4] at this
      cases this
  refine ⟨ones, ?_, ?_, ?_, fun h0 => ?_, ?_, ?_⟩
  · have := (C22_count_zeros (x := x)).2
    have := (C22_count_zeros (x := x')).2
    omega
  · have h := C22_leading_zeros (x := x)
    have h' := C22_leading_zeros (x := x')
    rw [← hx.value] at h'
    by_cases h0 : toNat x = 0
    · have z : Bits.leadingZeros x = bits x := by
        by_contra hne
        have := h.2.2.2.2 (by have := h.1; omega)
        have := Nat.two_pow_pos (bits x - 1 - Bits.leadingZeros x)
        omega
      have z' : Bits.leadingZeros x' = bits x' := by
        by_contra hne
        have := h'.2.2.2.2 (by have := h'.1; omega)
        have := Nat.two_pow_pos (bits x' - 1 - Bits.leadingZeros x')
        omega
      omega
    · have f : ∀ {B L : Nat}, L ≤ B → toNat x < 2 ^ (B - L) → (L < B → 2 ^ (B - 1 - L) ≤ toNat x) →
          L < B ∧ Nat.log2 (toNat x) = B - 1 - L := by
        intro B L h1 h2 h3
        have hlt : L < B := by
          by_contra hc
          rw [show B - L = 0 by omega] at h2
          omega
        refine ⟨hlt, ?_⟩
        rw [Nat.log2_eq_iff h0]
        exact ⟨h3 hlt, by rwa [show B - 1 - L + 1 = B - L by omega]⟩
      have e := f h.1 h.2.2.2.1 h.2.2.2.2
      have e' := f h'.1 h'.2.2.2.1 h'.2.2.2.2
      omega
  · have h := C22_trailing_ones (x := x)
    have h' := C22_trailing_ones (x := x')
    rw [← hx.value] at h'
    have c : ∀ {B T : Nat}, bits x ≤ B → (T < B → (toNat x).testBit T = false) → T ≤ B →
        (!(toNat x).testBit T) = true := by
      intro B T hB h1 h2
      by_cases ht : T < B
      · rw [h1 ht]; rfl
      · rw [hi T (by omega)]; rfl
    refine key (t := fun i => !(toNat x).testBit i) ?_ ?_ (c le h'.2.2 h'.1) (c le_rfl h.2.2 h.1)
    · intro i hi; simp only [h'.2.1 i hi, Bool.not_true]
    · intro i hi; simp only [h.2.1 i hi, Bool.not_true]
  · have h := C22_trailing_zeros (x := x)
    have h' := C22_trailing_zeros (x := x')
    rw [← hx.value] at h'
    have c : ∀ {B T : Nat}, bits x ≤ B → (T < B → (toNat x).testBit T = true) → T ≤ B →
        2 ^ T ∣ toNat x → (toNat x).testBit T = true := by
      intro B T hB h1 h2 h3
      refine h1 (lt_of_le_of_ne h2 fun e => ?_)
      subst e
      have := Nat.le_of_dvd (Nat.pos_of_ne_zero h0) h3
      have := Nat.pow_le_pow_right (n := 2) (by decide) hB
      omega
    exact key (t := fun i => (toNat x).testBit i) h'.2.1 h.2.1 (c le h'.2.2.1 h'.1 h'.2.2.2)
      (c le_rfl h.2.2.1 h.1 h.2.2.2)
  · rw [(C22_uint_ilog2 hx.l.pos hx.l.even hx.l.four).1, (C22_uint_ilog2 hx.r.pos hx.r.even hx.r.four).1, hx.value]
  · rw [(C22_uint_ilog2 hx.l.pos hx.l.even hx.l.four).2, (C22_uint_ilog2 hx.r.pos hx.r.even hx.r.four).2, hx.value]

example := C99_uint_counts wide_b
example : Bits.leadingZeros b32 = 29 ∧ Bits.leadingZeros b512 = 285 ∧ Bits.trailingOnes ones32 = 256 ∧
    Bits.trailingOnes max512 = 256 := by decide

/-- C99: a signed number from 0 on has the bits of the unsigned number, in both types; every theorem
about `WidenU` applies to it. -/
theorem C99_nonneg (hx : WidenS x x') (hn : 0 ≤ toInt x) : WidenU x x' := by
  have c : ∀ {u : Nat} {a : Limbs u}, 0 ≤ toInt a → (toNat a : Int) = toInt a := by
    intro u a h
    have := toNat_lt a
    have : (toNat a : Int) < 2 ^ bits a := by exact_mod_cast this
    unfold toInt at h ⊢
    split
    · rfl
    · rw [if_neg ‹_›] at h
      omega
  refine ⟨hx.types, ?_⟩
  have h := c hn
  have h' := c (hx.value ▸ hn : 0 ≤ toInt x')
  rw [hx.value, ← h'] at h
  exact_mod_cast h

example := C99_nonneg wideS_b (by decide)

/-- C99: bit counts of negative numbers. (For the others see `C99_nonneg` and `C99_uint_counts`.) The wider
type has `bits x' - bits x` further leading ones. -/
theorem C99_int_counts (hx : WidenS x x') (hn : toInt x < 0) :
    Bits.countZeros x' = Bits.countZeros x ∧
    Bits.countOnes x' = Bits.countOnes x + (bits x' - bits x) ∧
    Bits.leadingOnes x' = Bits.leadingOnes x + (bits x' - bits x) ∧
    Bits.trailingZeros x' = Bits.trailingZeros x ∧
    (toInt x ≠ -1 → Bits.trailingOnes x' = Bits.trailingOnes x) := by
  have nx := C23_not hx.l.pos (x := x)
  have nx' := C23_not hx.r.pos (x := x')
  have iv := nx.2.2.2 hx.l.ne
  have iv' := nx'.2.2.2 hx.r.ne
  have ws : WidenS (Bits.not x) (Bits.not x') :=
    ⟨by rw [nx.1, nx'.1]; exact hx.types, by rw [iv, iv', hx.value]⟩
  have wu := C99_nonneg ws (by omega)
  have b : bits (Bits.not x) = bits x := by rw [bits, bits, nx.1]
  have b' : bits (Bits.not x') = bits x' := by rw [bits, bits, nx'.1]
  have nn : ∀ {u : Nat} (a : Limbs u), Bits.not (Bits.not a) = a := by
    intro u a
    rw [Bits.not, Bits.not, List.map_map]
    conv_rhs => rw [← List.map_id a]
    exact List.map_congr_left fun i _ => BitVec.not_not
  obtain ⟨c1, c2, c3, c4, c5, -, -⟩ := C99_uint_counts wu
  rw [b, b'] at c2 c3
  refine ⟨c1, ?_, c3, ?_, fun h1 => c5 ?_⟩
  · rw [Bits.countZeros, Bits.countZeros, nn, nn] at c2
    exact c2
  · rw [Bits.trailingOnes, Bits.trailingOnes, nn, nn] at c4
    exact c4
  · intro h0
    have : toInt (Bits.not x) = 0 := by
      rw [toInt, h0]
      simp
    omega

example := C99_int_counts wideS_neg (by decide)
example : Bits.leadingOnes ones32 = 256 ∧ Bits.leadingOnes neg512 = 512 := by decide

/-- C99: binary logarithms of signed numbers. -/
theorem C99_int_ilog2 (hx : WidenS x x') :
    checkedIlog2 true x = checkedIlog2 true x' ∧ ilog2 true x = ilog2 true x' := by
  rw [(C22_int_ilog2 hx.l.pos hx.l.even hx.l.four).1, (C22_int_ilog2 hx.r.pos hx.r.even hx.r.four).1,
    (C22_int_ilog2 hx.l.pos hx.l.even hx.l.four).2, (C22_int_ilog2 hx.r.pos hx.r.even hx.r.four).2, hx.value]
  exact ⟨rfl, rfl⟩

example := C99_int_ilog2 wideS_b

/-! ### Shifts

An amount that both types accept. Larger amounts are reduced modulo the width, which differs. -/

/-- C99: left shifts by less than the narrow width, and unbounded left shifts by any amount. -/
theorem C99_shl (hx : WidenU x x') {s : Nat} (hs : s < bits x) (t : Nat) :
    Cuts (wrappingShl x s) (wrappingShl x' s) ∧ Cuts (unboundedShl x t) (unboundedShl x' t) ∧
    (∃ a b, checkedShl x s = some a ∧ checkedShl x' s = some b ∧ Cuts a b) ∧
    SameRes Cuts (strictShl x s) (strictShl x' s) := by
  obtain ⟨k, hk⟩ := hx.l.builds.pow
  obtain ⟨k', hk'⟩ := hx.r.builds.pow
  have hs' : s < v * x'.length := lt_of_lt_of_le hs hx.le
  have en : (toNat x : Int) = toNat x' := by rw [hx.value]
  have m : s % (w * x.length) = s % (v * x'.length) := by
    rw [Nat.mod_eq_of_lt hs', Nat.mod_eq_of_lt (show s < w * x.length from hs)]
  refine ⟨Widen.wrapU hx.le (C20_uint_wrapping_shl hk hx.l.even hx.l.ne s)
      (C20_uint_wrapping_shl hk' hx.r.even hx.r.ne s) (by rw [en, m]),
    Widen.wrapU hx.le (C39_unbounded_shl hk hx.l.even hx.l.ne t)
      (C39_unbounded_shl hk' hx.r.even hx.r.ne t) (by rw [en]), ?_,
    Same.ok ((C20_strict hk hx.l.even hx.l.ne s).1 hs).1 ((C20_strict hk' hx.r.even hx.r.ne s).1 hs').1
      fun _ _ ha hb => Widen.wrapU hx.le ha hb (by rw [en])⟩
  obtain ⟨a, ea, ha, -⟩ := (C20_checked_shl hk hx.l.even hx.l.ne s).1 hs
  obtain ⟨b, eb, hb, -⟩ := (C20_checked_shl hk' hx.r.even hx.r.ne s).1 hs'
  exact ⟨a, b, ea, eb, Widen.wrapU hx.le ha hb (by rw [en])⟩

example := C99_shl wide_b (s := 77) (by decide) 300
example : Cuts (wrappingShl b32 77) (wrappingShl b512 77) := by decide +kernel

/-- C99: right shifts of unsigned numbers by less than the narrow width, and unbounded ones by any
amount. -/
theorem C99_uint_shr (hx : WidenU x x') {s : Nat} (hs : s < bits x) (t : Nat) :
    EqU (wrappingShr false x s) (wrappingShr false x' s) ∧
    EqU (unboundedShr false x t) (unboundedShr false x' t) ∧
    (∃ a b, checkedShr false x s = some a ∧ checkedShr false x' s = some b ∧ EqU a b) ∧
    SameRes EqU (strictShr false x s) (strictShr false x' s) := by
  obtain ⟨k, hk⟩ := hx.l.builds.pow
  obtain ⟨k', hk'⟩ := hx.r.builds.pow
  have hs' : s < v * x'.length := lt_of_lt_of_le hs hx.le
  have en : (toNat x : Int) = toNat x' := by rw [hx.value]
  have m : s % (w * x.length) = s % (v * x'.length) := by
    rw [Nat.mod_eq_of_lt hs', Nat.mod_eq_of_lt (show s < w * x.length from hs)]
  refine ⟨Widen.exactU (C20_uint_wrapping_shr hk hx.l.even hx.l.ne s)
      (C20_uint_wrapping_shr hk' hx.r.even hx.r.ne s) (by rw [en, m]),
    Widen.exactU (C39_uint_unbounded_shr hk hx.l.even hx.l.ne t)
      (C39_uint_unbounded_shr hk' hx.r.even hx.r.ne t) (by rw [en]), ?_,
    Same.ok ((C20_strict hk hx.l.even hx.l.ne s).1 hs).2.1 ((C20_strict hk' hx.r.even hx.r.ne s).1 hs').2.1
      fun _ _ ha hb => Widen.exactU ha hb (by rw [en])⟩
  obtain ⟨a, ea, ha⟩ := (C20_uint_checked_shr hk hx.l.even hx.l.ne s).1 hs
  obtain ⟨b, eb, hb⟩ := (C20_uint_checked_shr hk' hx.r.even hx.r.ne s).1 hs'
  exact ⟨a, b, ea, eb, Widen.exactU ha hb (by rw [en])⟩

example := C99_uint_shr wide_max (s := 77) (by decide) 300

/-- C99: right shifts of signed numbers by less than the narrow width. -/
theorem C99_int_shr (hx : WidenS x x') {s : Nat} (hs : s < bits x) :
    EqS (wrappingShr true x s) (wrappingShr true x' s) ∧
    EqS (unboundedShr true x s) (unboundedShr true x' s) ∧
    (∃ a b, checkedShr true x s = some a ∧ checkedShr true x' s = some b ∧ EqS a b) ∧
    SameRes EqS (strictShr true x s) (strictShr true x' s) := by
  obtain ⟨k, hk⟩ := hx.l.builds.pow
  obtain ⟨k', hk'⟩ := hx.r.builds.pow
  have hs' : s < v * x'.length := lt_of_lt_of_le hs hx.le
  have m : s % (w * x.length) = s % (v * x'.length) := by
    rw [Nat.mod_eq_of_lt hs', Nat.mod_eq_of_lt (show s < w * x.length from hs)]
  have sh := C20_int_wrapping_shr hk hx.l.even hx.l.ne s
  have sh' := C20_int_wrapping_shr hk' hx.r.even hx.r.ne s
  have e1 := Widen.exactS sh sh' (by rw [hx.value, m])
  refine ⟨e1, ?_, ?_,
    Same.ok ((C20_strict hk hx.l.even hx.l.ne s).1 hs).2.2 ((C20_strict hk' hx.r.even hx.r.ne s).1 hs').2.2
      fun _ _ ha hb => Widen.exactS ha hb (by rw [hx.value])⟩
  · exact Widen.exactS (C39_int_unbounded_shr_partial hk hx.l.even hx.l.ne s (.inl hs))
      (C39_int_unbounded_shr_partial hk' hx.r.even hx.r.ne s (.inl hs')) (by rw [hx.value])
  obtain ⟨a, ea, ha⟩ := (C20_int_checked_shr hk hx.l.even hx.l.ne s).1 hs
  obtain ⟨b, eb, hb⟩ := (C20_int_checked_shr hk' hx.r.even hx.r.ne s).1 hs'
  exact ⟨a, b, ea, eb, Widen.exactS ha hb (by rw [hx.value])⟩

example := C99_int_shr wideS_neg (s := 77) (by decide)

/-- C99: `unbounded_shr` by at least the narrow width gives 0 for every number of the narrow type, but
not for negative numbers in the wide type. -/
theorem C99_int_unbounded_shr_false : WidenS ones32 neg512 ∧
    toInt (unboundedShr true ones32 300) = 0 ∧ toInt (unboundedShr true neg512 300) = -1 := by
  decide +kernel

/-! ### Midpoint and powers of two -/

/-- C99: midpoint of unsigned numbers. -/
theorem C99_uint_midpoint (hx : WidenU x x') (hy : WidenU y y') (hl : x.length = y.length)
    (hl' : x'.length = y'.length) : EqU (U.midpoint x y) (U.midpoint x' y') := by
  obtain ⟨k, hk⟩ := hx.l.builds.pow
  obtain ⟨k', hk'⟩ := hx.r.builds.pow
  exact Widen.exactU (C35_uint_midpoint hk hl hx.l.even hx.l.ne) (C35_uint_midpoint hk' hl' hx.r.even hx.r.ne)
    (by rw [hx.value, hy.value])

example := C99_uint_midpoint wide_b wide_max rfl rfl

/-- C99: midpoint of signed numbers. -/
theorem C99_int_midpoint (hx : WidenS x x') (hy : WidenS y y') (hl : x.length = y.length)
    (hl' : x'.length = y'.length) : EqS (I.midpoint x y) (I.midpoint x' y') := by
  obtain ⟨k, hk⟩ := hx.l.builds.pow
  obtain ⟨k', hk'⟩ := hx.r.builds.pow
  exact Widen.exactS (C43_int_midpoint_partial hk hl hx.l.even hx.l.ne)
    (C43_int_midpoint_partial hk' hl' hx.r.even hx.r.ne) (by rw [hx.value, hy.value])

example := C99_int_midpoint wideS_b wideS_neg rfl rfl

/-- C99: powers of two. -/
theorem C99_power_of_two (hx : WidenU x x') (oc : Bool) :
    U.isPowerOfTwo x = U.isPowerOfTwo x' ∧
    NarrowOpt EqU (FitsU (bits x)) (U.checkedNextPowerOfTwo x) (U.checkedNextPowerOfTwo x') ∧
    Cuts (U.wrappingNextPowerOfTwo x) (U.wrappingNextPowerOfTwo x') ∧
    NarrowOp oc EqU (FitsU (bits x)) (U.nextPowerOfTwo oc x) (U.nextPowerOfTwo oc x') := by
  obtain ⟨k, hk⟩ := hx.l.builds.pow
  obtain ⟨k', hk'⟩ := hx.r.builds.pow
  have ez : (2 : Int) ^ Nat.clog 2 (toNat x) = 2 ^ Nat.clog 2 (toNat x') := by rw [hx.value]
  exact ⟨Bool.eq_iff_iff.2 (by rw [C33_is_power_of_two, C33_is_power_of_two, hx.value]),
    Widen.checkU hx.le (C33_checked_next_power_of_two hk hx.l.even hx.l.four)
      (C33_checked_next_power_of_two hk' hx.r.even hx.r.four) ez,
    Widen.wrapU hx.le (C33_wrapping_next_power_of_two hk hx.l.even hx.l.four).1
      (C33_wrapping_next_power_of_two hk' hx.r.even hx.r.four).1 ez,
    Widen.opU hx.le (C33_next_power_of_two oc hk hx.l.even hx.l.four)
      (C33_next_power_of_two oc hk' hx.r.even hx.r.four) ez⟩

example := C99_power_of_two wide_max true
example : U.checkedNextPowerOfTwo ones32 = none ∧
    U.checkedNextPowerOfTwo max512 = some [0, 0, 0, 0, 1, 0, 0, 0] := by decide +kernel

/-! ### Conversions -/

variable {N M : Nat}

/-- C99: conversions from the primitive types of 8 to 128 bits. -/
theorem C99_from_prim (h : Wider w N v M) (p : Prim) (a : BitVec p.n) :
    EqU (Cast.fromU N p a : Limbs w) (Cast.fromU M p a : Limbs v) ∧
    EqS (Cast.fromI N p a : Limbs w) (Cast.fromI M p a : Limbs v) ∧
    NarrowOpt EqU (fun _ => True) (Cast.tryFromI N p a : Option (Limbs w)) (Cast.tryFromI M p a : Option (Limbs v)) := by
  have f := h.narrow
  have g := h.wide
  refine ⟨Widen.exactU (C27_from_unsigned f.left f.four f.b129 p a).1
      (C27_from_unsigned g.left g.four g.b129 p a).1 rfl,
    Widen.exactS (C27_from_signed f.left f.four p a).1 (C27_from_signed g.left g.four p a).1 rfl, ?_⟩
  have c := C28_try_from_prim f.left f.four f.b128 p a
  have d := C28_try_from_prim g.left g.four g.b128 p a
  have big : ∀ {k : Nat}, 128 ≤ k → a.toInt < 2 ^ k := by
    intro k hk
    have h1 := (bv_InS a).2
    have h2 : (2 : Int) ^ p.n ≤ 2 ^ k := pow_le_pow_right₀ (by norm_num) (by
      have : p.n ≤ 128 := by cases p <;> decide
      omega)
    have h3 : (0 : Int) < 2 ^ k := by positivity
    omega
  by_cases h0 : 0 ≤ a.toInt
  · obtain ⟨r, er, hr⟩ := c.1 ⟨h0, big f.b128⟩
    obtain ⟨t, et, ht⟩ := d.1 ⟨h0, big g.b128⟩
    rw [er, et]
    exact Widen.exactU hr ht rfl
  · rw [c.2 fun hi => h0 hi.1, d.2 fun hi => h0 hi.1]
    trivial

example := C99_from_prim (w := 32) (N := 8) (v := 64) (M := 8) (by decide) .b64 (-5#64)

/-- C99: conversions of unsigned numbers to the primitive types of 8 to 128 bits. -/
theorem C99_to_prim (hx : WidenU x x') (p : Prim) : Cast.asP x p = Cast.asP x' p := by
  have l := hx.l.builds
  have r := hx.r.builds
  apply BitVec.eq_of_toNat_eq
  have e := (C27_as l.left hx.l.four l.b128 p).1
  have e' := (C27_as r.left hx.r.four r.b128 p).1
  rw [hx.value, ← e'] at e
  exact_mod_cast e

example := C99_to_prim wide_b .b128

/-- C99: the byte arrays of unsigned numbers. The wide little-endian one continues the narrow one with
zeros. -/
theorem C99_to_bytes (hx : WidenU x x') (be be' : Bool) :
    Endian.toLeBytes be' x' =
      Endian.toLeBytes be x ++ List.replicate ((bits x' - bits x) / 8) 0 ∧
    Endian.toBeBytes be' x' =
      List.replicate ((bits x' - bits x) / 8) 0 ++ Endian.toBeBytes be x := by
  have h := C25_to_bytes (x := x) (be := be) hx.l.builds.eight
  have h' := C25_to_bytes (x := x') (be := be') hx.r.builds.eight
  have d8 : ∀ {u K : Nat}, 8 ∣ u → u * K = 8 * (u / 8 * K) := by
    rintro u K ⟨c, rfl⟩
    rw [Nat.mul_div_cancel_left _ (by decide), Nat.mul_assoc]
  have e : bits x = 8 * (w / 8 * x.length) := d8 hx.l.builds.eight
  have e' : bits x' = 8 * (v / 8 * x'.length) := d8 hx.r.builds.eight
  have le : bits x ≤ bits x' := hx.le
  have len : (Endian.toLeBytes be x).length = w / 8 * x.length := by
    have n := h.1 (w / 8 * x.length)
    rw [if_neg (lt_irrefl _), List.getElem?_eq_none_iff] at n
    refine le_antisymm n (Nat.le_of_not_lt fun c => ?_)
    have m := h.1 (Endian.toLeBytes be x).length
    rw [if_pos c, List.getElem?_eq_none (le_refl _)] at m
    cases m
  have hle : Endian.toLeBytes be' x' =
      Endian.toLeBytes be x ++ List.replicate ((bits x' - bits x) / 8) 0 := by
    refine List.ext_getElem? fun i => ?_
    rw [h'.1, List.getElem?_append, len, h.1, List.getElem?_replicate, ← hx.value]
    by_cases hi : i < w / 8 * x.length
    · rw [if_pos hi, if_pos hi, if_pos (by omega)]
    · rw [if_neg hi]
      by_cases hi' : i < v / 8 * x'.length
      · rw [if_pos hi', if_pos (by omega)]
        have z : byteOf (toNat x) i = 0 := by
          have lt : toNat x < 2 ^ (8 * i) := lt_of_lt_of_le (toNat_lt x)
            (Nat.pow_le_pow_right (by decide) (by omega))
          rw [pow_mul] at lt
          rw [byteOf, Nat.div_eq_of_lt (show toNat x < 256 ^ i from lt)]
        rw [z]
        rfl
      · rw [if_neg hi', if_neg (by omega)]
  refine ⟨hle, ?_⟩
  rw [h.2.1, h'.2.1, hle, List.reverse_append, List.reverse_replicate]

example := C99_to_bytes wide_b false true
example : (Endian.toLeBytes false b512).drop 30 = [0, 0] ++ List.replicate 32 0 ∧
    (Endian.toLeBytes false b512).take 28 = (Endian.toLeBytes false b32).take 28 := by decide +kernel

end I256
