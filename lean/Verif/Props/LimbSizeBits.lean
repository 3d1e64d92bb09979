import Verif.Props.LimbSize
import Verif.Props.Ord
import Verif.Props.Bitops
import Verif.Props.Shift
import Verif.Props.Casts
import Verif.Props.Endian
import Verif.Props.Misc

/-!
# Limb size independence (C40): bits, order, conversions

`x`, `y` are operands in one build and `x'`, `y'` the same operands in the other (`Twins`).
-/

namespace I256

open Sample

variable {w v : Nat} {x y : Limbs w} {x' y' : Limbs v}

/-! ### Order -/

/-- C40: comparisons. -/
theorem C40_order (hx : Twins x x') (hy : Twins y y') (hl : x.length = y.length) (sg : Bool) :
    Ord.lt sg x y = Ord.lt sg x' y' ∧ Ord.le sg x y = Ord.le sg x' y' ∧
    Ord.gt sg x y = Ord.gt sg x' y' ∧ Ord.ge sg x y = Ord.ge sg x' y' ∧
    Ord.cmp sg x y = Ord.cmp sg x' y' ∧ Ord.eqConst x y = Ord.eqConst x' y' := by
  have hl' := hx.len hy hl
  have gx := hx.symm
  have e := (C26_eq hl hx.even).1
  have e' := (C26_eq hl' gx.even).1
  cases sg
  · have h := C26_uint_order hx.pos hl hx.even hx.four
    have h' := C26_uint_order gx.pos hl' gx.even gx.four
    simp only [Bool.eq_iff_iff, h.1, h.2.1, h.2.2.1, h.2.2.2.1, h.2.2.2.2, h'.1, h'.2.1, h'.2.2.1,
      h'.2.2.2.1, h'.2.2.2.2, e, e', hx.value, hy.value, and_self]
  · have h := C26_int_order hx.pos hl hx.even hx.four
    have h' := C26_int_order gx.pos hl' gx.even gx.four
    simp only [Bool.eq_iff_iff, h.1, h.2.1, h.2.2.1, h.2.2.2.1, h.2.2.2.2, h'.1, h'.2.1, h'.2.2.1,
      h'.2.2.2.1, h'.2.2.2.2, e, e', hx.value, hy.value, hx.int, hy.int, and_self]

example := C40_order twins_b twins_ones rfl true
example : Ord.lt true b32 ones32 = false ∧ Ord.lt true b64 ones = false := by decide

/-- C40: sign tests. -/
theorem C40_sign_tests (hx : Twins x x') :
    I.isNegative x = I.isNegative x' ∧ I.isPositive x = I.isPositive x' ∧ isEven x = isEven x' := by
  have gx := hx.symm
  have h := C36_int_sign_tests hx.pos hx.ne
  have h' := C36_int_sign_tests gx.pos gx.ne
  simp only [Bool.eq_iff_iff, h.1, h.2, h'.1, h'.2, (C48_parity hx.pos hx.ne).1,
    (C48_parity gx.pos gx.ne).1, hx.int, hx.value, and_self]

example := C40_sign_tests twins_ones

/-! ### Bits -/

/-- C40: bitwise operators. -/
theorem C40_bitops (hx : Twins x x') (hy : Twins y y') (hl : x.length = y.length) :
    Same (Bits.and x y) (Bits.and x' y') ∧ Same (Bits.or x y) (Bits.or x' y') ∧
    Same (Bits.xor x y) (Bits.xor x' y') ∧ Same (Bits.not x) (Bits.not x') := by
  have hl' := hx.len hy hl
  have gx := hx.symm
  have hb : ∀ {a : Limbs w} {b : Limbs v}, a.length = x.length → b.length = x'.length →
      bits a = bits b := fun h h' => by rw [bits, bits, h, h', hx.builds.width]
  refine ⟨Same.testBit (hb (C23_and hl).1 (C23_and hl').1) fun i _ => ?_,
    Same.testBit (hb (C23_or hl).1 (C23_or hl').1) fun i _ => ?_,
    Same.testBit (hb (C23_xor hl).1 (C23_xor hl').1) fun i _ => ?_,
    hb (C23_not hx.pos).1 (C23_not gx.pos).1, ?_⟩
  · rw [(C23_and hl).2, (C23_and hl').2, hx.value, hy.value]
  · rw [(C23_or hl).2, (C23_or hl').2, hx.value, hy.value]
  · rw [(C23_xor hl).2, (C23_xor hl').2, hx.value, hy.value]
  · have h := (C23_not hx.pos (x := x)).2.2.1
    have h' := (C23_not gx.pos (x := x')).2.2.1
    rw [hx.value, hx.bits_eq, ← h'] at h
    exact_mod_cast h

example := C40_bitops twins_b twins_ones rfl
example : Same (Bits.xor b32 ones32) (Bits.xor b64 ones) := by decide

/-- C40: bit counts and binary logarithms. -/
theorem C40_counts (hx : Twins x x') (sg : Bool) :
    Bits.countOnes x = Bits.countOnes x' ∧ Bits.countZeros x = Bits.countZeros x' ∧
    Bits.leadingZeros x = Bits.leadingZeros x' ∧ Bits.trailingZeros x = Bits.trailingZeros x' ∧
    Bits.leadingOnes x = Bits.leadingOnes x' ∧ Bits.trailingOnes x = Bits.trailingOnes x' ∧
    checkedIlog2 sg x = checkedIlog2 sg x' ∧ ilog2 sg x = ilog2 sg x' := by
  have gx := hx.symm
  have eb := hx.bits_eq
  have key : ∀ {a b : Nat} {B : Nat} {t : Nat → Bool} (_ : a ≤ B) (_ : b ≤ B)
      (_ : ∀ i, i < a → t i = false) (_ : ∀ i, i < b → t i = false)
      (_ : a < B → t a = true) (_ : b < B → t b = true), a = b := by
    intro a b B t ha hb h1 h2 h3 h4
    rcases Nat.lt_trichotomy a b with h | h | h
    · have := h2 a h
      rw [h3 (by omega)] at this
      cases this
    · exact h
    · have := h1 b h
      rw [h4 (by omega)] at this
      cases this
  refine ⟨?_, ?_, ?_, ?_, ?_, ?_, ?_, ?_⟩
  · rw [C22_count_ones, C22_count_ones, hx.value, eb]
  · rw [C22_count_zeros.1, C22_count_zeros.1, hx.value, eb]
  · have h := C22_leading_zeros (x := x)
    have h' := C22_leading_zeros (x := x')
    rw [← hx.value, ← eb] at h'
    exact key (t := fun i => (toNat x).testBit (bits x - 1 - i)) h.1 h'.1 h.2.1 h'.2.1 h.2.2.1 h'.2.2.1
  · have h := C22_trailing_zeros (x := x)
    have h' := C22_trailing_zeros (x := x')
    rw [← hx.value, ← eb] at h'
    exact key (t := fun i => (toNat x).testBit i) h.1 h'.1 h.2.1 h'.2.1 h.2.2.1 h'.2.2.1
  · have h := C22_leading_ones (x := x)
    have h' := C22_leading_ones (x := x')
    rw [← hx.value, ← eb] at h'
    refine key (t := fun i => !(toNat x).testBit (bits x - 1 - i)) h.1 h'.1 ?_ ?_ ?_ ?_ <;>
      simp only [Bool.not_eq_false', Bool.not_eq_true'] <;> first
        | exact h.2.1
        | exact h'.2.1
        | exact h.2.2
        | exact h'.2.2
  · have h := C22_trailing_ones (x := x)
    have h' := C22_trailing_ones (x := x')
    rw [← hx.value, ← eb] at h'
    refine key (t := fun i => !(toNat x).testBit i) h.1 h'.1 ?_ ?_ ?_ ?_ <;>
      simp only [Bool.not_eq_false', Bool.not_eq_true'] <;> first
        | exact h.2.1
        | exact h'.2.1
        | exact h.2.2
        | exact h'.2.2
  · cases sg
    · rw [(C22_uint_ilog2 hx.pos hx.even hx.four).1, (C22_uint_ilog2 gx.pos gx.even gx.four).1, hx.value]
    · rw [(C22_int_ilog2 hx.pos hx.even hx.four).1, (C22_int_ilog2 gx.pos gx.even gx.four).1, hx.int]
  · cases sg
    · rw [(C22_uint_ilog2 hx.pos hx.even hx.four).2, (C22_uint_ilog2 gx.pos gx.even gx.four).2, hx.value]
    · rw [(C22_int_ilog2 hx.pos hx.even hx.four).2, (C22_int_ilog2 gx.pos gx.even gx.four).2, hx.int]

example := C40_counts twins_b false
example : Bits.leadingZeros b32 = 29 ∧ Bits.leadingZeros b64 = 29 := by decide

/-! ### Shifts and rotations -/

/-- C40: wrapping and unbounded shifts and the logical forms. -/
theorem C40_shift (hx : Twins x x') (s : Nat) :
    Same (wrappingShl x s) (wrappingShl x' s) ∧
    Same (wrappingShr false x s) (wrappingShr false x' s) ∧
    Same (wrappingShr true x s) (wrappingShr true x' s) ∧
    Same (unboundedShl x s) (unboundedShl x' s) ∧
    Same (unboundedShr false x s) (unboundedShr false x' s) ∧
    SameOpt (checkedShl x s) (checkedShl x' s) ∧
    (∀ sg, SameOpt (checkedShr sg x s) (checkedShr sg x' s)) ∧
    SameRes Same (strictShl x s) (strictShl x' s) ∧
    (∀ sg, SameRes Same (strictShr sg x s) (strictShr sg x' s)) ∧
    SameFlag (I.overflowingShl x s) (I.overflowingShl x' s) ∧
    SameFlag (I.overflowingShr x s) (I.overflowingShr x' s) := by
  obtain ⟨k, hk⟩ := hx.builds.pow
  have gx := hx.symm
  obtain ⟨k', hk'⟩ := gx.builds.pow
  have e := hx.builds.width
  have ev := hx.even
  have ev' := gx.even
  have sh : ∀ {z z' : Int}, z = z' → z * 2 ^ (s % (w * x.length)) = z' * 2 ^ (s % (v * x'.length)) :=
    fun h => by rw [h, e]
  have sr : ∀ {z z' : Int}, z = z' → z / 2 ^ (s % (w * x.length)) = z' / 2 ^ (s % (v * x'.length)) :=
    fun h => by rw [h, e]
  have en : (toNat x : Int) = toNat x' := by rw [hx.value]
  refine ⟨Same.wrapU e (C20_uint_wrapping_shl hk ev hx.ne s) (C20_uint_wrapping_shl hk' ev' gx.ne s) (sh en),
    Same.exactU e (C20_uint_wrapping_shr hk ev hx.ne s) (C20_uint_wrapping_shr hk' ev' gx.ne s) (sr en),
    Same.exactS e (C20_int_wrapping_shr hk ev hx.ne s) (C20_int_wrapping_shr hk' ev' gx.ne s) (sr hx.int),
    Same.wrapU e (C39_unbounded_shl hk ev hx.ne s) (C39_unbounded_shl hk' ev' gx.ne s) (by rw [en]),
    Same.exactU e (C39_uint_unbounded_shr hk ev hx.ne s) (C39_uint_unbounded_shr hk' ev' gx.ne s) (by rw [en]),
    ?_, ?_, ?_, ?_, ?_, ?_⟩
  · have h := C20_checked_shl hk ev hx.ne s
    have h' := C20_checked_shl hk' ev' gx.ne s
    by_cases hs : s < w * x.length
    · obtain ⟨a, ea, ha, -⟩ := h.1 hs
      obtain ⟨b, eb, hb, -⟩ := h'.1 (e ▸ hs)
      rw [ea, eb]
      exact Same.wrapU e ha hb (by rw [en])
    · rw [h.2 (by omega), h'.2 (by omega)]
      trivial
  · rintro (_ | _)
    · have h := C20_uint_checked_shr hk ev hx.ne s
      have h' := C20_uint_checked_shr hk' ev' gx.ne s
      by_cases hs : s < w * x.length
      · obtain ⟨a, ea, ha⟩ := h.1 hs
        obtain ⟨b, eb, hb⟩ := h'.1 (e ▸ hs)
        rw [ea, eb]
        exact Same.exactU e ha hb (by rw [en])
      · rw [h.2 (by omega), h'.2 (by omega)]
        trivial
    · have h := C20_int_checked_shr hk ev hx.ne s
      have h' := C20_int_checked_shr hk' ev' gx.ne s
      by_cases hs : s < w * x.length
      · obtain ⟨a, ea, ha⟩ := h.1 hs
        obtain ⟨b, eb, hb⟩ := h'.1 (e ▸ hs)
        rw [ea, eb]
        exact Same.exactS e ha hb (by rw [hx.int])
      · rw [h.2 (by omega), h'.2 (by omega)]
        trivial
  · have h := C20_strict hk ev hx.ne s
    have h' := C20_strict hk' ev' gx.ne s
    by_cases hs : s < w * x.length
    · exact Same.ok (h.1 hs).1 (h'.1 (e ▸ hs)).1 fun _ _ ha hb => Same.wrapU e ha hb (by rw [en])
    · rw [(h.2 (by omega)).1, (h'.2 (by omega)).1]
      trivial
  · have h := C20_strict hk ev hx.ne s
    have h' := C20_strict hk' ev' gx.ne s
    rintro (_ | _)
    · by_cases hs : s < w * x.length
      · exact Same.ok (h.1 hs).2.1 (h'.1 (e ▸ hs)).2.1 fun _ _ ha hb => Same.exactU e ha hb (by rw [en])
      · rw [(h.2 (by omega)).2.1, (h'.2 (by omega)).2.1]
        trivial
    · by_cases hs : s < w * x.length
      · exact Same.ok (h.1 hs).2.2 (h'.1 (e ▸ hs)).2.2
          fun _ _ ha hb => Same.exactS e ha hb (by rw [hx.int])
      · rw [(h.2 (by omega)).2.2, (h'.2 (by omega)).2.2]
        trivial
  · have h := C20_int_overflowing_shl hk ev hx.ne s
    have h' := C20_int_overflowing_shl hk' ev' gx.ne s
    exact ⟨Same.wrapS e h.1 h'.1 (sh hx.int), Bool.eq_iff_iff.2 (by rw [h.2, h'.2, e])⟩
  · have h := C20_int_overflowing_shr hk ev hx.ne s
    have h' := C20_int_overflowing_shr hk' ev' gx.ne s
    exact ⟨Same.exactS e h.1 h'.1 (sr hx.int), Bool.eq_iff_iff.2 (by rw [h.2, h'.2, e])⟩

example := C40_shift twins_b 77
example : Same (wrappingShr true ones32 77) (wrappingShr true ones 77) := by decide

/-- C40: rotations, reversal of the bits and of the bytes. -/
theorem C40_rotate (hx : Twins x x') (n : Nat) (be be' : Bool) :
    Same (rotateLeft x n) (rotateLeft x' n) ∧ Same (rotateRight x n) (rotateRight x' n) ∧
    Same (Endian.reverseBits be x) (Endian.reverseBits be' x') := by
  obtain ⟨k, hk⟩ := hx.builds.pow
  have gx := hx.symm
  obtain ⟨k', hk'⟩ := gx.builds.pow
  have e := hx.bits_eq
  have hB : 0 < bits x := lt_of_lt_of_le (by decide) hx.builds.large
  have hb : ∀ {a : Limbs w} {b : Limbs v}, a.length = x.length → b.length = x'.length →
      bits a = bits b := fun h h' => by rw [bits, bits, h, h', hx.builds.width]
  have hr := C21_rotate_right hk hx.even hx.four n
  have hr' := C21_rotate_right hk' gx.even gx.four n
  have hl := C21_rotate_left hk hx.even hx.four n
  have hl' := C21_rotate_left hk' gx.even gx.four n
  have hv := C24_reverse_bits (x := x) (be := be) hx.pos
  have hv' := C24_reverse_bits (x := x') (be := be') gx.pos
  refine ⟨Same.testBit (hb hl.1 hl'.1) fun i hi => ?_, Same.testBit (hb hr.1 hr'.1) fun i hi => ?_,
    Same.testBit (hb hv.1 hv'.1) fun i hi => ?_⟩
  · have hi : i < bits x := by rw [bits, hl.1] at hi; exact hi
    -- the source position of bit `i`
    have hj : ((i + (bits x - n % bits x)) % bits x + n) % bits x = i := by
      have hn : n % bits x < bits x := Nat.mod_lt _ hB
      rw [Nat.mod_add_mod, Nat.add_assoc, show bits x - n % bits x + n = bits x * (n / bits x + 1) by
        have := Nat.div_add_mod n (bits x); rw [Nat.mul_add]; omega, Nat.add_mul_mod_self_left,
        Nat.mod_eq_of_lt hi]
    have h := hl.2 _ (Nat.mod_lt (i + (bits x - n % bits x)) hB)
    have h' := hl'.2 ((i + (bits x - n % bits x)) % bits x) (e ▸ Nat.mod_lt _ hB)
    rw [← e] at h'
    rw [hj] at h h'
    rw [h, h', hx.value]
  · have hi : i < bits x := by rw [bits, hr.1] at hi; exact hi
    rw [hr.2 i hi, hr'.2 i (e ▸ hi), hx.value, e]
  · have hi : i < bits x := by rw [bits, hv.1] at hi; exact hi
    rw [hv.2 i hi, hv'.2 i (e ▸ hi), hx.value, e]

example := C40_rotate twins_b 100 false false
example : Same (rotateLeft b32 100) (rotateLeft b64 100) := by decide

/-! ### Midpoint and powers of two -/

/-- C40: midpoint. -/
theorem C40_midpoint (hx : Twins x x') (hy : Twins y y') (hl : x.length = y.length) :
    Same (U.midpoint x y) (U.midpoint x' y') ∧ Same (I.midpoint x y) (I.midpoint x' y') := by
  obtain ⟨k, hk⟩ := hx.builds.pow
  have gx := hx.symm
  obtain ⟨k', hk'⟩ := gx.builds.pow
  have hl' := hx.len hy hl
  have e := hx.builds.width
  exact ⟨Same.exactU e (C35_uint_midpoint hk hl hx.even hx.ne) (C35_uint_midpoint hk' hl' gx.even gx.ne)
      (by rw [hx.value, hy.value]),
    Same.exactS e (C43_int_midpoint_partial hk hl hx.even hx.ne)
      (C43_int_midpoint_partial hk' hl' gx.even gx.ne) (by rw [hx.int, hy.int])⟩

example := C40_midpoint twins_b twins_ones rfl

/-- C40: powers of two. -/
theorem C40_power_of_two (hx : Twins x x') (oc : Bool) :
    U.isPowerOfTwo x = U.isPowerOfTwo x' ∧
    SameOpt (U.checkedNextPowerOfTwo x) (U.checkedNextPowerOfTwo x') ∧
    Same (U.wrappingNextPowerOfTwo x) (U.wrappingNextPowerOfTwo x') ∧
    SameRes Same (U.nextPowerOfTwo oc x) (U.nextPowerOfTwo oc x') := by
  obtain ⟨k, hk⟩ := hx.builds.pow
  have gx := hx.symm
  obtain ⟨k', hk'⟩ := gx.builds.pow
  have e := hx.builds.width
  have ez : (2 : Int) ^ Nat.clog 2 (toNat x) = 2 ^ Nat.clog 2 (toNat x') := by rw [hx.value]
  exact ⟨Bool.eq_iff_iff.2 (by rw [C33_is_power_of_two, C33_is_power_of_two, hx.value]),
    Same.checkU e (C33_checked_next_power_of_two hk hx.even hx.four)
      (C33_checked_next_power_of_two hk' gx.even gx.four) ez,
    Same.wrapU e (C33_wrapping_next_power_of_two hk hx.even hx.four).1
      (C33_wrapping_next_power_of_two hk' gx.even gx.four).1 ez,
    Same.opU e (C33_next_power_of_two oc hk hx.even hx.four)
      (C33_next_power_of_two oc hk' gx.even gx.four) ez⟩

example := C40_power_of_two twins_b true

/-! ### Conversions -/

variable {N M : Nat}

/-- C40: conversions from and to the primitive types of 8 to 128 bits. -/
theorem C40_casts (hx : Twins x x') (h : Builds w N v M) (p : Prim) (a : BitVec p.n) :
    Same (Cast.fromU N p a : Limbs w) (Cast.fromU M p a : Limbs v) ∧
    Same (Cast.fromI N p a : Limbs w) (Cast.fromI M p a : Limbs v) ∧
    SameOpt (Cast.tryFromI N p a : Option (Limbs w)) (Cast.tryFromI M p a : Option (Limbs v)) ∧
    SameOpt (Cast.tryFromSigned x) (Cast.tryFromSigned x') ∧
    Cast.asP x p = Cast.asP x' p := by
  have gx := hx.symm
  have g := h.symm
  refine ⟨Same.exactU h.width (C27_from_unsigned h.left h.four h.b129 p a).1
      (C27_from_unsigned g.left g.four g.b129 p a).1 rfl,
    Same.exactS h.width (C27_from_signed h.left h.four p a).1 (C27_from_signed g.left g.four p a).1 rfl,
    Same.checkU h.width (C28_try_from_prim h.left h.four h.b128 p a)
      (C28_try_from_prim g.left g.four g.b128 p a) rfl,
    Same.checkU hx.builds.width (C28_try_from_signed hx.pos hx.ne) (C28_try_from_signed gx.pos gx.ne) hx.int,
    BitVec.eq_of_toNat_eq ?_⟩
  have e := (C27_as hx.builds.left hx.four hx.builds.b128 p).1
  have e' := (C27_as gx.builds.left gx.four gx.builds.b128 p).1
  rw [hx.value, ← e'] at e
  exact_mod_cast e

example := C40_casts (N := 8) (M := 4) twins_b ⟨.inl rfl, .inr rfl, rfl, by decide, by decide, by decide⟩
  .b128 (-5#128)

/-- C40: conversions to byte arrays; the byte order of the platforms (`be`) need not be the same. -/
theorem C40_to_bytes (hx : Twins x x') (be be' : Bool) :
    Endian.toLeBytes be x = Endian.toLeBytes be' x' ∧
    Endian.toBeBytes be x = Endian.toBeBytes be' x' := by
  have gx := hx.symm
  have h := C25_to_bytes (x := x) (be := be) hx.builds.eight
  have h' := C25_to_bytes (x := x') (be := be') gx.builds.eight
  have e := hx.builds.bytes
  have hle : Endian.toLeBytes be x = Endian.toLeBytes be' x' := by
    refine List.ext_getElem? fun i => ?_
    rw [h.1, h'.1, e, hx.value]
  exact ⟨hle, by rw [h.2.1, h'.2.1, hle]⟩

example := C40_to_bytes twins_b false true
example : Endian.toLeBytes false b32 = Endian.toLeBytes false b64 := by decide

/-- C40: conversions from byte arrays. -/
theorem C40_from_bytes (h : Builds w N v M) (be be' : Bool) {bs : List (BitVec 8)}
    (hl : 8 * bs.length = w * N) :
    SameRes Same (Endian.fromLeBytes be w N bs) (Endian.fromLeBytes be' v M bs) ∧
    SameRes Same (Endian.fromBeBytes be w N bs) (Endian.fromBeBytes be' v M bs) := by
  have g := h.symm
  have hn : ∀ {u K : Nat}, 8 ∣ u → 8 * bs.length = u * K → bs.length = u / 8 * K := by
    rintro u K ⟨a, rfl⟩ e
    rw [Nat.mul_div_cancel_left _ (by decide)]
    rw [Nat.mul_assoc] at e
    omega
  have r := C25_from_bytes (be := be) h.eight (hn h.eight hl)
  have r' := C25_from_bytes (be := be') g.eight (hn g.eight (hl.trans h.width))
  have d := not_not.2 h.wide
  have d' := not_not.2 g.wide
  refine ⟨Same.ok (r.1.2 d) (r'.1.2 d') fun a b ha hb => ?_,
    Same.ok (r.2.2 d) (r'.2.2 d') fun a b ha hb => ?_⟩ <;>
  exact ⟨by rw [bits, bits, ha.1, hb.1, h.width], ha.2.trans hb.2.symm⟩

example := C40_from_bytes (w := 32) (N := 8) (v := 64) (M := 4)
  ⟨.inl rfl, .inr rfl, rfl, by decide, by decide, by decide⟩ false true
  (bs := List.replicate 32 7) (by decide)

/-- C40: swapping the bytes. -/
theorem C40_swap_bytes (hx : Twins x x') (be be' : Bool) :
    Same (Endian.swapBytes be x) (Endian.swapBytes be' x') := by
  have gx := hx.symm
  have h := C24_swap_bytes (x := x) (be := be) hx.builds.eight
  have h' := C24_swap_bytes (x := x') (be := be') gx.builds.eight
  have t := C25_to_bytes (x := Endian.swapBytes be x) (be := be) hx.builds.eight
  have t' := C25_to_bytes (x := Endian.swapBytes be' x') (be := be) gx.builds.eight
  have e := hx.builds.bytes
  have hle : Endian.toLeBytes be (Endian.swapBytes be x) = Endian.toLeBytes be (Endian.swapBytes be' x') := by
    refine List.ext_getElem? fun i => ?_
    rw [t.1, t'.1, h.1, h'.1, ← e]
    split
    · rename_i hi
      rw [h.2 i hi, h'.2 i (e ▸ hi), e, hx.value]
    · rfl
  refine ⟨by rw [bits, bits, h.1, h'.1, hx.builds.width], ?_⟩
  have v1 := (C25_to_bytes_value (x := Endian.swapBytes be x) (be := be) hx.builds.eight).2.1
  have v2 := (C25_to_bytes_value (x := Endian.swapBytes be' x') (be := be) gx.builds.eight).2.1
  rw [← v1, ← v2, hle]

example := C40_swap_bytes twins_b false false
example : Same (Endian.swapBytes false b32) (Endian.swapBytes false b64) := by decide

end I256
