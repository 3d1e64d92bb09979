import Verif.Props.LimbSize
import Verif.Props.Div
import Verif.Props.DivSigned
import Verif.Props.Parse
import Verif.Props.Write
import Verif.Props.Fixed

/-!
# Limb size independence (C40): text, fixed-width scalars, division

`x`, `y` are operands in one build and `x'`, `y'` the same operands in the other (`Twins`).
-/

namespace I256

open Sample

variable {w v : Nat} {x y : Limbs w} {x' y' : Limbs v} {N M : Nat}

/-! ### Text -/

/-- C40: `to_str_radix`, for every radix and buffer length. -/
theorem C40_to_str_radix (hx : Twins x x') (oc : Bool) (len : Nat) (radix : BitVec 32) :
    U.toStrRadix oc len x radix = U.toStrRadix oc len x' radix ∧
    I.toStrRadix oc len x radix = I.toStrRadix oc len x' radix := by
  have gx := hx.symm
  have eb := hx.bits_eq
  have hB : 128 < bits x := hx.builds.b129
  have hB' : 128 < bits x' := gx.builds.b129
  have p := C30_panic (x := x) (radix := radix) oc len
  have p' := C30_panic (x := x') (radix := radix) oc len
  rw [← eb] at p'
  constructor
  · by_cases h : radix.toNat < 2 ∨ 36 < radix.toNat ∨ len < bits x
    · rw [p.1 h, p'.1 h]
    · rw [C30_uint_to_str_radix hx.builds.left hx.four hx.even (by omega) (by omega) oc len (by omega),
        C30_uint_to_str_radix gx.builds.left gx.four gx.even (by omega) (by omega) oc len (by omega),
        hx.value]
  · by_cases h : radix.toNat < 2 ∨ 36 < radix.toNat ∨ len < bits x + 1
    · rw [p.2 h, p'.2 h]
    · by_cases h0 : 0 ≤ toInt x
      · rw [C30_int_to_str_radix_partial hx.builds.left hx.four hx.even hB (by omega) (by omega) oc len
            (by omega) h0,
          C30_int_to_str_radix_partial gx.builds.left gx.four gx.even hB' (by omega) (by omega) oc len
            (by omega) (hx.int ▸ h0), hx.int]
      · rw [I.toStrRadix_neg hx.builds.left hx.four hx.even hB (by omega) (by omega) oc len
            (by omega) (by omega),
          I.toStrRadix_neg gx.builds.left gx.four gx.even hB' (by omega) (by omega) oc len
            (by omega) (by rw [← hx.int]; omega)]
        have : (getLimb x 0).setWidth 32 = (getLimb x' 0).setWidth 32 := by
          apply BitVec.eq_of_toNat_eq
          have d : ∀ {u : Nat}, u = 32 ∨ u = 64 → ∀ n, n % 2 ^ u % 2 ^ 32 = n % 2 ^ 32 := by
            rintro u (rfl | rfl) n <;> omega
          rw [BitVec.toNat_setWidth, BitVec.toNat_setWidth, getLimb_zero_toNat hx.ne,
            getLimb_zero_toNat gx.ne, d hx.builds.left, d gx.builds.left, hx.value]
        rw [this]

example := C40_to_str_radix twins_ones true 300 10
example : U.toStrRadix true 256 b32 36 = U.toStrRadix true 256 b64 36 := by decide +kernel

/-- C40: the formatting traits, for all format flags. -/
theorem C40_fmt (hx : Twins x x') (oc : Bool) (f : Write.Flags) :
    U.fmtDisplay oc f x = U.fmtDisplay oc f x' ∧ U.fmtBinary oc f x = U.fmtBinary oc f x' ∧
    U.fmtOctal oc f x = U.fmtOctal oc f x' ∧ U.fmtLowerHex oc f x = U.fmtLowerHex oc f x' ∧
    U.fmtUpperHex oc f x = U.fmtUpperHex oc f x' ∧ U.fmtLowerExp oc f x = U.fmtLowerExp oc f x' ∧
    U.fmtUpperExp oc f x = U.fmtUpperExp oc f x' ∧ I.fmtDisplay oc f x = I.fmtDisplay oc f x' ∧
    I.fmtBinary oc f x = I.fmtBinary oc f x' ∧ I.fmtOctal oc f x = I.fmtOctal oc f x' ∧
    I.fmtLowerHex oc f x = I.fmtLowerHex oc f x' ∧ I.fmtUpperHex oc f x = I.fmtUpperHex oc f x' ∧
    I.fmtLowerExp oc f x = I.fmtLowerExp oc f x' ∧ I.fmtUpperExp oc f x = I.fmtUpperExp oc f x' := by
  have gx := hx.symm
  have a := hx.builds.left
  have b := hx.four
  have c := hx.even
  have a' := gx.builds.left
  have b' := gx.four
  have c' := gx.even
  simp only [U.fmtDisplay_eq a b c, U.fmtDisplay_eq a' b' c', U.fmtBinary_eq a b c,
    U.fmtBinary_eq a' b' c', U.fmtOctal_eq a b c, U.fmtOctal_eq a' b' c', U.fmtLowerHex_eq a b c,
    U.fmtLowerHex_eq a' b' c', U.fmtUpperHex_eq a b c, U.fmtUpperHex_eq a' b' c',
    U.fmtLowerExp_eq a b c, U.fmtLowerExp_eq a' b' c', U.fmtUpperExp_eq a b c,
    U.fmtUpperExp_eq a' b' c', I.fmtDisplay_eq a b c, I.fmtDisplay_eq a' b' c', I.fmtBinary,
    I.fmtOctal, I.fmtLowerHex, I.fmtUpperHex, I.fmtLowerExp_eq a b c, I.fmtLowerExp_eq a' b' c',
    I.fmtUpperExp_eq a b c, I.fmtUpperExp_eq a' b' c', hx.value, hx.int, and_self]

example := C40_fmt twins_ones true { width := some 90 }

/-- C40: parsing unsigned numbers, for every text and radix. -/
theorem C40_uint_parse (h : Builds w N v M) (s : List Byte) (radix : BitVec 32) (p32 p32' : Bool) :
    SameRes SameParsed (U.fromStrRadix N s radix : Res (Parsed (Limbs w)))
      (U.fromStrRadix M s radix : Res (Parsed (Limbs v))) ∧
    SameRes SameParsed (U.fromStr p32 N s : Res (Parsed (Limbs w)))
      (U.fromStr p32' M s : Res (Parsed (Limbs v))) := by
  have g := h.symm
  constructor
  · by_cases hr : radix.toNat < 2 ∨ 36 < radix.toNat
    · rw [(C29_radix_panic hr s).1, (C29_radix_panic hr s).1]
      trivial
    · by_cases hs : s = ascii "+"
      · subst hs
        rw [(C29_sign_only_partial (w := w) (by omega) (by omega)).1,
          (C29_sign_only_partial (w := v) (by omega) (by omega)).1]
        have z : ∀ {u K : Nat}, 0 < K → ExactU K 0 (ofU8 K 0 : Limbs u) := fun hK =>
          ofU8U hK (Nat.two_pow_pos _)
        exact Same.exactU h.width (z (by have := h.four; omega)) (z (by have := g.four; omega)) rfl
      · exact Same.ok (C29_uint_from_str_radix_partial h.left h.four (by omega) (by omega) s hs)
          (C29_uint_from_str_radix_partial g.left g.four (by omega) (by omega) s hs)
          fun _ _ ha hb => Same.parsesU h.width ha hb
  · refine Same.ok (C29_uint_from_str h.left h.four h.b128 p32 s)
      (C29_uint_from_str g.left g.four g.b128 p32' s) fun a b ha hb => ?_
    by_cases hc : 39 ≤ s.length ∨ s.head? ≠ some 45
    · exact Same.parsesU h.width (ha.1 hc) (hb.1 hc)
    · push Not at hc
      rw [ha.2 (by omega) hc.2, hb.2 (by omega) hc.2]
      rfl

example := C40_uint_parse (w := 32) (N := 8) (v := 64) (M := 4)
  ⟨.inl rfl, .inr rfl, rfl, by decide, by decide, by decide⟩ (ascii "+12345z") 36 false true

/-- C40 (partial): parsing signed numbers. Full statement: the same without `hg` and `hg'`; it is false
because the texts just below the minimum that the parser misreads depend on the limb size. -/
theorem C40_int_parse_partial (h : Builds w N v M) (s : List Byte) (radix : BitVec 32)
    (hg : ¬ GapText w N radix.toNat s) (hg' : ¬ GapText v M radix.toNat s) :
    SameRes SameParsed (I.fromStrRadix N s radix : Res (Parsed (Limbs w)))
      (I.fromStrRadix M s radix : Res (Parsed (Limbs v))) := by
  have g := h.symm
  by_cases hr : radix.toNat < 2 ∨ 36 < radix.toNat
  · rw [(C29_radix_panic hr s).2, (C29_radix_panic hr s).2]
    trivial
  have z : ∀ {u K : Nat}, 0 < K → ExactU K 0 (ofU8 K 0 : Limbs u) := fun hK =>
    ofU8U hK (Nat.two_pow_pos _)
  have z' : Same (ofU8 N 0 : Limbs w) (ofU8 M 0 : Limbs v) :=
    Same.exactU h.width (z (by have := h.four; omega)) (z (by have := g.four; omega)) rfl
  by_cases hs : s = ascii "+"
  · subst hs
    rw [(C29_sign_only_partial (w := w) (by omega) (by omega)).2.1,
      (C29_sign_only_partial (w := v) (by omega) (by omega)).2.1]
    exact z'
  by_cases hs' : s = ascii "-"
  · subst hs'
    rw [(C29_sign_only_partial (w := w) (by omega) (by omega)).2.2,
      (C29_sign_only_partial (w := v) (by omega) (by omega)).2.2]
    exact z'
  exact Same.ok (C29_int_from_str_radix_partial h.left h.four (by omega) (by omega) s hs hs' hg)
    (C29_int_from_str_radix_partial g.left g.four (by omega) (by omega) s hs hs' hg')
    fun _ _ ha hb => Same.parsesS h.width ha hb

example := C40_int_parse_partial (w := 32) (N := 8) (v := 64) (M := 4)
  ⟨.inl rfl, .inr rfl, rfl, by decide, by decide, by decide⟩ (ascii "+77x") 10
  (by rintro ⟨t, ht, -⟩; cases ht) (by rintro ⟨t, ht, -⟩; cases ht)

/-! ### Fixed-width scalars -/

/-- C40: addition, subtraction and multiplication of unsigned numbers with scalars of a fixed width. -/
theorem C40_uint_fixed (hx : Twins x x') (k : Fix) (n : BitVec k.n) (oc : Bool) :
    (SameRes Same (U.wrappingAddFix k x n) (U.wrappingAddFix k x' n) ∧
      SameRes SameFlag (U.overflowingAddFix k x n) (U.overflowingAddFix k x' n) ∧
      SameRes SameOpt (U.checkedAddFix k x n) (U.checkedAddFix k x' n) ∧
      SameRes Same (U.addFix oc k x n) (U.addFix oc k x' n)) ∧
    (SameRes Same (U.wrappingSubFix k x n) (U.wrappingSubFix k x' n) ∧
      SameRes SameFlag (U.overflowingSubFix k x n) (U.overflowingSubFix k x' n) ∧
      SameRes SameOpt (U.checkedSubFix k x n) (U.checkedSubFix k x' n) ∧
      SameRes Same (U.subFix oc k x n) (U.subFix oc k x' n)) ∧
    (SameRes Same (U.wrappingMulFix k x n) (U.wrappingMulFix k x' n) ∧
      SameRes SameFlag (U.overflowingMulFix k x n) (U.overflowingMulFix k x' n) ∧
      SameRes SameOpt (U.checkedMulFix k x n) (U.checkedMulFix k x' n) ∧
      SameRes Same (U.mulFix oc k x n) (U.mulFix oc k x' n)) := by
  have gx := hx.symm
  have e := hx.builds.width
  have en : (toNat x : Int) = toNat x' := by rw [hx.value]
  have a := C53_uint_add_sub_fixed hx.builds.left hx.builds.large k n oc
  have b := C53_uint_add_sub_fixed gx.builds.left gx.builds.large k n oc
  exact ⟨Same.formsU e a.1 b.1 (by rw [en]), Same.formsU e a.2 b.2 (by rw [en]),
    Same.formsU e (C54_uint_mul_fixed hx.builds.left hx.builds.large k n oc)
      (C54_uint_mul_fixed gx.builds.left gx.builds.large k n oc) (by rw [en])⟩

example := C40_uint_fixed twins_b .b128 (-1#128) true

/-- C40 (partial): addition and subtraction of signed numbers with scalars of a fixed width, except
128-bit scalars. Full statement: the same without `hk`. It is false (`C40_int_fixed_false`): on 32-bit
limbs 128-bit scalars panic. -/
theorem C40_int_fixed_partial (hx : Twins x x') (k : Fix) (hk : k ≠ .b128) (n : BitVec k.n) (oc : Bool) :
    (SameRes Same (I.wrappingAddFixU k x n) (I.wrappingAddFixU k x' n) ∧
      SameRes SameFlag (I.overflowingAddFixU k x n) (I.overflowingAddFixU k x' n) ∧
      SameRes SameOpt (I.checkedAddFixU k x n) (I.checkedAddFixU k x' n) ∧
      SameRes Same (I.addFixU oc k x n) (I.addFixU oc k x' n)) ∧
    (SameRes Same (I.wrappingSubFixU k x n) (I.wrappingSubFixU k x' n) ∧
      SameRes SameFlag (I.overflowingSubFixU k x n) (I.overflowingSubFixU k x' n) ∧
      SameRes SameOpt (I.checkedSubFixU k x n) (I.checkedSubFixU k x' n) ∧
      SameRes Same (I.subFixU oc k x n) (I.subFixU oc k x' n)) ∧
    (SameRes Same (I.wrappingAddFixI k x n) (I.wrappingAddFixI k x' n) ∧
      SameRes SameFlag (I.overflowingAddFixI k x n) (I.overflowingAddFixI k x' n) ∧
      SameRes SameOpt (I.checkedAddFixI k x n) (I.checkedAddFixI k x' n) ∧
      SameRes Same (I.addFixI oc k x n) (I.addFixI oc k x' n)) ∧
    (SameRes Same (I.wrappingSubFixI k x n) (I.wrappingSubFixI k x' n) ∧
      SameRes SameFlag (I.overflowingSubFixI k x n) (I.overflowingSubFixI k x' n) ∧
      SameRes SameOpt (I.checkedSubFixI k x n) (I.checkedSubFixI k x' n) ∧
      SameRes Same (I.subFixI oc k x n) (I.subFixI oc k x' n)) := by
  have gx := hx.symm
  have e := hx.builds.width
  have hk2 : ∀ {u : Nat}, ¬ (u = 32 ∧ k = .b128) := fun h => hk h.2
  have a := C53_int_add_sub_fixed_unsigned hx.builds.left hx.builds.large k hk2 n oc
  have b := C53_int_add_sub_fixed_unsigned gx.builds.left gx.builds.large k hk2 n oc
  have c := C53_int_add_sub_fixed_signed hx.builds.left hx.builds.large k hk2 n oc
  have d := C53_int_add_sub_fixed_signed gx.builds.left gx.builds.large k hk2 n oc
  exact ⟨Same.formsS e a.1 b.1 (by rw [hx.int]), Same.formsS e a.2 b.2 (by rw [hx.int]),
    Same.formsS e c.1 d.1 (by rw [hx.int]), Same.formsS e c.2 d.2 (by rw [hx.int])⟩

example := C40_int_fixed_partial twins_ones .b64 (by decide) (-7#64) true

/-! ### Division -/

/-- C40 (partial): unsigned quotients, where both builds return. Full statement: `SameRes Same` instead
of `SameIfBoth Same`. It is false (`C40_uint_div_false`): which divisions panic depends on the limb
size. -/
theorem C40_uint_div_partial (hx : Twins x x') (hy : Twins y y') (hl : x.length = y.length)
    (h0 : toNat y ≠ 0) (oc : Bool) :
    SameIfBoth Same (U.wrappingDiv x y) (U.wrappingDiv x' y') ∧
    SameIfBoth Same (U.div oc x y) (U.div oc x' y') ∧
    SameIfBoth Same (U.strictDiv x y) (U.strictDiv x' y') ∧
    SameIfBoth Same (U.saturatingDiv x y) (U.saturatingDiv x' y') ∧
    SameIfBoth Same (U.divFloor x y) (U.divFloor x' y') ∧
    SameIfBoth SameFlag (U.overflowingDiv x y) (U.overflowingDiv x' y') ∧
    SameIfBoth SameOpt (U.checkedDiv x y) (U.checkedDiv x' y') := by
  have gx := hx.symm
  have hl' := hx.len hy hl
  have h0' : toNat y' ≠ 0 := hy.value ▸ h0
  have e := hx.builds.width
  have ez : (toNat x / toNat y : Int) = toNat x' / toNat y' := by rw [hx.value, hy.value]
  have a := C12_uint_div hx.pos hl hx.two hx.even h0 oc
  have b := C12_uint_div gx.pos hl' gx.two gx.even h0' oc
  have q : ∀ (s : Limbs w) (t : Limbs v), ExactU x.length (toNat x / toNat y) s →
      ExactU x'.length (toNat x' / toNat y') t → Same s t := fun _ _ h h' => Same.exactU e h h' ez
  refine ⟨Same.yields (a _ (by simp)) (b _ (by simp)) q, Same.yields (a _ (by simp)) (b _ (by simp)) q,
    Same.yields (a _ (by simp)) (b _ (by simp)) q, Same.yields (a _ (by simp)) (b _ (by simp)) q,
    Same.yields (a _ (by simp)) (b _ (by simp)) q,
    Same.yields (C12_uint_overflowing_div hx.pos hl hx.two hx.even h0 _ (by simp))
      (C12_uint_overflowing_div gx.pos hl' gx.two gx.even h0' _ (by simp))
      fun s t h h' => ⟨q _ _ h.1 h'.1, h.2.trans h'.2.symm⟩,
    Same.yields (C12_uint_checked_div hx.pos hl hx.two hx.even h0 _ (by simp))
      (C12_uint_checked_div gx.pos hl' gx.two gx.even h0' _ (by simp)) ?_⟩
  rintro _ _ ⟨s, rfl, hs⟩ ⟨t, rfl, ht⟩
  exact q _ _ hs ht

example := C40_uint_div_partial twins_ones twins_b rfl (by decide) true

/-- C40 (partial): unsigned remainders, for operands that need no correction of an estimate in either
build. Full statement: `SameRes Same` without `hd` and `hd'`; it is false (`C40_uint_rem_false`). -/
theorem C40_uint_rem_partial (hx : Twins x x') (hy : Twins y y') (hl : x.length = y.length)
    (h0 : toNat y ≠ 0) (hd : DivExact w x.length (toNat x) (toNat y))
    (hd' : DivExact v x'.length (toNat x') (toNat y')) (oc : Bool) :
    SameRes Same (U.wrappingRem x y) (U.wrappingRem x' y') ∧
    SameRes Same (U.strictRem x y) (U.strictRem x' y') ∧
    SameRes Same (U.rem oc x y) (U.rem oc x' y') := by
  have gx := hx.symm
  have hl' := hx.len hy hl
  have h0' : toNat y' ≠ 0 := hy.value ▸ h0
  have e := hx.builds.width
  have a := C13_uint_rem_exact_partial hx.pos hl hx.two hx.even h0 oc
  have b := C13_uint_rem_exact_partial gx.pos hl' gx.two gx.even h0' oc
  have q : ∀ (s : Limbs w) (t : Limbs v), ExactU x.length (toNat x % toNat y) s →
      ExactU x'.length (toNat x' % toNat y') t → Same s t :=
    fun _ _ h h' => Same.exactU e h h' (by rw [hx.value, hy.value])
  exact ⟨Same.ok ((a _ (by simp)).2 hd) ((b _ (by simp)).2 hd') q,
    Same.ok ((a _ (by simp)).2 hd) ((b _ (by simp)).2 hd') q,
    Same.ok ((a _ (by simp)).2 hd) ((b _ (by simp)).2 hd') q⟩

example := C40_uint_rem_partial twins_ones twins_b rfl (by decide) (by decide +kernel) (by decide +kernel)
  true

/-- C40 (partial): signed quotients, where both builds return; the full statement is false as for
unsigned numbers. -/
theorem C40_int_div_partial (hx : Twins x x') (hy : Twins y y') (hl : x.length = y.length)
    (h0 : toInt y ≠ 0) :
    SameIfBoth Same (I.wrappingDiv x y) (I.wrappingDiv x' y') ∧
    SameIfBoth SameFlag (I.overflowingDiv x y) (I.overflowingDiv x' y') ∧
    SameIfBoth SameOpt (I.checkedDiv x y) (I.checkedDiv x' y') ∧
    SameIfBoth Same (I.saturatingDiv x y) (I.saturatingDiv x' y') := by
  have gx := hx.symm
  have hl' := hx.len hy hl
  have h0' : toInt y' ≠ 0 := hy.int ▸ h0
  have e := hx.builds.width
  have ez : (toInt x).tdiv (toInt y) = (toInt x').tdiv (toInt y') := by rw [hx.int, hy.int]
  exact ⟨Same.yields (C17_int_wrapping_div hx.one hl hx.two hx.even h0)
      (C17_int_wrapping_div gx.one hl' gx.two gx.even h0') fun _ _ h h' => Same.wrapS e h h' ez,
    Same.yields (C17_int_overflowing_div hx.one hl hx.two hx.even h0)
      (C17_int_overflowing_div gx.one hl' gx.two gx.even h0')
      fun _ _ h h' => Same.overS e h.1 h'.1 ez,
    Same.yields (C17_int_checked_div hx.one hl hx.two hx.even h0)
      (C17_int_checked_div gx.one hl' gx.two gx.even h0')
      fun _ _ h h' => Same.checkS e h.1 h'.1 ez,
    Same.yields (C17_int_saturating_div hx.one hl hx.two hx.even h0)
      (C17_int_saturating_div gx.one hl' gx.two gx.even h0') fun _ _ h h' => Same.satS e h h' ez⟩

example := C40_int_div_partial twins_b twins_ones rfl (by decide)

/-! ### The differences -/

/-- C40 is false for signed multiplication: `(2^255 + 2^200)/3 * (-3)` is out of range; the 64-bit
build reports the overflow, the 32-bit build does not. -/
theorem C40_int_mul_false : ∃ (x y : Limbs 32) (x' y' : Limbs 64), Twins x x' ∧ Twins y y' ∧
    x.length = y.length ∧ (I.overflowingMul x y).2 = false ∧ (I.overflowingMul x' y').2 = true ∧
    I.strictMul x y ≠ .panic ∧ I.strictMul x' y' = .panic :=
  ⟨[0, 0, 0, 0, 0, 0, 0xaaaaab00, 0x2aaaaaaa],
    [0xfffffffd, 0xffffffff, 0xffffffff, 0xffffffff, 0xffffffff, 0xffffffff, 0xffffffff, 0xffffffff],
    [0, 0, 0, 0x2aaaaaaaaaaaab00],
    [0xfffffffffffffffd, 0xffffffffffffffff, 0xffffffffffffffff, 0xffffffffffffffff],
    by decide +kernel⟩

/-- C40 is false for division: `(3 * 2^253) / (2^253 + 2^128)` is 2 on 64-bit limbs and panics on
32-bit limbs. -/
theorem C40_uint_div_false : ∃ (x y : Limbs 32) (x' y' : Limbs 64), Twins x x' ∧ Twins y y' ∧
    x.length = y.length ∧ U.wrappingDiv x y = .panic ∧ U.checkedDiv x y = .panic ∧
    U.wrappingDiv x' y' = .ok [2, 0, 0, 0] :=
  ⟨[0, 0, 0, 0, 0, 0, 0, 0x60000000], [0, 0, 0, 0, 0x1, 0, 0, 0x20000000],
    [0, 0, 0, 0x6000000000000000], [0, 0, 0x1, 0x2000000000000000], by decide +kernel⟩

/-- C40 is false for remainders: `(3 * 2^189) mod (2^189 + 2^64)` is right on 64-bit limbs and wrong
on 32-bit limbs. -/
theorem C40_uint_rem_false : ∃ (x y r : Limbs 32) (x' y' r' : Limbs 64), Twins x x' ∧ Twins y y' ∧
    x.length = y.length ∧ U.wrappingRem x y = .ok r ∧ U.wrappingRem x' y' = .ok r' ∧
    toNat r' = toNat x % toNat y ∧ toNat r ≠ toNat x % toNat y :=
  ⟨[0, 0, 0, 0, 0, 0x60000000, 0, 0], [0, 0, 0x1, 0, 0, 0x20000000, 0, 0],
    [0, 0, 0xfffffffe, 0xffffffff, 0xffffffff, 0x5fffffff, 0, 0],
    [0, 0, 0x6000000000000000, 0], [0, 0x1, 0x2000000000000000, 0], [0, 0xfffffffffffffffe, 0x1fffffffffffffff, 0], by decide +kernel⟩

/-- C40 is false for signed addition of 128-bit scalars: the 32-bit build panics. -/
theorem C40_int_fixed_false : ∃ (x : Limbs 32) (x' : Limbs 64), Twins x x' ∧
    I.wrappingAddFixU .b128 x 1 = .panic ∧ I.wrappingAddFixU .b128 x' 1 = .ok [0, 0, 0, 0] :=
  ⟨ones32, ones, by decide +kernel⟩

end I256
