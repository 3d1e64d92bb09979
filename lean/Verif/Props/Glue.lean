import Verif.Lemmas.Glue
import Verif.Props.Samples
import Verif.Props.AddSub
import Verif.Props.Sign
import Verif.Props.Mul
import Verif.Props.Shift

/-!
# Unchecked methods, trait glue, limb access (C56 - C59)
-/

namespace I256

open Sample

variable {w k : Nat} {x y z : Limbs w}

/-! ### C56: the `unchecked_*` methods

`none` in the model is undefined behaviour.  The contract of the methods: whenever the exact result is
representable (the shift amount is below `BITS`), the behaviour is defined and the result is exact. -/

/-- C56: `unchecked_add` and `unchecked_sub` of the unsigned types. -/
theorem C56_uint_add_sub (hw : 0 < w) (hl : x.length = y.length) :
    (InU (w * x.length) (toNat x + toNat y) →
      ∃ v, U.uncheckedAdd x y = some v ∧ ExactU x.length (toNat x + toNat y) v) ∧
    (InU (w * x.length) ((toNat x : Int) - toNat y) →
      ∃ v, U.uncheckedSub x y = some v ∧ ExactU x.length (toNat x - toNat y) v) :=
  ⟨(C02_uint_checked_add hw hl).1, (C02_uint_checked_sub hw hl).1⟩

example := C56_uint_add_sub (x := a) (y := one) (by decide) (by decide)
example : U.uncheckedAdd a one = some [0, 1, 5, 0] ∧ U.uncheckedSub a one =
    some [0xfffffffffffffffe, 0, 5, 0] := by decide

/-- C56: `unchecked_mul` of the unsigned types. -/
theorem C56_uint_mul (hw : 0 < w) (hl : x.length = y.length) (h2 : x.length % 2 = 0)
    (h4 : 4 ≤ x.length) (h : InU (w * x.length) ((toNat x : Int) * toNat y)) :
    ∃ v, U.uncheckedMul x y = some v ∧ ExactU x.length ((toNat x : Int) * toNat y) v :=
  (C07_uint_checked_mul hw hl h2 h4).1 h

example := C56_uint_mul (x := a) (y := a) (by decide) (by decide) (by decide) (by decide)
example : U.uncheckedMul a [3, 0, 0, 0] = some [0xfffffffffffffffd, 2, 15, 0] := by decide +kernel

/-- C56: `unchecked_add`, `unchecked_sub` and `unchecked_neg` of the signed types. -/
theorem C56_int_add_sub_neg (hw : 1 < w) (hx : 2 ≤ x.length) (h2 : x.length % 2 = 0)
    (hl : x.length = y.length) :
    (InS (w * x.length) (toInt x + toInt y) →
      ∃ v, I.uncheckedAdd x y = some v ∧ ExactS x.length (toInt x + toInt y) v) ∧
    (InS (w * x.length) (toInt x - toInt y) →
      ∃ v, I.uncheckedSub x y = some v ∧ ExactS x.length (toInt x - toInt y) v) ∧
    (InS (w * x.length) (-toInt x) →
      ∃ v, I.uncheckedNeg x = some v ∧ ExactS x.length (-toInt x) v) := by
  have hx0 : x ≠ [] := List.length_pos_iff.1 (by omega)
  exact ⟨(C03_int_checked_add hw hx0 hl).1, (C03_int_checked_sub hw hx0 hl).1,
    (C36_int_neg (by omega) hx h2 true).2.2.1.1⟩

example := C56_int_add_sub_neg (x := m2) (y := one) (by decide) (by decide) (by decide) (by decide)
example : I.uncheckedAdd m2 one = some ones ∧ I.uncheckedNeg m2 = some [2, 0, 0, 0] := by decide

/-- C56: `unchecked_mul` of the signed types. The overflow test of the code misses some products that
are out of range (C08), so there the method returns a value although the caller broke the contract;
all products in range are right. -/
theorem C56_int_mul (hw : 0 < w) (hx : x ≠ []) (hl : x.length = y.length)
    (h : InS (w * x.length) (toInt x * toInt y)) :
    ∃ v, I.uncheckedMul x y = some v ∧ ExactS x.length (toInt x * toInt y) v := by
  have hg : ¬ Mul.Gap w x.length (toInt x * toInt y) := by
    intro hg
    exact (C08_int_mul_gap_false hw hx hl hg).1 h
  exact (C08_int_mul_partial hw hx hl true hg).2.1.1 h

example := C56_int_mul (x := m2) (y := a) (by decide) (by decide) (by decide) (by decide +kernel)
example : I.uncheckedMul m2 [3, 0, 0, 0] = some [0xfffffffffffffffa, 0xffffffffffffffff,
    0xffffffffffffffff, 0xffffffffffffffff] := by decide +kernel

/-- C56: `unchecked_shl` and `unchecked_shr`. -/
theorem C56_shifts (hk : w = 2 ^ k) (h2 : x.length % 2 = 0) (hx : x ≠ []) (s : Nat)
    (hs : s < w * x.length) :
    (∃ v, uncheckedShl x s = some v ∧ WrapU x.length ((toNat x : Int) * 2 ^ s) v ∧
      WrapS x.length (toInt x * 2 ^ s) v) ∧
    (∃ v, uncheckedShr false x s = some v ∧ ExactU x.length ((toNat x : Int) / 2 ^ s) v) ∧
    (∃ v, uncheckedShr true x s = some v ∧ ExactS x.length (toInt x / 2 ^ s) v) :=
  ⟨(C20_checked_shl hk h2 hx s).1 hs, (C20_uint_checked_shr hk h2 hx s).1 hs,
    (C20_int_checked_shr hk h2 hx s).1 hs⟩

example := C56_shifts (k := 6) (x := m2) rfl (by decide) (by decide) 255 (by decide)
example : uncheckedShl one 255 = some top ∧ uncheckedShr true m2 1 = some ones := by decide

/-! ### C57: num-traits `PrimInt` shifts, `Zero`, `One` -/

/-- C57: the four shifts of `PrimInt` with an amount below `BITS`, on the signed and the unsigned
types: `signed_shr` copies the sign bit and `unsigned_shr` fills with zeros whatever the type. -/
theorem C57_prim_int_shifts (hk : w = 2 ^ k) (h2 : x.length % 2 = 0) (hx : x ≠ [])
    (h32 : w * x.length < 2 ^ 32) (oc : Bool) (n : BitVec 32) (hn : n.toNat < w * x.length) :
    (∃ v, NumTraits.signedShl oc x n = .ok v ∧ WrapS x.length (toInt x * 2 ^ n.toNat) v) ∧
    (∃ v, NumTraits.signedShr oc x n = .ok v ∧ ExactS x.length (toInt x / 2 ^ n.toNat) v) ∧
    (∃ v, NumTraits.unsignedShl oc x n = .ok v ∧
      WrapU x.length ((toNat x : Int) * 2 ^ n.toNat) v) ∧
    (∃ v, NumTraits.unsignedShr oc x n = .ok v ∧
      ExactU x.length ((toNat x : Int) / 2 ^ n.toNat) v) := by
  have h : (∃ v, shlPrim oc false x n = .ok v ∧ WrapU x.length ((toNat x : Int) * 2 ^ n.toNat) v ∧
      WrapS x.length (toInt x * 2 ^ n.toNat) v) ∧
    (∃ v, shrPrim oc false false x n = .ok v ∧ ExactU x.length ((toNat x : Int) / 2 ^ n.toNat) v) ∧
    (∃ v, shrPrim oc false true x n = .ok v ∧ ExactS x.length (toInt x / 2 ^ n.toNat) v) := by
    cases oc
    · exact C38_unchecked hk h2 hx h32 false n (s := n.toNat) (by simp [primVal]) hn
    · exact (C38_checked_partial hk h2 hx h32 false n (by simpa using h32)).1 n.toNat
        (by simp [primVal]) hn
  obtain ⟨⟨v, h1, h3, h4⟩, h5, h6⟩ := h
  exact ⟨⟨v, h1, h4⟩, h6, ⟨v, h1, h3⟩, h5⟩

example := C57_prim_int_shifts (k := 6) (x := m2) rfl (by decide) (by decide) (by decide) true 3#32
  (by decide)
example : NumTraits.signedShr true m2 1#32 = .ok ones ∧
    NumTraits.unsignedShr true m2 1#32 = .ok maxS := by decide

/-- C57: the shifts of `PrimInt` with an amount of `BITS` or more: a panic with overflow checks, the
amount modulo `BITS` without. -/
theorem C57_prim_int_shifts_out (hk : w = 2 ^ k) (h2 : x.length % 2 = 0) (hx : x ≠ [])
    (h32 : w * x.length < 2 ^ 32) (n : BitVec 32) (hn : w * x.length ≤ n.toNat) :
    NumTraits.signedShl true x n = .panic ∧ NumTraits.signedShr true x n = .panic ∧
    NumTraits.unsignedShl true x n = .panic ∧ NumTraits.unsignedShr true x n = .panic ∧
    (∃ v, NumTraits.signedShl false x n = .ok v ∧
      WrapS x.length (toInt x * 2 ^ (n.toNat % (w * x.length))) v) ∧
    (∃ v, NumTraits.signedShr false x n = .ok v ∧
      ExactS x.length (toInt x / 2 ^ (n.toNat % (w * x.length))) v) ∧
    (∃ v, NumTraits.unsignedShl false x n = .ok v ∧
      WrapU x.length ((toNat x : Int) * 2 ^ (n.toNat % (w * x.length))) v) ∧
    (∃ v, NumTraits.unsignedShr false x n = .ok v ∧
      ExactU x.length ((toNat x : Int) / 2 ^ (n.toNat % (w * x.length))) v) := by
  have h := (C38_checked_partial hk h2 hx h32 false n (by simpa using h32)).2
    (Or.inr (by simp only [primVal]; simpa using (by exact_mod_cast hn)))
  have hp : primAsU32 false n = n.toNat := primAsU32_eq false n (by simp [primVal]) n.isLt
  refine ⟨h.1, h.2 true, h.1, h.2 false, ⟨_, rfl, ?_⟩, ⟨_, rfl, ?_⟩, ⟨_, rfl, ?_⟩, ⟨_, rfl, ?_⟩⟩
  · rw [hp]; exact C20_int_wrapping_shl hk h2 hx _
  · rw [hp]; exact C20_int_wrapping_shr hk h2 hx _
  · rw [hp]; exact C20_uint_wrapping_shl hk h2 hx _
  · rw [hp]; exact C20_uint_wrapping_shr hk h2 hx _

example := C57_prim_int_shifts_out (k := 6) (x := m2) rfl (by decide) (by decide) (by decide) 300#32
  (by decide)
example : NumTraits.signedShr true m2 256#32 = .panic ∧
    NumTraits.signedShr false m2 257#32 = .ok ones := by decide

/-- C57: `Zero::is_zero` and `One::is_one` recognise exactly the values zero and one. -/
theorem C57_zero_one (hw : 1 < w) (hx : 2 ≤ x.length) :
    (NumTraits.isZero x = true ↔ toNat x = 0) ∧ (NumTraits.isZero x = true ↔ toInt x = 0) ∧
    (NumTraits.isOne x = true ↔ toNat x = 1) ∧ (NumTraits.isOne x = true ↔ toInt x = 1) := by
  have hp : 1 < 2 ^ w := Nat.one_lt_two_pow (by omega)
  have h0 := ofU8U (w := w) (N := x.length) (v := 0) (by omega) (by omega)
  have h1 := ofU8U (w := w) (N := x.length) (v := 1) (by omega) (by omega)
  have h0' := ofU8S (w := w) (N := x.length) (v := 0) (by omega) hx (by omega)
  have h1' := ofU8S (w := w) (N := x.length) (v := 1) (by omega) hx (by omega)
  have key : ∀ v : Nat, ExactU x.length v (ofU8 x.length v : Limbs w) →
      ExactS x.length v (ofU8 x.length v : Limbs w) →
      ((x == ofU8 x.length v) = true ↔ toNat x = v) ∧
      ((x == ofU8 x.length v) = true ↔ toInt x = v) := by
    intro v hU hS
    rw [beq_iff_eq]
    refine ⟨⟨fun h => ?_, fun h => toNat_inj hU.1.symm ?_⟩,
      ⟨fun h => ?_, fun h => toInt_inj hS.1.symm ?_⟩⟩
    · have := congrArg toNat h; have h2 := hU.2; omega
    · have h2 := hU.2; omega
    · have := congrArg toInt h; have h2 := hS.2; omega
    · have h2 := hS.2; omega
  have a0 := key 0 h0 h0'
  have a1 := key 1 h1 h1'
  exact ⟨a0.1, a0.2.trans (by simp), a1.1, a1.2.trans (by simp)⟩

example := C57_zero_one (x := one) (by decide) (by decide)
example : NumTraits.isOne one = true ∧ NumTraits.isZero one = false ∧
    NumTraits.isOne ([1, 0, 0, 1] : Limbs 64) = false := by decide

/-! ### C58: num-traits `MulAdd` -/

/-- C58: `mul_add` of the unsigned types follows the overflow mode of the build for the exact value of
`x * a + b`. -/
theorem C58_uint_mul_add (hw : 0 < w) (hl : x.length = y.length) (hl' : x.length = z.length)
    (h2 : x.length % 2 = 0) (h4 : 4 ≤ x.length) (oc : Bool) :
    OpU oc x.length ((toNat x : Int) * toNat y + toNat z) (NumTraits.uMulAdd oc x y z) := by
  have h := C42_uint_mul hw hl h2 h4 oc
  cases oc with
  | false =>
    obtain ⟨p, hp, hpw⟩ := h
    have h3 := (C42_uint_add_sub hw (hpw.1.trans hl') false).1
    obtain ⟨v, hv, hvw⟩ := h3
    refine ⟨v, by rw [NumTraits.uMulAdd, hp]; exact hv, ?_⟩
    rw [hpw.1] at hvw
    refine hvw.congr ?_
    rw [hpw.2, Int.emod_add_emod]
  | true =>
    have hP : (0:Int) ≤ (toNat x : Int) * toNat y := by positivity
    by_cases hin : InU (w * x.length) ((toNat x : Int) * toNat y)
    · obtain ⟨p, hp, hpe⟩ := h.1 hin
      have h3 := (C42_uint_add_sub hw (hpe.1.trans hl') true).1
      rw [NumTraits.uMulAdd, hp, ← hpe.2]
      rw [hpe.1] at h3
      exact h3
    · have e : NumTraits.uMulAdd true x y z = .panic := by rw [NumTraits.uMulAdd, h.2 hin]; rfl
      rw [e]
      refine ⟨fun hc => absurd ?_ hin, fun _ => rfl⟩
      have := hc.2
      exact ⟨hP, by omega⟩

example := C58_uint_mul_add (x := ones) (y := one) (z := a) (by decide) (by decide) (by decide)
  (by decide) (by decide) true
example : NumTraits.uMulAdd true a [3, 0, 0, 0] one = .ok [0xfffffffffffffffe, 2, 15, 0] ∧
    NumTraits.uMulAdd true ones one one = .panic ∧
    NumTraits.uMulAdd false ones one one = .ok zero := by decide +kernel

/-- C58, signed, without overflow checks: the exact value reduced to the range of the type. -/
theorem C58_int_mul_add_wrapping (hw : 1 < w) (hx : x ≠ []) (hl : x.length = y.length)
    (hl' : x.length = z.length) :
    ∃ v, NumTraits.iMulAdd false x y z = .ok v ∧
      WrapS x.length (toInt x * toInt y + toInt z) v := by
  obtain ⟨p, hp, hpw⟩ := C42_int_mul_partial (by omega) hx hl false (by simp)
  have hp0 : p ≠ [] := List.length_pos_iff.1 (by rw [hpw.1]; exact List.length_pos_iff.2 hx)
  obtain ⟨v, hv, hvw⟩ := (C42_int_add_sub hw hp0 (hpw.1.trans hl') false).1
  refine ⟨v, by rw [NumTraits.iMulAdd, hp]; exact hv, hvw.1.trans hpw.1, ?_⟩
  rw [hvw.2, hpw.2, hpw.1]
  simp [Int.bmod_add_bmod]

example := C58_int_mul_add_wrapping (x := top) (y := m2) (z := a) (by decide) (by decide) (by decide)
  (by decide)
example : NumTraits.iMulAdd false m2 m2 m2 = .ok [2, 0, 0, 0] := by decide +kernel

/-- C58 is false for the signed types with overflow checks: a product just below `MIN` is not
noticed, so `mul_add` returns a wrong value instead of a panic. -/
theorem C58_int_mul_add_false : ∃ x y v : Limbs 64, x.length = 4 ∧ y.length = 4 ∧
    ¬ InS 256 (toInt x * toInt y) ∧ ¬ InS 256 (toInt x * toInt y + toInt zero) ∧
    NumTraits.iMulAdd true x y zero = .ok v :=
  ⟨[0xaaaaaaaaaaaaaaab, 0xaaaaaaaaaaaaaaaa, 0xaaaaaaaaaaaaaaaa, 0x2aaaaaaaaaaaaaaa],
    [0xfffffffffffffffd, 0xffffffffffffffff, 0xffffffffffffffff, 0xffffffffffffffff], maxS,
    by decide +kernel⟩

/-- C58, signed, with overflow checks: if the product and the sum are representable the result is
exact, otherwise a panic. The full statement has no condition `hg`; it is false for products just
below `MIN`, see `C58_int_mul_add_false`. -/
theorem C58_int_mul_add_partial (hw : 1 < w) (hx : x ≠ []) (hl : x.length = y.length)
    (hl' : x.length = z.length) (hg : ¬ Mul.Gap w x.length (toInt x * toInt y)) :
    (InS (w * x.length) (toInt x * toInt y) ∧ InS (w * x.length) (toInt x * toInt y + toInt z) →
      ∃ v, NumTraits.iMulAdd true x y z = .ok v ∧
        ExactS x.length (toInt x * toInt y + toInt z) v) ∧
    (¬ (InS (w * x.length) (toInt x * toInt y) ∧
        InS (w * x.length) (toInt x * toInt y + toInt z)) →
      NumTraits.iMulAdd true x y z = .panic) := by
  have h := C42_int_mul_partial (by omega) hx hl true (fun _ => hg)
  by_cases hin : InS (w * x.length) (toInt x * toInt y)
  · obtain ⟨p, hp, hpe⟩ := h.1 hin
    have hp0 : p ≠ [] := List.length_pos_iff.1 (by rw [hpe.1]; exact List.length_pos_iff.2 hx)
    have h3 := (C42_int_add_sub hw hp0 (hpe.1.trans hl') true).1
    rw [hpe.1, hpe.2] at h3
    rw [NumTraits.iMulAdd, hp]
    exact ⟨fun hc => h3.1 hc.2, fun hc => h3.2 fun hs => hc ⟨hin, hs⟩⟩
  · have e : NumTraits.iMulAdd true x y z = .panic := by rw [NumTraits.iMulAdd, h.2 hin]; rfl
    exact ⟨fun hc => absurd hc.1 hin, fun _ => e⟩

example := C58_int_mul_add_partial (x := m2) (y := m2) (z := m2) (by decide) (by decide) (by decide)
  (by decide) (by decide +kernel)
example : NumTraits.iMulAdd true m2 m2 m2 = .ok [2, 0, 0, 0] ∧
    NumTraits.iMulAdd true top m2 zero = .panic := by decide +kernel

/-! ### C59: limb access and equality -/

/-- C59: `get_limb` returns the digits of the value in base `2^w`, on targets of either byte order,
and panics exactly for an index out of range. -/
theorem C59_get_limb (be : Bool) (i : Nat) :
    (i < x.length → ∃ v, Access.getLimb be x i = .ok v ∧
      v.toNat = toNat x / 2 ^ (w * i) % 2 ^ w) ∧
    (x.length ≤ i → Access.getLimb be x i = .panic) :=
  ⟨fun h => ⟨_, Access.getLimb_ok be x h, toNat_digit x i h⟩, Access.getLimb_panic be x⟩

example := (C59_get_limb (x := a) true 2).1 (by decide)
example : Access.getLimb true a 2 = .ok 5 ∧ Access.getLimb false a 2 = .ok 5 ∧
    Access.getLimb true a 4 = .panic ∧ Access.getLimb false a 4 = .panic := by decide

/-- C59: `get_wide` returns the digits in base `2^(2w)`, on targets of either byte order. -/
theorem C59_get_wide (h8 : 8 ∣ w) (h2 : x.length % 2 = 0) (be : Bool) (i : Nat) :
    (i < x.length / 2 → ∃ v, Access.getWide be x i = .ok v ∧
      v.toNat = toNat x / 2 ^ (2 * w * i) % 2 ^ (2 * w)) ∧
    (x.length / 2 ≤ i → Access.getWide be x i = .panic) := by
  refine ⟨fun h => ?_, Access.getWide_panic be x⟩
  obtain ⟨v, h1, h3⟩ := Access.getWide_ok h8 be x (i := i) (by omega) h2
  exact ⟨v, h1, h3.trans (two_digits x (by omega))⟩

example := (C59_get_wide (x := a) (by decide) (by decide) true 1).1 (by decide)
example : Access.getWide true a 1 = .ok 5 ∧ Access.getWide false a 1 = .ok 5 ∧
    Access.getWide true a 0 = .ok 0xffffffffffffffff ∧ Access.getWide true a 2 = .panic := by
  decide +kernel

/-- C59: the lowest and highest limb: the value modulo `2^w`, and the value divided by
`2^(BITS - w)`, whose sign bit is the sign of the number. -/
theorem C59_ends (hw : 0 < w) (hx : x ≠ []) (be : Bool) :
    (∃ v, Access.leastSignificantLimb be x = .ok v ∧ v.toNat = toNat x % 2 ^ w) ∧
    (∃ v, Access.mostSignificantLimb be x = .ok v ∧ v.toNat = toNat x / 2 ^ (w * (x.length - 1)) ∧
      v.toInt = toInt x / 2 ^ (w * (x.length - 1))) := by
  have hN := List.length_pos_iff.2 hx
  refine ⟨⟨_, Access.getLimb_ok be x hN, by simpa using toNat_digit x 0 hN⟩, ?_⟩
  refine ⟨_, Access.getLimb_ok be x (i := x.length - 1) (by omega), ?_, ?_⟩
  · rw [toNat_digit x _ (by omega), Nat.mod_eq_of_lt]
    rw [Nat.div_lt_iff_lt_mul (by positivity), ← Nat.pow_add]
    have := toNat_lt x
    rwa [bits, show w * x.length = w + w * (x.length - 1) by
      rw [Nat.mul_sub, Nat.mul_one]
      have := Nat.le_mul_of_pos_right w hN
      omega] at this
  · obtain ⟨l, c, rfl⟩ := exists_concat hx
    rw [toInt_concat hw]
    have h1 := toNat_lt_int l
    simp only [List.length_append, List.length_singleton, Nat.add_sub_cancel]
    rw [List.getElem_concat_length (by omega)]
    have hb : bits l = w * l.length := rfl
    rw [← hb, Int.add_mul_ediv_left _ _ (by positivity), Int.ediv_eq_zero_of_lt (by omega) h1,
      zero_add]

example := C59_ends (x := m2) (by decide) (by decide) true
example : Access.leastSignificantLimb true m2 = .ok 0xfffffffffffffffe ∧
    Access.mostSignificantLimb true top = .ok 0x8000000000000000 := by decide

/-- C59: the three equality tests (`eq_branched`, `eq_const`, the derived `==`) all decide equality of
the values. -/
theorem C59_equality (hl : x.length = y.length) (h2 : x.length % 2 = 0) :
    (Ord.eqBranched x y = true ↔ toNat x = toNat y) ∧ (Ord.eqConst x y = true ↔ toNat x = toNat y) ∧
    ((x == y) = true ↔ toNat x = toNat y) := by
  have h : x = y ↔ toNat x = toNat y := ⟨fun h => by rw [h], toNat_inj hl⟩
  refine ⟨?_, ?_, ?_⟩
  · rw [Ord.eqBranched_eq, Ord.eqConst_iff hl h2, h]
  · rw [Ord.eqConst_iff hl h2, h]
  · rw [beq_iff_eq, h]

example := C59_equality (x := a) (y := one) (by decide) (by decide)
example : Ord.eqBranched a a = true ∧ Ord.eqBranched a [0xffffffffffffffff, 0, 5, 1] = false := by
  decide

end I256
