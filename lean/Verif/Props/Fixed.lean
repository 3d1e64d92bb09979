import Verif.Lemmas.FixedDiv
import Verif.Props.Samples

/-!
# Fixed-width scalars: C41, C53, C54, C55

The functions `*_u32`, `*_u64`, `*_u128`, `*_i32`, `*_i64`, `*_i128` exist on every build; depending on
the limb size they use the one-limb, two-limb or four-limb code.  `k : Fix` selects the scalar size.
-/

namespace I256

open Sample

variable {w : Nat} {x : Limbs w}

section
variable (hw : w = 32 ∨ w = 64) (hx : 256 ≤ w * x.length)
include hw hx

/-! ### C53: addition and subtraction of fixed-width scalars -/

/-- C53: the unsigned types, all scalar sizes, both limb sizes. -/
theorem C53_uint_add_sub_fixed (k : Fix) (n : BitVec k.n) (oc : Bool) :
    FormsU oc x.length ((toNat x : Int) + n.toNat) (U.wrappingAddFix k x n)
      (U.overflowingAddFix k x n) (U.checkedAddFix k x n) (U.addFix oc k x n) ∧
    FormsU oc x.length ((toNat x : Int) - n.toNat) (U.wrappingSubFix k x n)
      (U.overflowingSubFix k x n) (U.checkedSubFix k x n) (U.subFix oc k x n) :=
  ⟨uAddFix hw hx k n oc, uSubFix hw hx k n oc⟩

/-- C53: signed numbers and unsigned scalars, except 128-bit scalars on 32-bit limbs (C41). -/
theorem C53_int_add_sub_fixed_unsigned (k : Fix) (hk : ¬ (w = 32 ∧ k = .b128)) (n : BitVec k.n)
    (oc : Bool) :
    FormsS oc x.length (toInt x + n.toNat) (I.wrappingAddFixU k x n)
      (I.overflowingAddFixU k x n) (I.checkedAddFixU k x n) (I.addFixU oc k x n) ∧
    FormsS oc x.length (toInt x - n.toNat) (I.wrappingSubFixU k x n)
      (I.overflowingSubFixU k x n) (I.checkedSubFixU k x n) (I.subFixU oc k x n) :=
  ⟨iAddFixU hw hx k hk n oc, iSubFixU hw hx k hk n oc⟩

/-- C53: signed numbers and signed scalars, except 128-bit scalars on 32-bit limbs (C41). -/
theorem C53_int_add_sub_fixed_signed (k : Fix) (hk : ¬ (w = 32 ∧ k = .b128)) (n : BitVec k.n)
    (oc : Bool) :
    FormsS oc x.length (toInt x + n.toInt) (I.wrappingAddFixI k x n)
      (I.overflowingAddFixI k x n) (I.checkedAddFixI k x n) (I.addFixI oc k x n) ∧
    FormsS oc x.length (toInt x - n.toInt) (I.wrappingSubFixI k x n)
      (I.overflowingSubFixI k x n) (I.checkedSubFixI k x n) (I.subFixI oc k x n) :=
  ⟨iAddFixI hw hx k hk n oc, iSubFixI hw hx k hk n oc⟩

/-! ### C54: multiplication by fixed-width scalars -/

/-- C54: the unsigned types. -/
theorem C54_uint_mul_fixed (k : Fix) (n : BitVec k.n) (oc : Bool) :
    FormsU oc x.length ((toNat x : Int) * n.toNat) (U.wrappingMulFix k x n)
      (U.overflowingMulFix k x n) (U.checkedMulFix k x n) (U.mulFix oc k x n) :=
  uMulFix hw k n oc

/-- C54, partial: signed numbers and unsigned scalars, except for products just below the minimum
(`Mul.Gap`) and 128-bit scalars on 32-bit limbs (C41).  The full claim, without the hypothesis on the
gap, is false (`C54_int_mul_fixed_false`). -/
theorem C54_int_mul_fixed_unsigned_partial (k : Fix) (hk : ¬ (w = 32 ∧ k = .b128)) (n : BitVec k.n)
    (oc : Bool) (hg : ¬ Mul.Gap w x.length (toInt x * n.toNat)) :
    FormsS oc x.length (toInt x * n.toNat) (I.wrappingMulFixU k x n)
      (I.overflowingMulFixU k x n) (I.checkedMulFixU k x n) (I.mulFixU oc k x n) :=
  iMulFixU hw hx k hk n oc hg

/-- C54, partial: signed numbers and signed scalars, with the same restrictions. -/
theorem C54_int_mul_fixed_signed_partial (k : Fix) (hk : ¬ (w = 32 ∧ k = .b128)) (n : BitVec k.n)
    (oc : Bool) (hg : ¬ Mul.Gap w x.length (toInt x * n.toInt)) :
    FormsS oc x.length (toInt x * n.toInt) (I.wrappingMulFixI k x n)
      (I.overflowingMulFixI k x n) (I.checkedMulFixI k x n) (I.mulFixI oc k x n) :=
  iMulFixI hw hx k hk n oc hg

end

example := C53_uint_add_sub_fixed (x := b32) (by decide) (by decide) .b128 (-1) true
example := C53_int_add_sub_fixed_unsigned (x := top) (by decide) (by decide) .b128 (by decide) (-1) true
example := C53_int_add_sub_fixed_signed (x := top) (by decide) (by decide) .b64 (by decide) (-1) true
example : U.wrappingAddFix .b128 b32 (2 ^ 128 - 1) = .ok [0xfffffffe, 0, 0, 0, 1, 0, 0, 7] ∧
    U.checkedSubFix .b64 (w := 64) [3, 0, 0, 0] 4 = .ok none ∧
    U.addFix true .b32 ones 1 = .panic ∧
    I.overflowingSubFixU .b128 top 1 = .ok (maxS, true) ∧
    I.wrappingAddFixI .b32 one (-3) = .ok m2 := by decide +kernel

example := C54_uint_mul_fixed (x := b32) (by decide) (by decide) .b128 (-1) true
example := C54_int_mul_fixed_unsigned_partial (x := m2) (by decide) (by decide) .b128 (by decide)
  7 true (by decide +kernel)
example := C54_int_mul_fixed_signed_partial (x := m2) (by decide) (by decide) .b32 (by decide)
  (-7) true (by decide +kernel)
example : U.mulFix true .b128 (w := 32) [1, 1, 0, 0, 0, 0, 0, 0] (2 ^ 127 + 1) =
      .ok [1, 1, 0, 0x80000000, 0x80000000, 0, 0, 0] ∧
    U.checkedMulFix .b64 top 2 = .ok none ∧
    I.mulFixI true .b32 m2 (-2) = .ok [4, 0, 0, 0] := by decide +kernel

/-- C54 is false for the signed types: `x * -3` is less than the minimum, but no overflow is
reported, for all scalar sizes. -/
theorem C54_int_mul_fixed_false :
    ∃ x : Limbs 64, x.length = 4 ∧ toInt x * (-3) < -2 ^ 255 ∧
      (∃ v, I.overflowingMulFixI .b32 x (-3) = .ok (v, false) ∧
        I.overflowingMulFixI .b64 x (-3) = .ok (v, false) ∧
        I.overflowingMulFixI .b128 x (-3) = .ok (v, false) ∧
        I.mulFixI true .b32 x (-3) = .ok v ∧ 0 < toInt v) :=
  ⟨[0xaaaaaaaaaaaaaaab, 0xaaaaaaaaaaaaaaaa, 0xaaaaaaaaaaaaaaaa, 0x2aaaaaaaaaaaaaaa],
    by decide +kernel, by decide +kernel,
    [0xffffffffffffffff, 0xffffffffffffffff, 0xffffffffffffffff, 0x7fffffffffffffff], by decide +kernel⟩

/-! ### C41: 128-bit scalars on 32-bit limbs -/

section
variable {x : Limbs 32} (hx : 256 ≤ 32 * x.length)
include hx

/-- C41: the unsigned types use `u128_to_limb` and are exact. -/
theorem C41_uint_u128 (n : BitVec 128) (oc : Bool) :
    FormsU oc x.length ((toNat x : Int) + n.toNat) (U.wrappingAddFix .b128 x n)
      (U.overflowingAddFix .b128 x n) (U.checkedAddFix .b128 x n) (U.addFix oc .b128 x n) ∧
    FormsU oc x.length ((toNat x : Int) - n.toNat) (U.wrappingSubFix .b128 x n)
      (U.overflowingSubFix .b128 x n) (U.checkedSubFix .b128 x n) (U.subFix oc .b128 x n) ∧
    FormsU oc x.length ((toNat x : Int) * n.toNat) (U.wrappingMulFix .b128 x n)
      (U.overflowingMulFix .b128 x n) (U.checkedMulFix .b128 x n) (U.mulFix oc .b128 x n) :=
  ⟨uAddFix (.inl rfl) hx .b128 n oc, uSubFix (.inl rfl) hx .b128 n oc, uMulFix (.inl rfl) .b128 n oc⟩

/-- C41 fails for every signed addition and subtraction of a 128-bit scalar: the functions panic for
all operands, whether or not overflow checks are enabled. -/
theorem C41_int_add_sub_panics (n : BitVec 128) (oc : Bool) :
    I.wrappingAddFixU .b128 x n = .panic ∧ I.overflowingAddFixU .b128 x n = .panic ∧
    I.checkedAddFixU .b128 x n = .panic ∧ I.addFixU oc .b128 x n = .panic ∧
    I.wrappingSubFixU .b128 x n = .panic ∧ I.overflowingSubFixU .b128 x n = .panic ∧
    I.checkedSubFixU .b128 x n = .panic ∧ I.subFixU oc .b128 x n = .panic ∧
    I.wrappingAddFixI .b128 x n = .panic ∧ I.overflowingAddFixI .b128 x n = .panic ∧
    I.checkedAddFixI .b128 x n = .panic ∧ I.addFixI oc .b128 x n = .panic ∧
    I.wrappingSubFixI .b128 x n = .panic ∧ I.overflowingSubFixI .b128 x n = .panic ∧
    I.checkedSubFixI .b128 x n = .panic ∧ I.subFixI oc .b128 x n = .panic := by
  obtain ⟨y, ey, yl, -⟩ := u128ToLimbN_spec (N := x.length) (by omega) n
  obtain ⟨z, ez, zl, -⟩ := i128ToLimbN_spec (N := x.length) (by omega) n
  obtain ⟨p1, p2, p3, p4⟩ := wrapping_mn_same yl.symm
  obtain ⟨q1, q2, q3, q4⟩ := wrapping_mn_same zl.symm
  have a1 : I.wrappingAddFixU .b128 x n = .panic := by
    have : I.wrappingAddFixU .b128 x n = (u128ToLimbN x.length n).bind (Add.wrappingMn x) := rfl
    rw [this, ey, Res.bind_ok, p1]
  have a2 : I.overflowingAddFixU .b128 x n = .panic := by
    have : I.overflowingAddFixU .b128 x n = (u128ToLimbN x.length n).bind (Add.overflowingMn x) := rfl
    rw [this, ey, Res.bind_ok, p2]
  have a3 : I.wrappingSubFixU .b128 x n = .panic := by
    have : I.wrappingSubFixU .b128 x n = (u128ToLimbN x.length n).bind (Sub.wrappingMn x) := rfl
    rw [this, ey, Res.bind_ok, p3]
  have a4 : I.overflowingSubFixU .b128 x n = .panic := by
    have : I.overflowingSubFixU .b128 x n = (u128ToLimbN x.length n).bind (Sub.overflowingMn x) := rfl
    rw [this, ey, Res.bind_ok, p4]
  have b1 : I.wrappingAddFixI .b128 x n = .panic := by
    have : I.wrappingAddFixI .b128 x n = (i128ToLimbN x.length n).bind (Add.wrappingMn x) := rfl
    rw [this, ez, Res.bind_ok, q1]
  have b2 : I.overflowingAddFixI .b128 x n = .panic := by
    have : I.overflowingAddFixI .b128 x n = (i128ToLimbN x.length n).bind (Add.overflowingMn x) := rfl
    rw [this, ez, Res.bind_ok, q2]
  have b3 : I.wrappingSubFixI .b128 x n = .panic := by
    have : I.wrappingSubFixI .b128 x n = (i128ToLimbN x.length n).bind (Sub.wrappingMn x) := rfl
    rw [this, ez, Res.bind_ok, q3]
  have b4 : I.overflowingSubFixI .b128 x n = .panic := by
    have : I.overflowingSubFixI .b128 x n = (i128ToLimbN x.length n).bind (Sub.overflowingMn x) := rfl
    rw [this, ez, Res.bind_ok, q4]
  have c1 : I.checkedAddFixU .b128 x n = .panic := by rw [I.checkedAddFixU, a2]; rfl
  have c2 : I.checkedSubFixU .b128 x n = .panic := by rw [I.checkedSubFixU, a4]; rfl
  have c3 : I.checkedAddFixI .b128 x n = .panic := by rw [I.checkedAddFixI, b2]; rfl
  have c4 : I.checkedSubFixI .b128 x n = .panic := by rw [I.checkedSubFixI, b4]; rfl
  refine ⟨a1, a2, c1, ?_, a3, a4, c2, ?_, b1, b2, c3, ?_, b3, b4, c4, ?_⟩
  · rw [I.addFixU, a1, c1]; cases oc <;> rfl
  · rw [I.subFixU, a3, c2]; cases oc <;> rfl
  · rw [I.addFixI, b1, c3]; cases oc <;> rfl
  · rw [I.subFixI, b3, c4]; cases oc <;> rfl

/-- C41: what signed multiplication by an unsigned 128-bit scalar really computes: the product with the
scalar whose second and fourth 32-bit digits are exchanged. -/
theorem C41_int_mul_u128_swapped (n : BitVec 128) (oc : Bool) :
    (∃ v, I.wrappingMulFixU .b128 x n = .ok v ∧ WrapS x.length (toInt x * swap128 n.toNat) v) ∧
    (¬ Mul.Gap 32 x.length (toInt x * swap128 n.toNat) →
      FormsS oc x.length (toInt x * swap128 n.toNat) (I.wrappingMulFixU .b128 x n)
        (I.overflowingMulFixU .b128 x n) (I.checkedMulFixU .b128 x n) (I.mulFixU oc .b128 x n)) := by
  obtain ⟨y, ey, yl, yv⟩ := u128ToLimbN_spec (N := x.length) (by omega) n
  have hx0 : x ≠ [] := by rintro rfl; simp at hx
  have e1 : I.wrappingMulFixU .b128 x n = .ok (Mul.wrappingFull x y) := by
    have : I.wrappingMulFixU .b128 x n = (u128ToLimbN x.length n).map (Mul.wrappingFull x) := rfl
    rw [this, ey, Res.map_ok]
  have e2 : I.overflowingMulFixU .b128 x n = .ok (Mul.overflowingFullS x y) := by
    have : I.overflowingMulFixU .b128 x n = (u128ToLimbN x.length n).map (Mul.overflowingFullS x) := rfl
    rw [this, ey, Res.map_ok]
  have h1 := Mul.wrapS x y (by omega) yl.symm
  have h2 := Mul.overflowingFullS_spec (by decide : 0 < 32) hx0 yl.symm
  rw [yv] at h1 h2
  refine ⟨⟨_, e1, h1⟩, fun g => ?_⟩
  exact FormsS.mk ⟨_, e1, h1⟩ ⟨_, e2, OverS.of_gap h2 g⟩

/-- C41: the same for signed 128-bit scalars; the sign is kept. -/
theorem C41_int_mul_i128_swapped (n : BitVec 128) (oc : Bool) :
    let z := toInt x * (swap128 n.toNat - if n.toInt < 0 then 2 ^ 128 else 0)
    (∃ v, I.wrappingMulFixI .b128 x n = .ok v ∧ WrapS x.length z v) ∧
    (¬ Mul.Gap 32 x.length z →
      FormsS oc x.length z (I.wrappingMulFixI .b128 x n)
        (I.overflowingMulFixI .b128 x n) (I.checkedMulFixI .b128 x n) (I.mulFixI oc .b128 x n)) := by
  obtain ⟨y, ey, yl, yv⟩ := i128ToLimbN_spec (N := x.length) (by omega) n
  have hx0 : x ≠ [] := by rintro rfl; simp at hx
  have e1 : I.wrappingMulFixI .b128 x n = .ok (Mul.wrappingFull x y) := by
    have : I.wrappingMulFixI .b128 x n = (i128ToLimbN x.length n).map (Mul.wrappingFull x) := rfl
    rw [this, ey, Res.map_ok]
  have e2 : I.overflowingMulFixI .b128 x n = .ok (Mul.overflowingFullS x y) := by
    have : I.overflowingMulFixI .b128 x n = (i128ToLimbN x.length n).map (Mul.overflowingFullS x) := rfl
    rw [this, ey, Res.map_ok]
  have h1 := Mul.wrapS x y (by omega) yl.symm
  have h2 := Mul.overflowingFullS_spec (by decide : 0 < 32) hx0 yl.symm
  rw [yv] at h1 h2
  refine ⟨⟨_, e1, h1⟩, fun g => ?_⟩
  exact FormsS.mk ⟨_, e1, h1⟩ ⟨_, e2, OverS.of_gap h2 g⟩

/-- C41, partial: signed multiplication is exact if the second and fourth 32-bit digits of the scalar
agree (and outside the gap of C08).  The full claim, for all scalars and for addition and subtraction
too, is false (`C41_int_mul_u128_false`, `C41_int_add_u128_false`). -/
theorem C41_int_mul_u128_partial (n : BitVec 128) (oc : Bool)
    (hn : n.toNat / 2 ^ 96 % 2 ^ 32 = n.toNat / 2 ^ 32 % 2 ^ 32)
    (hg : ¬ Mul.Gap 32 x.length (toInt x * n.toNat)) :
    FormsS oc x.length (toInt x * n.toNat) (I.wrappingMulFixU .b128 x n)
      (I.overflowingMulFixU .b128 x n) (I.checkedMulFixU .b128 x n) (I.mulFixU oc .b128 x n) := by
  have e := (swap128_eq_iff n.isLt).2 hn
  have h := (C41_int_mul_u128_swapped hx n oc).2
  rw [e] at h
  exact h hg

/-- C41, partial: the same for signed scalars. -/
theorem C41_int_mul_i128_partial (n : BitVec 128) (oc : Bool)
    (hn : n.toNat / 2 ^ 96 % 2 ^ 32 = n.toNat / 2 ^ 32 % 2 ^ 32)
    (hg : ¬ Mul.Gap 32 x.length (toInt x * n.toInt)) :
    FormsS oc x.length (toInt x * n.toInt) (I.wrappingMulFixI .b128 x n)
      (I.overflowingMulFixI .b128 x n) (I.checkedMulFixI .b128 x n) (I.mulFixI oc .b128 x n) := by
  have e := (swap128_eq_iff n.isLt).2 hn
  have h := (C41_int_mul_i128_swapped hx n oc).2
  have hc := BitVec.toInt_eq_toNat_cond n
  have hv := n.isLt
  have ez : (n.toNat : Int) - (if n.toInt < 0 then 2 ^ 128 else 0) = n.toInt := by
    split at hc <;> split <;> omega
  rw [e, ez] at h
  exact h hg

end

example := C41_uint_u128 (x := b32) (by decide) (-1) true
example := C41_int_add_sub_panics (x := b32) (by decide) 1 false
example := C41_int_mul_u128_swapped (x := b32) (by decide) (2 ^ 32) true
example := C41_int_mul_i128_swapped (x := b32) (by decide) (-2 ^ 32) true
example := C41_int_mul_u128_partial (x := b32) (by decide) (2 ^ 70 + 3) true (by decide +kernel)
  (by decide +kernel)
example := C41_int_mul_i128_partial (x := b32) (by decide) (-(2 ^ 70 + 3)) true (by decide +kernel)
  (by decide +kernel)

/-- C41 is false: on 32-bit limbs `1 * 2^32 = 2^96` for the signed type. -/
theorem C41_int_mul_u128_false :
    I.mulFixU true .b128 ([1, 0, 0, 0, 0, 0, 0, 0] : Limbs 32) (2 ^ 32) =
      .ok [0, 0, 0, 1, 0, 0, 0, 0] ∧
    I.mulFixI true .b128 ([1, 0, 0, 0, 0, 0, 0, 0] : Limbs 32) (2 ^ 32) =
      .ok [0, 0, 0, 1, 0, 0, 0, 0] := by decide +kernel

/-- C41 is false: on 32-bit limbs `1 + 1` panics for the signed type. -/
theorem C41_int_add_u128_false :
    I.wrappingAddFixU .b128 ([1, 0, 0, 0, 0, 0, 0, 0] : Limbs 32) 1 = .panic ∧
    I.checkedSubFixI .b128 ([1, 0, 0, 0, 0, 0, 0, 0] : Limbs 32) 1 = .panic := by decide +kernel

/-! ### C55: division by fixed-width scalars -/

section
variable (hw : w = 32 ∨ w = 64) (hx : 256 ≤ w * x.length)
include hw hx

/-- C55, partial: unsigned division.  The quotient is always exact when the function returns; it
panics exactly if the scalar fills two limbs and long division has to correct an estimate; the
remainder is exact except for 128-bit scalars on 32-bit limbs when an estimate is corrected, where the
result is described by `scalarStray`.  The full claim, without panics and stray bits, is false
(`C55_uint_div_fixed_false`). -/
theorem C55_uint_div_fixed_partial (k : Fix) {n : BitVec k.n} (hn : n ≠ 0) (oc : Bool) :
    let P := ScalarPanics w k.n (toNat x) n.toNat
    let Q := ExactU (w := w) x.length (toNat x / n.toNat)
    let R := fun r : BitVec k.n =>
      r.toNat = (toNat x % n.toNat + scalarStray w x.length k.n (toNat x) n.toNat) % 2 ^ k.n
    (∀ f ∈ [U.wrappingDivRemFix k, U.divRemFix oc k], Yields P (fun p => Q p.1 ∧ R p.2) (f x n)) ∧
    Yields P (fun o => ∃ p, o = some p ∧ Q p.1 ∧ R p.2) (U.checkedDivRemFix k x n) ∧
    Yields P (fun p => p.2 = false ∧ Q p.1.1 ∧ R p.1.2) (U.overflowingDivRemFix k x n) ∧
    (∀ f ∈ [U.wrappingDivFix k, U.divFix oc k], Yields P Q (f x n)) ∧
    (∀ f ∈ [U.wrappingRemFix k, U.remFix oc k], Yields P R (f x n)) ∧
    Yields P (fun o => ∃ q, o = some q ∧ Q q) (U.checkedDivFix k x n) ∧
    Yields P (fun o => ∃ r, o = some r ∧ R r) (U.checkedRemFix k x n) ∧
    Yields P (fun p => p.2 = false ∧ Q p.1) (U.overflowingDivFix k x n) ∧
    Yields P (fun p => p.2 = false ∧ R p.1) (U.overflowingRemFix k x n) := by
  intro P Q R
  have h : Yields P (fun p => Q p.1 ∧ R p.2) (U.wrappingDivRemFix k x n) := uDivRemFix hw hx k hn
  have hz : isZeroScalar n = false := by simpa [isZeroScalar] using hn
  have hce : U.checkedDivRemFix k x n = (U.wrappingDivRemFix k x n).map some := by
    rw [U.checkedDivRemFix, hz, checkedBy_false]
  have hoe : U.divRemFix oc k x n = U.wrappingDivRemFix k x n := by
    rw [U.divRemFix, fixOp, hce, opOfR_checked]
  have hc := h.some
  rw [← hce] at hc
  have ho : Yields P (fun p => p.2 = false ∧ Q p.1.1 ∧ R p.1.2) (U.overflowingDivRemFix k x n) :=
    h.map fun v hv => ⟨rfl, hv⟩
  refine ⟨?_, hc, ho, ?_, ?_, ?_, ?_, ?_, ?_⟩
  · intro f hf
    simp only [List.mem_cons, List.not_mem_nil, or_false] at hf
    rcases hf with rfl | rfl
    · exact h
    · rw [hoe]; exact h
  · intro f hf
    simp only [List.mem_cons, List.not_mem_nil, or_false] at hf
    rcases hf with rfl | rfl
    · exact h.map fun v hv => hv.1
    · rw [U.divFix, hoe]; exact h.map fun v hv => hv.1
  · intro f hf
    simp only [List.mem_cons, List.not_mem_nil, or_false] at hf
    rcases hf with rfl | rfl
    · exact h.map fun v hv => hv.2
    · rw [U.remFix, hoe]; exact h.map fun v hv => hv.2
  · exact hc.map fun o ⟨v, e, hv⟩ => ⟨v.1, by rw [e]; rfl, hv.1⟩
  · exact hc.map fun o ⟨v, e, hv⟩ => ⟨v.2, by rw [e]; rfl, hv.2⟩
  · exact ho.map fun v hv => ⟨hv.1, hv.2.1⟩
  · exact ho.map fun v hv => ⟨hv.1, hv.2.2⟩

/-- C55: a zero scalar divisor gives `None` in the checked forms and panics in the others, except that
`0 / 0 = 0` without overflow checks if the scalar is wider than a limb. -/
theorem C55_uint_div_fixed_zero (k : Fix) :
    U.checkedDivRemFix k x 0 = .ok none ∧ U.checkedDivFix k x 0 = .ok none ∧
    U.checkedRemFix k x 0 = .ok none ∧ U.divRemFix true k x 0 = .panic ∧
    U.divFix true k x 0 = .panic ∧ U.remFix true k x 0 = .panic ∧
    (toNat x ≠ 0 ∨ k.n ≤ w → U.wrappingDivRemFix k x 0 = .panic ∧ U.divRemFix false k x 0 = .panic) ∧
    (toNat x = 0 → w < k.n → ∃ q, U.wrappingDivRemFix k x 0 = .ok (q, 0) ∧
      U.divRemFix false k x 0 = .ok (q, 0) ∧ ExactU x.length 0 q) := by
  obtain ⟨h1, h2⟩ := uDivRemFix_zero hw hx k
  have hz : isZeroScalar (0 : BitVec k.n) = true := by simp [isZeroScalar]
  have hc : U.checkedDivRemFix k x 0 = .ok none := by
    rw [U.checkedDivRemFix, hz]; rfl
  have ho : U.divRemFix true k x 0 = .panic := by
    rw [U.divRemFix, hc]; rfl
  have ho' : U.divRemFix false k x 0 = U.wrappingDivRemFix k x 0 := rfl
  refine ⟨hc, ?_, ?_, ho, ?_, ?_, fun h => ⟨h1 h, ho'.trans (h1 h)⟩, fun a b => ?_⟩
  · rw [U.checkedDivFix, hc]; rfl
  · rw [U.checkedRemFix, hc]; rfl
  · rw [U.divFix, ho]; rfl
  · rw [U.remFix, ho]; rfl
  · obtain ⟨q, e, hq⟩ := h2 a b
    exact ⟨q, e, ho'.trans e, hq⟩

variable (he : x.length % 2 = 0)
include he

/-- C55, partial: signed numbers divided by unsigned scalars round down, with a remainder in
`[0, n)`; restricted to divisions that leave no stray bits. -/
theorem C55_int_div_fixed_unsigned_partial (k : Fix) {n : BitVec k.n} (hn : n ≠ 0)
    (hs : scalarStray w x.length k.n (toInt x).natAbs n.toNat = 0) (oc : Bool) :
    let P := ScalarPanics w k.n (toInt x).natAbs n.toNat
    let Q := ExactS (w := w) x.length (toInt x / n.toNat)
    let R := fun r : BitVec k.n => (r.toNat : Int) = toInt x % n.toNat
    (∀ f ∈ [I.wrappingDivRemFixU oc k, I.divRemFixU oc k],
      Yields P (fun p => Q p.1 ∧ R p.2) (f x n)) ∧
    Yields P (fun o => ∃ p, o = some p ∧ Q p.1 ∧ R p.2) (I.checkedDivRemFixU oc k x n) ∧
    Yields P (fun p => p.2 = false ∧ Q p.1.1 ∧ R p.1.2) (I.overflowingDivRemFixU oc k x n) ∧
    (∀ f ∈ [I.wrappingDivFixU oc k, I.divFixU oc k], Yields P Q (f x n)) ∧
    (∀ f ∈ [I.wrappingRemFixU oc k, I.remFixU oc k], Yields P R (f x n)) ∧
    Yields P (fun o => ∃ q, o = some q ∧ Q q) (I.checkedDivFixU oc k x n) ∧
    Yields P (fun o => ∃ r, o = some r ∧ R r) (I.checkedRemFixU oc k x n) ∧
    Yields P (fun p => p.2 = false ∧ Q p.1) (I.overflowingDivFixU oc k x n) ∧
    Yields P (fun p => p.2 = false ∧ R p.1) (I.overflowingRemFixU oc k x n) := by
  intro P Q R
  have h : Yields P (fun p => Q p.1 ∧ R p.2) (I.wrappingDivRemFixU oc k x n) :=
    iDivRemFixU hw hx he k hn hs oc
  have hz : isZeroScalar n = false := by simpa [isZeroScalar] using hn
  have hce : I.checkedDivRemFixU oc k x n = (I.wrappingDivRemFixU oc k x n).map some := by
    rw [I.checkedDivRemFixU, hz, checkedBy_false]
  have hoe : I.divRemFixU oc k x n = I.wrappingDivRemFixU oc k x n := by
    rw [I.divRemFixU, fixOp, hce, opOfR_checked]
  have hc := h.some
  rw [← hce] at hc
  have ho : Yields P (fun p => p.2 = false ∧ Q p.1.1 ∧ R p.1.2) (I.overflowingDivRemFixU oc k x n) :=
    h.map fun v hv => ⟨rfl, hv⟩
  refine ⟨?_, hc, ho, ?_, ?_, ?_, ?_, ?_, ?_⟩
  · intro f hf
    simp only [List.mem_cons, List.not_mem_nil, or_false] at hf
    rcases hf with rfl | rfl
    · exact h
    · rw [hoe]; exact h
  · intro f hf
    simp only [List.mem_cons, List.not_mem_nil, or_false] at hf
    rcases hf with rfl | rfl
    · exact h.map fun v hv => hv.1
    · rw [I.divFixU, hoe]; exact h.map fun v hv => hv.1
  · intro f hf
    simp only [List.mem_cons, List.not_mem_nil, or_false] at hf
    rcases hf with rfl | rfl
    · exact h.map fun v hv => hv.2
    · rw [I.remFixU, hoe]; exact h.map fun v hv => hv.2
  · exact hc.map fun o ⟨v, e, hv⟩ => ⟨v.1, by rw [e]; rfl, hv.1⟩
  · exact hc.map fun o ⟨v, e, hv⟩ => ⟨v.2, by rw [e]; rfl, hv.2⟩
  · exact ho.map fun v hv => ⟨hv.1, hv.2.1⟩
  · exact ho.map fun v hv => ⟨hv.1, hv.2.2⟩

/-- C55, partial: signed numbers divided by signed scalars truncate, with the sign of the dividend on
the remainder; only `MIN / -1` overflows; restricted to divisions that leave no stray bits. -/
theorem C55_int_div_fixed_signed_partial (k : Fix) {n : BitVec k.n} (hn : n ≠ 0)
    (hs : scalarStray w x.length k.n (toInt x).natAbs n.toInt.natAbs = 0) :
    let P := ScalarPanics w k.n (toInt x).natAbs n.toInt.natAbs
    let z := (toInt x).tdiv n.toInt
    let R := fun r : BitVec k.n => r.toInt = (toInt x).tmod n.toInt
    (∀ f ∈ [I.wrappingDivRemFixI k, I.divRemFixI false k],
      Yields P (fun p => WrapS x.length z p.1 ∧ R p.2) (f x n)) ∧
    Yields P (fun p => OverS x.length z (p.1.1, p.2) ∧ R p.1.2) (I.overflowingDivRemFixI k x n) ∧
    Yields P (fun o => CheckS x.length z (o.map (·.1)) ∧ ∀ p, o = some p → R p.2)
      (I.checkedDivRemFixI k x n) ∧
    Yields (P ∨ ¬ InS (w * x.length) z) (fun p => ExactS x.length z p.1 ∧ R p.2)
      (I.divRemFixI true k x n) ∧
    Yields P (WrapS x.length z) (I.wrappingDivFixI k x n) ∧
    Yields P R (I.wrappingRemFixI k x n) ∧
    Yields P (OverS x.length z) (I.overflowingDivFixI k x n) ∧
    Yields P (fun p => (p.2 = true ↔ ¬ InS (w * x.length) z) ∧ R p.1) (I.overflowingRemFixI k x n) ∧
    Yields P (CheckS x.length z) (I.checkedDivFixI k x n) ∧
    Yields P (fun o => (o = none ↔ ¬ InS (w * x.length) z) ∧ ∀ r, o = some r → R r)
      (I.checkedRemFixI k x n) ∧
    Yields (P ∨ ¬ InS (w * x.length) z) (ExactS x.length z) (I.divFixI true k x n) ∧
    Yields (P ∨ ¬ InS (w * x.length) z) R (I.remFixI true k x n) := by
  intro P z R
  have h : Yields P (fun p => WrapS x.length z p.1 ∧ R p.2) (I.wrappingDivRemFixI k x n) :=
    iDivRemFixI hw hx he k hn hs
  have ho : Yields P (fun p => OverS x.length z (p.1.1, p.2) ∧ R p.1.2)
      (I.overflowingDivRemFixI k x n) := iDivRemFixI_over hw hx he k hn hs
  have hce := checkedDivRemFixI_eq hw hx he k hn
  have hc : Yields P (fun o => CheckS x.length z (o.map (·.1)) ∧ (∀ p, o = some p → R p.2) ∧
      (o = none ↔ ¬ InS (w * x.length) z)) (I.checkedDivRemFixI k x n) := by
    rw [hce]
    refine ho.map ?_
    rintro ⟨⟨q, r⟩, f⟩ ⟨hq, hr⟩
    have hck := hq.check
    have hf := hq.2
    cases f
    · exact ⟨hck, fun p hp => by cases hp; exact hr, by rw [← hf]; simp [mkChecked]⟩
    · exact ⟨hck, fun p hp => (by cases hp), by rw [← hf]; simp [mkChecked]⟩
  have hop : Yields (P ∨ ¬ InS (w * x.length) z) (fun p => ExactS x.length z p.1 ∧ R p.2)
      (I.divRemFixI true k x n) := by
    have e : I.divRemFixI true k x n = (I.checkedDivRemFixI k x n).bind unwrapOrPanic := rfl
    rw [e]
    refine ⟨fun hp => ?_, fun hp => ?_⟩
    · by_cases hP : P
      · rw [hc.1 hP]; rfl
      · obtain ⟨o, eo, -, -, hn⟩ := hc.2 hP
        rw [eo, hn.2 (hp.resolve_left hP)]; rfl
    · obtain ⟨o, eo, hk, hr, hn⟩ := hc.2 (fun hP => hp (.inl hP))
      have hi : InS (w * x.length) z := by by_contra hi; exact hp (.inr hi)
      cases o with
      | none => exact absurd hi (hn.1 rfl)
      | some p =>
        rw [eo]
        refine ⟨p, rfl, ?_, hr p rfl⟩
        obtain ⟨v, ev, hv⟩ := hk.1 hi
        cases ev
        exact hv
  refine ⟨?_, ho, hc.mono fun o h => ⟨h.1, h.2.1⟩, hop, h.map fun p hp => hp.1,
    h.map fun p hp => hp.2, ?_, ?_, hc.map fun o h => h.1, hc.map ?_, hop.map fun p hp => hp.1,
    hop.map fun p hp => hp.2⟩
  · intro f hf
    simp only [List.mem_cons, List.not_mem_nil, or_false] at hf
    rcases hf with rfl | rfl
    · exact h
    · exact h
  · cases k
    · have e : I.overflowingDivFixI .b32 x n =
          (I.overflowingDivRemFixI .b32 x n).map fun p => (p.1.1, p.2) := by
        rw [I.overflowingDivFixI, I.overflowingDivRemFixI, I.overflowingDivILimb]
        cases I.overflowingDivRemILimb x (n.signExtend w) <;> rfl
      rw [e]; exact ho.map fun p hp => hp.1
    · exact ho.map fun p hp => hp.1
    · exact ho.map fun p hp => hp.1
  · cases k
    · have e : I.overflowingRemFixI .b32 x n =
          (I.overflowingDivRemFixI .b32 x n).map fun p => (p.1.2, p.2) := by
        rw [I.overflowingRemFixI, I.overflowingDivRemFixI, I.overflowingRemILimb]
        cases I.overflowingDivRemILimb x (n.signExtend w) <;> rfl
      rw [e]; exact ho.map fun p hp => ⟨hp.1.2, hp.2⟩
    · exact ho.map fun p hp => ⟨hp.1.2, hp.2⟩
    · exact ho.map fun p hp => ⟨hp.1.2, hp.2⟩
  · rintro o ⟨-, hr, hi⟩
    refine ⟨by rw [← hi]; simp, fun r e => ?_⟩
    cases o with
    | none => simp at e
    | some p => simp at e; rw [← e]; exact hr p rfl

/-- C55: a zero scalar divisor of a signed number is rejected by the checked forms and, with overflow
checks, by the operator. -/
theorem C55_int_div_fixed_zero (k : Fix) (oc : Bool) :
    I.checkedDivRemFixU oc k x 0 = .ok none ∧ I.checkedDivRemFixI k x 0 = .ok none ∧
    I.divRemFixU true k x 0 = .panic ∧ I.divRemFixI true k x 0 = .panic := by
  have hz : isZeroScalar (0 : BitVec k.n) = true := by simp [isZeroScalar]
  have hu : ∀ oc, I.checkedDivRemFixU oc k x 0 = .ok none := fun oc => by
    rw [I.checkedDivRemFixU, hz]; rfl
  have hi : I.checkedDivRemFixI k x 0 = .ok none := by
    cases k
    · have e : (0 : BitVec (Fix.b32).n).signExtend w = 0 := by
        rcases hw with rfl | rfl <;> decide
      rw [I.checkedDivRemFixI, e]; rfl
    · rfl
    · rfl
  refine ⟨hu oc, hi, ?_, ?_⟩
  · rw [I.divRemFixU, hu]; rfl
  · rw [I.divRemFixI, hi]; rfl

end

example := C55_uint_div_fixed_partial (x := a) (by decide) (by decide) .b32 (n := 10) (by decide) true
example := C55_uint_div_fixed_zero (x := b32) (by decide) (by decide) .b128
example := C55_int_div_fixed_unsigned_partial (x := b32) (by decide) (by decide) (by decide) .b128
  (n := 2 ^ 100) (by decide +kernel) (by decide +kernel) true
example := C55_int_div_fixed_signed_partial (x := b32) (by decide) (by decide) (by decide) .b128
  (n := -2 ^ 100) (by decide +kernel) (by decide +kernel)
example := C55_int_div_fixed_zero (x := top) (by decide) (by decide) (by decide) .b64 true
example : U.divRemFix true .b32 a 10 = .ok ([0x1999999999999999, 0x8000000000000000, 0, 0], 5) ∧
    I.divRemFixU true .b32 m2 3 = .ok (ones, 1) ∧ I.divRemFixI true .b64 m2 3 = .ok (zero, -2) ∧
    I.checkedDivFixI .b128 top (-1) = .ok none := by decide +kernel

/-- C55 is false: on 32-bit limbs `2^95 % (2^63 + 2^32 - 1)` has a stray bit `2^64` if the divisor is a
`u128`, so that the "remainder" exceeds the divisor; with a `u64` divisor the division panics. -/
theorem C55_uint_div_fixed_false :
    U.wrappingRemFix .b128 ([0, 0, 0x80000000, 0, 0, 0, 0, 0] : Limbs 32) (2 ^ 63 + 2 ^ 32 - 1) =
      .ok (BitVec.ofNat 128 (2 ^ 95 % (2 ^ 63 + 2 ^ 32 - 1) + 2 ^ 64)) ∧
    U.wrappingRemFix .b64 ([0, 0, 0x80000000, 0, 0, 0, 0, 0] : Limbs 32) (2 ^ 63 + 2 ^ 32 - 1) =
      .panic ∧
    U.checkedDivFix .b128 ([0, 0, 0x8000000000000000, 0] : Limbs 64) (2 ^ 127 + 2 ^ 64 - 1) =
      .panic := by decide +kernel

/-- C55 is false for the signed types: the same stray bit. -/
theorem C55_int_div_fixed_false :
    I.wrappingRemFixI .b128 ([0, 0, 0x80000000, 0, 0, 0, 0, 0] : Limbs 32) (2 ^ 63 + 2 ^ 32 - 1) =
      .ok (BitVec.ofNat 128 (2 ^ 95 % (2 ^ 63 + 2 ^ 32 - 1) + 2 ^ 64)) ∧
    I.wrappingRemFixU true .b64 ([0, 0, 0x80000000, 0, 0, 0, 0, 0] : Limbs 32) (2 ^ 63 + 2 ^ 32 - 1) =
      .panic := by decide +kernel

end I256
