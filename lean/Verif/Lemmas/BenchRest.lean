import Verif.SpecBench
import Verif.Model.Bench
import Verif.Lemmas.Bench
import Verif.Lemmas.RawApi
import Verif.Lemmas.Bitops
import Verif.Lemmas.ShiftApi
import Verif.Lemmas.MulApi
import Verif.Lemmas.AddSubApi
import Verif.Lemmas.Glue
import Verif.Lemmas.Casts

/-! Lemmas about the algorithms of `devel/benches`: shifts, bit counts, division by a constant. -/

namespace I256

namespace Bench

open Raw (loop usub at_ set_)
open Raw.Div (Cfg debugAssert)

section Shift
variable {n : Nat}

theorem checked_shift (cf : Cfg) (s n : Nat) : debugAssert cf (decide (s < 2 * n)) =
    if cf.da = true ∧ 2 * n ≤ s then .panic else .ok () := by
  unfold debugAssert Raw.assert
  by_cases hd : cf.da = true <;> by_cases hs : s < 2 * n <;> simp [hd, hs] <;> omega

/-- What the three versions of `shl` compute for a reduced amount. -/
def shlRef (x0 x1 : BitVec n) (s : Nat) : BitVec n × BitVec n :=
  if n ≤ s then (0, x0 <<< (s - n)) else (x0 <<< s, x1 <<< s ||| x0 >>> (n - s))

/-- What the three versions of `shr` compute for a reduced amount. -/
def shrRef (x0 x1 : BitVec n) (s : Nat) : BitVec n × BitVec n :=
  if n ≤ s then (0, x0 >>> (s - n)) else (x0 >>> s, x1 >>> s ||| x0 <<< (n - s))

theorem shr_all (x : BitVec n) : x >>> n = 0 := by
  apply BitVec.eq_of_toNat_eq
  rw [BitVec.toNat_ushiftRight, Nat.shiftRight_eq_div_pow, Nat.div_eq_of_lt x.isLt]
  simp

theorem shl_all (x : BitVec n) : x <<< n = 0 := by
  apply BitVec.eq_of_toNat_eq
  rw [BitVec.toNat_shiftLeft, Nat.shiftLeft_eq, Nat.mul_mod_left]
  simp

section
variable (cf : Cfg) (hn : 0 < n) (x0 x1 : BitVec n) (s : Nat)
include hn

theorem shlV1_eq : shlV1 cf x0 x1 s =
    if cf.da = true ∧ 2 * n ≤ s then .panic else .ok (shlRef x0 x1 (s % (2 * n))) := by
  unfold shlV1
  rw [checked_shift]
  have hm : s % (2 * n) < 2 * n := Nat.mod_lt _ (by omega)
  generalize s % (2 * n) = t at *
  split
  · rfl
  rw [Res.mbind_ok]
  unfold shlRef usub wShl wShr
  by_cases h1 : n ≤ t
  · simp only [ge_iff_le, h1, if_true, Res.mbind_ok, Nat.mod_eq_of_lt (show t - n < n by omega)]
  · by_cases h0 : t = 0
    · subst h0
      simp [h1, shr_all]
    · simp only [ge_iff_le, h1, h0, if_false, show t ≤ n by omega, if_true, Res.mbind_ok,
        Nat.mod_eq_of_lt (show t < n by omega), Nat.mod_eq_of_lt (show n - t < n by omega)]

theorem shlV2_eq : shlV2 cf x0 x1 s =
    if cf.da = true ∧ 2 * n ≤ s then .panic else .ok (shlRef x0 x1 (s % (2 * n))) := by
  unfold shlV2
  rw [checked_shift]
  have hm : s % (2 * n) < 2 * n := Nat.mod_lt _ (by omega)
  generalize s % (2 * n) = t at *
  split
  · rfl
  rw [Res.mbind_ok]
  unfold shlRef usub wShl cShr
  by_cases h1 : n ≤ t
  · simp only [ge_iff_le, h1, if_true, Res.mbind_ok, Nat.mod_eq_of_lt (show t - n < n by omega)]
  · by_cases h0 : t = 0
    · subst h0
      simp [h1, shr_all]
    · simp only [ge_iff_le, h1, if_false, show t ≤ n by omega, if_true, Res.mbind_ok,
        Nat.mod_eq_of_lt (show t < n by omega), show n - t < n by omega]

theorem shlV3_eq : shlV3 cf x0 x1 s =
    if cf.da = true ∧ 2 * n ≤ s then .panic else .ok (shlRef x0 x1 (s % (2 * n))) := by
  unfold shlV3
  rw [checked_shift]
  have hm : s % (2 * n) < 2 * n := Nat.mod_lt _ (by omega)
  generalize s % (2 * n) = t at *
  split
  · rfl
  rw [Res.mbind_ok]
  unfold shlRef usub wShl cShr
  by_cases h1 : n ≤ t
  · simp only [ge_iff_le, h1, if_true, Res.mbind_ok, Nat.mod_eq_of_lt (show t - n < n by omega)]
  · by_cases h0 : t = 0
    · subst h0
      simp [h1, shr_all]
    · simp only [ge_iff_le, h1, if_false, show t ≤ n by omega, if_true, Res.mbind_ok,
        Nat.mod_eq_of_lt (show t < n by omega), show n - t < n by omega]

theorem shrV1_eq : shrV1 cf x0 x1 s =
    if cf.da = true ∧ 2 * n ≤ s then .panic else .ok (shrRef x0 x1 (s % (2 * n))) := by
  unfold shrV1
  rw [checked_shift]
  have hm : s % (2 * n) < 2 * n := Nat.mod_lt _ (by omega)
  generalize s % (2 * n) = t at *
  split
  · rfl
  rw [Res.mbind_ok]
  unfold shrRef usub wShl wShr
  by_cases h1 : n ≤ t
  · simp only [ge_iff_le, h1, if_true, Res.mbind_ok, Nat.mod_eq_of_lt (show t - n < n by omega)]
  · by_cases h0 : t = 0
    · subst h0
      simp [h1, shl_all]
    · simp only [ge_iff_le, h1, h0, if_false, show t ≤ n by omega, if_true, Res.mbind_ok,
        Nat.mod_eq_of_lt (show t < n by omega), Nat.mod_eq_of_lt (show n - t < n by omega)]

theorem shrV2_eq : shrV2 cf x0 x1 s =
    if cf.da = true ∧ 2 * n ≤ s then .panic else .ok (shrRef x0 x1 (s % (2 * n))) := by
  unfold shrV2
  rw [checked_shift]
  have hm : s % (2 * n) < 2 * n := Nat.mod_lt _ (by omega)
  generalize s % (2 * n) = t at *
  split
  · rfl
  rw [Res.mbind_ok]
  unfold shrRef usub wShr cShl
  by_cases h1 : n ≤ t
  · simp only [ge_iff_le, h1, if_true, Res.mbind_ok, Nat.mod_eq_of_lt (show t - n < n by omega)]
  · by_cases h0 : t = 0
    · subst h0
      simp [h1, shl_all]
    · simp only [ge_iff_le, h1, if_false, show t ≤ n by omega, if_true, Res.mbind_ok,
        Nat.mod_eq_of_lt (show t < n by omega), show n - t < n by omega]

theorem shrV3_eq : shrV3 cf x0 x1 s =
    if cf.da = true ∧ 2 * n ≤ s then .panic else .ok (shrRef x0 x1 (s % (2 * n))) := by
  unfold shrV3
  rw [checked_shift]
  have hm : s % (2 * n) < 2 * n := Nat.mod_lt _ (by omega)
  generalize s % (2 * n) = t at *
  split
  · rfl
  rw [Res.mbind_ok]
  unfold shrRef usub wShr cShl
  by_cases h1 : n ≤ t
  · simp only [ge_iff_le, h1, if_true, Res.mbind_ok, Nat.mod_eq_of_lt (show t - n < n by omega)]
  · by_cases h0 : t = 0
    · subst h0
      simp [h1, shl_all]
    · simp only [ge_iff_le, h1, if_false, show t ≤ n by omega, if_true, Res.mbind_ok,
        Nat.mod_eq_of_lt (show t < n by omega), show n - t < n by omega]

end

theorem split_pow {n s : Nat} (h : s ≤ n) : 2 ^ n = 2 ^ (n - s) * 2 ^ s := by
  rw [← Nat.pow_add, Nat.sub_add_cancel h]

theorem shlRef_val (x0 x1 : BitVec n) {s : Nat} (hs : s < 2 * n) :
    (shlRef x0 x1 s).1.toNat + 2 ^ n * (shlRef x0 x1 s).2.toNat =
      (x0.toNat + 2 ^ n * x1.toNat) * 2 ^ s % 2 ^ (2 * n) := by
  have hP : 2 ^ (2 * n) = 2 ^ n * 2 ^ n := by rw [Nat.two_mul, Nat.pow_add]
  have hPp := Nat.two_pow_pos n
  unfold shlRef
  split
  · rename_i h1
    have e : 2 ^ s = 2 ^ n * 2 ^ (s - n) := by rw [← Nat.pow_add, Nat.add_sub_cancel' h1]
    rw [BitVec.toNat_shiftLeft, Nat.shiftLeft_eq, hP, e,
      show (x0.toNat + 2 ^ n * x1.toNat) * (2 ^ n * 2 ^ (s - n)) =
        2 ^ n * (x0.toNat * 2 ^ (s - n)) + 2 ^ n * 2 ^ n * (x1.toNat * 2 ^ (s - n)) by ring,
      Nat.add_mul_mod_self_left, Nat.mul_mod_mul_left]
    simp
  · rename_i h1
    have hle : s ≤ n := by omega
    have l0 := x0.isLt
    have ep := split_pow hle
    have hsp := Nat.two_pow_pos s
    have hip := Nat.two_pow_pos (n - s)
    have d : x0.toNat / 2 ^ (n - s) = x0.toNat * 2 ^ s / 2 ^ n := by
      rw [ep, Nat.mul_div_mul_right _ _ hsp]
    have m : x1.toNat * 2 ^ s % 2 ^ n = 2 ^ s * (x1.toNat % 2 ^ (n - s)) := by
      rw [ep, Nat.mul_mod_mul_right, Nat.mul_comm]
    have lt : x0.toNat / 2 ^ (n - s) < 2 ^ s := by
      apply Nat.div_lt_of_lt_mul
      rw [← ep]
      exact l0
    simp only [BitVec.toNat_or, BitVec.toNat_shiftLeft, BitVec.toNat_ushiftRight, Nat.shiftLeft_eq,
      Nat.shiftRight_eq_div_pow]
    rw [m, ← Nat.two_pow_add_eq_or_of_lt lt, ← m, d, hP,
      show (x0.toNat + 2 ^ n * x1.toNat) * 2 ^ s =
        x0.toNat * 2 ^ s + 2 ^ n * (x1.toNat * 2 ^ s) by ring]
    generalize x0.toNat * 2 ^ s = u at *
    generalize x1.toNat * 2 ^ s = v at *
    have lt' : v % 2 ^ n + u / 2 ^ n < 2 ^ n := by
      rw [m, ← d, Nat.add_comm]
      have a1 : x1.toNat % 2 ^ (n - s) + 1 ≤ 2 ^ (n - s) := Nat.mod_lt _ hip
      have a2 := Nat.mul_le_mul_left (2 ^ s) a1
      rw [Nat.mul_add, Nat.mul_comm (2 ^ s) (2 ^ (n - s)), ← ep] at a2
      omega
    have e1 := Nat.mod_add_div u (2 ^ n)
    have e2 := Nat.mod_add_div v (2 ^ n)
    have lu := Nat.mod_lt u hPp
    rw [show u + 2 ^ n * v = (u % 2 ^ n + 2 ^ n * (v % 2 ^ n + u / 2 ^ n)) +
      2 ^ n * 2 ^ n * (v / 2 ^ n) by
        zify at e1 e2 ⊢
        linear_combination -e1 - 2 ^ n * e2, Nat.add_mul_mod_self_left]
    refine (Nat.mod_eq_of_lt ?_).symm
    generalize v % 2 ^ n + u / 2 ^ n = z at *
    generalize 2 ^ n = P at *
    nlinarith

theorem shrRef_val (x0 x1 : BitVec n) {s : Nat} (hs : s < 2 * n) :
    2 ^ n * (shrRef x0 x1 s).1.toNat + (shrRef x0 x1 s).2.toNat =
      (2 ^ n * x0.toNat + x1.toNat) / 2 ^ s := by
  have hPp := Nat.two_pow_pos n
  unfold shrRef
  split
  · rename_i h1
    have e : 2 ^ s = 2 ^ n * 2 ^ (s - n) := by rw [← Nat.pow_add, Nat.add_sub_cancel' h1]
    rw [e, ← Nat.div_div_eq_div_mul, Nat.mul_add_div hPp, Nat.div_eq_of_lt x1.isLt]
    simp [Nat.shiftRight_eq_div_pow]
  · rename_i h1
    have hle : s ≤ n := by omega
    have l1 := x1.isLt
    have ep := split_pow hle
    have hsp := Nat.two_pow_pos s
    have hip := Nat.two_pow_pos (n - s)
    have m : x0.toNat * 2 ^ (n - s) % 2 ^ n = 2 ^ (n - s) * (x0.toNat % 2 ^ s) := by
      rw [ep, Nat.mul_comm (2 ^ (n - s)) (2 ^ s), Nat.mul_mod_mul_right, Nat.mul_comm]
    have lt : x1.toNat / 2 ^ s < 2 ^ (n - s) := by
      apply Nat.div_lt_of_lt_mul
      rw [Nat.mul_comm, ← ep]
      exact l1
    simp only [BitVec.toNat_or, BitVec.toNat_shiftLeft, BitVec.toNat_ushiftRight, Nat.shiftLeft_eq,
      Nat.shiftRight_eq_div_pow]
    rw [m, Nat.or_comm, ← Nat.two_pow_add_eq_or_of_lt lt]
    have e : 2 ^ n * x0.toNat + x1.toNat = x1.toNat + 2 ^ s * (2 ^ (n - s) * x0.toNat) := by
      rw [ep]; ring
    rw [e, Nat.add_mul_div_left _ _ hsp]
    have e2 := Nat.mod_add_div x0.toNat (2 ^ s)
    rw [ep]
    zify at e2 ⊢
    linear_combination 2 ^ (n - s) * e2

end Shift

section Bits

theorem countOnes128_eq (x y : BitVec 128) : countOnes128 x y = Bits.countOnes [x, y] := by
  simp [countOnes128, Bits.countOnes, Nat.add_comm]

theorem leadingZeros128_eq (x y : BitVec 128) : leadingZeros128 x y = Bits.leadingZeros [x, y] := by
  simp [leadingZeros128, Bits.leadingZeros, Bits.zerosLoop]

theorem countOnes64_eq (x : Limbs 64) : countOnes64 x = .ok (Bits.countOnes x) :=
  Raw.Bits.countOnes_ok false x

theorem leadingZeros64_eq (x : Limbs 64) : leadingZeros64 x = .ok (Bits.leadingZeros x) :=
  Raw.Bits.leadingZeros_ok false x

end Bits

section DivMul

theorem fromU128_val (v : BitVec 128) :
    (Cast.fromU128 4 v : Limbs 64).length = 4 ∧ toNat (Cast.fromU128 4 v : Limbs 64) = v.toNat := by
  constructor
  · rfl
  · have e : (Cast.fromU128 4 v : Limbs 64) = [v.setWidth 64, (v >>> 64).setWidth 64, 0, 0] := rfl
    have := v.isLt
    rw [e]
    simp only [toNat, BitVec.toNat_setWidth, BitVec.toNat_ushiftRight, Nat.shiftRight_eq_div_pow,
      show (0 : BitVec 64).toNat = 0 from rfl]
    omega

theorem halves {x : Limbs 64} (hx : x.length = 4) (be : Bool) :
    (∃ v, hiWide be x = .ok v ∧ v.length = 4 ∧ toNat v = toNat x / 2 ^ 128) ∧
    (∃ v, loWide be x = .ok v ∧ v.length = 4 ∧ toNat v = toNat x % 2 ^ 128) := by
  obtain ⟨a, b, c, d, rfl⟩ : ∃ a b c d, x = [a, b, c, d] := by
    match x, hx with
    | [a, b, c, d], _ => exact ⟨a, b, c, d, rfl⟩
  obtain ⟨v1, e1, q1⟩ := Access.getWide_ok (w := 64) (by decide) be [a, b, c, d] (i := 1)
    (by simp) (by simp)
  obtain ⟨v0, e0, q0⟩ := Access.getWide_ok (w := 64) (by decide) be [a, b, c, d] (i := 0)
    (by simp) (by simp)
  have la := a.isLt
  have lb := b.isLt
  have lc := c.isLt
  have ld := d.isLt
  simp at q0 q1
  constructor
  · refine ⟨_, by simp only [hiWide, e1, Res.mbind_ok], (fromU128_val v1).1, ?_⟩
    rw [(fromU128_val v1).2, q1]
    simp only [toNat]
    omega
  · refine ⟨_, by simp only [loWide, e0, Res.mbind_ok], (fromU128_val v0).1, ?_⟩
    rw [(fromU128_val v0).2, q0]
    simp only [toNat]
    omega

theorem add_len {x y : Limbs 64} (hx : x.length = 4) (hy : y.length = 4) :
    (U.wrappingAdd x y).length = 4 ∧ toNat (U.wrappingAdd x y) = (toNat x + toNat y) % 2 ^ 256 := by
  obtain ⟨h1, h2⟩ := Add.wrapU (w := 64) (by decide) (hx.trans hy.symm)
  rw [hx] at h1 h2
  refine ⟨h1, ?_⟩
  have h3 : (toNat (U.wrappingAdd x y) : Int) = (toNat x + toNat y) % 2 ^ 256 := h2
  omega

theorem sub_len {x y : Limbs 64} (hx : x.length = 4) (hy : y.length = 4) :
    (U.wrappingSub x y).length = 4 ∧
      (toNat (U.wrappingSub x y) : Int) = ((toNat x : Int) - toNat y) % 2 ^ 256 := by
  obtain ⟨h1, h2⟩ := Sub.wrapU (w := 64) (by decide) (hx.trans hy.symm)
  rw [hx] at h1 h2
  exact ⟨h1, h2⟩

theorem mul_len {x y : Limbs 64} (hx : x.length = 4) (hy : y.length = 4) :
    (U.wrappingMul x y).length = 4 ∧ toNat (U.wrappingMul x y) = (toNat x * toNat y) % 2 ^ 256 := by
  obtain ⟨h1, h2⟩ := Mul.wrapU x y (by omega)
  rw [hx] at h1 h2
  refine ⟨h1, ?_⟩
  have h3 : (toNat (U.wrappingMul x y) : Int) = ((toNat x : Int) * toNat y) % 2 ^ 256 := h2
  exact_mod_cast h3

theorem shr_len {x : Limbs 64} (hx : x.length = 4) (s : Nat) :
    (wrappingShr false x s).length = 4 ∧
      toNat (wrappingShr false x s) = toNat x / 2 ^ (s % 256) := by
  obtain ⟨h1, h2⟩ := wrappingShrU (k := 6) (x := x) rfl (by rw [hx]) (by intro h; simp [h] at hx) s
  rw [hx] at h1
  refine ⟨h1, ?_⟩
  rw [bits, hx] at h2
  exact_mod_cast h2

/-- The sums of `mulhi` in numbers; `Q` is the base of the halves. -/
theorem mulhi_nat {Q x0 x1 y0 y1 m v : Nat} (hx0 : x0 < Q) (hx1 : x1 < Q) (hy0 : y0 < Q)
    (hy1 : y1 < Q) (em : m = x0 * y1 + x0 * y0 / Q) (ev : v = x1 * y0 + m % Q) :
    m < Q * Q ∧ v < Q * Q ∧
      (x0 + Q * x1) * (y0 + Q * y1) / (Q * Q) = x1 * y1 + m / Q + v / Q ∧
      x1 * y1 + m / Q + v / Q < Q * Q := by
  have hQ : 0 < Q := by omega
  have s00 := sq_le hx0 hy0
  have s01 := sq_le hx0 hy1
  have s10 := sq_le hx1 hy0
  have hp : x0 * y0 / Q < Q := Nat.div_lt_of_lt_mul (by omega)
  have hm : m % Q < Q := Nat.mod_lt _ hQ
  have h1 : m < Q * Q := by omega
  have h2 : v < Q * Q := by omega
  have l0 := Nat.mod_lt (x0 * y0) hQ
  have l2 := Nat.mod_lt v hQ
  have m0 := Nat.mod_add_div (x0 * y0) Q
  have m1 := Nat.mod_add_div m Q
  have m2 := Nat.mod_add_div v Q
  have key : (x0 + Q * x1) * (y0 + Q * y1) =
      (x0 * y0 % Q + Q * (v % Q)) + Q * Q * (x1 * y1 + m / Q + v / Q) := by
    zify at *
    linear_combination -m0 - (Q : ℤ) * m1 - (Q : ℤ) * m2 - (Q : ℤ) * em - (Q : ℤ) * ev
  have hlow : x0 * y0 % Q + Q * (v % Q) < Q * Q := by nlinarith
  have hd : (x0 + Q * x1) * (y0 + Q * y1) / (Q * Q) = x1 * y1 + m / Q + v / Q := by
    rw [key, Nat.add_mul_div_left _ _ (Nat.mul_pos hQ hQ), Nat.div_eq_of_lt hlow, Nat.zero_add]
  refine ⟨h1, h2, hd, ?_⟩
  rw [← hd]
  apply Nat.div_lt_of_lt_mul
  have hx : x0 + Q * x1 < Q * Q := by nlinarith
  have hy : y0 + Q * y1 < Q * Q := by nlinarith
  exact Nat.mul_lt_mul'' hx hy

/-- The middle sum of `mulhi`. -/
def midSum (X Y : Nat) : Nat :=
  X % 2 ^ 128 * (Y / 2 ^ 128) + X % 2 ^ 128 * (Y % 2 ^ 128) / 2 ^ 128
/-- The argument of the last `lo` in `mulhi`. -/
def lastSum (X Y : Nat) : Nat := X / 2 ^ 128 * (Y % 2 ^ 128) + midSum X Y % 2 ^ 128

theorem lt_256 {x : Limbs 64} (hx : x.length = 4) : toNat x < 2 ^ 256 := by
  have := toNat_lt x
  rw [bits, hx] at this
  exact this

theorem mulhi_sums {X Y : Nat} (hX : X < 2 ^ 256) (hY : Y < 2 ^ 256) :
    midSum X Y < 2 ^ 256 ∧ lastSum X Y < 2 ^ 256 ∧
      X * Y / 2 ^ 256 = X / 2 ^ 128 * (Y / 2 ^ 128) + midSum X Y / 2 ^ 128 + lastSum X Y / 2 ^ 128 ∧
      X * Y / 2 ^ 256 < 2 ^ 256 := by
  have e : (2 : Nat) ^ 256 = 2 ^ 128 * 2 ^ 128 := by rw [← Nat.pow_add]
  rw [e] at *
  obtain ⟨h1, h2, h3, h4⟩ := mulhi_nat (Q := 2 ^ 128) (x0 := X % 2 ^ 128) (x1 := X / 2 ^ 128)
    (y0 := Y % 2 ^ 128) (y1 := Y / 2 ^ 128) (m := midSum X Y) (v := lastSum X Y)
    (Nat.mod_lt _ (by positivity)) (Nat.div_lt_of_lt_mul hX) (Nat.mod_lt _ (by positivity))
    (Nat.div_lt_of_lt_mul hY) rfl rfl
  rw [Nat.mod_add_div, Nat.mod_add_div] at h3
  exact ⟨h1, h2, h3, h3 ▸ h4⟩

/-- `mulhi` with either choice in line 35. -/
theorem mulhi_steps (be : Bool) {x y : Limbs 64} (hx : x.length = 4) (hy : y.length = 4)
    (pick : Limbs 64 → Res (Limbs 64)) (f : Nat → Nat)
    (hp : ∀ z : Limbs 64, z.length = 4 → ∃ v, pick z = .ok v ∧ v.length = 4 ∧ toNat v = f (toNat z)) :
    ∃ r, (do
      let x1 ← hiWide be x
      let x0 ← loWide be x
      let y1 ← hiWide be y
      let y0 ← loWide be y
      let w0 := U.wrappingMul x0 y0
      let t ← hiWide be w0
      let m := U.wrappingAdd (U.wrappingMul x0 y1) t
      let w1 ← loWide be m
      let w2 ← hiWide be m
      let w3 ← pick (U.wrappingAdd (U.wrappingMul x1 y0) w1)
      .ok (U.wrappingAdd (U.wrappingAdd (U.wrappingMul x1 y1) w2) w3)) = .ok r ∧ r.length = 4 ∧
      toNat r = (toNat x / 2 ^ 128 * (toNat y / 2 ^ 128) + midSum (toNat x) (toNat y) / 2 ^ 128 +
        f (lastSum (toNat x) (toNat y))) % 2 ^ 256 := by
  obtain ⟨⟨x1, ex1, lx1, vx1⟩, ⟨x0, ex0, lx0, vx0⟩⟩ := halves hx be
  obtain ⟨⟨y1, ey1, ly1, vy1⟩, ⟨y0, ey0, ly0, vy0⟩⟩ := halves hy be
  obtain ⟨h1, h2, -, -⟩ := mulhi_sums (lt_256 hx) (lt_256 hy)
  simp only [ex1, ex0, ey1, ey0, Res.mbind_ok]
  have e : (2 : Nat) ^ 256 = 2 ^ 128 * 2 ^ 128 := by rw [← Nat.pow_add]
  have kx0 : toNat x0 < 2 ^ 128 := by rw [vx0]; exact Nat.mod_lt _ (by positivity)
  have ky0 : toNat y0 < 2 ^ 128 := by rw [vy0]; exact Nat.mod_lt _ (by positivity)
  obtain ⟨l0, v0⟩ := mul_len lx0 ly0
  rw [Nat.mod_eq_of_lt (by rw [e]; exact Nat.mul_lt_mul'' kx0 ky0)] at v0
  obtain ⟨⟨t, et, lt, vt⟩, -⟩ := halves l0 be
  rw [et, Res.mbind_ok]
  obtain ⟨l1, v1⟩ := mul_len lx0 ly1
  obtain ⟨lm, vm⟩ := add_len l1 lt
  rw [v1, Nat.mod_add_mod, vt, v0, vx0, vy0, vy1, show toNat x % 2 ^ 128 * (toNat y / 2 ^ 128) +
    toNat x % 2 ^ 128 * (toNat y % 2 ^ 128) / 2 ^ 128 = midSum (toNat x) (toNat y) from rfl,
    Nat.mod_eq_of_lt h1] at vm
  obtain ⟨⟨w2, e2, l2, v2⟩, ⟨w1, e1, lw1, vw1⟩⟩ := halves lm be
  rw [e1, Res.mbind_ok, e2, Res.mbind_ok]
  obtain ⟨l3, v3⟩ := mul_len lx1 ly0
  obtain ⟨l4, v4⟩ := add_len l3 lw1
  rw [v3, Nat.mod_add_mod, vw1, vm, vx1, vy0, show toNat x / 2 ^ 128 * (toNat y % 2 ^ 128) +
    midSum (toNat x) (toNat y) % 2 ^ 128 = lastSum (toNat x) (toNat y) from rfl,
    Nat.mod_eq_of_lt h2] at v4
  obtain ⟨w3, e3, lw3, vw3⟩ := hp _ l4
  rw [e3, Res.mbind_ok]
  obtain ⟨l5, v5⟩ := mul_len lx1 ly1
  obtain ⟨l6, v6⟩ := add_len l5 l2
  obtain ⟨l7, v7⟩ := add_len l6 lw3
  refine ⟨_, rfl, l7, ?_⟩
  rw [v7, v6, v5, vw3, v4, v2, vm, vx1, vy1, Nat.mod_add_mod, Nat.add_assoc,
    Nat.mod_add_mod, Nat.add_assoc]

theorem mulhi_ok (be : Bool) {x y : Limbs 64} (hx : x.length = 4) (hy : y.length = 4) :
    ∃ r, mulhi be x y = .ok r ∧ r.length = 4 ∧
      toNat r = (toNat x / 2 ^ 128 * (toNat y / 2 ^ 128) + midSum (toNat x) (toNat y) / 2 ^ 128 +
        lastSum (toNat x) (toNat y) % 2 ^ 128) % 2 ^ 256 :=
  mulhi_steps be hx hy (loWide be) (fun v => v % 2 ^ 128) fun _ h => (halves h be).2

theorem mulhiFix_ok (be : Bool) {x y : Limbs 64} (hx : x.length = 4) (hy : y.length = 4) :
    ∃ r, mulhiFix be x y = .ok r ∧ r.length = 4 ∧ toNat r = toNat x * toNat y / 2 ^ 256 := by
  obtain ⟨r, e, l, v⟩ := mulhi_steps be hx hy (hiWide be) (fun v => v / 2 ^ 128)
    fun _ h => (halves h be).1
  obtain ⟨-, -, h3, h4⟩ := mulhi_sums (lt_256 hx) (lt_256 hy)
  refine ⟨r, e, l, ?_⟩
  rw [h3] at h4
  rw [v, h3]
  exact Nat.mod_eq_of_lt h4

theorem cross (X Y : Nat) : lastSum X Y = crossSum X Y := by
  have e : midSum X Y = X % 2 ^ 128 * Y / 2 ^ 128 := by
    unfold midSum
    conv_rhs => rw [← Nat.mod_add_div Y (2 ^ 128)]
    rw [Nat.mul_add, show X % 2 ^ 128 * (2 ^ 128 * (Y / 2 ^ 128)) =
      2 ^ 128 * (X % 2 ^ 128 * (Y / 2 ^ 128)) by ring, Nat.add_mul_div_left _ _ (by positivity)]
    omega
  rw [lastSum, crossSum, e]

/-- When `mulhi` gives the high half of the product. -/
theorem mulhi_right_iff {X Y : Nat} (hX : X < 2 ^ 256) (hY : Y < 2 ^ 256) :
    (X / 2 ^ 128 * (Y / 2 ^ 128) + midSum X Y / 2 ^ 128 + lastSum X Y % 2 ^ 128) % 2 ^ 256 =
      X * Y / 2 ^ 256 ↔ lastSum X Y % 2 ^ 128 = lastSum X Y / 2 ^ 128 := by
  obtain ⟨-, h2, h3, h4⟩ := mulhi_sums hX hY
  rw [h3] at h4 ⊢
  generalize X / 2 ^ 128 * (Y / 2 ^ 128) + midSum X Y / 2 ^ 128 = t at *
  generalize lastSum X Y = v at *
  omega

theorem bits_and_ones {x : Limbs 64} (hx : x.length = 4) :
    Bits.and x (List.replicate 4 (BitVec.allOnes 64)) = x := by
  match x, hx with
  | [a, b, c, d], _ =>
    simp only [Bits.and, List.replicate, List.zipWith_cons_cons, List.zipWith_nil_left,
      BitVec.and_allOnes]

theorem subLimb_len {x : Limbs 64} (hx : x.length = 4) (n : BitVec 64) :
    (U.wrappingSubULimb x n).length = 4 ∧
      (toNat (U.wrappingSubULimb x n) : Int) = ((toNat x : Int) - n.toNat) % 2 ^ 256 := by
  have h := Sub.limbWrapU (w := 64) (by decide) (x := x) (by intro h; simp [h] at hx) n
  rw [hx] at h
  exact h

theorem eq_zero_iff {x : Limbs 64} (hx : x.length = 4) :
    Ord.eqConst x (ofU8 4 0) = true ↔ toNat x = 0 := by
  rw [Ord.eqConst_iff (by rw [hx]; rfl) (by rw [hx])]
  match x, hx with
  | [a, b, c, d], _ =>
    have e : (ofU8 4 0 : Limbs 64) = [0, 0, 0, 0] := rfl
    rw [e]
    simp only [toNat, List.cons.injEq, and_true]
    constructor
    · rintro ⟨rfl, rfl, rfl, rfl⟩
      rfl
    · intro h
      refine ⟨?_, ?_, ?_, ?_⟩ <;> apply BitVec.eq_of_toNat_eq <;>
        simp only [show (0 : BitVec 64).toNat = 0 from rfl] <;> omega

theorem marker_iff (more : BitVec 32) :
    more &&& 0x4000 ≠ 0 ↔ more.toNat.testBit 14 = true := by
  rw [BitVec.testBit_toNat, show (0x4000 : BitVec 32) = BitVec.twoPow 32 14 from rfl,
    BitVec.and_twoPow]
  by_cases h : more.getLsbD 14 = true
  · simp only [h, if_true]
    decide
  · rw [Bool.not_eq_true] at h
    simp only [h]
    decide

theorem universal_val (more : BitVec 32) : (more &&& 0x3FFF).toNat = more.toNat % 2 ^ 14 := by
  rw [BitVec.toNat_and]
  exact Nat.and_two_pow_sub_one_eq_mod _ 14

/-- What `mulhi` computes. -/
def wrongHigh (X Y : Nat) : Nat :=
  (X / 2 ^ 128 * (Y / 2 ^ 128) + midSum X Y / 2 ^ 128 + lastSum X Y % 2 ^ 128) % 2 ^ 256

theorem divideByNum_ok (be : Bool) {num den : Limbs 64} (hn : num.length = 4) (hd : den.length = 4)
    (more : BitVec 32) : ∃ r, divideByNum be num den more = .ok r ∧ r.length = 4 ∧
      toNat r = if toNat den = 0 then toNat num / 2 ^ (more.toNat % 256)
        else if more.toNat.testBit 14 then
          ((toNat num + (2 ^ 256 - 1)) % 2 ^ 256 / 2 + wrongHigh (toNat den) (toNat num)) % 2 ^ 256 /
            2 ^ (more.toNat % 2 ^ 14 % 256)
        else wrongHigh (toNat den) (toNat num) / 2 ^ (more.toNat % 256) := by
  unfold divideByNum
  by_cases h0 : toNat den = 0
  · rw [if_pos ((eq_zero_iff hd).2 h0), if_pos h0]
    exact ⟨_, rfl, shr_len hn _⟩
  · rw [if_neg (fun h => h0 ((eq_zero_iff hd).1 h)), if_neg h0]
    obtain ⟨q, e, l, v⟩ := mulhi_ok be hd hn
    simp only [e, Res.mbind_ok]
    by_cases hm : more &&& 0x4000 ≠ 0
    · rw [if_pos hm, if_pos ((marker_iff more).1 hm)]
      obtain ⟨l1, v1⟩ := subLimb_len hn 1
      rw [bits_and_ones l1]
      obtain ⟨l2, v2⟩ := shr_len l1 1
      obtain ⟨l3, v3⟩ := add_len l2 l
      rw [bits_and_ones l3]
      obtain ⟨l4, v4⟩ := shr_len l3 (more &&& 0x3FFF).toNat
      refine ⟨_, rfl, l4, ?_⟩
      rw [v4, universal_val, v3, v2, v, wrongHigh]
      have e1 : toNat (U.wrappingSubULimb num 1) = (toNat num + (2 ^ 256 - 1)) % 2 ^ 256 := by
        have : (1 : BitVec 64).toNat = 1 := rfl
        rw [this] at v1
        omega
      rw [e1]
      rfl
    · rw [if_neg hm, if_neg (fun h => hm ((marker_iff more).2 h))]
      obtain ⟨l4, v4⟩ := shr_len l more.toNat
      refine ⟨_, rfl, l4, ?_⟩
      rw [v4, v, wrongHigh]

theorem divideByNumFix_ok (be : Bool) {num den : Limbs 64} (hn : num.length = 4)
    (hd : den.length = 4) (more : BitVec 32) : ∃ r, divideByNumFix be num den more = .ok r ∧
      r.length = 4 ∧ toNat r = if toNat den = 0 then toNat num / 2 ^ (more.toNat % 256)
        else if more.toNat.testBit 14 then
          ((toNat num - toNat den * toNat num / 2 ^ 256) / 2 + toNat den * toNat num / 2 ^ 256) /
            2 ^ (more.toNat % 2 ^ 14 % 256)
        else toNat den * toNat num / 2 ^ 256 / 2 ^ (more.toNat % 256) := by
  unfold divideByNumFix
  by_cases h0 : toNat den = 0
  · rw [if_pos ((eq_zero_iff hd).2 h0), if_pos h0]
    exact ⟨_, rfl, shr_len hn _⟩
  · rw [if_neg (fun h => h0 ((eq_zero_iff hd).1 h)), if_neg h0]
    obtain ⟨q, e, l, v⟩ := mulhiFix_ok be hd hn
    simp only [e, Res.mbind_ok]
    by_cases hm : more &&& 0x4000 ≠ 0
    · rw [if_pos hm, if_pos ((marker_iff more).1 hm)]
      obtain ⟨l1, v1⟩ := sub_len hn l
      obtain ⟨l2, v2⟩ := shr_len l1 1
      obtain ⟨l3, v3⟩ := add_len l2 l
      obtain ⟨l4, v4⟩ := shr_len l3 (more &&& 0x3FFF).toNat
      refine ⟨_, rfl, l4, ?_⟩
      have hq : toNat den * toNat num / 2 ^ 256 ≤ toNat num := by
        apply Nat.div_le_of_le_mul
        exact Nat.mul_le_mul_right _ (lt_256 hd).le
      have hl := lt_256 hn
      rw [← v] at hq ⊢
      rw [v4, universal_val, v3, v2, show (1 % 256 : Nat) = 1 from rfl, Nat.pow_one]
      congr 1
      omega
    · rw [if_neg hm, if_neg (fun h => hm ((marker_iff more).2 h))]
      obtain ⟨l4, v4⟩ := shr_len l more.toNat
      refine ⟨_, rfl, l4, ?_⟩
      rw [v4, v]

/-- Division by multiplication with a magic number: `M` is a multiple of `1 / d` scaled by `2 ^ s`
and rounded up with an error of less than the ratio of `2 ^ s` and the range of `n`. -/
theorem magic_div {M d s N n : Nat} (h1 : 2 ^ s ≤ M * d) (h2 : (M * d - 2 ^ s) * N ≤ 2 ^ s)
    (hn : n < N) (hd : 0 < d) : M * n / 2 ^ s = n / d := by
  have hs := Nat.two_pow_pos s
  obtain ⟨e, he⟩ : ∃ e, M * d = 2 ^ s + e := ⟨M * d - 2 ^ s, by omega⟩
  have h3 : e * N ≤ 2 ^ s := by
    rw [he, Nat.add_sub_cancel_left] at h2
    exact h2
  have m := Nat.div_add_mod n d
  have hr := Nat.mod_lt n hd
  generalize n / d = q at *
  generalize n % d = r at *
  have key : M * n * d = 2 ^ s * n + e * n := by
    rw [show M * n * d = M * d * n by ring, he]; ring
  have hen : e * n < 2 ^ s ∨ e = 0 := by
    rcases Nat.eq_zero_or_pos e with h | h
    · exact .inr h
    · exact .inl (lt_of_lt_of_le (Nat.mul_lt_mul_of_pos_left hn h) h3)
  have hen' : e * n < 2 ^ s := by
    rcases hen with h | h
    · exact h
    · rw [h]; omega
  apply Nat.div_eq_of_lt_le
  · have : q * 2 ^ s * d ≤ M * n * d := by
      rw [key]
      have : q * 2 ^ s * d ≤ 2 ^ s * n := by
        rw [show q * 2 ^ s * d = 2 ^ s * (d * q) by ring]
        exact Nat.mul_le_mul_left _ (by omega)
      omega
    exact Nat.le_of_mul_le_mul_right this hd
  · have : M * n * d < (q + 1) * 2 ^ s * d := by
      rw [key, show (q + 1) * 2 ^ s * d = 2 ^ s * (d * q + d) by ring]
      have : 2 ^ s * (n + 1) ≤ 2 ^ s * (d * q + d) := Nat.mul_le_mul_left _ (by omega)
      rw [Nat.mul_add] at this
      omega
    exact Nat.lt_of_mul_lt_mul_right this

/-- The addition of the indicator path replaces a magic number with one bit more. -/
theorem add_path {B D n k : Nat} (hB : 0 < B) (hD : D < B) :
    ((n - D * n / B) / 2 + D * n / B) / 2 ^ k = (B + D) * n / (B * 2 ^ (k + 1)) := by
  have hq : D * n / B ≤ n := Nat.div_le_of_le_mul (Nat.mul_le_mul_right _ hD.le)
  have e : (n - D * n / B) / 2 + D * n / B = (n + D * n / B) / 2 := by omega
  have e2 : (B + D) * n = D * n + B * n := by ring
  rw [e, e2, ← Nat.div_div_eq_div_mul, Nat.add_mul_div_left _ _ hB, Nat.pow_succ', 
    ← Nat.div_div_eq_div_mul, Nat.add_comm n]

end DivMul

end Bench

end I256
