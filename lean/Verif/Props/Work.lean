import Verif.Lemmas.Work
import Verif.Lemmas.DivApi
import Verif.Props.Samples

/-!
# C109: the work of multiplication, exponentiation and division
-/

namespace I256

variable {w : Nat}

open Sample

/-- Multiplication of two numbers of `N` limbs: `N * (N + 1) / 2` products of limbs, whatever the numbers are. -/
theorem C109_wrapping_mul (x y : Limbs w) (h : y.length = x.length) :
    Costs (Count.wrappingFull x y) (U.wrappingMul x y) (x.length * (x.length + 1) / 2) ∧
      Costs (Count.wrappingFull x y) (I.wrappingMul x y) (x.length * (x.length + 1) / 2) := by
  have e : (Count.wrappingFull x y).2 = x.length * (x.length + 1) / 2 := by
    rw [Count.wrappingFull_snd, h]
    have := Count.products_triangle x.length
    omega
  exact ⟨⟨Count.rows_fst .., e⟩, ⟨Count.rows_fst .., e⟩⟩

example := C109_wrapping_mul ones a rfl
example : (Count.wrappingFull ones ones).2 = 10 ∧ (Count.wrappingFull zero zero).2 = 10 ∧
    (Count.wrappingFull ones32 b32).2 = 36 := by decide +kernel

/-- The overflow flag does not need further products. -/
theorem C109_overflowing_mul (x y : Limbs w) (h : y.length = x.length) :
    Costs (Count.overflowingFull x y) (U.overflowingMul x y) (x.length * (x.length + 1) / 2) ∧
      Costs (Count.overflowingFullS x y) (I.overflowingMul x y) (x.length * (x.length + 1) / 2) := by
  have := Count.products_triangle x.length
  refine ⟨⟨Count.overflowingFull_fst .., ?_⟩, ⟨Count.overflowingFullS_fst .., ?_⟩⟩
  · rw [Count.overflowingFull_snd, h]; omega
  · rw [Count.overflowingFullS_snd, h]; omega

example := C109_overflowing_mul m2 top rfl
example : Count.overflowingFullS m2 top = ((zero, true), 10) := by decide +kernel

/-- Multiplication by one limb without a sign: `N` products. -/
theorem C109_mul_ulimb (x : Limbs w) (n : BitVec w) :
    Costs (Count.wrappingLimb x n) (U.wrappingMulULimb x n) x.length ∧
      Costs (Count.wrappingLimb x n) (I.wrappingMulULimb x n) x.length ∧
      Costs (Count.overflowingLimb x n) (U.overflowingMulULimb x n) x.length := by
  have e : (Count.wrappingLimb x n).2 = x.length :=
    (Count.wrappingFull_snd x [n]).trans (Count.products_one _)
  exact ⟨⟨Count.rows_fst .., e⟩, ⟨Count.rows_fst .., e⟩,
    ⟨Count.rowsO_fst .., (Count.overflowingFull_snd x [n]).trans (Count.products_one _)⟩⟩

example : Count.wrappingLimb a 3 = ([0xfffffffffffffffd, 2, 15, 0], 4) ∧
    Count.overflowingLimb ones 2 = ((m2, true), 4) := by decide +kernel

/-- Multiplication by two limbs without a sign: `2 * N - 1` products. -/
theorem C109_mul_uwide (x : Limbs w) (n : BitVec (w + w)) :
    Costs (Count.wrappingWide x n) (U.wrappingMulUWide x n) (2 * x.length - 1) ∧
      Costs (Count.wrappingWide x n) (I.wrappingMulUWide x n) (2 * x.length - 1) ∧
      Costs (Count.overflowingWide x n) (U.overflowingMulUWide x n) (2 * x.length - 1) := by
  have e : products x.length 2 = 2 * x.length - 1 := by
    cases x with
    | nil => rfl
    | cons a x => rw [List.length_cons, Count.products_two]; omega
  have e1 : (Count.wrappingWide x n).2 = 2 * x.length - 1 := (Count.wrappingFull_snd x (twoLimbs n)).trans e
  exact ⟨⟨Count.rows_fst .., e1⟩, ⟨Count.rows_fst .., e1⟩,
    ⟨Count.rowsO_fst .., (Count.overflowingFull_snd x (twoLimbs n)).trans e⟩⟩

example : (Count.wrappingWide a 3).2 = 7 ∧ (Count.wrappingWide b32 3).2 = 15 := by decide +kernel

/-- Multiplication by a limb with a sign, by two limbs with a sign, and the overflowing multiplications of the signed
type by a limb or two limbs: as many products as for two numbers of full size. -/
theorem C109_mul_signed (x : Limbs w) (hx : 2 ≤ x.length) (n : BitVec w) (v : BitVec (w + w)) :
    Costs (Count.wrappingILimb x n) (I.wrappingMulILimb x n) (x.length * (x.length + 1) / 2) ∧
      Costs (Count.wrappingIWide x v) (I.wrappingMulIWide x v) (x.length * (x.length + 1) / 2) ∧
      Costs (Count.overflowingULimbS x n) (I.overflowingMulULimb x n) (x.length * (x.length + 1) / 2) ∧
      Costs (Count.overflowingUWideS x v) (I.overflowingMulUWide x v) (x.length * (x.length + 1) / 2) ∧
      Costs (Count.overflowingILimbS x n) (I.overflowingMulILimb x n) (x.length * (x.length + 1) / 2) ∧
      Costs (Count.overflowingIWideS x v) (I.overflowingMulIWide x v) (x.length * (x.length + 1) / 2) :=
  ⟨(C109_wrapping_mul x _ (extI_length (by omega) n)).2, (C109_wrapping_mul x _ (extIW_length hx v)).2,
    (C109_overflowing_mul x _ (extU_length (by omega) n)).2, (C109_overflowing_mul x _ (extUW_length hx v)).2,
    (C109_overflowing_mul x _ (extI_length (by omega) n)).2, (C109_overflowing_mul x _ (extIW_length hx v)).2⟩

example := C109_mul_signed a (by decide) 3 5
example : (Count.wrappingILimb a 3).2 = 10 ∧ (Count.overflowingULimbS a 3).2 = 10 := by decide +kernel

/-- Multiplication with the result in full: `N * N` products. -/
theorem C109_widening_mul (x y : Limbs w) (h : y.length = x.length) :
    Costs (Count.widening x y) (U.wideningMul x y) (x.length * x.length) :=
  ⟨Count.widening_fst .., Count.widening_snd _ _ h⟩

example := C109_widening_mul ones a rfl
example : (Count.widening ones ones).2 = 16 := by decide +kernel

/-- Powers: one multiplication for each halving of the exponent and one for each of its binary digits `1`. -/
theorem C109_pow (x : Limbs w) (hx : 1 ≤ x.length) (e : Nat) (he : e < 2 ^ 32) :
    let c := powProducts e * (x.length * (x.length + 1) / 2)
    Costs (Count.wrappingPow Count.wrappingFull x e) (U.wrappingPow x e) c ∧
      Costs (Count.wrappingPow Count.wrappingFull x e) (I.wrappingPow x e) c ∧
      Costs (Count.overflowingPow Count.overflowingFull x e) (U.overflowingPow x e) c ∧
      Costs (Count.overflowingPow Count.overflowingFullS x e) (I.overflowingPow x e) c := by
  intro c
  have hw : ∀ a b : Limbs w, a.length = x.length → b.length = x.length →
      (Count.wrappingFull a b).1.length = x.length ∧
        (Count.wrappingFull a b).2 = x.length * (x.length + 1) / 2 := fun a b ha hb =>
    ⟨(Count.wrappingFull_length a b).trans ha, by rw [(C109_wrapping_mul a b (hb.trans ha.symm)).1.2, ha]⟩
  have ho : ∀ a b : Limbs w, a.length = x.length → b.length = x.length →
      (Count.overflowingFull a b).1.1.length = x.length ∧
        (Count.overflowingFull a b).2 = x.length * (x.length + 1) / 2 := fun a b ha hb =>
    ⟨(Count.overflowingFull_length a b).trans ha, by rw [(C109_overflowing_mul a b (hb.trans ha.symm)).1.2, ha]⟩
  have hs : ∀ a b : Limbs w, a.length = x.length → b.length = x.length →
      (Count.overflowingFullS a b).1.1.length = x.length ∧
        (Count.overflowingFullS a b).2 = x.length * (x.length + 1) / 2 := fun a b ha hb =>
    ⟨(Count.overflowingFullS_length a b).trans ha, by rw [(C109_overflowing_mul a b (hb.trans ha.symm)).2.2, ha]⟩
  have e1 : (fun a b : Limbs w => (Count.wrappingFull a b).1) = Mul.wrappingFull :=
    funext fun a => funext fun b => Count.rows_fst ..
  have e2 : (fun a b : Limbs w => (Count.overflowingFull a b).1) = Mul.overflowingFull :=
    funext fun a => funext fun b => Count.overflowingFull_fst ..
  have e3 : (fun a b : Limbs w => (Count.overflowingFullS a b).1) = Mul.overflowingFullS :=
    funext fun a => funext fun b => Count.overflowingFullS_fst ..
  have k1 := Count.wrappingPow_costs x hx hw he
  have k2 := Count.overflowingPow_costs x hx ho he
  have k3 := Count.overflowingPow_costs x hx hs he
  rw [e1] at k1
  rw [e2] at k2
  rw [e3] at k3
  exact ⟨k1, k1, k2, k3⟩

example := C109_pow a (by decide) 10 (by decide)
example : (Count.wrappingPow Count.wrappingFull a 10).2 = 50 := by decide +kernel

/-- Exponents are numbers of 32 bits: never more than 63 multiplications. -/
theorem C109_pow_bound (e : Nat) (he : e < 2 ^ 32) : powProducts e ≤ 63 := by
  rcases Count.powProducts_le 32 he with h | h
  · omega
  · subst h; rw [powProducts]; simp

example : powProducts (2 ^ 32 - 1) = 63 ∧ powProducts 0 = 0 ∧ powProducts 10 = 5 := by decide +kernel

/-- Division of a number below `2 ^ (w * a)` by one of at least `2 ^ (w * b)`: at most `a - b` rounds, each with at most
`N + 2` products and one division. -/
theorem C109_div (x y : Limbs w) {N a b : Nat} (hy : y.length = N) (hb : 1 ≤ b) (hab : b < a)
    (hx : toNat x < 2 ^ (w * a)) (hy' : 2 ^ (w * b) ≤ toNat y) :
    CostsAtMost (Count.full x y) (U.wrappingDivRem x y) ((a - b) * (N + 2)) (a - b) := by
  have h1 := Count.lastIndex_lt (by omega) hx
  have h2 := Count.le_lastIndex hy'
  have hl : y.length ≠ 1 := fun h => by
    have h3 := toNat_lt y
    rw [bits, h] at h3
    have := (Nat.pow_lt_pow_iff_right (a := 2) (by omega)).1 (hy'.trans_lt h3)
    have := Nat.lt_of_mul_lt_mul_left this
    omega
  have h := Count.full_within x y hl (by omega)
  rw [hy] at h
  exact ⟨Count.full_fst x y, h.mono (Nat.mul_le_mul_right _ (by omega)) (by omega)⟩

example := C109_div ones a (N := 4) (a := 4) (b := 2) rfl (by decide) (by decide) (by decide +kernel)
  (by decide +kernel)
example : (Count.full ones a).map (·.2) = .ok ⟨10, 2⟩ := by decide +kernel
/-- The bound is attained: one round whose estimate is corrected twice. -/
example : (Count.full [0x1e2feb89414c343c, 0xc2ce6f447ed4d57b, 0xfffffffffffffffc, 0]
    ([0xffffffffffffffff, 1, 1, 0] : Limbs 64)).map (·.2) = .ok ⟨6, 1⟩ := by decide +kernel

/-- Division by one limb: no products, at most a division for each limb. -/
theorem C109_div_small (x y : Limbs w) (hy : toNat y < 2 ^ w) :
    CostsAtMost (Count.full x y) (U.wrappingDivRem x y) 0 x.length := by
  have h := Count.lastIndex_lt (a := 1) (Nat.le_refl 1) (by simpa using hy)
  exact ⟨Count.full_fst x y, Count.full_one_within x y (by omega)⟩

example := C109_div_small ones one (by decide +kernel)
example : (Count.full ones one).map (·.2) = .ok ⟨0, 4⟩ ∧ (Count.full a zero).map (·.2) = .panic := by decide +kernel

/-- Any division of `N` limbs. -/
theorem C109_div_all (x y : Limbs w) {N : Nat} (hN : 2 ≤ N) (hx : x.length = N) (hy : y.length = N) :
    CostsAtMost (Count.full x y) (U.wrappingDivRem x y) ((N - 1) * (N + 2)) N := by
  by_cases h : toNat y < 2 ^ w
  · obtain ⟨h1, h2⟩ := C109_div_small x y h
    exact ⟨h1, fun a k e => ⟨(h2 a k e).1.trans (Nat.zero_le _), hx ▸ (h2 a k e).2⟩⟩
  · obtain ⟨h1, h2⟩ := C109_div x y (a := N) (b := 1) hy (Nat.le_refl 1) (by omega)
      (by have := toNat_lt x; rwa [bits, hx] at this) (by rw [Nat.mul_one]; omega)
    exact ⟨h1, fun a k e => ⟨(h2 a k e).1, (h2 a k e).2.trans (by omega)⟩⟩

example := C109_div_all ones a (N := 4) (by decide) rfl rfl

/-- The count from below: a dividend of at least `2 ^ (w * a)` and a divisor below `2 ^ (w * b)` take at least `a + 2 - b`
rounds, each with a product for every limb of the array. -/
theorem C109_div_least (x y : Limbs w) {N a b : Nat} (hx : x.length = N) (hy : y.length = N) (h : toNat y < toNat x)
    (h2 : 2 ^ w ≤ toNat y) (ha : 2 ^ (w * a) ≤ toNat x) (hb : 1 ≤ b) (hb' : toNat y < 2 ^ (w * b))
    (r : Limbs w × Limbs w) (k : Work) (e : Count.full x y = .ok (r, k)) : (a + 2 - b) * N ≤ k.mul := by
  have h3 := Count.le_lastIndex (b := 1) (by simpa using h2)
  have h4 := Count.le_lastIndex ha
  have h5 := Count.lastIndex_lt hb hb'
  have hl : y.length ≠ 1 := fun hl => by
    have := toNat_lt y
    rw [bits, hl, Nat.mul_one] at this
    omega
  have h6 := Count.full_least x y (hy.trans hx.symm) (by omega) hl h r k e
  rw [hy] at h6
  exact (Nat.mul_le_mul_right _ (by omega)).trans h6

example := C109_div_least ones a (N := 4) (a := 3) (b := 3) rfl rfl (by decide +kernel) (by decide +kernel)
  (by decide +kernel) (by decide) (by decide +kernel)

/-- Division by one limb: a division for each limb if the dividend needs more than two. -/
theorem C109_div_small_exact (x y : Limbs w) {N : Nat} (hx : x.length = N) (hy : y.length = N) (hN : 2 ≤ N)
    (h : toNat y < 2 ^ w) (h2 : 2 ^ (w * 2) ≤ toNat x) (r : Limbs w × Limbs w) (k : Work)
    (e : Count.full x y = .ok (r, k)) : k = ⟨0, N⟩ := by
  have := Count.full_limb_work (hy.trans hx.symm) (by omega) h h2 e
  rw [this, hx]

example := C109_div_small_exact ones one (N := 4) rfl rfl (by decide) (by decide +kernel) (by decide +kernel)

/-- Signed division: the same of the magnitudes. -/
theorem C109_div_signed (hw : 0 < w) (x y : Limbs w) {N a b : Nat} (hx : x.length = N) (hy : y.length = N)
    (hN : 2 ≤ N) (he : N % 2 = 0) (hb : 1 ≤ b) (hab : b < a) (hx' : |toInt x| < 2 ^ (w * a))
    (hy' : 2 ^ (w * b) ≤ |toInt y|) :
    CostsAtMost (Count.wrappingDivRemS x y) (I.wrappingDivRem x y) ((a - b) * (N + 2)) (a - b) := by
  obtain ⟨l1, v1⟩ := unsignedAbs_natAbs hw (x := x) (hx ▸ hN) (hx ▸ he)
  obtain ⟨l2, v2⟩ := unsignedAbs_natAbs hw (x := y) (hy ▸ hN) (hy ▸ he)
  rw [Int.abs_eq_natAbs] at hx' hy'
  exact Count.signed_of (C109_div _ _ (l2.trans hy) hb hab (by rw [v1]; exact_mod_cast hx')
    (by rw [v2]; exact_mod_cast hy'))

example := C109_div_signed (by decide) top a (N := 4) (a := 4) (b := 2) rfl rfl (by decide) (by decide) (by decide)
  (by decide) (by decide +kernel) (by decide +kernel)
example : (Count.wrappingDivRemS m2 a).map (·.2) = .ok ⟨0, 0⟩ ∧
    (Count.wrappingDivRemS top a).map (·.2) = .ok ⟨10, 2⟩ := by decide +kernel

/-- Any signed division of `N` limbs. -/
theorem C109_div_signed_all (hw : 0 < w) (x y : Limbs w) {N : Nat} (hN : 2 ≤ N) (he : N % 2 = 0) (hx : x.length = N)
    (hy : y.length = N) :
    CostsAtMost (Count.wrappingDivRemS x y) (I.wrappingDivRem x y) ((N - 1) * (N + 2)) N :=
  Count.signed_of (C109_div_all _ _ hN ((unsignedAbs_natAbs hw (hx ▸ hN) (hx ▸ he)).1.trans hx)
    ((unsignedAbs_natAbs hw (hy ▸ hN) (hy ▸ he)).1.trans hy))

example := C109_div_signed_all (by decide) m2 a (N := 4) (by decide) (by decide) rfl rfl

/-! ## C110: the numbers of multiplications that the documentation names -/

/-- 256 bits on 64-bit limbs: at worst 10 products (src/lib.rs L50-52, src/uint/wrapping.rs L72-76, src/int/wrapping.rs
L48-54, src/int/overflowing.rs L78-82), 4 for one limb without a sign (src/uint/limb.rs L55-58), at most 5 for the signed type
(src/int/limb.rs L505). -/
theorem C110_documented_partial (x y : Limbs 64) (hx : x.length = 4) (hy : y.length = 4) (n : BitVec 64) :
    Costs (Count.wrappingFull x y) (U.wrappingMul x y) 10 ∧ Costs (Count.wrappingFull x y) (I.wrappingMul x y) 10 ∧
      Costs (Count.overflowingFull x y) (U.overflowingMul x y) 10 ∧
      Costs (Count.overflowingFullS x y) (I.overflowingMul x y) 10 ∧
      Costs (Count.wrappingLimb x n) (U.wrappingMulULimb x n) 4 ∧
      Costs (Count.wrappingLimb x n) (I.wrappingMulULimb x n) 4 ∧
      Costs (Count.overflowingLimb x n) (U.overflowingMulULimb x n) 4 := by
  have h1 := C109_wrapping_mul x y (hy.trans hx.symm)
  have h2 := C109_overflowing_mul x y (hy.trans hx.symm)
  have h3 := C109_mul_ulimb x n
  rw [hx] at h1 h2 h3
  exact ⟨h1.1, h1.2, h2.1, h2.2, h3⟩

example := C110_documented_partial ones a rfl rfl 7
example : Count.wrappingFull a a = ([1, 0xfffffffffffffffe, 0xfffffffffffffff6, 9], 10) := by decide +kernel

/-- The claims of src/int/limb.rs for the signed type: `wrapping_mul_ilimb` at worst 4 multiplications (L520),
`overflowing_mul_ulimb` 4 (L1256), `overflowing_mul_ilimb` 5 (L1269), `overflowing_mul_uwide` 4 (L1367),
`overflowing_mul_iwide` 5 (L1380). -/
def C110Claim : Prop :=
  ∀ (x : Limbs 64) (n : BitVec 64) (v : BitVec (64 + 64)), x.length = 4 →
    (Count.wrappingILimb x n).2 ≤ 4 ∧ (Count.overflowingULimbS x n).2 ≤ 4 ∧ (Count.overflowingILimbS x n).2 ≤ 5 ∧
      (Count.overflowingUWideS x v).2 ≤ 4 ∧ (Count.overflowingIWideS x v).2 ≤ 5

/-- Each of them extends the limb to the full size and multiplies numbers of full size: always 10 products. -/
theorem C110_extended (x : Limbs 64) (n : BitVec 64) (v : BitVec (64 + 64)) (hx : x.length = 4) :
    Costs (Count.wrappingILimb x n) (I.wrappingMulILimb x n) 10 ∧
      Costs (Count.wrappingIWide x v) (I.wrappingMulIWide x v) 10 ∧
      Costs (Count.overflowingULimbS x n) (I.overflowingMulULimb x n) 10 ∧
      Costs (Count.overflowingUWideS x v) (I.overflowingMulUWide x v) 10 ∧
      Costs (Count.overflowingILimbS x n) (I.overflowingMulILimb x n) 10 ∧
      Costs (Count.overflowingIWideS x v) (I.overflowingMulIWide x v) 10 := by
  have h := C109_mul_signed x (by omega) n v
  rw [hx] at h
  exact h

example := C110_extended a 3 5 rfl

theorem C110_documented_false : ¬ C110Claim := fun h => by
  have h1 := (h one 1 1 rfl).1
  have h2 := (C110_extended one 1 1 rfl).1.2
  omega

/-- None of the five holds for any number. -/
theorem C110_none (x : Limbs 64) (n : BitVec 64) (v : BitVec (64 + 64)) (hx : x.length = 4) :
    4 < (Count.wrappingILimb x n).2 ∧ 4 < (Count.overflowingULimbS x n).2 ∧ 5 < (Count.overflowingILimbS x n).2 ∧
      4 < (Count.overflowingUWideS x v).2 ∧ 5 < (Count.overflowingIWideS x v).2 := by
  obtain ⟨⟨_, h1⟩, _, ⟨_, h2⟩, ⟨_, h3⟩, ⟨_, h4⟩, ⟨_, h5⟩⟩ := C110_extended x n v hx
  omega

example := C110_none ones 3 5 rfl

end I256
