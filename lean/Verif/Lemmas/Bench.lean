import Verif.Model.Bench
import Verif.Lemmas.RawDiv
import Mathlib.Tactic.Ring
import Mathlib.Tactic.LinearCombination
import Mathlib.Tactic.Linarith

/-! Lemmas about the algorithms of `devel/benches`: multiplication. -/

namespace I256

namespace Bench

open Raw (loop usub at_ set_)
open Raw.Div (Cfg add mul shl shr debugAssert)

variable {h : Nat}

theorem sq_le {B x y : Nat} (hx : x < B) (hy : y < B) : x * y + 2 * B ≤ B * B + 1 := by
  obtain ⟨b, rfl⟩ : ∃ b, B = b + 1 := ⟨B - 1, by omega⟩
  have : x * y ≤ b * b := Nat.mul_le_mul (by omega) (by omega)
  have e : (b + 1) * (b + 1) = b * b + 2 * b + 1 := by ring
  omega

theorem pow_two (h : Nat) : 2 ^ (h + h) = 2 ^ h * 2 ^ h := Nat.pow_add 2 h h

theorem and_ones_toNat (x : BitVec (h + h)) :
    (x &&& wide (BitVec.allOnes h)).toNat = x.toNat % 2 ^ h := by
  simp [BitVec.toNat_and, Nat.and_two_pow_sub_one_eq_mod]

theorem lo_eq (h : Nat) : BitVec.allOnes (h + h) >>> h = wide (BitVec.allOnes h) := by
  apply BitVec.eq_of_toNat_eq
  rw [wide_toNat]
  simp only [BitVec.toNat_ushiftRight, BitVec.toNat_allOnes, Nat.shiftRight_eq_div_pow, pow_two]
  have : 0 < 2 ^ h := Nat.two_pow_pos h
  obtain ⟨b, hb⟩ : ∃ b, 2 ^ h = b + 1 := ⟨2 ^ h - 1, by omega⟩
  rw [hb]
  have e : (b + 1) * (b + 1) - 1 = b + (b + 1) * b := by
    have : (b + 1) * (b + 1) = b + (b + 1) * b + 1 := by ring
    omega
  rw [e, Nat.add_mul_div_left _ _ (by omega), Nat.div_eq_of_lt (by omega)]
  omega

theorem shr_toNat (x : BitVec (h + h)) : (x >>> h).toNat = x.toNat / 2 ^ h := by
  simp [Nat.shiftRight_eq_div_pow]

theorem shl_toNat (x : BitVec (h + h)) : (x <<< h).toNat = x.toNat % 2 ^ h * 2 ^ h := by
  rw [BitVec.toNat_shiftLeft, Nat.shiftLeft_eq, pow_two, Nat.mul_mod_mul_right]

theorem wShr_half (hh : 0 < h) (x : BitVec (h + h)) : wShr x h = x >>> h := by
  simp [wShr, Nat.mod_eq_of_lt (show h < h + h by omega)]

theorem wShl_half (hh : 0 < h) (x : BitVec (h + h)) : wShl x h = x <<< h := by
  simp [wShl, Nat.mod_eq_of_lt (show h < h + h by omega)]

theorem add_val {n : Nat} {a b : BitVec n} (hb : a.toNat + b.toNat < 2 ^ n) :
    (a + b).toNat = a.toNat + b.toNat := by
  rw [BitVec.toNat_add, Nat.mod_eq_of_lt hb]

theorem mul_val {n : Nat} {a b : BitVec n} (hb : a.toNat * b.toNat < 2 ^ n) :
    (a * b).toNat = a.toNat * b.toNat := by
  rw [BitVec.toNat_mul, Nat.mod_eq_of_lt hb]

theorem div_lt (x : BitVec (h + h)) : x.toNat / 2 ^ h < 2 ^ h := by
  have := x.isLt
  rw [pow_two] at this
  exact Nat.div_lt_of_lt_mul this

/-- The additions of `narrow` in numbers. -/
theorem narrow_nat {B x0 x1 y0 y1 c1 c2 : Nat} (hx0 : x0 < B) (hx1 : x1 < B) (hy0 : y0 < B)
    (hy1 : y1 < B) (e1 : c1 = x0 * y0 / B + x1 * y0) (e2 : c2 = c1 % B + x0 * y1) :
    c1 < B * B ∧ c2 < B * B ∧ c1 / B + c2 / B + x1 * y1 < B * B ∧
      x0 * y0 % B + c2 % B * B + B * B * (c1 / B + c2 / B + x1 * y1) =
        (x0 + B * x1) * (y0 + B * y1) := by
  have hB : 0 < B := by omega
  have s00 := sq_le hx0 hy0
  have s01 := sq_le hx0 hy1
  have s10 := sq_le hx1 hy0
  have hp : x0 * y0 / B < B := Nat.div_lt_of_lt_mul (by omega)
  have hc : c1 % B < B := Nat.mod_lt _ hB
  have h1 : c1 < B * B := by omega
  have h2 : c2 < B * B := by omega
  have m0 := Nat.mod_add_div (x0 * y0) B
  have m1 := Nat.mod_add_div c1 B
  have m2 := Nat.mod_add_div c2 B
  have key : x0 * y0 % B + c2 % B * B + B * B * (c1 / B + c2 / B + x1 * y1) =
        (x0 + B * x1) * (y0 + B * y1) := by
    zify at *
    linear_combination m0 + (B : ℤ) * m1 + (B : ℤ) * m2 + (B : ℤ) * e1 + (B : ℤ) * e2
  refine ⟨h1, h2, ?_, key⟩
  have hx : x0 + B * x1 < B * B := by nlinarith
  have hy : y0 + B * y1 < B * B := by nlinarith
  have hxy : (x0 + B * x1) * (y0 + B * y1) < (B * B) * (B * B) := Nat.mul_lt_mul'' hx hy
  by_contra hc
  have : B * B * (B * B) ≤ B * B * (c1 / B + c2 / B + x1 * y1) := Nat.mul_le_mul_left _ (by omega)
  omega

theorem narrow_ok (cf : Cfg) (hh : 0 < h) (x y : BitVec (h + h)) :
    ∃ lo hi, narrow cf x y = .ok (lo, hi) ∧
      lo.toNat + 2 ^ (h + h) * hi.toNat = x.toNat * y.toNat := by
  have hB : 0 < 2 ^ h := Nat.two_pow_pos h
  have h2 : 2 ≤ 2 ^ h := by
    have := Nat.pow_le_pow_right (show 0 < 2 by omega) hh
    omega
  have hBB : 2 ^ (h + h) = 2 ^ h * 2 ^ h := pow_two h
  simp only [narrow, lo_eq, wShr_half hh, wShl_half hh]
  have vx0 := and_ones_toNat x
  have vy0 := and_ones_toNat y
  have vx1 := shr_toNat x
  have vy1 := shr_toNat y
  have mx := Nat.mod_add_div x.toNat (2 ^ h)
  have my := Nat.mod_add_div y.toNat (2 ^ h)
  have lx0 := Nat.mod_lt x.toNat hB
  have ly0 := Nat.mod_lt y.toNat hB
  have lx1 := div_lt x
  have ly1 := div_lt y
  rw [← vx0] at mx lx0
  rw [← vx1] at mx lx1
  rw [← vy0] at my ly0
  rw [← vy1] at my ly1
  rw [← mx, ← my]
  clear mx my vx0 vx1 vy0 vy1
  generalize x &&& wide (BitVec.allOnes h) = x0 at *
  generalize y &&& wide (BitVec.allOnes h) = y0 at *
  generalize x >>> h = x1 at *
  generalize y >>> h = y1 at *
  obtain ⟨n1, n2, n3, n4⟩ := narrow_nat lx0 lx1 ly0 ly1 rfl rfl
  have s00 := sq_le lx0 ly0
  have s01 := sq_le lx0 ly1
  have s10 := sq_le lx1 ly0
  have s11 := sq_le lx1 ly1
  have b00 : x0.toNat * y0.toNat < 2 ^ (h + h) := by omega
  have b01 : x0.toNat * y1.toNat < 2 ^ (h + h) := by omega
  have b10 : x1.toNat * y0.toNat < 2 ^ (h + h) := by omega
  have b11 : x1.toNat * y1.toNat < 2 ^ (h + h) := by omega
  rw [Raw.Div.mul_ok cf b00, Raw.Div.mul_ok cf b01, Raw.Div.mul_ok cf b10, Raw.Div.mul_ok cf b11]
  have v00 := mul_val b00
  have v01 := mul_val b01
  have v10 := mul_val b10
  have v11 := mul_val b11
  generalize x0 * y0 = p00 at *
  generalize x0 * y1 = p01 at *
  generalize x1 * y0 = p10 at *
  generalize x1 * y1 = p11 at *
  rw [← v00, ← v10] at n1
  rw [← v00, ← v10, ← v01] at n2
  rw [← v00, ← v10, ← v01, ← v11] at n3 n4
  have e1 := shr_toNat p00
  have e2 := and_ones_toNat p00
  rw [← hBB] at n1 n2 n3 n4
  simp only [Res.mbind_ok]
  have g1 : (p00 >>> h).toNat + p10.toNat < 2 ^ (h + h) := by rw [e1]; exact n1
  rw [Raw.Div.add_ok cf g1, Res.mbind_ok]
  have w1 := add_val g1
  rw [e1] at w1
  rw [← w1] at n2 n3 n4
  generalize p00 >>> h + p10 = c1 at *
  have e3 := shl_toNat c1
  have l3 := Nat.mod_lt c1.toNat hB
  have le3 : (c1.toNat % 2 ^ h) * 2 ^ h ≤ 2 ^ (h + h) - 2 ^ h := by
    rw [hBB, ← Nat.sub_one_mul]
    exact Nat.mul_le_mul_right _ (by omega)
  have l2 := Nat.mod_lt p00.toNat hB
  have hle : 2 ^ h ≤ 2 ^ (h + h) := Nat.pow_le_pow_right (by omega) (by omega)
  have g2 : (p00 &&& wide (BitVec.allOnes h)).toNat + (c1 <<< h).toNat < 2 ^ (h + h) := by
    rw [e2, e3]
    omega
  rw [Raw.Div.add_ok cf g2, Res.mbind_ok]
  have w2 := add_val g2
  rw [e2, e3] at w2
  generalize (p00 &&& wide (BitVec.allOnes h)) + c1 <<< h = lo1 at *
  have e4 := shr_toNat lo1
  have e5 := and_ones_toNat lo1
  rw [w2, Nat.add_mul_div_right _ _ hB, Nat.div_eq_of_lt l2, Nat.zero_add] at e4
  rw [w2, Nat.add_mul_mod_self_right, Nat.mod_mod] at e5
  have g3 : (lo1 >>> h).toNat + p01.toNat < 2 ^ (h + h) := by rw [e4]; exact n2
  rw [Raw.Div.add_ok cf g3, Res.mbind_ok]
  have w3 := add_val g3
  rw [e4] at w3
  rw [← w3] at n3 n4
  generalize lo1 >>> h + p01 = c2 at *
  have e6 := shl_toNat c2
  have l6 := Nat.mod_lt c2.toNat hB
  have le6 : (c2.toNat % 2 ^ h) * 2 ^ h ≤ 2 ^ (h + h) - 2 ^ h := by
    rw [hBB, ← Nat.sub_one_mul]
    exact Nat.mul_le_mul_right _ (by omega)
  have g4 : (lo1 &&& wide (BitVec.allOnes h)).toNat + (c2 <<< h).toNat < 2 ^ (h + h) := by
    rw [e5, e6]
    omega
  rw [Raw.Div.add_ok cf g4, Res.mbind_ok]
  have w4 := add_val g4
  rw [e5, e6] at w4
  have e7 := shr_toNat c1
  have e8 := shr_toNat c2
  have g5 : (c1 >>> h).toNat + (c2 >>> h).toNat < 2 ^ (h + h) := by
    rw [e7, e8]
    omega
  rw [Raw.Div.add_ok cf g5, Res.mbind_ok]
  have w5 := add_val g5
  rw [e7, e8] at w5
  have g6 : (c1 >>> h + c2 >>> h).toNat + p11.toNat < 2 ^ (h + h) := by
    rw [w5]
    exact n3
  rw [Raw.Div.add_ok cf g6, Res.mbind_ok]
  refine ⟨_, _, rfl, ?_⟩
  rw [w4, add_val g6, w5]
  exact n4

theorem mulV1_ok (cf : Cfg) (hh : 0 < h) (x0 x1 y0 y1 : BitVec (h + h)) :
    ∃ lo hi, mulV1 cf x0 x1 y0 y1 = .ok (lo, hi) ∧
      lo.toNat + 2 ^ (h + h) * hi.toNat =
        (x0.toNat + 2 ^ (h + h) * x1.toNat) * (y0.toNat + 2 ^ (h + h) * y1.toNat) %
          2 ^ (2 * (h + h)) := by
  obtain ⟨lo, hi, e, v⟩ := narrow_ok cf hh x0 y0
  refine ⟨lo, hi + x0 * y1 + x1 * y0, by simp only [mulV1, e, Res.mbind_ok], ?_⟩
  have hl := lo.isLt
  generalize hP : 2 ^ (h + h) = P at *
  have hPP : 2 ^ (2 * (h + h)) = P * P := by rw [Nat.two_mul, Nat.pow_add, hP]
  have e2 : (hi + x0 * y1 + x1 * y0).toNat =
      (hi.toNat + x0.toNat * y1.toNat + x1.toNat * y0.toNat) % P := by
    simp only [BitVec.toNat_add, BitVec.toNat_mul, hP]
    simp [Nat.add_mod]
  have e3 : (x0.toNat + P * x1.toNat) * (y0.toNat + P * y1.toNat) =
      (lo.toNat + P * (hi.toNat + x0.toNat * y1.toNat + x1.toNat * y0.toNat)) +
        P * P * (x1.toNat * y1.toNat) := by
    zify at *
    linear_combination -v
  rw [hPP, e3, Nat.add_mul_mod_self_left, e2]
  generalize hi.toNat + x0.toNat * y1.toNat + x1.toNat * y0.toNat = t
  rw [Nat.mod_mul, Nat.add_mul_mod_self_left, Nat.mod_eq_of_lt hl,
    Nat.add_mul_div_left _ _ (by omega), Nat.div_eq_of_lt hl, Nat.zero_add]

/-! v3 -/

theorem body_mac (cf : Cfg) (hh : 0 < h) {y : List (BitVec h)} {xi yj rij : BitVec h} {i j : Nat}
    {r : List (BitVec h)} (c : BitVec h) (b : Bool) (hij : i + j < 4) (hy : y[j]? = some yj)
    (hr : r[i + j]? = some rij) :
    mulV3Body cf y xi i (j, r, c, b) =
      .ok (j + 1, r.set (i + j) (mac rij xi yj c).1, (mac rij xi yj c).2, b) := by
  have hb := mac_bound rij xi yj c
  have g1 : (wide xi).toNat * (wide yj).toNat < 2 ^ (h + h) := by
    rw [pow_two, wide_toNat, wide_toNat]
    omega
  have g2 : (wide c).toNat + (wide rij).toNat < 2 ^ (h + h) := by
    rw [pow_two, wide_toNat, wide_toNat]
    omega
  have v1 := mul_val g1
  have v2 := add_val g2
  rw [wide_toNat, wide_toNat] at v1 v2
  have g3 : (wide c + wide rij).toNat + (wide xi * wide yj).toNat < 2 ^ (h + h) := by
    rw [pow_two, v1, v2]
    omega
  have hl : i + j < r.length := by
    rw [List.getElem?_eq_some_iff] at hr
    exact hr.1
  have e : wide c + wide rij + wide xi * wide yj = wide rij + wide xi * wide yj + wide c := by
    rw [BitVec.add_comm (wide c), BitVec.add_assoc, BitVec.add_comm (wide c), ← BitVec.add_assoc]
  simp only [mulV3Body, at_, set_, hy, hr, hij, hl, if_true, Res.mbind_ok, Raw.Div.mul_ok cf g1,
    Raw.Div.add_ok cf g2, Raw.Div.add_ok cf g3, Raw.Div.shr_ok cf _ (show h < h + h by omega), e, mac,
    loLimb, hiLimb]

theorem body_idle (cf : Cfg) {y : List (BitVec h)} {xi yj : BitVec h} {i j : Nat}
    {r : List (BitVec h)} (c : BitVec h) (hij : 4 ≤ i + j) (hy : y[j]? = some yj) :
    mulV3Body cf y xi i (j, r, c, false) = .ok (j, r, c, true) ∨
      mulV3Body cf y xi i (j, r, c, false) = .ok (j + 1, r, c, false) := by
  by_cases hc : xi ≠ 0 ∧ yj ≠ 0
  · left
    simp only [mulV3Body, at_, hy, Nat.not_lt.2 hij, if_false, Res.mbind_ok, if_pos hc]
  · right
    simp only [mulV3Body, at_, hy, Nat.not_lt.2 hij, hc, if_false, Res.mbind_ok]

/-- The rest of a row beyond the last digit changes nothing. -/
theorem tail_ok (cf : Cfg) {y : List (BitVec h)} (hy : y.length = 4) (xi : BitVec h) {i : Nat}
    (k j : Nat) (r : List (BitVec h)) (c : BitVec h) (hj : j + k = 4) (hij : 4 ≤ i + j) :
    ∃ s, loop k (fun s => decide (s.1 < 4) && !s.2.2.2) (mulV3Body cf y xi i) (j, r, c, false) =
      .ok s ∧ s.2.1 = r := by
  induction k generalizing j with
  | zero => exact ⟨_, Raw.loop_done (by simp; omega), rfl⟩
  | succ k ih =>
    obtain ⟨yj, hyj⟩ : ∃ v, y[j]? = some v := ⟨y[j]'(by omega), List.getElem?_eq_getElem _⟩
    rcases body_idle cf (xi := xi) c hij hyj (r := r) with e | e
    · rw [Raw.loop_step (by simp; omega) e]
      exact ⟨_, Raw.loop_done (by simp), rfl⟩
    · rw [Raw.loop_step (by simp; omega) e]
      exact ih (j + 1) (by omega) (by omega)

section Rows
variable (cf : Cfg) (hh : 0 < h) (x y0 y1 y2 y3 r0 r1 r2 r3 : BitVec h)
include hh

theorem row0 : ∃ s, mulV3Inner cf [y0, y1, y2, y3] x 0 (0, [r0, r1, r2, r3], 0, false) = .ok s ∧
    s.2.1 = [(mac r0 x y0 0).1, (mac r1 x y1 (mac r0 x y0 0).2).1,
      (mac r2 x y2 (mac r1 x y1 (mac r0 x y0 0).2).2).1,
      (mac r3 x y3 (mac r2 x y2 (mac r1 x y1 (mac r0 x y0 0).2).2).2).1] := by
  unfold mulV3Inner
  rw [Raw.loop_step (by rfl) (body_mac cf hh _ _ (by omega) rfl rfl),
    Raw.loop_step (by rfl) (body_mac cf hh _ _ (by omega) rfl rfl),
    Raw.loop_step (by rfl) (body_mac cf hh _ _ (by omega) rfl rfl),
    Raw.loop_step (by rfl) (body_mac cf hh _ _ (by omega) rfl rfl), Raw.loop_done (by rfl)]
  exact ⟨_, rfl, rfl⟩

theorem row1 : ∃ s, mulV3Inner cf [y0, y1, y2, y3] x 1 (0, [r0, r1, r2, r3], 0, false) = .ok s ∧
    s.2.1 = [r0, (mac r1 x y0 0).1, (mac r2 x y1 (mac r1 x y0 0).2).1,
      (mac r3 x y2 (mac r2 x y1 (mac r1 x y0 0).2).2).1] := by
  unfold mulV3Inner
  rw [Raw.loop_step (by rfl) (body_mac cf hh _ _ (by omega) rfl rfl),
    Raw.loop_step (by rfl) (body_mac cf hh _ _ (by omega) rfl rfl),
    Raw.loop_step (by rfl) (body_mac cf hh _ _ (by omega) rfl rfl)]
  exact tail_ok cf rfl x 1 3 _ _ rfl (by omega)

theorem row2 : ∃ s, mulV3Inner cf [y0, y1, y2, y3] x 2 (0, [r0, r1, r2, r3], 0, false) = .ok s ∧
    s.2.1 = [r0, r1, (mac r2 x y0 0).1, (mac r3 x y1 (mac r2 x y0 0).2).1] := by
  unfold mulV3Inner
  rw [Raw.loop_step (by rfl) (body_mac cf hh _ _ (by omega) rfl rfl),
    Raw.loop_step (by rfl) (body_mac cf hh _ _ (by omega) rfl rfl)]
  exact tail_ok cf rfl x 2 2 _ _ rfl (by omega)

theorem row3 : ∃ s, mulV3Inner cf [y0, y1, y2, y3] x 3 (0, [r0, r1, r2, r3], 0, false) = .ok s ∧
    s.2.1 = [r0, r1, r2, (mac r3 x y0 0).1] := by
  unfold mulV3Inner
  rw [Raw.loop_step (by rfl) (body_mac cf hh _ _ (by omega) rfl rfl)]
  exact tail_ok cf rfl x 3 1 _ _ rfl (by omega)

end Rows

/-- Four digits below `B` are determined by their value modulo `B ^ 4`. -/
theorem digits_mod {B r0 r1 r2 r3 k : Nat} (h0 : r0 < B) (h1 : r1 < B) (h2 : r2 < B) (h3 : r3 < B) :
    (r0 + B * r1 + B * B * (r2 + B * r3) + B * B * (B * B) * k) % (B * B * (B * B)) =
      r0 + B * r1 + B * B * (r2 + B * r3) := by
  rw [Nat.add_mul_mod_self_left]
  apply Nat.mod_eq_of_lt
  have a : r0 + B * r1 < B * B := by nlinarith
  have b : r2 + B * r3 < B * B := by nlinarith
  nlinarith

theorem or_toNat (a b : BitVec h) :
    ((wide a <<< h) ||| wide b).toNat = b.toNat + 2 ^ h * a.toNat := by
  rw [BitVec.toNat_or, shl_toNat, wide_toNat, wide_toNat, Nat.mod_eq_of_lt a.isLt, Nat.mul_comm,
    ← Nat.two_pow_add_eq_or_of_lt b.isLt, Nat.add_comm]

theorem low_toNat (x : BitVec (h + h)) :
    ((x &&& wide (BitVec.allOnes h)).setWidth h).toNat = x.toNat % 2 ^ h := by
  rw [BitVec.toNat_setWidth, and_ones_toNat, Nat.mod_mod]

theorem high_toNat (x : BitVec (h + h)) : ((x >>> h).setWidth h).toNat = x.toNat / 2 ^ h := by
  rw [BitVec.toNat_setWidth, shr_toNat, Nat.mod_eq_of_lt (div_lt x)]

theorem mulV3_ok (cf : Cfg) (hh : 0 < h) (x0 x1 y0 y1 : BitVec (h + h)) :
    ∃ lo hi, mulV3 cf x0 x1 y0 y1 = .ok (lo, hi) ∧
      lo.toNat + 2 ^ (h + h) * hi.toNat =
        (x0.toNat + 2 ^ (h + h) * x1.toNat) * (y0.toNat + 2 ^ (h + h) * y1.toNat) %
          2 ^ (2 * (h + h)) := by
  have hlt : h < h + h := by omega
  have mx0 := Nat.mod_add_div x0.toNat (2 ^ h)
  have mx1 := Nat.mod_add_div x1.toNat (2 ^ h)
  have my0 := Nat.mod_add_div y0.toNat (2 ^ h)
  have my1 := Nat.mod_add_div y1.toNat (2 ^ h)
  rw [← low_toNat, ← high_toNat] at mx0 mx1 my0 my1
  simp only [mulV3, Raw.Div.shr_ok cf _ hlt, Res.mbind_ok]
  rw [← mx0, ← mx1, ← my0, ← my1]
  clear mx0 mx1 my0 my1
  generalize (x0 &&& wide (BitVec.allOnes h)).setWidth h = a0
  generalize (x0 >>> h).setWidth h = a1
  generalize (x1 &&& wide (BitVec.allOnes h)).setWidth h = a2
  generalize (x1 >>> h).setWidth h = a3
  generalize (y0 &&& wide (BitVec.allOnes h)).setWidth h = b0
  generalize (y0 >>> h).setWidth h = b1
  generalize (y1 &&& wide (BitVec.allOnes h)).setWidth h = b2
  generalize (y1 >>> h).setWidth h = b3
  obtain ⟨s0, e0, q0⟩ := row0 cf hh a0 b0 b1 b2 b3 0 0 0 0
  have f00 := mac_spec (0 : BitVec h) a0 b0 0
  generalize mac (0 : BitVec h) a0 b0 0 = m00 at *
  have f01 := mac_spec (0 : BitVec h) a0 b1 m00.2
  generalize mac (0 : BitVec h) a0 b1 m00.2 = m01 at *
  have f02 := mac_spec (0 : BitVec h) a0 b2 m01.2
  generalize mac (0 : BitVec h) a0 b2 m01.2 = m02 at *
  have f03 := mac_spec (0 : BitVec h) a0 b3 m02.2
  generalize mac (0 : BitVec h) a0 b3 m02.2 = m03 at *
  obtain ⟨s1, e1, q1⟩ := row1 cf hh a1 b0 b1 b2 b3 m00.1 m01.1 m02.1 m03.1
  have f10 := mac_spec m01.1 a1 b0 0
  generalize mac m01.1 a1 b0 0 = m10 at *
  have f11 := mac_spec m02.1 a1 b1 m10.2
  generalize mac m02.1 a1 b1 m10.2 = m11 at *
  have f12 := mac_spec m03.1 a1 b2 m11.2
  generalize mac m03.1 a1 b2 m11.2 = m12 at *
  obtain ⟨s2, e2, q2⟩ := row2 cf hh a2 b0 b1 b2 b3 m00.1 m10.1 m11.1 m12.1
  have f20 := mac_spec m11.1 a2 b0 0
  generalize mac m11.1 a2 b0 0 = m20 at *
  have f21 := mac_spec m12.1 a2 b1 m20.2
  generalize mac m12.1 a2 b1 m20.2 = m21 at *
  obtain ⟨s3, e3, q3⟩ := row3 cf hh a3 b0 b1 b2 b3 m00.1 m10.1 m20.1 m21.1
  have f30 := mac_spec m21.1 a3 b0 0
  generalize mac m21.1 a3 b0 0 = m30 at *
  rw [Raw.loop_step (t := (1, s0.2.1)) (by rfl) (by
      simp only [at_, List.getElem?_cons_zero, Res.mbind_ok, Nat.zero_add]
      rw [show List.replicate 4 (0 : BitVec h) = [0, 0, 0, 0] from rfl, e0, Res.mbind_ok]), q0,
    Raw.loop_step (t := (2, s1.2.1)) (by rfl) (by
      simp only [at_, List.getElem?_cons_zero, List.getElem?_cons_succ, Res.mbind_ok]
      rw [e1, Res.mbind_ok]), q1,
    Raw.loop_step (t := (3, s2.2.1)) (by rfl) (by
      simp only [at_, List.getElem?_cons_zero, List.getElem?_cons_succ, Res.mbind_ok]
      rw [e2, Res.mbind_ok]), q2,
    Raw.loop_step (t := (4, s3.2.1)) (by rfl) (by
      simp only [at_, List.getElem?_cons_zero, List.getElem?_cons_succ, Res.mbind_ok]
      rw [e3, Res.mbind_ok]), q3, Raw.loop_done (by rfl)]
  simp only [Res.mbind_ok, at_, List.getElem?_cons_zero, List.getElem?_cons_succ,
    Raw.Div.shl_ok cf _ hlt]
  refine ⟨_, _, rfl, ?_⟩
  rw [or_toNat, or_toNat, pow_two, show 2 * (h + h) = (h + h) + (h + h) by omega, Nat.pow_add 2 (h + h),
    pow_two]
  have l0 := m00.1.isLt
  have l1 := m10.1.isLt
  have l2 := m20.1.isLt
  have l3 := m30.1.isLt
  generalize 2 ^ h = B at *
  rw [← digits_mod l0 l1 l2 l3 (k := m03.2.toNat + m12.2.toNat + m21.2.toNat + m30.2.toNat +
    a1.toNat * b3.toNat + a2.toNat * b2.toNat + a3.toNat * b1.toNat +
    B * (a2.toNat * b3.toNat + a3.toNat * b2.toNat) + B * B * (a3.toNat * b3.toNat))]
  congr 1
  have z : (0 : BitVec h).toNat = 0 := BitVec.toNat_zero
  rw [z] at f00 f01 f02 f03 f10 f20 f30
  zify at *
  linear_combination f00 + B * f01 + B ^ 2 * f02 + B ^ 3 * f03 + B * f10 + B ^ 2 * f11 +
    B ^ 3 * f12 + B ^ 2 * f20 + B ^ 3 * f21 + B ^ 3 * f30

/-! v2 -/

theorem table_ok (cf : Cfg) {a0 a1 a2 a3 b0 b1 b2 b3 : BitVec (h + h)} (la0 : a0.toNat < 2 ^ h)
    (la1 : a1.toNat < 2 ^ h) (la2 : a2.toNat < 2 ^ h) (la3 : a3.toNat < 2 ^ h)
    (lb0 : b0.toNat < 2 ^ h) (lb1 : b1.toNat < 2 ^ h) (lb2 : b2.toNat < 2 ^ h)
    (lb3 : b3.toNat < 2 ^ h) :
    mulV2Table cf [a3, a2, a1, a0] [b3, b2, b1, b0] =
      .ok [[a0 * b3, a0 * b2, a0 * b1, a0 * b0], [a1 * b3, a1 * b2, a1 * b1, a1 * b0],
        [a2 * b3, a2 * b2, a2 * b1, a2 * b0], [a3 * b3, a3 * b2, a3 * b1, a3 * b0]] := by
  have m : ∀ {a b : BitVec (h + h)}, a.toNat < 2 ^ h → b.toNat < 2 ^ h → mul cf a b = .ok (a * b) := by
    intro a b ha hb
    apply Raw.Div.mul_ok
    have := sq_le ha hb
    rw [pow_two]
    omega
  simp [mulV2Table, loop, usub, at_, set_, m la0, m la1, m la2, m la3, lb0, lb1, lb2, lb3]

theorem pair_ok (cf : Cfg) (hh : 0 < h) {r : List (List (BitVec (h + h)))} {i j k l : Nat}
    {p q : BitVec (h + h)} (e1 : cell r i j = .ok p) (e2 : cell r k l = .ok q) :
    ∃ v, mulV2Pair cf r i j k l = .ok v ∧ v.toNat = p.toNat % 2 ^ h + q.toNat / 2 ^ h := by
  have hB := Nat.two_pow_pos h
  have h2 : 2 ≤ 2 ^ h := by
    have := Nat.pow_le_pow_right (show 0 < 2 by omega) hh
    omega
  have l1 := Nat.mod_lt p.toNat hB
  have l2 := div_lt q
  have hb : 2 * 2 ^ h ≤ 2 ^ h * 2 ^ h := Nat.mul_le_mul_right _ h2
  have g : (p &&& wide (BitVec.allOnes h)).toNat + (q >>> h).toNat < 2 ^ (h + h) := by
    rw [and_ones_toNat, shr_toNat, pow_two]
    omega
  refine ⟨(p &&& wide (BitVec.allOnes h)) + q >>> h, ?_, ?_⟩
  · simp only [mulV2Pair, e1, e2, Res.mbind_ok, Raw.Div.shr_ok cf q (show h < h + h by omega)]
    exact Raw.Div.add_ok cf g
  · rw [add_val g, and_ones_toNat, shr_toNat]

theorem sum_ok (cf : Cfg) (hh : 3 ≤ h)
    (p00 p01 p02 p03 p10 p11 p12 p13 p20 p21 p22 p23 p30 p31 p32 p33 : BitVec (h + h)) :
    ∃ lo hi k, mulV2Sum cf [[p03, p02, p01, p00], [p13, p12, p11, p10], [p23, p22, p21, p20],
        [p33, p32, p31, p30]] = .ok (lo, hi) ∧
      lo.toNat + 2 ^ (h + h) * hi.toNat + 2 ^ (h + h) * 2 ^ (h + h) * k =
        p00.toNat + 2 ^ h * (p01.toNat + p10.toNat) +
          2 ^ (h + h) * (p02.toNat + p11.toNat + p20.toNat) +
          2 ^ h * 2 ^ (h + h) * (p03.toNat + p12.toNat + p21.toNat + p30.toNat) := by
  have hlt : h < h + h := by omega
  have hB := Nat.two_pow_pos h
  have h8 : 8 ≤ 2 ^ h := Nat.pow_le_pow_right (show 0 < 2 by omega) hh
  have hb : 8 * 2 ^ h ≤ 2 ^ h * 2 ^ h := Nat.mul_le_mul_right _ h8
  have hBB : 2 ^ (h + h) = 2 ^ h * 2 ^ h := pow_two h
  generalize hr : [[p03, p02, p01, p00], [p13, p12, p11, p10], [p23, p22, p21, p20],
        [p33, p32, p31, p30]] = r
  have c00 : cell r 0 3 = .ok p00 := by subst hr; rfl
  have c01 : cell r 0 2 = .ok p01 := by subst hr; rfl
  have c02 : cell r 0 1 = .ok p02 := by subst hr; rfl
  have c03 : cell r 0 0 = .ok p03 := by subst hr; rfl
  have c10 : cell r 1 3 = .ok p10 := by subst hr; rfl
  have c11 : cell r 1 2 = .ok p11 := by subst hr; rfl
  have c12 : cell r 1 1 = .ok p12 := by subst hr; rfl
  have c20 : cell r 2 3 = .ok p20 := by subst hr; rfl
  have c21 : cell r 2 2 = .ok p21 := by subst hr; rfl
  have c30 : cell r 3 3 = .ok p30 := by subst hr; rfl
  have hh0 : 0 < h := by omega
  obtain ⟨t1, u1, w1⟩ := pair_ok cf hh0 c01 c00
  obtain ⟨t2, u2, w2⟩ := pair_ok cf hh0 c02 c01
  obtain ⟨t3, u3, w3⟩ := pair_ok cf hh0 c03 c02
  obtain ⟨t4, u4, w4⟩ := pair_ok cf hh0 c11 c10
  obtain ⟨t5, u5, w5⟩ := pair_ok cf hh0 c12 c11
  obtain ⟨t6, u6, w6⟩ := pair_ok cf hh0 c21 c20
  have d00 := Nat.mod_add_div p00.toNat (2 ^ h)
  have d01 := Nat.mod_add_div p01.toNat (2 ^ h)
  have d02 := Nat.mod_add_div p02.toNat (2 ^ h)
  have d03 := Nat.mod_add_div p03.toNat (2 ^ h)
  have d10 := Nat.mod_add_div p10.toNat (2 ^ h)
  have d11 := Nat.mod_add_div p11.toNat (2 ^ h)
  have d12 := Nat.mod_add_div p12.toNat (2 ^ h)
  have d20 := Nat.mod_add_div p20.toNat (2 ^ h)
  have d21 := Nat.mod_add_div p21.toNat (2 ^ h)
  have d30 := Nat.mod_add_div p30.toNat (2 ^ h)
  have a00 := and_ones_toNat p00
  have a10 := and_ones_toNat p10
  have a20 := and_ones_toNat p20
  have a30 := and_ones_toNat p30
  have k00 := Nat.mod_lt p00.toNat hB
  have k01 := Nat.mod_lt p01.toNat hB
  have k02 := Nat.mod_lt p02.toNat hB
  have k03 := Nat.mod_lt p03.toNat hB
  have k10 := Nat.mod_lt p10.toNat hB
  have k11 := Nat.mod_lt p11.toNat hB
  have k12 := Nat.mod_lt p12.toNat hB
  have k20 := Nat.mod_lt p20.toNat hB
  have k21 := Nat.mod_lt p21.toNat hB
  have k30 := Nat.mod_lt p30.toNat hB
  have q00 := div_lt p00
  have q01 := div_lt p01
  have q02 := div_lt p02
  have q10 := div_lt p10
  have q11 := div_lt p11
  have q20 := div_lt p20
  simp only [mulV2Sum, c00, c10, c20, c30, u1, u2, u3, u4, u5, u6, Res.mbind_ok,
    Raw.Div.shr_ok cf _ hlt, Raw.Div.shl_ok cf _ hlt]
  generalize p00 &&& wide (BitVec.allOnes h) = z00 at *
  generalize p10 &&& wide (BitVec.allOnes h) = z10 at *
  generalize p20 &&& wide (BitVec.allOnes h) = z20 at *
  generalize p30 &&& wide (BitVec.allOnes h) = z30 at *
  have g1 : t1.toNat + z10.toNat < 2 ^ (h + h) := by omega
  rw [Raw.Div.add_ok cf g1, Res.mbind_ok]
  have v1 := add_val g1
  generalize t1 + z10 = s1 at *
  have g2 : t2.toNat + t4.toNat < 2 ^ (h + h) := by omega
  rw [Raw.Div.add_ok cf g2, Res.mbind_ok]
  have v2 := add_val g2
  generalize t2 + t4 = s2 at *
  have g3 : t3.toNat + t5.toNat < 2 ^ (h + h) := by omega
  rw [Raw.Div.add_ok cf g3, Res.mbind_ok]
  have v3 := add_val g3
  generalize t3 + t5 = s3 at *
  have g4 : s2.toNat + z20.toNat < 2 ^ (h + h) := by omega
  rw [Raw.Div.add_ok cf g4, Res.mbind_ok]
  have v4 := add_val g4
  generalize s2 + z20 = s4 at *
  have g5 : s3.toNat + t6.toNat < 2 ^ (h + h) := by omega
  rw [Raw.Div.add_ok cf g5, Res.mbind_ok]
  have v5 := add_val g5
  generalize s3 + t6 = s5 at *
  have g6 : s5.toNat + z30.toNat < 2 ^ (h + h) := by omega
  rw [Raw.Div.add_ok cf g6, Res.mbind_ok]
  have v6 := add_val g6
  generalize s5 + z30 = s6 at *
  have x00 := shr_toNat z00
  have y00 : z00.toNat / 2 ^ h = 0 := Nat.div_eq_of_lt (by omega)
  have g7 : s1.toNat + (z00 >>> h).toNat < 2 ^ (h + h) := by omega
  rw [Raw.Div.add_ok cf g7, Res.mbind_ok]
  have v7 := add_val g7
  generalize s1 + z00 >>> h = s7 at *
  have x7 := shr_toNat s7
  have y7 := div_lt s7
  have g8 : s4.toNat + (s7 >>> h).toNat < 2 ^ (h + h) := by omega
  rw [Raw.Div.add_ok cf g8, Res.mbind_ok]
  have v8 := add_val g8
  generalize s4 + s7 >>> h = s8 at *
  have x8 := shr_toNat s8
  have y8 := div_lt s8
  have g9 : s6.toNat + (s8 >>> h).toNat < 2 ^ (h + h) := by omega
  rw [Raw.Div.add_ok cf g9, Res.mbind_ok]
  have v9 := add_val g9
  generalize s6 + s8 >>> h = s9 at *
  refine ⟨_, _, s9.toNat / 2 ^ h + p03.toNat / 2 ^ h + p12.toNat / 2 ^ h + p21.toNat / 2 ^ h +
    p30.toNat / 2 ^ h, rfl, ?_⟩
  have o : ∀ a b : BitVec (h + h), ((a &&& wide (BitVec.allOnes h)) <<< h |||
      b &&& wide (BitVec.allOnes h)).toNat = b.toNat % 2 ^ h + 2 ^ h * (a.toNat % 2 ^ h) := by
    intro a b
    rw [BitVec.toNat_or, shl_toNat, and_ones_toNat, and_ones_toNat, Nat.mod_mod, Nat.mul_comm,
      ← Nat.two_pow_add_eq_or_of_lt (Nat.mod_lt _ hB), Nat.add_comm]
  rw [o, o]
  have e0 := Nat.mod_eq_of_lt (show z00.toNat < 2 ^ h by omega)
  have e7 := Nat.mod_add_div s7.toNat (2 ^ h)
  have e8 := Nat.mod_add_div s8.toNat (2 ^ h)
  have e9 := Nat.mod_add_div s9.toNat (2 ^ h)
  rw [e0, hBB]
  rw [x00, y00] at v7
  rw [x7] at v8
  rw [x8] at v9
  have f7 : s7.toNat = p01.toNat % 2 ^ h + p00.toNat / 2 ^ h + p10.toNat % 2 ^ h := by omega
  have f8 : s8.toNat = p02.toNat % 2 ^ h + p01.toNat / 2 ^ h + p11.toNat % 2 ^ h +
    p10.toNat / 2 ^ h + p20.toNat % 2 ^ h + s7.toNat / 2 ^ h := by omega
  have f9 : s9.toNat = p03.toNat % 2 ^ h + p02.toNat / 2 ^ h + p12.toNat % 2 ^ h +
    p11.toNat / 2 ^ h + p21.toNat % 2 ^ h + p20.toNat / 2 ^ h + p30.toNat % 2 ^ h +
    s8.toNat / 2 ^ h := by omega
  rw [a00]
  clear hr r c00 c01 c02 c03 c10 c11 c12 c20 c21 c30 g1 g2 g3 g4 g5 g6 g7 g8 g9 w1 w2 w3 w4 w5 w6
    v1 v2 v3 v4 v5 v6 v7 v8 v9 u1 u2 u3 u4 u5 u6
  generalize 2 ^ h = B at *
  zify at *
  linear_combination d00 + B * (d01 + d10) + B * B * (d02 + d11 + d20) +
    B ^ 3 * (d03 + d12 + d21 + d30) + B * e7 + B ^ 2 * e8 + B ^ 3 * e9 + B * f7 + B ^ 2 * f8 +
    B ^ 3 * f9

theorem mulV2_ok (cf : Cfg) (hh : 3 ≤ h) (x0 x1 y0 y1 : BitVec (h + h)) :
    ∃ lo hi, mulV2 cf x0 x1 y0 y1 = .ok (lo, hi) ∧
      lo.toNat + 2 ^ (h + h) * hi.toNat =
        (x0.toNat + 2 ^ (h + h) * x1.toNat) * (y0.toNat + 2 ^ (h + h) * y1.toNat) %
          2 ^ (2 * (h + h)) := by
  have hlt : h < h + h := by omega
  have hB := Nat.two_pow_pos h
  have mx0 := Nat.mod_add_div x0.toNat (2 ^ h)
  have mx1 := Nat.mod_add_div x1.toNat (2 ^ h)
  have my0 := Nat.mod_add_div y0.toNat (2 ^ h)
  have my1 := Nat.mod_add_div y1.toNat (2 ^ h)
  have lx0 := Nat.mod_lt x0.toNat hB
  have lx1 := Nat.mod_lt x1.toNat hB
  have ly0 := Nat.mod_lt y0.toNat hB
  have ly1 := Nat.mod_lt y1.toNat hB
  have dx0 := div_lt x0
  have dx1 := div_lt x1
  have dy0 := div_lt y0
  have dy1 := div_lt y1
  rw [← and_ones_toNat] at mx0 mx1 my0 my1 lx0 lx1 ly0 ly1
  rw [← shr_toNat] at mx0 mx1 my0 my1 dx0 dx1 dy0 dy1
  simp only [mulV2, Raw.Div.shr_ok cf _ hlt, Res.mbind_ok]
  rw [← mx0, ← mx1, ← my0, ← my1]
  clear mx0 mx1 my0 my1
  generalize x0 &&& wide (BitVec.allOnes h) = a0 at *
  generalize x0 >>> h = a1 at *
  generalize x1 &&& wide (BitVec.allOnes h) = a2 at *
  generalize x1 >>> h = a3 at *
  generalize y0 &&& wide (BitVec.allOnes h) = b0 at *
  generalize y0 >>> h = b1 at *
  generalize y1 &&& wide (BitVec.allOnes h) = b2 at *
  generalize y1 >>> h = b3 at *
  rw [table_ok cf lx0 dx0 lx1 dx1 ly0 dy0 ly1 dy1, Res.mbind_ok]
  obtain ⟨lo, hi, k, e, v⟩ := sum_ok cf hh (a0 * b0) (a0 * b1) (a0 * b2) (a0 * b3) (a1 * b0) (a1 * b1)
    (a1 * b2) (a1 * b3) (a2 * b0) (a2 * b1) (a2 * b2) (a2 * b3) (a3 * b0) (a3 * b1) (a3 * b2) (a3 * b3)
  refine ⟨lo, hi, e, ?_⟩
  have m : ∀ {a b : BitVec (h + h)}, a.toNat < 2 ^ h → b.toNat < 2 ^ h →
      (a * b).toNat = a.toNat * b.toNat := by
    intro a b ha hb
    apply mul_val
    have := sq_le ha hb
    rw [pow_two]
    omega
  rw [m lx0 ly0, m lx0 dy0, m dx0 ly0, m lx0 ly1, m dx0 dy0, m lx1 ly0, m lx0 dy1, m dx0 ly1,
    m lx1 dy0, m dx1 ly0] at v
  have ll := lo.isLt
  have lh := hi.isLt
  have hs : lo.toNat + 2 ^ (h + h) * hi.toNat < 2 ^ (h + h) * 2 ^ (h + h) := by nlinarith
  rw [show 2 * (h + h) = (h + h) + (h + h) by omega, Nat.pow_add 2 (h + h)]
  rw [← Nat.mod_eq_of_lt hs, ← Nat.add_mul_mod_self_left _ _ k, v]
  symm
  rw [show (a0.toNat + 2 ^ h * a1.toNat + 2 ^ (h + h) * (a2.toNat + 2 ^ h * a3.toNat)) *
      (b0.toNat + 2 ^ h * b1.toNat + 2 ^ (h + h) * (b2.toNat + 2 ^ h * b3.toNat)) =
      (a0.toNat * b0.toNat + 2 ^ h * (a0.toNat * b1.toNat + a1.toNat * b0.toNat) +
        2 ^ (h + h) * (a0.toNat * b2.toNat + a1.toNat * b1.toNat + a2.toNat * b0.toNat) +
        2 ^ h * 2 ^ (h + h) * (a0.toNat * b3.toNat + a1.toNat * b2.toNat + a2.toNat * b1.toNat +
          a3.toNat * b0.toNat)) + 2 ^ (h + h) * 2 ^ (h + h) *
        (a1.toNat * b3.toNat + a2.toNat * b2.toNat + a3.toNat * b1.toNat +
          2 ^ h * (a2.toNat * b3.toNat + a3.toNat * b2.toNat) +
          2 ^ (h + h) * (a3.toNat * b3.toNat)) by rw [pow_two]; ring, Nat.add_mul_mod_self_left]

end Bench

end I256
