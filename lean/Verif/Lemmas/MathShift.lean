import Verif.Model.MathShift
import Verif.Lemmas.RawShift
import Verif.Lemmas.Shift

/-! Lemmas for the public functions of `math::shift` and `math::rotate` in every build. -/

namespace I256

variable {W k : Nat}

namespace Raw

open I256.Raw.Div (Cfg)

theorem mul32_ok {cf : Cfg} {a b : Nat} (hb : 0 < b) (h : a * b < 2 ^ 32) : mul32 cf a b = .ok (a * b) := by
  have ha : a < 2 ^ 32 := lt_of_le_of_lt (Nat.le_mul_of_pos_right a hb) h
  unfold mul32
  simp only [Nat.mod_eq_of_lt ha]
  rw [if_pos h]

namespace Shift

theorem leftIn_short (cf : Cfg) (be : Bool) {x : Limbs W} (h : x.length < 2) (s : Nat) :
    leftIn cf be x s = .panic := by
  unfold leftIn
  simp only [assert]
  rw [if_neg (by simpa using h)]
  rfl

theorem rightIn_short (cf : Cfg) (be signed : Bool) {x : Limbs W} (h : x.length < 2) (s : Nat) :
    rightIn cf be signed x s = .panic := by
  unfold rightIn
  simp only [assert]
  rw [if_neg (by simpa using h)]
  rfl

variable (hW : 0 < W) {x : Limbs W} (h32 : x.length * W < 2 ^ 32)
include hW h32

/-- Below the width nothing depends on the build. -/
theorem leftIn_eq (cf : Cfg) (be : Bool) {s : Nat} (hs : s < x.length * W) :
    leftIn cf be x s = left be x s := by
  unfold leftIn left
  simp only [mul32_ok (cf := cf) hW h32, Res.mbind_ok, assert_ok (decide_eq_true hs)]
  cases cf.da <;> rfl

theorem rightIn_eq (cf : Cfg) (be signed : Bool) {s : Nat} (hs : s < x.length * W) :
    rightIn cf be signed x s = right be signed x s := by
  unfold rightIn right
  simp only [mul32_ok (cf := cf) hW h32, Res.mbind_ok, assert_ok (decide_eq_true hs)]
  cases cf.da <;> rfl

/-- With debug assertions an amount of the width or more is rejected. -/
theorem leftIn_da {cf : Cfg} (hd : cf.da = true) (be : Bool) {s : Nat} (hs : x.length * W ≤ s) :
    leftIn cf be x s = .panic := by
  unfold leftIn
  simp only [mul32_ok (cf := cf) hW h32, Res.mbind_ok, hd, if_true, assert]
  rw [if_neg (show ¬ decide (s < x.length * W) = true by simpa using hs)]
  split <;> rfl

theorem rightIn_da {cf : Cfg} (hd : cf.da = true) (be signed : Bool) {s : Nat}
    (hs : x.length * W ≤ s) : rightIn cf be signed x s = .panic := by
  unfold rightIn
  simp only [mul32_ok (cf := cf) hW h32, Res.mbind_ok, hd, if_true, assert]
  rw [if_neg (show ¬ decide (s < x.length * W) = true by simpa using hs)]
  split <;> rfl

omit hW h32 in
/-- Without debug assertions, an array of two elements and an amount of the width or more: the amount
counts as one element and the bits modulo the element size. -/
theorem leftIn_two (hk : W = 2 ^ k) {cf : Cfg} (hd : cf.da = false) (be : Bool) (h2 : x.length = 2)
    {s : Nat} (hs : x.length * W ≤ s) : leftIn cf be x s = left be x (W + s % W) := by
  have hW : 0 < W := by rw [hk]; positivity
  have hm := Nat.mod_lt s hW
  have hb : (W + s % W) &&& (W - 1) = s &&& (W - 1) := by
    have e1 := bitsN_eq hk (W + s % W)
    have e2 := bitsN_eq hk s
    unfold I256.Shift.bitsN at e1 e2
    rw [e1, e2, Nat.add_mod_left, Nat.mod_mod]
  have hl1 : s >>> W.log2 ≠ 0 := by
    have e := limbN_eq hk s
    unfold I256.Shift.limbN at e
    have : 1 ≤ s / W := (Nat.one_le_div_iff hW).2 (by rw [h2] at hs; omega)
    omega
  have hl2 : (W + s % W) >>> W.log2 ≠ 0 := by
    have e := limbN_eq hk (W + s % W)
    unfold I256.Shift.limbN at e
    have : 1 ≤ (W + s % W) / W := (Nat.one_le_div_iff hW).2 (by omega)
    omega
  unfold leftIn left
  simp only [hd, Bool.false_eq_true, if_false, hb, h2, if_true, if_pos hl1, if_pos hl2,
    assert_ok (show decide (W + s % W < 2 * W) = true from decide_eq_true (by omega)), Res.mbind_ok]

omit hW h32 in
theorem rightIn_two (hk : W = 2 ^ k) {cf : Cfg} (hd : cf.da = false) (be signed : Bool)
    (h2 : x.length = 2) {s : Nat} (hs : x.length * W ≤ s) :
    rightIn cf be signed x s = right be signed x (W + s % W) := by
  have hW : 0 < W := by rw [hk]; positivity
  have hm := Nat.mod_lt s hW
  have hb : (W + s % W) &&& (W - 1) = s &&& (W - 1) := by
    have e1 := bitsN_eq hk (W + s % W)
    have e2 := bitsN_eq hk s
    unfold I256.Shift.bitsN at e1 e2
    rw [e1, e2, Nat.add_mod_left, Nat.mod_mod]
  have hl1 : s >>> W.log2 ≠ 0 := by
    have e := limbN_eq hk s
    unfold I256.Shift.limbN at e
    have : 1 ≤ s / W := (Nat.one_le_div_iff hW).2 (by rw [h2] at hs; omega)
    omega
  have hl2 : (W + s % W) >>> W.log2 ≠ 0 := by
    have e := limbN_eq hk (W + s % W)
    unfold I256.Shift.limbN at e
    have : 1 ≤ (W + s % W) / W := (Nat.one_le_div_iff hW).2 (by omega)
    omega
  unfold rightIn right
  simp only [hd, Bool.false_eq_true, if_false, hb, h2, if_true, if_pos hl1, if_pos hl2,
    assert_ok (show decide (W + s % W < 2 * W) = true from decide_eq_true (by omega)), Res.mbind_ok]

omit hW h32 in
theorem le_limbN (hk : W = 2 ^ k) {n s : Nat} (hs : n * W ≤ s) : n ≤ s >>> W.log2 := by
  have hW : 0 < W := by rw [hk]; positivity
  have e := limbN_eq hk s
  unfold I256.Shift.limbN at e
  rw [e]
  exact (Nat.le_div_iff_mul_le hW).2 hs

omit hW h32 in
/-- Without debug assertions, more than two elements: all bits are shifted out. -/
theorem leftIn_out (hk : W = 2 ^ k) {cf : Cfg} (hd : cf.da = false) (be : Bool) (h2 : 2 < x.length)
    {s : Nat} (hs : x.length * W ≤ s) : leftIn cf be x s = .ok (List.replicate x.length 0) := by
  have hW : 0 < W := by rw [hk]; positivity
  have hl := le_limbN hk hs
  have hb := bitsN_lt hW s
  unfold leftIn
  simp only [hd, Bool.false_eq_true, if_false, assert_ok (show decide (x.length ≥ 2) = true from
    decide_eq_true (by omega)), Res.mbind_ok, usub_ok (Nat.le_of_lt hb), if_neg (show ¬ x.length = 2 by omega)]
  rw [loop_done (by simpa using hl), loop_done (by simpa using hl)]
  split <;> rfl

omit hW h32 in
theorem rightIn_out (hk : W = 2 ^ k) {cf : Cfg} (hd : cf.da = false) (be signed : Bool)
    (h2 : 2 < x.length) {s : Nat} (hs : x.length * W ≤ s) :
    rightIn cf be signed (mem be x) s =
      .ok (List.replicate x.length (if signed && (msLimb x).slt 0 then BitVec.allOnes W else 0)) := by
  have hW : 0 < W := by rw [hk]; positivity
  have hl := le_limbN hk hs
  have hb := bitsN_lt hW s
  unfold rightIn
  simp only [mem_length, hd, Bool.false_eq_true, if_false, assert_ok (show decide (x.length ≥ 2) = true from
    decide_eq_true (by omega)), Res.mbind_ok, usub_ok (Nat.le_of_lt hb),
    usub_ok (show 1 ≤ x.length by omega), rd_limb be (show x.length - 1 < x.length by omega),
    if_neg (show ¬ x.length = 2 by omega)]
  rw [loop_done (by simpa using hl), loop_done (by simpa using hl)]
  split <;> rfl

end Shift

namespace Rot

theorem leftIn_short (cf : Cfg) (be : Bool) {x : Limbs W} (h : x.length < 2) (n : Nat) :
    leftIn cf be x n = .panic := by
  unfold leftIn
  simp only [assert]
  rw [if_neg (by simpa using h)]
  rfl

theorem rightIn_short (cf : Cfg) (be : Bool) {x : Limbs W} (h : x.length < 2) (n : Nat) :
    rightIn cf be x n = .panic := by
  unfold rightIn
  simp only [assert]
  rw [if_neg (by simpa using h)]
  rfl

variable (hW : 0 < W) {x : Limbs W} (h32 : x.length * W < 2 ^ 32)
include hW h32

theorem leftIn_eq (cf : Cfg) (be : Bool) (n : Nat) : leftIn cf be x n = left be x n := by
  unfold leftIn left
  simp only [mul32_ok (cf := cf) hW h32, Res.mbind_ok]

theorem rightIn_eq (cf : Cfg) (be : Bool) (n : Nat) : rightIn cf be x n = right be x n := by
  unfold rightIn right
  simp only [mul32_ok (cf := cf) hW h32, Res.mbind_ok, leftIn_eq hW h32, Nat.mul_comm x.length W]

end Rot

end Raw

end I256
