import Verif.Repair.Math
import Verif.Lemmas.RepairMore
import Verif.Lemmas.MathShift

/-! Lemmas for the repairs of the public functions of `math`. -/

namespace I256

variable {w k : Nat}

namespace Raw.Shift

/-- The values of an array whose bits are all shifted out to the right. -/
theorem shiftedOut (hW : 0 < w) {x : Limbs w} (hx : x ≠ []) {s : Nat} (hs : w * x.length ≤ s) :
    (toNat (List.replicate x.length (if (false && (msLimb x).slt 0) = true then BitVec.allOnes w else 0)) : Int) =
        (toNat x : Int) / 2 ^ s ∧
      toInt (List.replicate x.length (if (true && (msLimb x).slt 0) = true then BitVec.allOnes w else 0)) =
        toInt x / 2 ^ s := by
  constructor
  · simp only [Bool.false_and, Bool.false_eq_true, if_false, toNat_replicate_zero]
    have h3 : toNat x < 2 ^ s := lt_of_lt_of_le (toNat_lt x) (Nat.pow_le_pow_right (by omega) hs)
    rw [show ((2 : Int) ^ s) = ((2 ^ s : Nat) : Int) by push_cast; rfl, ← Int.natCast_ediv,
      Nat.div_eq_of_lt h3]
  · have hneg := isNegative_iff hW hx
    rw [I.isNegative] at hneg
    have hi := toInt_InS x
    rw [show bits x = w * x.length from rfl] at hi
    have hP : (2 : Int) ^ (w * x.length) ≤ 2 ^ s := pow_le_pow_right₀ (by norm_num) hs
    unfold InS at hi
    have h0 : (0 : Int) < 2 ^ (w * x.length) := by positivity
    by_cases hn : (msLimb x).slt 0 = true
    · rw [if_pos (by simpa using hn)]
      have h1 := hneg.1 hn
      have h3 := toNat_allOnes w x.length
      have h4 : 2 ≤ 2 ^ (w * x.length) := by
        have : 1 ≤ w * x.length := Nat.mul_pos hW (List.length_pos_iff.2 hx)
        exact le_trans (by norm_num) (Nat.pow_le_pow_right (by norm_num : 0 < 2) this)
      rw [toInt, if_neg (by simp only [bits, List.length_replicate]; omega)]
      have h5 : toInt x / 2 ^ s = -1 := by
        rw [Int.ediv_eq_iff_of_pos (by positivity)]
        constructor <;> omega
      rw [h5]
      simp only [bits, List.length_replicate]
      have : ((2 ^ (w * x.length) : Nat) : Int) = (2 : Int) ^ (w * x.length) := by push_cast; rfl
      omega
    · rw [if_neg (by simpa using hn)]
      have h1 : ¬ toInt x < 0 := fun hc => hn (hneg.2 hc)
      rw [toInt, toNat_replicate_zero, if_pos (by positivity), Int.ediv_eq_zero_of_lt (by omega) (by omega)]
      rfl

end Raw.Shift

namespace Repair

open Div

/-! ## Division -/

theorem toNat_padded (x : Limbs w) (n : Nat) : toNat (x ++ List.replicate n 0) = toNat x := by
  rw [toNat_append, toNat_replicate_zero]; simp

theorem toNat_take_small {q : Limbs w} {n : Nat} (hn : n ≤ q.length) (h : toNat q < 2 ^ (w * n)) :
    toNat (q.take n) = toNat q := by
  rw [toNat_take _ _ hn, Nat.mod_eq_of_lt h]

theorem quot_lt (x : Limbs w) (d : Nat) : toNat x / d < 2 ^ (w * x.length) :=
  lt_of_le_of_lt (Nat.div_le_self _ _) (toNat_lt x)

/-- The repaired `full` with at least as many limbs in the numerator as in the divisor. -/
theorem full_ge (hw : 0 < w) {x y : Limbs w} (hl : y.length ≤ x.length) (hy : toNat y ≠ 0) :
    ∃ q r, full x y = .ok (q, r) ∧ q.length = x.length ∧ r.length = y.length ∧
      toNat q = toNat x / toNat y ∧ toNat r = toNat x % toNat y := by
  have hzy : isZero y 0 = true ↔ toNat y = 0 := by rw [isZero_iff, List.drop_zero]
  have hy1 : 1 ≤ y.length := by
    cases y with
    | nil => simp at hy
    | cons a y => simp
  unfold full
  by_cases h1 : y.length = 1
  · obtain ⟨d, rfl⟩ := List.length_eq_one_iff.1 h1
    have hd : toNat [d] = d.toNat := by simp
    rw [hd] at hy ⊢
    rw [if_pos h1]
    obtain ⟨q, r, e, ql, rl, qv, rv⟩ := limbPadded_spec (N := [d].length) (by simp)
      (d := getLimb [d] 0) (by intro h; simp [getLimb] at h; rw [h] at hy; simp at hy) x
    exact ⟨q, r, e, ql, rl, by simpa [getLimb] using qv, by simpa [getLimb] using rv⟩
  rw [if_neg h1, if_neg (fun h => hy (hzy.1 h)), cmp_spec hl]
  rcases Nat.lt_trichotomy (toNat x) (toNat y) with h | h | h
  · rw [Nat.compare_eq_lt.2 h]
    have hs := toNat_split x hl
    refine ⟨_, _, rfl, by simp, by simp; omega, ?_, ?_⟩
    · rw [toNat_replicate_zero, Nat.div_eq_of_lt h]
    · rw [toNat_take_small hl (lt_trans h (toNat_lt y)), Nat.mod_eq_of_lt h]
  · rw [Nat.compare_eq_eq.2 h]
    obtain ⟨a1, a2⟩ := scalar1_spec (N := x.length) (by omega) (1 : BitVec w)
    obtain ⟨b1, b2⟩ := scalar1_spec (N := y.length) (by omega) (0 : BitVec w)
    refine ⟨_, _, rfl, a1, b1, ?_, ?_⟩
    · rw [a2, h, Nat.div_self (by omega)]
      simpa using Nat.mod_eq_of_lt (one_lt_two_pow' hw)
    · rw [b2, h, Nat.mod_self]; simp
  · rw [Nat.compare_eq_gt.2 h]
    have hz : isZero x 0 = false := by
      by_contra hc
      have := (isZero_iff x 0).1 (by simpa using hc)
      rw [List.drop_zero] at this
      omega
    simp only [hz, Bool.false_eq_true, if_false]
    exact fullGt_spec hw hy h hy1 hl

theorem fullAny_spec (hw : 0 < w) (x y : Limbs w) :
    Yields (toNat y = 0)
      (fun r => (r.1.length = x.length ∧ toNat r.1 = toNat x / toNat y) ∧
        (r.2.length = y.length ∧ toNat r.2 = toNat x % toNat y)) (fullAny x y) := by
  have hzy : isZero y 0 = true ↔ toNat y = 0 := by rw [isZero_iff, List.drop_zero]
  unfold fullAny
  refine ⟨fun h => by rw [if_pos (hzy.2 h)], fun hy => ?_⟩
  rw [if_neg (fun h => hy (hzy.1 h))]
  split
  · rename_i hl
    obtain ⟨q, r, e, ql, rl, qv, rv⟩ := full_ge hw (x := x ++ List.replicate (y.length - x.length) 0)
      (y := y) (by simp; omega) hy
    rw [toNat_padded] at qv rv
    rw [List.length_append, List.length_replicate] at ql
    rw [e, Res.map_ok]
    refine ⟨_, rfl, ⟨by rw [List.length_take]; omega, ?_⟩, rl, rv⟩
    rw [← qv]
    exact toNat_take_small (by omega) (by rw [qv]; exact quot_lt x _)
  · obtain ⟨q, r, e, ql, rl, qv, rv⟩ := full_ge hw (x := x) (y := y) (by omega) hy
    exact ⟨_, e, ⟨ql, qv⟩, rl, rv⟩

theorem wideAny_spec (hw : 0 < w) (x : Limbs w) (d : BitVec (w + w)) :
    Yields (d.toNat = 0)
      (fun r => (r.1.length = x.length ∧ toNat r.1 = toNat x / d.toNat) ∧
        r.2.toNat = toNat x % d.toNat) (wideAny x d) := by
  unfold wideAny
  split
  · rename_i hl
    have h := wideDiv_spec hw (x := x ++ List.replicate (2 - x.length) 0) (by simp; omega) d
    refine h.map ?_
    rw [toNat_padded]
    rintro ⟨q, r⟩ ⟨⟨ql, qv⟩, rv⟩
    rw [List.length_append, List.length_replicate] at ql
    simp only at ql qv rv ⊢
    refine ⟨⟨by rw [List.length_take]; omega, ?_⟩, rv⟩
    rw [← qv]
    exact toNat_take_small (by omega) (by rw [qv]; exact quot_lt x _)
  · exact wideDiv_spec hw (by omega) d

theorem fromU128Any_spec (x : Limbs 32) (d : BitVec 128) :
    Yields (d.toNat = 0)
      (fun r => (r.1.length = x.length ∧ toNat r.1 = toNat x / d.toNat) ∧
        r.2.toNat = toNat x % d.toNat) (fromU128Any x d) := by
  unfold fromU128Any
  split
  · rename_i hl
    have h := fromU128_spec (x := x ++ List.replicate (4 - x.length) 0) (by simp; omega) d
    refine h.map ?_
    rw [toNat_padded]
    rintro ⟨q, r⟩ ⟨⟨ql, qv⟩, rv⟩
    rw [List.length_append, List.length_replicate] at ql
    simp only at ql qv rv ⊢
    refine ⟨⟨by rw [List.length_take]; omega, ?_⟩, rv⟩
    rw [← qv]
    exact toNat_take_small (by omega) (by rw [qv]; exact quot_lt x _)
  · exact fromU128_spec (by omega) d

/-! ## Multiplication -/

/-- Sign and magnitude: the flag and the value of a product, from the product of the absolute values. -/
theorem signMagnitude (hw : 0 < w) {N : Nat} (hN : 0 < N) {m : Int} (hm : 0 ≤ m) {p : Limbs w × Bool}
    (hp : OverU N m p) (neg : Bool) :
    OverS N (if neg then -m else m)
      (if !neg then (p.1, p.2 || (msLimb p.1).slt 0)
        else (negate p.1, p.2 || ((msLimb p.1).slt 0 ^^ (p.1 == I.minValue w p.1.length)))) := by
  obtain ⟨r, o⟩ := p
  obtain ⟨hr, hf⟩ := hp
  simp only at hr hf ⊢
  have hrl := hr.1
  have hrne : r ≠ [] := length_ne (n := 0) (by omega)
  have hneg := isNegative_iff hw hrne
  rw [I.isNegative] at hneg
  have hmin := minValueS hw (N := r.length) (by omega)
  have hpos : 0 < w * N := Nat.mul_pos hw hN
  have hp := two_pow_pred (w := w * N) hpos
  have hval : o = false → (toNat r : Int) = m := by
    intro h
    rw [hr.2, emod_of_InU]
    by_contra hc
    rw [hf.2 hc] at h
    simp at h
  have hlt := toNat_lt_int r
  rw [bits, hrl] at hlt
  have hcase := toInt_cases r
  rw [bits, hrl] at hcase
  rw [hrl] at hmin
  have hisMin : (r == I.minValue w r.length) = true ↔ toInt r = -2 ^ (w * N - 1) := by
    rw [beq_iff_eq, hrl]
    exact ⟨fun h => by rw [h]; exact hmin.2, fun h => toInt_inj (by rw [hmin.1, hrl]) (h.trans hmin.2.symm)⟩
  have hS : ∀ z, InS (w * N) z ↔ -2 ^ (w * N - 1) ≤ z ∧ z < 2 ^ (w * N - 1) := by
    intro z; unfold InS; rw [hp]; omega
  have hU : ∀ z, InU (w * N) z ↔ 0 ≤ z ∧ z < 2 * 2 ^ (w * N - 1) := by
    intro z; unfold InU; rw [hp]
  rw [hU] at hf
  rw [hp] at hcase hlt
  have hin := toInt_InS r
  rw [bits, hrl, hS] at hin
  cases neg
  · simp only [Bool.not_false, if_true, Bool.false_eq_true, if_false]
    refine ⟨hr.wrapS, ?_⟩
    rw [hS]
    generalize (2 : Int) ^ (w * N - 1) = Q at *
    generalize (msLimb r).slt 0 = b1 at *
    cases o <;> cases b1 <;> simp at * <;> omega
  · simp only [Bool.not_true, if_true, Bool.false_eq_true, if_false]
    refine ⟨?_, ?_⟩
    · have h := negateU hw r
      rw [hrl] at h
      refine WrapU.wrapS (h.congr ?_)
      rw [hr.2]
      exact (Int.mod_modEq _ _).neg
    rw [hS]
    generalize (2 : Int) ^ (w * N - 1) = Q at *
    generalize (msLimb r).slt 0 = b1 at *
    generalize (r == I.minValue w r.length) = b2 at *
    cases o <;> cases b1 <;> cases b2 <;> simp at * <;> omega

/-- The repaired signed `overflowing_full` for operands of any lengths. -/
theorem overflowingFullS_any (hw : 0 < w) {x y : Limbs w} (hx : x ≠ []) (hy : y ≠ []) :
    OverS x.length (toInt x * toInt y) (overflowingFullS x y) := by
  have ax := Mul.absLimbs hw hx
  have ay := Mul.absLimbs hw hy
  have nx := isNegative_iff hw hx
  have ny := isNegative_iff hw hy
  rw [I.isNegative] at nx ny
  have hlx := List.length_pos_iff.2 hx
  have hly := List.length_pos_iff.2 hy
  unfold overflowingFullS
  simp only
  generalize (if (msLimb x).slt 0 then negate x else x) = x' at *
  generalize (if (msLimb y).slt 0 then negate y else y) = y' at *
  have ho := Mul.overU x' y' (by rw [ay.1]; exact hly)
  rw [ax.1, ax.2, ay.2] at ho
  have h := signMagnitude hw hlx (by positivity) ho ((msLimb x).slt 0 ^^ (msLimb y).slt 0)
  have hz : (if ((msLimb x).slt 0 ^^ (msLimb y).slt 0) = true then -(|toInt x| * |toInt y|)
      else |toInt x| * |toInt y|) = toInt x * toInt y := by
    by_cases h1 : toInt x < 0 <;> by_cases h2 : toInt y < 0
    · rw [nx.2 h1, ny.2 h2, abs_of_neg h1, abs_of_neg h2]; simp
    · have h2' : (msLimb y).slt 0 = false := by rw [← Bool.not_eq_true, ny]; exact h2
      rw [nx.2 h1, h2', abs_of_neg h1, abs_of_nonneg (by omega)]; simp
    · have h1' : (msLimb x).slt 0 = false := by rw [← Bool.not_eq_true, nx]; exact h1
      rw [ny.2 h2, h1', abs_of_neg h2, abs_of_nonneg (by omega)]; simp
    · have h1' : (msLimb x).slt 0 = false := by rw [← Bool.not_eq_true, nx]; exact h1
      have h2' : (msLimb y).slt 0 = false := by rw [← Bool.not_eq_true, ny]; exact h2
      rw [h1', h2', abs_of_nonneg (by omega), abs_of_nonneg (by omega)]; simp
  rw [hz] at h
  exact h

/-- The product of a signed with an unsigned number. -/
theorem overflowingFullSU_spec (hw : 0 < w) {x y : Limbs w} (hx : x ≠ []) (hy : y ≠ []) :
    OverS x.length (toInt x * toNat y) (overflowingFullSU x y) := by
  have ax := Mul.absLimbs hw hx
  have nx := isNegative_iff hw hx
  rw [I.isNegative] at nx
  have hlx := List.length_pos_iff.2 hx
  have hly := List.length_pos_iff.2 hy
  unfold overflowingFullSU
  simp only
  generalize (if (msLimb x).slt 0 then negate x else x) = x' at *
  have ho := Mul.overU x' y hly
  rw [ax.1, ax.2] at ho
  have h := signMagnitude hw hlx (by positivity) ho ((msLimb x).slt 0)
  have hz : (if (msLimb x).slt 0 = true then -(|toInt x| * (toNat y : Int)) else |toInt x| * toNat y) =
      toInt x * toNat y := by
    by_cases h1 : toInt x < 0
    · rw [nx.2 h1, abs_of_neg h1]; simp
    · have h1' : (msLimb x).slt 0 = false := by rw [← Bool.not_eq_true, nx]; exact h1
      rw [h1', abs_of_nonneg (by omega)]; simp
  rw [hz] at h
  exact h

/-! ## Shifts -/

open Raw Raw.Shift
open Raw.Div (Cfg)

theorem leftIn_same {x : Limbs w} {s : Nat} (h : ¬ (x.length = 2 ∧ 2 ≤ s >>> Nat.log2 w)) (cf : Cfg)
    (be : Bool) : Repair.leftIn cf be x s = Raw.Shift.leftIn cf be x s := by
  have e : (x.length = 2 ∧ s >>> Nat.log2 w < 2) = (x.length = 2) :=
    propext ⟨fun h => h.1, fun h2 => ⟨h2, by omega⟩⟩
  unfold Repair.leftIn Raw.Shift.leftIn
  simp only [e]

theorem rightIn_same {x : Limbs w} {s : Nat} (h : ¬ (x.length = 2 ∧ 2 ≤ s >>> Nat.log2 w)) (cf : Cfg)
    (be sg : Bool) : Repair.rightIn cf be sg x s = Raw.Shift.rightIn cf be sg x s := by
  have e : (x.length = 2 ∧ s >>> Nat.log2 w < 2) = (x.length = 2) :=
    propext ⟨fun h => h.1, fun h2 => ⟨h2, by omega⟩⟩
  unfold Repair.rightIn Raw.Shift.rightIn
  simp only [e]

theorem leftIn_da (hw : 0 < w) {x : Limbs w} (h32 : x.length * w < 2 ^ 32) {cf : Cfg} (hd : cf.da = true)
    (be : Bool) {s : Nat} (hs : x.length * w ≤ s) : Repair.leftIn cf be x s = .panic := by
  unfold Repair.leftIn
  simp only [mul32_ok (cf := cf) hw h32, Res.mbind_ok, hd, if_true, assert]
  rw [if_neg (show ¬ decide (s < x.length * w) = true by simpa using hs)]
  split <;> rfl

theorem rightIn_da (hw : 0 < w) {x : Limbs w} (h32 : x.length * w < 2 ^ 32) {cf : Cfg} (hd : cf.da = true)
    (be sg : Bool) {s : Nat} (hs : x.length * w ≤ s) : Repair.rightIn cf be sg x s = .panic := by
  unfold Repair.rightIn
  simp only [mul32_ok (cf := cf) hw h32, Res.mbind_ok, hd, if_true, assert]
  rw [if_neg (show ¬ decide (s < x.length * w) = true by simpa using hs)]
  split <;> rfl

theorem leftIn_out (hk : w = 2 ^ k) {cf : Cfg} (hd : cf.da = false) (be : Bool) {x : Limbs w}
    (h2 : 2 ≤ x.length) {s : Nat} (hs : x.length * w ≤ s) :
    Repair.leftIn cf be x s = .ok (List.replicate x.length 0) := by
  have hW : 0 < w := by rw [hk]; positivity
  have hl := le_limbN hk hs
  have hb := bitsN_lt hW s
  unfold Repair.leftIn
  simp only [hd, Bool.false_eq_true, if_false, assert_ok (show decide (x.length ≥ 2) = true from
    decide_eq_true (by omega)), Res.mbind_ok, usub_ok (Nat.le_of_lt hb),
    if_neg (show ¬ (x.length = 2 ∧ s >>> w.log2 < 2) by omega)]
  rw [loop_done (by simpa using hl), loop_done (by simpa using hl)]
  split <;> rfl

theorem rightIn_out (hk : w = 2 ^ k) {cf : Cfg} (hd : cf.da = false) (be sg : Bool) {x : Limbs w}
    (h2 : 2 ≤ x.length) {s : Nat} (hs : x.length * w ≤ s) :
    Repair.rightIn cf be sg (mem be x) s =
      .ok (List.replicate x.length (if sg && (msLimb x).slt 0 then BitVec.allOnes w else 0)) := by
  have hW : 0 < w := by rw [hk]; positivity
  have hl := le_limbN hk hs
  have hb := bitsN_lt hW s
  unfold Repair.rightIn
  simp only [mem_length, hd, Bool.false_eq_true, if_false, assert_ok (show decide (x.length ≥ 2) = true from
    decide_eq_true (by omega)), Res.mbind_ok, usub_ok (Nat.le_of_lt hb),
    usub_ok (show 1 ≤ x.length by omega), rd_limb be (show x.length - 1 < x.length by omega),
    if_neg (show ¬ (x.length = 2 ∧ s >>> w.log2 < 2) by omega)]
  rw [loop_done (by simpa using hl), loop_done (by simpa using hl)]
  split <;> rfl

end Repair

end I256
