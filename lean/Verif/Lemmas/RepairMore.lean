import Verif.Repair.More
import Verif.Lemmas.RepairRest
import Verif.Lemmas.RepairDiv
import Verif.Lemmas.Fixed
import Verif.Lemmas.Misc
import Verif.Lemmas.Write

/-! Lemmas for the repairs of `Verif.Repair.More`. -/

namespace I256

variable {w k : Nat}

namespace Repair

open Div in
theorem fromU128_spec {x : Limbs 32} (h4 : 4 ≤ x.length) (d : BitVec 128) :
    Yields (d.toNat = 0)
      (fun r => (r.1.length = x.length ∧ toNat r.1 = toNat x / d.toNat) ∧
        r.2.toNat = toNat x % d.toNat) (fromU128 x d) := by
  have hw : 0 < 32 := by decide
  have hd00 : d = 0 ↔ d.toNat = 0 := by rw [BitVec.toNat_eq]; simp
  unfold fromU128
  rw [if_pos rfl]
  refine ⟨fun h => by rw [if_pos (hd00.2 h)], fun hd0 => ?_⟩
  have hd : d ≠ 0 := fun h => hd0 (hd00.1 h)
  rw [if_neg hd]
  have hsp := toNat_split x (i := 2) (by omega)
  obtain ⟨yl, yv⟩ := scalarU128_spec (N := x.length) (by omega) d
  have hdl := d.isLt
  have hmod : toNat x % d.toNat < 2 ^ 128 := lt_trans (Nat.mod_lt _ (by omega)) hdl
  by_cases hz : 2 ≤ x.length ∧ isZero x 2 = true
  · rw [if_pos hz]
    have hz' := (isZero_iff _ _).1 hz.2
    have hx : toNat x = toNat (x.take 2) := by rw [hsp, hz', Nat.mul_zero, Nat.add_zero]
    have hlow : (low2 x).toNat = toNat x := by rw [low2_toNat x (by omega), hx]
    have hlt : toNat x < 2 ^ (32 * 2) := by
      rw [← hlow]; exact (low2 x).isLt
    have hu : (u128Scalar x).toNat = toNat x := by
      rw [u128Scalar_toNat (by omega)]
      exact Nat.mod_eq_of_lt (lt_trans hlt (by decide))
    by_cases h0 : getLimb x 0 = 0 ∧ getLimb x 1 = 0
    · rw [if_pos h0]
      have hx0 : toNat x = 0 := by
        rw [← hlow, low2, h0.1, h0.2]; simp [wide]
      obtain ⟨a1, a2⟩ := scalar1_spec (N := x.length) (by omega) (0 : BitVec 32)
      exact ⟨_, rfl, ⟨a1, by rw [a2, hx0]; simp⟩, by rw [hx0]; simp⟩
    · rw [if_neg h0, nativeDivRem, if_neg hd, Res.bind_ok]
      obtain ⟨a1, a2⟩ := scalarU128_spec (N := x.length) (by omega) (u128Scalar x / d)
      exact ⟨_, rfl, ⟨a1, by rw [a2, BitVec.toNat_udiv, hu]⟩, by rw [BitVec.toNat_umod, hu]⟩
  · rw [if_neg hz]
    simp only []
    rw [cmp_spec (by omega), yv]
    rcases Nat.lt_trichotomy (toNat x) d.toNat with h | h | h
    · rw [Nat.compare_eq_lt.2 h]
      refine ⟨_, rfl, ⟨by simp, ?_⟩, ?_⟩
      · rw [toNat_replicate_zero, Nat.div_eq_of_lt h]
      · rw [List.take_of_length_le (le_refl _), Nat.mod_eq_of_lt h, u128Scalar_toNat (by omega)]
        exact Nat.mod_eq_of_lt (by omega)
    · rw [Nat.compare_eq_eq.2 h]
      obtain ⟨a1, a2⟩ := scalar1_spec (N := x.length) (by omega) (1 : BitVec 32)
      refine ⟨_, rfl, ⟨a1, ?_⟩, ?_⟩
      · rw [a2, h, Nat.div_self (by omega)]; rfl
      · rw [h, Nat.mod_self]; rfl
    · rw [Nat.compare_eq_gt.2 h]
      obtain ⟨q, r, e, ql, rl, qv, rv⟩ := fullGt_spec hw (x := x) (y := scalarU128 x.length d)
        (by rw [yv]; exact hd0) (by rw [yv]; exact h) (by omega) (by omega)
      simp only [e, Res.bind_ok]
      refine ⟨_, rfl, ⟨ql, by rw [qv, yv]⟩, ?_⟩
      rw [u128Scalar_toNat (by omega), rv, yv]
      exact Nat.mod_eq_of_lt hmod

/-! ### 128-bit scalars -/

/-- The four forms of an operation on `x` and the extended scalar `y`. -/
theorem forms {N : Nat} {z : Int} {s : Res (Limbs w)} {y : Limbs w} (f : Limbs w → Limbs w)
    (g : Limbs w → Limbs w × Bool) (oc : Bool) (hs : s = .ok y) (h1 : WrapS N z (f y))
    (h2 : OverS N z (g y)) :
    FormsS oc N z (s.map f) (s.map g) ((s.map g).map mkChecked)
      (fixOp oc (s.map f) ((s.map g).map mkChecked)) := by
  subst hs
  exact FormsS.mk' h1 h2

section
variable {x : Limbs 32} (hx : 256 ≤ 32 * x.length) (n : BitVec 128) (oc : Bool)
include hx

theorem splitU : ∃ y : Limbs 32, u128ToLimbN x.length n = .ok y ∧ x.length = y.length ∧
    toInt y = n.toNat := by
  obtain ⟨y, e, l, v⟩ := u128ToLimbN_spec (N := x.length) (by omega) n
  refine ⟨y, e, l.symm, ?_⟩
  have hv : toNat y = n.toNat := by exact_mod_cast v
  have hn := n.isLt
  rw [← hv]
  have hp : (2 : Nat) ^ 255 ≤ 2 ^ (bits y - 1) :=
    Nat.pow_le_pow_right (by decide) (by rw [bits, l]; omega)
  have : (2 : Nat) ^ 128 ≤ 2 ^ 255 := Nat.pow_le_pow_right (by decide) (by decide)
  have h2 : (2 : Nat) ^ bits y = 2 * 2 ^ (bits y - 1) := by
    rw [mul_comm, ← pow_succ, Nat.sub_add_cancel (by rw [bits, l]; omega)]
  unfold toInt
  rw [if_pos (by omega)]

theorem splitI : ∃ y : Limbs 32, i128ToLimbN x.length n = .ok y ∧ x.length = y.length ∧
    toInt y = n.toInt := by
  obtain ⟨y, e, l, v⟩ := i128ToLimbN_spec (N := x.length) (by omega) n
  exact ⟨y, e, l.symm, v⟩

theorem nonempty : x ≠ [] := by rintro rfl; simp at hx

theorem addSub128 :
    FormsS oc x.length (toInt x + n.toNat) (wrappingAddU128 x n) (overflowingAddU128 x n)
      (checkedAddU128 x n) (addU128 oc x n) ∧
    FormsS oc x.length (toInt x - n.toNat) (wrappingSubU128 x n) (overflowingSubU128 x n)
      (checkedSubU128 x n) (subU128 oc x n) ∧
    FormsS oc x.length (toInt x + n.toInt) (wrappingAddI128 x n) (overflowingAddI128 x n)
      (checkedAddI128 x n) (addI128 oc x n) ∧
    FormsS oc x.length (toInt x - n.toInt) (wrappingSubI128 x n) (overflowingSubI128 x n)
      (checkedSubI128 x n) (subI128 oc x n) := by
  obtain ⟨y, ey, yl, yv⟩ := splitU hx n
  obtain ⟨z, ez, zl, zv⟩ := splitI hx n
  have h0 := nonempty hx
  rw [← yv, ← zv]
  exact ⟨forms _ _ oc ey (Add.wrapS (by decide) yl) (Add.overS (by decide) h0 yl),
    forms _ _ oc ey (Sub.wrapS (by decide) yl) (Sub.overS (by decide) h0 yl),
    forms _ _ oc ez (Add.wrapS (by decide) zl) (Add.overS (by decide) h0 zl),
    forms _ _ oc ez (Sub.wrapS (by decide) zl) (Sub.overS (by decide) h0 zl)⟩

theorem mul128 :
    FormsS oc x.length (toInt x * n.toNat) (wrappingMulU128 x n) (overflowingMulU128 x n)
      (checkedMulU128 x n) (mulU128 oc x n) ∧
    FormsS oc x.length (toInt x * n.toInt) (wrappingMulI128 x n) (overflowingMulI128 x n)
      (checkedMulI128 x n) (mulI128 oc x n) := by
  obtain ⟨y, ey, yl, yv⟩ := splitU hx n
  obtain ⟨z, ez, zl, zv⟩ := splitI hx n
  have h0 := nonempty hx
  rw [← yv, ← zv]
  exact ⟨forms _ _ oc ey (Mul.wrapS x y (by omega) yl) (overflowingFullS_spec (by decide) h0 yl),
    forms _ _ oc ez (Mul.wrapS x z (by omega) zl) (overflowingFullS_spec (by decide) h0 zl)⟩

end

/-! ### Midpoint -/

theorem midpointS_spec {x y : Limbs w} (hk : w = 2 ^ k) (hl : x.length = y.length)
    (h2 : x.length % 2 = 0) (hx : x ≠ []) :
    ExactS x.length ((toInt x + toInt y) / 2) (midpointS x y) := by
  have hw := pow_pos_width hk
  have hxl := xor_length hl
  have hal := and_length hl
  have hs := toInt_sum hw hl hx
  have hlen := List.length_pos_iff.2 hx
  have hB : 1 < bits x := by
    have : 2 ≤ x.length := by omega
    have := Nat.mul_le_mul hw this
    rw [bits]; omega
  have hx1 : Bits.xor x y ≠ [] := List.ne_nil_of_length_pos (by rw [hxl]; exact hlen)
  have hsh := wrappingShrS hk (x := Bits.xor x y) (by omega) hx1 1
  rw [hxl, bits_eq_of_length hxl, Nat.mod_eq_of_lt hB, Int.pow_one] at hsh
  have ht := Add.wrapS (x := wrappingShr true (Bits.xor x y) 1) (y := Bits.and x y)
    hw (by rw [hsh.1, hal])
  rw [hsh.1, hsh.2] at ht
  have h1 := toInt_InS x
  have h3 := toInt_InS y
  rw [← bits_eq_of_length hl] at h3
  have he : toInt (Bits.xor x y) / 2 + toInt (Bits.and x y) = (toInt x + toInt y) / 2 := by omega
  rw [he] at ht
  obtain ⟨a1, a2⟩ := h1
  obtain ⟨b1, b2⟩ := h3
  have hBe : (2 : Int) ^ bits x = 2 * 2 ^ (bits x - 1) := by
    rw [mul_comm, ← pow_succ, Nat.sub_add_cancel (by omega)]
  exact ht.exact (by rw [show w * x.length = bits x from rfl]; constructor <;> omega)

/-! ### Scientific form -/

theorem stripZeros_eq (s : List Byte) :
    stripZeros s = (s.reverse.dropWhile (· == 48#8)).reverse := by
  induction s with
  | nil => rfl
  | cons c cs ih =>
    rw [stripZeros.eq_2, ih, List.reverse_cons, List.dropWhile_append]
    cases hd : List.dropWhile (· == 48#8) cs.reverse with
    | nil => by_cases h : c = 48#8 <;> simp [h]
    | cons a l =>
      simp only [List.isEmpty_cons, Bool.false_eq_true, if_false]
      cases hr : (a :: l).reverse with
      | nil => simp at hr
      | cons b m => simp [List.reverse_append, ← hr]

theorem exp_eq (e : Byte) (n : Nat) : exp e (numeral 10 n) = .ok (sciForm e n) := by
  unfold sciForm
  cases hs : numeral 10 n with
  | nil => exact absurd hs (numeral_ne_nil 10 n)
  | cons d ds =>
    simp only [List.tail_cons, List.take_succ_cons, List.take_zero, List.length_cons,
      Nat.add_sub_cancel, ← stripZeros_eq]
    unfold exp
    cases hz : stripZeros ds <;> simp [hz]

end Repair

end I256
