import Verif.SpecMath
import Verif.SpecGap
import Verif.Lemmas.RawMul
import Verif.Lemmas.RawRun
import Verif.Lemmas.Scalar
import Verif.Lemmas.Fixed

/-!
# Sums, differences and products of arrays of any lengths
-/

namespace I256

variable {w : Nat}

theorem extUW_two (y : BitVec (w + w)) : toInt (extUW 2 y) = y.toInt := by
  unfold toInt
  rw [extUW_toNat, BitVec.toInt_eq_toNat_cond, bits, extUW_length (Nat.le_refl 2),
    show w * 2 = w + w by omega]
  split <;> simp

theorem extU_one (y : BitVec w) : toInt (extU 1 y) = y.toInt := by
  rw [show extU 1 y = [y] from rfl, toInt_singleton]

namespace Raw

theorem assert_panic {α : Type} {b : Bool} (h : b = false) (k : Unit → Res α) :
    (assert b >>= k) = .panic := by
  subst h; rfl

theorem rhsUW_panic (be : Bool) (hw : 0 < w) {n : Nat} (hn : n < 2) (y : BitVec (w + w)) :
    rhsUW be n y = .panic := by
  unfold rhsUW
  rcases (show n = 0 ∨ n = 1 by omega) with rfl | rfl
  · cases be <;> rfl
  · rw [wr_rep be (by omega), Res.mbind_ok]
    unfold shr
    rw [if_pos (by omega), Res.mbind_ok, wr_panic be (by simp)]

theorem rhsIW_panic (be : Bool) (hw : 0 < w) {n : Nat} (hn : n < 2) (y : BitVec (w + w)) :
    rhsIW be n y = .panic := by
  unfold rhsIW
  rcases (show n = 0 ∨ n = 1 by omega) with rfl | rfl
  · cases be <;> rfl
  · rw [wr_rep be (by omega), Res.mbind_ok]
    unfold shr
    rw [if_pos (by omega), Res.mbind_ok, wr_panic be (by simp)]

theorem rhsI_zero (be : Bool) (y : BitVec w) : rhsI be 0 y = .panic := by
  cases be <;> rfl

theorem Mul.overflowingFullS_panic (be : Bool) {x y : Limbs w} (h : y.length = 0 ∨ x.length < y.length) :
    Mul.overflowingFullS be (mem be x) (mem be y) = .panic := by
  have hn : ∀ z : Limbs w, z.length = 0 → isNegative be (mem be z) = .panic := by
    intro z hz
    rw [isNegative, mem_length, hz]
    rfl
  unfold Mul.overflowingFullS
  by_cases hx : x.length = 0
  · rw [hn x hx]; rfl
  rw [isNegative_ok be (List.length_pos_iff.1 (by omega)), Res.mbind_ok]
  by_cases hy : y.length = 0
  · rw [hn y hy]; rfl
  rw [isNegative_ok be (List.length_pos_iff.1 (by omega)), Res.mbind_ok]
  have hp : ∀ {α : Type} (x' y' : Limbs w) (k : Limbs w × Bool → Res α), x'.length = x.length → y'.length = y.length →
      (Mul.overflowingFull be (mem be x') (mem be y') >>= k) = .panic := by
    intro α x' y' k hx' hy'
    rw [show Mul.overflowingFull be (mem be x') (mem be y') = .panic from
      assert_panic (by simp only [mem_length]; simp; omega) _]
    rfl
  cases (msLimb x).slt 0 <;> cases (msLimb y).slt 0 <;>
    simp only [if_true, Bool.false_eq_true, if_false, negate_ok be x (by omega), negate_ok be y (by omega),
      Res.mbind_ok]
  · exact hp _ _ _ rfl rfl
  · exact hp _ _ _ rfl (Mul.negate_length y)
  · exact hp _ _ _ (Mul.negate_length x) rfl
  · exact hp _ _ _ (Mul.negate_length x) (Mul.negate_length y)

end Raw

/-- The difference of the two readings of an array. -/
theorem toNat_sub_toInt (y : Limbs w) :
    (toNat y : Int) = toInt y + if 0 ≤ toInt y then 0 else 2 ^ (w * y.length) := by
  have h := toInt_InS y
  have h2 := toNat_lt_int y
  unfold InS at h
  have h3 := toInt_emod_toNat y
  rw [show bits y = w * y.length from rfl] at h h2 h3
  split
  · rw [h3, Int.emod_eq_of_lt (by omega) (by omega)]; omega
  · rw [h3, ← Int.add_emod_right, Int.emod_eq_of_lt (by omega) (by omega)]

theorem Mul.rowsO_nil (x : Limbs w) (n : Nat) :
    Mul.rowsO x [] (List.replicate n 0) = (List.replicate n 0, false) := by
  induction x generalizing n with
  | nil => rfl
  | cons a xs ih =>
    rw [Mul.rowsO, Raw.Mul.rowO_eq, Raw.Mul.row_eq]
    cases n with
    | zero => simp [Raw.Mul.macC, Mul.dropped]
    | succ n =>
      have := ih n
      simp only [BitVec.ofNat_eq_ofNat] at this
      simp [Raw.Mul.macC, List.replicate_succ, this]

theorem Mul.overflowingFull_nil (x : Limbs w) :
    Mul.overflowingFull x [] = (List.replicate x.length 0, false) :=
  Mul.rowsO_nil x x.length

theorem Mul.overU' (x y : Limbs w) :
    OverU x.length ((toNat x : Int) * toNat y) (Mul.overflowingFull x y) := by
  by_cases h : 0 < y.length
  · exact Mul.overU x y h
  · obtain rfl := List.length_eq_zero_iff.1 (show y.length = 0 by omega)
    rw [Mul.overflowingFull_nil]
    refine ⟨⟨by simp, ?_⟩, by simp [InU]⟩
    show ((toNat (List.replicate x.length 0) : Nat) : Int) = _
    rw [toNat_replicate_zero]
    simp

theorem Mul.wrapU' (x y : Limbs w) :
    WrapU x.length ((toNat x : Int) * toNat y) (Mul.wrappingFull x y) := by
  have := (Mul.overU' x y).1
  rwa [Mul.overflowingFull_fst] at this

end I256
