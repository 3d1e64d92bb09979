import Verif.Model.Traits
import Verif.Props.AddSub
import Verif.Props.Casts
import Verif.Props.GapAll
import Verif.Props.Mul
import Verif.Props.Sign

/-!
# C72: trait implementations

`w = 32 ∨ w = 64` are the limb sizes the code accepts; `pw` is the pointer width, at most 128.
-/

namespace I256

open Sample

variable {w N : Nat} {x y : Limbs w}

/-- The integer operation a trait is named for. -/
def Traits.Arith.val : Traits.Arith → Int → Int → Int
  | .add, a, b => a + b
  | .sub, a, b => a - b
  | .mul, a, b => a * b

/-- C72: `WrappingAdd/Sub/Mul`, `CheckedAdd/Sub/Mul`, `SaturatingAdd/Sub/Mul` of the unsigned
types compute the operation they are named for, in the way they are named for. -/
theorem C72_uint_arith (hw : 0 < w) (hl : x.length = y.length) (h2 : x.length % 2 = 0)
    (h4 : 4 ≤ x.length) (op : Traits.Arith) :
    WrapU x.length (op.val (toNat x) (toNat y)) (Traits.uWrapping op x y) ∧
    CheckU x.length (op.val (toNat x) (toNat y)) (Traits.uChecked op x y) ∧
    SatU x.length (op.val (toNat x) (toNat y)) (Traits.uSaturating op x y) := by
  have hx : x ≠ [] := by rintro rfl; simp at h4
  cases op
  · exact ⟨C01_uint_wrapping_add hw hl, C02_uint_checked_add hw hl, C02_uint_saturating_add hw hl⟩
  · exact ⟨C01_uint_wrapping_sub hw hl, C02_uint_checked_sub hw hl, C02_uint_saturating_sub hw hl⟩
  · exact ⟨C06_uint_wrapping_mul hx hl, C07_uint_checked_mul hw hl h2 h4,
      (C07_uint_saturating_strict_mul hw hl h2 h4).1⟩

example := C72_uint_arith (x := ones) (y := a) (by decide) (by decide) (by decide) (by decide) .sub
example : Traits.uChecked .sub one a = none ∧ Traits.uWrapping .sub zero one = ones ∧
    Traits.uSaturating .sub one a = zero ∧ Traits.uSaturating .mul ones a = ones := by
  decide +kernel

/-- C72, signed types. The results for products are those of C08: the exact ones, except that
products just below the minimum (`Mul.Gap`) are taken for representable. -/
theorem C72_int_arith (hw : 1 < w) (hx : x ≠ []) (hl : x.length = y.length) (op : Traits.Arith) :
    WrapS x.length (op.val (toInt x) (toInt y)) (Traits.iWrapping op x y) ∧
    (op ≠ .mul → CheckS x.length (op.val (toInt x) (toInt y)) (Traits.iChecked op x y) ∧
      SatS x.length (op.val (toInt x) (toInt y)) (Traits.iSaturating op x y)) ∧
    (op = .mul → CheckG x.length (toInt x * toInt y) (Traits.iChecked op x y) ∧
      SatG x.length (toInt x * toInt y) (Traits.iSaturating op x y)) := by
  cases op
  · exact ⟨C03_int_wrapping_add (by omega) hl, fun _ => ⟨C03_int_checked_add hw hx hl,
      C03_int_saturating_add hw hx hl⟩, fun h => nomatch h⟩
  · exact ⟨C03_int_wrapping_sub (by omega) hl, fun _ => ⟨C03_int_checked_sub hw hx hl,
      C03_int_saturating_sub hw hx hl⟩, fun h => nomatch h⟩
  · have h := C08_int_mul_all_partial (by omega) hx hl true
    exact ⟨C06_int_wrapping_mul hx hl, fun h => absurd rfl h, fun _ => ⟨h.2.1, h.2.2.1⟩⟩

example := C72_int_arith (x := top) (y := m2) (by decide) (by decide) (by decide) .mul
example : Traits.iChecked .add maxS one = none ∧ Traits.iSaturating .add maxS one = maxS ∧
    Traits.iSaturating .sub top one = top ∧ Traits.iWrapping .mul m2 m2 = [4, 0, 0, 0] := by
  decide +kernel

/-- C72: `Bounded::min_value` and `max_value` are the least and the greatest representable number;
`Zero::zero` is 0 and `One::one` is 1, for both kinds of type. -/
theorem C72_bounds (hw : w = 32 ∨ w = 64) (hN : 4 ≤ N) (hB : 128 < w * N) :
    ExactU N 0 (Traits.uMinValue w N) ∧ ExactU N (2 ^ (w * N) - 1) (Traits.uMaxValue w N) ∧
    ExactS N (-2 ^ (w * N - 1)) (Traits.iMinValue w N) ∧
    ExactS N (2 ^ (w * N - 1) - 1) (Traits.iMaxValue w N) ∧
    ExactU N 0 (Traits.zero w N) ∧ ExactS N 0 (Traits.zero w N) ∧
    ExactU N 1 (Traits.one w N) ∧ ExactS N 1 (Traits.one w N) :=
  have h0 := C27_from_unsigned hw hN hB .b8 (0 : BitVec 8)
  have h1 := C27_from_unsigned hw hN hB .b8 (1 : BitVec 8)
  ⟨minValueU w N, maxValueU w N, minValueS (by omega) (by omega), maxValueS (by omega) (by omega),
    h0.1, h0.2, h1.1, h1.2⟩

example := C72_bounds (w := 64) (N := 4) (Or.inr rfl) (by decide) (by decide)
example : Traits.iMinValue 64 4 = top ∧ Traits.iMaxValue 64 4 = maxS ∧ Traits.one 64 4 = one := by
  decide

/-- C72: `From<bool>` gives 0 or 1 and `From<char>` the code point, for both kinds of type. -/
theorem C72_from_bool_char (hw : w = 32 ∨ w = 64) (hN : 4 ≤ N) (hB : 128 < w * N) (b : Bool)
    (c : Char) :
    ExactU N (if b then 1 else 0) (Traits.fromBool N b : Limbs w) ∧
    ExactS N (if b then 1 else 0) (Traits.fromBool N b : Limbs w) ∧
    ExactU N c.toNat (Traits.fromChar N c : Limbs w) ∧
    ExactS N c.toNat (Traits.fromChar N c : Limbs w) := by
  have h := C27_from_unsigned hw hN hB .b8 (BitVec.ofNat 8 b.toNat)
  have h' := C27_from_unsigned hw hN hB .b32 c.val.toBitVec
  refine ⟨?_, ?_, h'.1, h'.2⟩
  · cases b
    · exact h.1
    · exact h.1
  · cases b
    · exact h.2
    · exact h.2

example := C72_from_bool_char (w := 32) (N := 8) (Or.inl rfl) (by decide) (by decide) true 'é'
example : (Traits.fromBool 4 true : Limbs 64) = one ∧
    (Traits.fromChar 4 'A' : Limbs 64) = [65, 0, 0, 0] := by decide

/-- C72: the conversions with `as_` to `usize` and `isize` keep the value modulo `2^pw`. -/
theorem C72_as_size (hw : w = 32 ∨ w = 64) (h4 : 4 ≤ x.length) (hB : 128 ≤ w * x.length) {pw : Nat}
    (hpw : pw ≤ 128) :
    ((Traits.asSize pw x).toNat : Int) = (toNat x : Int) % 2 ^ pw ∧
    ((Traits.asSize pw x).toNat : Int) = toInt x % 2 ^ pw ∧
    (Traits.asSize pw x).toInt = Int.bmod (toNat x) (2 ^ pw) ∧
    (Traits.asSize pw x).toInt = Int.bmod (toInt x) (2 ^ pw) := by
  have h1 : (Traits.asSize pw x).toNat = toNat x % 2 ^ pw := by
    unfold Traits.asSize
    rw [BitVec.toNat_setWidth, asP_toNat hw h4]
    exact Nat.mod_mod_of_dvd _ (pow_dvd_pow 2 hpw)
  have hd : ((2:Int) ^ pw) ∣ 2 ^ bits x := pow_dvd_pow 2 (by
    have : bits x = w * x.length := rfl
    omega)
  have h2 : toInt x % 2 ^ pw = (toNat x : Int) % 2 ^ pw := (toInt_modEq x).of_dvd hd
  have hb : ∀ z : Int, z % 2 ^ pw = (toNat x : Int) % 2 ^ pw →
      (Traits.asSize pw x).toInt = Int.bmod z (2 ^ pw) := by
    intro z hz
    rw [BitVec.toInt_eq_toNat_bmod, h1]
    push_cast
    rw [← hz]
    have := Int.emod_bmod z (2 ^ pw)
    push_cast at this
    exact this
  exact ⟨by rw [h1]; push_cast; rfl, by rw [h2, h1]; push_cast; rfl, hb _ rfl, hb _ h2⟩

example := C72_as_size (x := m2) (pw := 32) (Or.inr rfl) (by decide) (by decide) (by decide)
example : Traits.asSize 32 m2 = 0xfffffffe#32 ∧ Traits.asSize 64 a = 0xffffffffffffffff#64 := by
  decide

/-- C72: `usize` and `isize` are converted with their value: `as_` and `from_usize`, `from_isize`;
the unsigned types refuse negative numbers in `from_isize`, and wrap them in `as_`. -/
theorem C72_from_size (hw : w = 32 ∨ w = 64) (hN : 4 ≤ N) (hB : 128 < w * N) {pw : Nat}
    (hpw : pw ≤ 128) (v : BitVec pw) :
    (ExactU N v.toNat (Traits.ofUsize N v : Limbs w) ∧
      ExactS N v.toNat (Traits.ofUsize N v : Limbs w)) ∧
    (ExactS N v.toInt (Traits.ofIsize N v : Limbs w) ∧
      WrapU N v.toInt (Traits.ofIsize N v : Limbs w)) ∧
    (CheckU N v.toNat (Traits.fromUsize N v : Option (Limbs w)) ∧
      CheckS N v.toNat (Traits.fromUsize N v : Option (Limbs w))) ∧
    CheckS N v.toInt (Traits.iFromIsize N v : Option (Limbs w)) ∧
    CheckU N v.toInt (Traits.uFromIsize N v : Option (Limbs w)) := by
  have h1 := C27_from_unsigned (w := w) hw hN hB .b128 (v.setWidth 128)
  rw [setWidth_toNat hpw] at h1
  have h2 := C27_from_signed (w := w) hw hN .b128 (v.signExtend 128)
  rw [BitVec.toInt_signExtend_of_le hpw] at h2
  refine ⟨h1, h2, ⟨⟨fun _ => ⟨_, rfl, h1.1⟩, fun h => absurd h1.1.inU h⟩,
    ⟨fun _ => ⟨_, rfl, h1.2⟩, fun h => absurd h1.2.inS h⟩⟩,
    ⟨fun _ => ⟨_, rfl, h2.1⟩, fun h => absurd h2.1.inS h⟩, ?_⟩
  have h3 := (C46_uint_from_primitive (w := w) hw hN hB.le .b128 (v.signExtend 128)).1
  rw [BitVec.toInt_signExtend_of_le hpw] at h3
  have e : (Traits.uFromIsize N v : Option (Limbs w)) =
      Cast.uFromPrimI N .b128 (v.signExtend 128) := by
    unfold Traits.uFromIsize Cast.uFromPrimI
    have : (0 : BitVec pw).sle v = (0 : BitVec 128).sle (v.signExtend 128) := by
      rw [Bool.eq_iff_iff, BitVec.sle_iff_toInt_le, BitVec.sle_iff_toInt_le,
        BitVec.toInt_signExtend_of_le hpw]
      simp
    rw [this]
  rw [e]; exact h3

example := C72_from_size (w := 64) (N := 4) (pw := 64) (Or.inr rfl) (by decide) (by decide)
  (by decide) (0xfffffffffffffffe#64)
example : (Traits.ofIsize 4 0xfffffffe#32 : Limbs 64) = m2 ∧
    (Traits.uFromIsize 4 0xfffffffe#32 : Option (Limbs 64)) = none ∧
    (Traits.ofUsize 4 0xfffffffe#32 : Limbs 64) = [0xfffffffe, 0, 0, 0] := by decide

/-- C72: unsigned `strict_neg` gives 0 for 0 and panics otherwise. -/
theorem C72_uint_strict_neg (hw : 0 < w) (h2 : x.length % 2 = 0) :
    StrictU x.length (-(toNat x : Int)) (U.strictNeg x) ∧
    (U.strictNeg x = if toNat x = 0 then .ok x else .panic) := by
  have h := C45_uint_neg (x := x) hw h2
  refine ⟨h.2.1.strict, ?_⟩
  unfold U.strictNeg
  rw [h.2.2]
  by_cases h0 : toNat x = 0 <;> simp [h0, unwrapOrPanic]

example := C72_uint_strict_neg (x := a) (by decide) (by decide)
example : U.strictNeg zero = .ok zero ∧ U.strictNeg one = .panic := by decide

/-- C72: the error of the standard library's parser that is met on the short path of `from_str`
(C29) keeps its kind, and no two kinds of error have the same text. -/
theorem C72_errors :
    (Traits.fromStd .empty = .empty ∧ Traits.fromStd .invalidDigit = .invalidDigit ∧
      Traits.fromStd .posOverflow = .posOverflow ∧ Traits.fromStd .negOverflow = .negOverflow ∧
      Traits.fromStd .zero = .zero) ∧
    (∀ k l, Traits.fromStd k = Traits.fromStd l → k = l) ∧
    ∀ k l, Traits.message k = Traits.message l → k = l := by
  refine ⟨by decide, ?_, ?_⟩
  · intro k l; cases k <;> cases l <;> decide
  · intro k l; cases k <;> cases l <;> decide

example := C72_errors.2.2 .empty .empty rfl
example : Traits.message (Traits.fromStd .posOverflow) = "number too large to fit in target type" :=
  rfl

end I256
