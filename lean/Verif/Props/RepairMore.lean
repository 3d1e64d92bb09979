import Verif.Lemmas.RepairMore
import Verif.Props.Samples
import Verif.Lemmas.DivClean

/-!
# C82, continued: division by 128-bit scalars, 128-bit scalars, midpoint, sign test, text

The functions are in `Verif/Repair/More.lean`.
-/

namespace I256

open Sample

variable {w k : Nat} {x y : Limbs w}

/-! ### Division by 128-bit scalars on 32-bit limbs (B2, B4) -/

/-- C82, C55: with the changed long division and a zero test, division of a number of 32-bit limbs by a
128-bit scalar panics exactly for zero and otherwise returns the exact quotient and remainder. -/
theorem C82_div_rem_u128 {x : Limbs 32} (h4 : 4 ≤ x.length) (d : BitVec 128) :
    Yields (d.toNat = 0)
      (fun r => ExactU x.length ((toNat x / d.toNat : Nat) : Int) r.1 ∧ r.2.toNat = toNat x % d.toNat)
      (Repair.fromU128 x d) := by
  refine (Repair.fromU128_spec h4 d).mono ?_
  rintro r ⟨⟨h1, h2⟩, h3⟩
  exact ⟨⟨h1, by rw [h2]⟩, h3⟩

example := C82_div_rem_u128 (x := b32) (by decide) (2 ^ 127 + 2 ^ 32 - 1)
/-- The stray part of a remainder and the quotient of a zero by zero are gone. -/
example : Div.fromU128 (w := 32) [0, 0, 0, 0x80000000, 0, 0, 0, 0] 0 = .panic ∧
    Div.fromU128 (w := 32) [0, 0, 0, 0, 0, 0, 0, 0] 0 = .ok ([0, 0, 0, 0, 0, 0, 0, 0], 0) ∧
    Repair.fromU128 (w := 32) [0, 0, 0, 0, 0, 0, 0, 0] 0 = .panic := by decide +kernel

/-! ### 128-bit scalars on 32-bit limbs (B1, B3, B12) -/

section
variable {x : Limbs 32} (hx : 256 ≤ 32 * x.length) (n : BitVec 128) (oc : Bool)
include hx

/-- C82, C41: with the limbs of the scalar in order and the kernel for equal lengths, signed addition and
subtraction of 128-bit scalars on 32-bit limbs are exact in all forms (in the crate they always panic). -/
theorem C82_int_add_sub_128 :
    FormsS oc x.length (toInt x + n.toNat) (Repair.wrappingAddU128 x n) (Repair.overflowingAddU128 x n)
      (Repair.checkedAddU128 x n) (Repair.addU128 oc x n) ∧
    FormsS oc x.length (toInt x - n.toNat) (Repair.wrappingSubU128 x n) (Repair.overflowingSubU128 x n)
      (Repair.checkedSubU128 x n) (Repair.subU128 oc x n) ∧
    FormsS oc x.length (toInt x + n.toInt) (Repair.wrappingAddI128 x n) (Repair.overflowingAddI128 x n)
      (Repair.checkedAddI128 x n) (Repair.addI128 oc x n) ∧
    FormsS oc x.length (toInt x - n.toInt) (Repair.wrappingSubI128 x n) (Repair.overflowingSubI128 x n)
      (Repair.checkedSubI128 x n) (Repair.subI128 oc x n) :=
  Repair.addSub128 hx n oc

/-- C82, C41: the same for signed multiplication, with the changed overflow flag. -/
theorem C82_int_mul_128 :
    FormsS oc x.length (toInt x * n.toNat) (Repair.wrappingMulU128 x n) (Repair.overflowingMulU128 x n)
      (Repair.checkedMulU128 x n) (Repair.mulU128 oc x n) ∧
    FormsS oc x.length (toInt x * n.toInt) (Repair.wrappingMulI128 x n) (Repair.overflowingMulI128 x n)
      (Repair.checkedMulI128 x n) (Repair.mulI128 oc x n) :=
  Repair.mul128 hx n oc

end

example := C82_int_add_sub_128 (x := b32) (by decide) (-(2 ^ 32)) true
example := C82_int_mul_128 (x := b32) (by decide) (-(2 ^ 32)) true
example : Repair.addU128 true (w := 32) [1, 0, 0, 0, 0, 0, 0, 0] (2 ^ 32) = .ok [1, 1, 0, 0, 0, 0, 0, 0] ∧
    I.addFixU true .b128 ([1, 0, 0, 0, 0, 0, 0, 0] : Limbs 32) (2 ^ 32) = .panic ∧
    Repair.mulI128 true (w := 32) [1, 0, 0, 0, 0, 0, 0, 0] (2 ^ 32) = .ok [0, 1, 0, 0, 0, 0, 0, 0] ∧
    I.mulFixI true .b128 ([1, 0, 0, 0, 0, 0, 0, 0] : Limbs 32) (2 ^ 32)
      = .ok [0, 0, 0, 1, 0, 0, 0, 0] := by decide +kernel

/-! ### Midpoint (B14) and `is_positive` (B15) -/

/-- C82, C43: without its last step the signed midpoint rounds towards negative infinity, as documented. -/
theorem C82_int_midpoint (hk : w = 2 ^ k) (hl : x.length = y.length) (h2 : x.length % 2 = 0)
    (hx : x ≠ []) : ExactS x.length ((toInt x + toInt y) / 2) (Repair.midpointS x y) :=
  Repair.midpointS_spec hk hl h2 hx

example := C82_int_midpoint (k := 6) (x := m2) (y := one) (by decide) (by decide) (by decide) (by decide)
example : toInt (Repair.midpointS m2 one) = -1 ∧ toInt (I.midpoint m2 one) = 0 := by decide +kernel

/-- C82, C50: with `>` the num-traits sign test is true exactly for positive numbers. -/
theorem C82_is_positive (hw : 1 < w) (h2 : x.length % 2 = 0) (h4 : 4 ≤ x.length) :
    Repair.isPositive x = true ↔ 0 < toInt x := by
  obtain ⟨l, h0⟩ := ofU8S (w := w) (N := x.length) (v := 0) (by omega) (by omega) (by positivity)
  rw [Repair.isPositive, Ord.gt, Bool.not_eq_true', ← Bool.not_eq_true,
    Ord.le_iff (by omega) true l.symm h2 h4]
  simp only [Ord.val, if_true, h0]; simp

example := C82_is_positive (x := m2) (by decide) (by decide) (by decide)
example : Repair.isPositive zero = false ∧ NumSigned.isPositive zero = true ∧
    Repair.isPositive one = true ∧ Repair.isPositive m2 = false := by decide +kernel

/-! ### Text (B8, B16) -/

section
variable (hw : w = 32 ∨ w = 64) (h4 : 4 ≤ x.length) (he : x.length % 2 = 0)
include hw h4 he

/-- C82, C47: with the zeros at the end of the fraction dropped, the scientific form is that of the
primitive integers for every value. -/
theorem C82_exp (oc : Bool) (e : Byte) (f : Write.Flags) :
    Repair.fmtExpU oc e x = .ok (sciForm e (toNat x)) ∧
    Repair.fmtExpS oc e f x =
      .ok ((if toInt x < 0 then ascii "-" else if f.signPlus then ascii "+" else []) ++
        sciForm e (toInt x).natAbs) := by
  have hu : ∀ {y : Limbs w}, 4 ≤ y.length → y.length % 2 = 0 →
      Repair.fmtExpU oc e y = .ok (sciForm e (toNat y)) := by
    intro y h1 h2
    rw [Repair.fmtExpU, U.toStrRadix_spec hw h1 h2 (by decide) (by decide) oc _ le_rfl]
    exact Repair.exp_eq e _
  obtain ⟨l, v⟩ := I.abs_val hw h4 he
  refine ⟨hu h4 he, ?_⟩
  rw [Repair.fmtExpS, hu (by omega) (by omega), v, I.fmtSign_eq hw h4]
  rfl

/-- C82, C52: with the digits handed to `pad_integral`, the flags have the same effect as for the
primitive integers, for every value. -/
theorem C82_flags (oc : Bool) (f : Write.Flags) :
    Repair.fmtU oc f 10 [] id x = .ok (padIntegral f false [] (numeral 10 (toNat x))) ∧
    Repair.fmtU oc f 2 (ascii "0b") id x =
      .ok (padIntegral f false (ascii "0b") (numeral 2 (toNat x))) ∧
    Repair.fmtU oc f 8 (ascii "0o") id x =
      .ok (padIntegral f false (ascii "0o") (numeral 8 (toNat x))) ∧
    Repair.fmtU oc f 16 (ascii "0x") Write.toUpper x =
      .ok (padIntegral f false (ascii "0x") (numeral 16 (toNat x))) ∧
    Repair.fmtU oc f 16 (ascii "0x") Write.toLower x =
      .ok (padIntegral f false (ascii "0x") ((numeral 16 (toNat x)).map lowerByte)) ∧
    Repair.fmtDisplayS oc f x =
      .ok (padIntegral f (decide (toInt x < 0)) [] (numeral 10 (toInt x).natAbs)) := by
  have hu : ∀ (r : BitVec 32) (pre : List Byte) (up : Byte → Byte), 2 ≤ r.toNat → r.toNat ≤ 36 →
      Repair.fmtU oc f r pre up x =
        .ok (padIntegral f false pre ((numeral r.toNat (toNat x)).map up)) := by
    intro r pre up h1 h2
    rw [Repair.fmtU, U.toStrRadix_spec hw h4 he h1 h2 oc _ le_rfl]
    rfl
  obtain ⟨l, v⟩ := I.abs_val hw h4 he
  have hup : (numeral 16 (toNat x)).map Write.toUpper = numeral 16 (toNat x) := by
    conv => rhs; rw [← List.map_id (numeral 16 (toNat x))]
    apply List.map_congr_left
    intro c hc
    obtain ⟨d, hd, e⟩ := numeral_mem (by decide) hc
    exact toUpper_of_digit ⟨d, by omega, e⟩
  refine ⟨?_, ?_, ?_, ?_, ?_, ?_⟩
  · rw [hu 10 _ _ (by decide) (by decide), List.map_id]; rfl
  · rw [hu 2 _ _ (by decide) (by decide), List.map_id]; rfl
  · rw [hu 8 _ _ (by decide) (by decide), List.map_id]; rfl
  · rw [hu 16 _ _ (by decide) (by decide)]
    change Res.ok (padIntegral f false (ascii "0x") ((numeral 16 (toNat x)).map Write.toUpper)) = _
    rw [hup]
  · rw [hu 16 _ _ (by decide) (by decide)]; rfl
  · rw [Repair.fmtDisplayS, show bits x = bits (I.unsignedAbs x) from (bits_eq_of_length l).symm,
      U.toStrRadix_spec hw (by omega) (by omega) (by decide) (by decide) oc _ le_rfl, v,
      isNegative_eq (by omega) (length_ne (n := 0) (show x.length > 0 by omega))]
    rfl

end

example := C82_exp (x := m2) (Or.inr rfl) (by decide) (by decide) true 101 { signPlus := true }
example := C82_flags (x := m2) (Or.inr rfl) (by decide) (by decide) true
  { alternate := true, width := some 90 }
example : Repair.fmtExpU true 101 (ofU8 4 200 : Limbs 64) = .ok (ascii "2e2") ∧
    U.fmtLowerExp true {} (ofU8 4 200 : Limbs 64) = .ok (ascii "2.00e2") ∧
    Repair.fmtExpS true 69 {} (ofI8 4 (-120) : Limbs 64) = .ok (ascii "-1.2E2") ∧
    Repair.fmtU true { alternate := true, width := some 8 } 16 (ascii "0x") Write.toLower
      (ofU8 4 255 : Limbs 64) = .ok (ascii "    0xff") ∧
    Repair.fmtDisplayS true { width := some 5, zero := true } (ofI8 4 (-7) : Limbs 64)
      = .ok (ascii "-0007") := by decide +kernel

end I256
