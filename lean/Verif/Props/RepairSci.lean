import Verif.Lemmas.RepairSci
import Verif.Props.Sci

/-!
# C95: the repaired exponent form
-/

namespace I256

open Sample

variable {w : Nat} {x : Limbs w}

/-- C95: with the digits rounded to the precision and the text handed to `pad_integral`, `LowerExp` and
`UpperExp` print what the primitive integers print, for every value, precision and combination of
flags. -/
theorem C95_exp_repaired (hw : w = 32 ∨ w = 64) (h4 : 4 ≤ x.length) (he : x.length % 2 = 0) (oc : Bool)
    (e : Byte) (al : Align) (f : Write.Flags) (prec : Option Nat) :
    Repair.fmtExpFlagsU oc e al f prec x = .ok (padAligned al f false [] (sciText e prec (toNat x))) ∧
    Repair.fmtExpFlagsS oc e al f prec x =
      .ok (padAligned al f (decide (toInt x < 0)) [] (sciText e prec (toInt x).natAbs)) := by
  obtain ⟨l, v⟩ := I.abs_val hw h4 he
  have hneg : I.isNegative x = decide (toInt x < 0) :=
    isNegative_eq (by omega) (length_ne (n := 0) (by omega))
  have hb : bits x = bits (I.unsignedAbs x) := by rw [bits, bits, l]
  rw [Repair.fmtExpFlagsU, Repair.fmtExpFlagsS, hb,
    U.toStrRadix_spec hw (by omega) (by omega) (by decide) (by decide) oc _ le_rfl, hneg, ← hb,
    U.toStrRadix_spec hw h4 he (by decide) (by decide) oc _ le_rfl, v]
  have e10 : (10 : BitVec 32).toNat = 10 := rfl
  rw [e10]
  cases prec with
  | none => exact ⟨by simp only [Res.bind, Repair.exp_eq, Res.map]; rfl, by
      simp only [Res.bind, Repair.exp_eq, Res.map]; rfl⟩
  | some p => exact ⟨by simp only [Res.bind, Repair.expPrec_eq]; rfl, by
      simp only [Res.bind, Repair.expPrec_eq]; rfl⟩

example := C95_exp_repaired (x := m2) (Or.inr rfl) (by decide) (by decide) true 101 .center
  { width := some 9 } (some 2)
example : Repair.fmtExpFlagsU true 101 .center { width := some 9, fill := [42] } (some 1)
      ([9960, 0, 0, 0] : Limbs 64) = .ok (ascii "**1.0e4**") ∧
    Repair.fmtExpFlagsS true 69 .unknown { width := some 9, zero := true } none
      (ofI8 4 (-120) : Limbs 64) = .ok (ascii "-0001.2E2") := by
  decide +kernel

end I256
