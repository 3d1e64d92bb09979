import Verif.Model.LimbHelpers
import Verif.Lemmas.RawMul
import Verif.Lemmas.Signed

/-!
# C73: the limb helpers of `math::bigint`
-/

namespace I256

variable {w : Nat}

/-- C73: `carrying_add` and `borrowing_sub` on unsigned limbs: the result and the carry together are the
exact sum or difference. -/
theorem C73_unsigned (hw : 0 < w) (a b : BitVec w) (c : Bool) :
    (carryingAdd a b c).1.toNat + 2 ^ w * (carryingAdd a b c).2.toNat
      = a.toNat + b.toNat + c.toNat ∧
    ((borrowingSub a b c).1.toNat : Int) - 2 ^ w * (borrowingSub a b c).2.toNat
      = a.toNat - b.toNat - c.toNat := by
  refine ⟨carryingAdd_spec hw a b c, ?_⟩
  have h := borrowingSub_spec hw a b c
  have h' : (((borrowingSub a b c).1.toNat + b.toNat + c.toNat : Nat) : Int)
      = ((a.toNat + 2 ^ w * (borrowingSub a b c).2.toNat : Nat) : Int) := by rw [h]
  push_cast at h'
  omega

example := C73_unsigned (by decide) 0xffffffff#32 0xffffffff#32 true
example : carryingAdd 0xffffffff#32 0xffffffff#32 true = (0xffffffff#32, true) ∧
    borrowingSub 0#64 0xffffffffffffffff#64 true = (0#64, true) := by decide

/-- C73: `carrying_add` and `borrowing_sub` on signed limbs: the result is reduced to the range of the
type, and the flag is set iff the exact result is outside it. -/
theorem C73_signed (hw : 1 < w) (a b : BitVec w) (c : Bool) :
    ((carryingAddI a b c).1.toInt = Int.bmod (a.toInt + b.toInt + c.toNat) (2 ^ w) ∧
      ((carryingAddI a b c).2 = true ↔ ¬ InS w (a.toInt + b.toInt + c.toNat))) ∧
    ((borrowingSubI a b c).1.toInt = Int.bmod (a.toInt - b.toInt - c.toNat) (2 ^ w) ∧
      ((borrowingSubI a b c).2 = true ↔ ¬ InS w (a.toInt - b.toInt - c.toNat))) := by
  refine ⟨⟨?_, sAddTop hw a b c⟩, ?_, sSubTop hw a b c⟩
  · simp only [carryingAddI, sAddO]
    rw [BitVec.toInt_add, BitVec.toInt_add, boolLimb_toInt hw, Int.bmod_add_bmod]
  · simp only [borrowingSubI, sSubO]
    rw [BitVec.toInt_sub, BitVec.toInt_sub, boolLimb_toInt hw, Int.bmod_sub_bmod]

example := C73_signed (by decide) 0x80000000#32 0xffffffff#32 true
example : carryingAddI 0x80000000#32 0xffffffff#32 true = (0x80000000#32, false) ∧
    carryingAddI 0x7fffffff#32 0#32 true = (0x80000000#32, true) ∧
    borrowingSubI 0#32 0x80000000#32 true = (0x7fffffff#32, false) := by decide

/-- C73: `carrying_mul` and `mac` never overflow their native arithmetic, in builds with overflow
checks, and return the exact value in two limbs. -/
theorem C73_mul (hw : 0 < w) (a b c d : BitVec w) :
    (∃ lo hi, Raw.carryingMul a b c = .ok (lo, hi) ∧
      lo.toNat + 2 ^ w * hi.toNat = a.toNat * b.toNat + c.toNat) ∧
    (∃ lo hi, Raw.mac a b c d = .ok (lo, hi) ∧
      lo.toNat + 2 ^ w * hi.toNat = a.toNat + b.toNat * c.toNat + d.toNat) :=
  ⟨⟨_, _, Raw.carryingMul_ok hw a b c, carryingMul_spec a b c⟩,
    ⟨_, _, Raw.mac_ok hw a b c d, mac_spec a b c d⟩⟩

example := C73_mul (by decide) 0xffffffff#32 0xffffffff#32 0xffffffff#32 0xffffffff#32
example : Raw.mac 0xffffffff#32 0xffffffff#32 0xffffffff#32 0xffffffff#32 =
    .ok (0xffffffff#32, 0xffffffff#32) ∧
    carryingMul 0xffffffff#32 0xffffffff#32 0xffffffff#32 = (0#32, 0xffffffff#32) := by decide

end I256
