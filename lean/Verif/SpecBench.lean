import Verif.Spec

/-! Specification vocabulary for the algorithms of `devel/benches`, which work on pairs of words. -/

namespace I256

/-- The call returns, and the returned pair, low word first, is the number `v`. -/
def LowHigh {n : Nat} (v : Nat) (r : Res (BitVec n × BitVec n)) : Prop :=
  ∃ lo hi, r = .ok (lo, hi) ∧ lo.toNat + 2 ^ n * hi.toNat = v

/-- The call returns, and the returned pair, high word first, is the number `v`. -/
def HighLow {n : Nat} (v : Nat) (r : Res (BitVec n × BitVec n)) : Prop :=
  ∃ hi lo, r = .ok (hi, lo) ∧ 2 ^ n * hi.toNat + lo.toNat = v

/-- The call returns a 256-bit number on 64-bit limbs with the value `v`. -/
def Returns256 (v : Nat) (r : Res (Limbs 64)) : Prop :=
  ∃ q, r = .ok q ∧ q.length = 4 ∧ toNat q = v

/-- The sum of the products of weight `2^128` in a schoolbook product of two 256-bit numbers, without
what goes into the upper half directly. -/
def crossSum (X Y : Nat) : Nat :=
  X / 2 ^ 128 * (Y % 2 ^ 128) + X % 2 ^ 128 * Y / 2 ^ 128 % 2 ^ 128

/-- `M` with the shift `s` divides every number below `2^256` by `d`: it is `2^s / d` rounded up,
with an error small enough. -/
def IsMagic (M d s : Nat) : Prop :=
  0 < d ∧ 2 ^ s ≤ M * d ∧ (M * d - 2 ^ s) * 2 ^ 256 ≤ 2 ^ s

/-- `2^(log2 d + b) / d` rounded up is off by less than one part in `2^b`, so that a factor of `b` bits
divides every number of `b` bits by `d`. -/
def ShortFactor (b d : Nat) : Prop := d - 2 ^ (d.log2 + b) % d < 2 ^ d.log2

instance (b d : Nat) : Decidable (ShortFactor b d) := by unfold ShortFactor; infer_instance

instance (M d s : Nat) : Decidable (IsMagic M d s) := by unfold IsMagic; infer_instance

end I256
