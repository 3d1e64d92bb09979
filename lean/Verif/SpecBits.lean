import Verif.Spec

/-!
# Limb arrays and the bit vectors of the standard library

The bit vectors of Lean's core library have their own definitions of arithmetic, comparison, shifts and
overflow, which owe nothing to this project.  The theorems of C96 and C97 are stated with them.
-/

namespace I256

variable {w : Nat}

/-- The limb array `v` consists of the bits of `b`. -/
def SameBits {n : Nat} (b : BitVec n) (v : Limbs w) : Prop := bits v = n ∧ toNat v = b.toNat

instance {n : Nat} (b : BitVec n) (v : Limbs w) : Decidable (SameBits b v) := by unfold SameBits; infer_instance

/-- Contract of `overflowing_*`: the bits of `b`, and the flag `o`. -/
def FlagBits {n : Nat} (b : BitVec n) (o : Bool) (r : Limbs w × Bool) : Prop := SameBits b r.1 ∧ r.2 = o

/-- Contract of `checked_*`: the bits of `b`, or `None` iff the operation overflows (`o`). -/
def SomeBits {n : Nat} (b : BitVec n) (o : Bool) : Option (Limbs w) → Prop
  | none => o = true
  | some v => o = false ∧ SameBits b v

/-- Contract of `strict_*` and of the operators: the bits of `b`, or a panic iff the operation
overflows (`o`). -/
def OkBits {n : Nat} (b : BitVec n) (o : Bool) : Res (Limbs w) → Prop
  | .panic => o = true
  | .ok v => o = false ∧ SameBits b v

end I256
