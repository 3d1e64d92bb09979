/-!
# Specification vocabulary

The meaning of a limb array as a mathematical integer.  Nothing in this file refers to the model of
the code; the property theorems are stated with these functions and the integer functions of the
standard library.
-/

namespace I256

/-- A limb array in logical little-endian order: element 0 is the least significant limb. -/
abbrev Limbs (w : Nat) := List (BitVec w)

variable {w : Nat}

/-- The number of bits of a limb array. -/
def bits (x : Limbs w) : Nat := w * x.length

/-- The unsigned value denoted by a limb array (positional notation in base `2^w`). -/
def toNat : Limbs w → Nat
  | [] => 0
  | x :: xs => x.toNat + 2 ^ w * toNat xs

/-- The signed value denoted by a limb array (two's complement). -/
def toInt (x : Limbs w) : Int :=
  if 2 * toNat x < 2 ^ bits x then (toNat x : Int) else (toNat x : Int) - (2 : Int) ^ bits x

/-- `z` is representable as an unsigned number of `n` bits. -/
def InU (n : Nat) (z : Int) : Prop := 0 ≤ z ∧ z < 2 ^ n

/-- `z` is representable as a two's complement number of `n` bits: `MIN ≤ z ≤ MAX`. -/
def InS (n : Nat) (z : Int) : Prop := -2 ^ n ≤ 2 * z ∧ 2 * z < 2 ^ n

instance (n : Nat) (z : Int) : Decidable (InU n z) := by unfold InU; infer_instance
instance (n : Nat) (z : Int) : Decidable (InS n z) := by unfold InS; infer_instance

/-- The value of a primitive integer of `n` bits, signed if `ps`. -/
abbrev primVal {n : Nat} (ps : Bool) (a : BitVec n) : Int := if ps then a.toInt else a.toNat

/-- The result of a computation that may panic. -/
inductive Res (α : Type) where
  | ok (a : α)
  | panic
  deriving DecidableEq, Repr

namespace Res
variable {α β : Type}

def bind (r : Res α) (f : α → Res β) : Res β :=
  match r with
  | ok a => f a
  | panic => panic

def map (f : α → β) (r : Res α) : Res β :=
  match r with
  | ok a => ok (f a)
  | panic => panic

instance : Monad Res where
  pure := ok
  bind := bind

@[simp] theorem bind_ok (a : α) (f : α → Res β) : (Res.ok a).bind f = f a := rfl
@[simp] theorem bind_panic (f : α → Res β) : (Res.panic : Res α).bind f = Res.panic := rfl
@[simp] theorem map_ok (a : α) (f : α → β) : (Res.ok a).map f = ok (f a) := rfl
@[simp] theorem map_panic (f : α → β) : (Res.panic : Res α).map f = Res.panic := rfl
@[simp] theorem mbind_ok (a : α) (f : α → Res β) : ((Res.ok a) >>= f) = f a := rfl
@[simp] theorem mbind_panic (f : α → Res β) : ((Res.panic : Res α) >>= f) = Res.panic := rfl
@[simp] theorem pure_eq (a : α) : (pure a : Res α) = Res.ok a := rfl

end Res

/-! ### Result contracts

`z` is the exact (mathematical) result, `N` the number of limbs of the type.  The suffix `U` is for
the unsigned types, `S` for the signed types. -/

/-- `v` is the exact result `z` reduced modulo `2^BITS`. -/
def WrapU (N : Nat) (z : Int) (v : Limbs w) : Prop :=
  v.length = N ∧ (toNat v : Int) = z % 2 ^ (w * N)

/-- `v` is the exact result `z` reduced to the two's complement range. -/
def WrapS (N : Nat) (z : Int) (v : Limbs w) : Prop :=
  v.length = N ∧ toInt v = Int.bmod z (2 ^ (w * N))

/-- `v` denotes `z`. -/
def ExactU (N : Nat) (z : Int) (v : Limbs w) : Prop := v.length = N ∧ (toNat v : Int) = z
/-- `v` denotes `z`. -/
def ExactS (N : Nat) (z : Int) (v : Limbs w) : Prop := v.length = N ∧ toInt v = z

/-- Contract of `overflowing_*`: the wrapped result, and a flag that is set iff `z` is not
representable. -/
def OverU (N : Nat) (z : Int) (r : Limbs w × Bool) : Prop :=
  WrapU N z r.1 ∧ (r.2 = true ↔ ¬ InU (w * N) z)
/-- Contract of `overflowing_*`, signed. -/
def OverS (N : Nat) (z : Int) (r : Limbs w × Bool) : Prop :=
  WrapS N z r.1 ∧ (r.2 = true ↔ ¬ InS (w * N) z)

/-- Contract of `checked_*`: `Some` of the exact result iff it is representable. -/
def CheckU (N : Nat) (z : Int) (o : Option (Limbs w)) : Prop :=
  (InU (w * N) z → ∃ v, o = some v ∧ ExactU N z v) ∧ (¬ InU (w * N) z → o = none)
/-- Contract of `checked_*`, signed. -/
def CheckS (N : Nat) (z : Int) (o : Option (Limbs w)) : Prop :=
  (InS (w * N) z → ∃ v, o = some v ∧ ExactS N z v) ∧ (¬ InS (w * N) z → o = none)

/-- Contract of `strict_*`: the exact result, or a panic iff it is not representable. -/
def StrictU (N : Nat) (z : Int) (o : Res (Limbs w)) : Prop :=
  (InU (w * N) z → ∃ v, o = .ok v ∧ ExactU N z v) ∧ (¬ InU (w * N) z → o = .panic)
/-- Contract of `strict_*`, signed. -/
def StrictS (N : Nat) (z : Int) (o : Res (Limbs w)) : Prop :=
  (InS (w * N) z → ∃ v, o = .ok v ∧ ExactS N z v) ∧ (¬ InS (w * N) z → o = .panic)

/-- Contract of an operator in a build with (`oc = true`) or without overflow checks. -/
def OpU (oc : Bool) (N : Nat) (z : Int) (o : Res (Limbs w)) : Prop :=
  if oc then StrictU N z o else ∃ v, o = .ok v ∧ WrapU N z v
/-- Contract of an operator, signed. -/
def OpS (oc : Bool) (N : Nat) (z : Int) (o : Res (Limbs w)) : Prop :=
  if oc then StrictS N z o else ∃ v, o = .ok v ∧ WrapS N z v

/-- Contract of `saturating_*`: the representable value nearest to `z`. -/
def SatU (N : Nat) (z : Int) (v : Limbs w) : Prop :=
  v.length = N ∧ (toNat v : Int) = max 0 (min z (2 ^ (w * N) - 1))
/-- Contract of `saturating_*`, signed: the bounds are `-2^(BITS-1)` and `2^(BITS-1) - 1`. -/
def SatS (N : Nat) (z : Int) (v : Limbs w) : Prop :=
  v.length = N ∧ toInt v = max (-2 ^ (w * N - 1)) (min z (2 ^ (w * N - 1) - 1))

/-- The products that the signed overflow test misjudges: just below `MIN`, by less than one unit
of the top limb. -/
def Mul.Gap (w N : Nat) (z : Int) : Prop :=
  z < -2 ^ (w * N - 1) ∧ -2 ^ (w * N - 1) - 2 ^ (w * (N - 1)) < z

instance (w N : Nat) (z : Int) : Decidable (Mul.Gap w N z) := by unfold Mul.Gap; infer_instance

end I256
