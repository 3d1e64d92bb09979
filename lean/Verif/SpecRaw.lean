import Verif.Spec

/-!
# Specification vocabulary for arrays in memory

The crate stores the limbs of a number in the byte order of the machine: `be` is
`cfg!(target_endian = "big")`.  A run of a function is described by its result, which is a panic or a
normal end; a loop that does not end counts as a panic.
-/

namespace I256

variable {w : Nat}

/-- The limbs of the number that an array in memory holds, least significant limb first. -/
def logical {α : Type} (be : Bool) (m : List α) : List α := if be then m.reverse else m

/-- The unsigned number that an array in memory holds. -/
def memNat (be : Bool) (m : Limbs w) : Nat := toNat (logical be m)

/-- The signed number that an array in memory holds. -/
def memInt (be : Bool) (m : Limbs w) : Int := toInt (logical be m)

/-- The run ends normally, with an array that holds a number with the property `P`. -/
def Holds (be : Bool) (P : Limbs w → Prop) (r : Res (Limbs w)) : Prop :=
  ∃ m, r = .ok m ∧ P (logical be m)

/-- The run ends normally, with an array and a flag that have the property `P`. -/
def HoldsO (be : Bool) (P : Limbs w × Bool → Prop) (r : Res (Limbs w × Bool)) : Prop :=
  ∃ m o, r = .ok (m, o) ∧ P (logical be m, o)

/-- The run ends normally, with an optional array that has the property `P`. -/
def HoldsC (be : Bool) (P : Option (Limbs w) → Prop) (r : Res (Option (Limbs w))) : Prop :=
  ∃ o, r = .ok o ∧ P (o.map (logical be))

/-- The outcome of the run, which may be a panic, has the property `P`. -/
def Ends (be : Bool) (P : Res (Limbs w) → Prop) (r : Res (Limbs w)) : Prop := P (r.map (logical be))

/-- The sizes that all configurations of the crate have: `N` limbs of `w` bits. -/
structure Raw.Fit (w N : Nat) : Prop where
  w1 : 1 < w
  w8 : 8 ∣ w
  even : N % 2 = 0
  n4 : 4 ≤ N
  n128 : 128 ∣ w * N

theorem Raw.fit4 : Raw.Fit 64 4 := ⟨by decide, by decide, by decide, by decide, by decide⟩
theorem Raw.fit8 : Raw.Fit 32 8 := ⟨by decide, by decide, by decide, by decide, by decide⟩

end I256
