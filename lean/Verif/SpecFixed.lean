import Verif.SpecDiv

/-!
# Specification vocabulary for fixed-width scalars

Combined contracts for the four forms (wrapping, overflowing, checked, operator) of one operation, and
the places where long division by a scalar of `n` bits goes wrong.
-/

namespace I256

variable {w : Nat}

/-- The four forms of an operation with exact result `z` all return and meet their contracts; `op` is
the operator in a build with (`oc = true`) or without overflow checks. -/
def FormsU (oc : Bool) (N : Nat) (z : Int) (wrapping : Res (Limbs w)) (over : Res (Limbs w × Bool))
    (checked : Res (Option (Limbs w))) (op : Res (Limbs w)) : Prop :=
  (∃ v, wrapping = .ok v ∧ WrapU N z v) ∧ (∃ r, over = .ok r ∧ OverU N z r) ∧
    (∃ o, checked = .ok o ∧ CheckU N z o) ∧ OpU oc N z op

/-- The same for the signed types. -/
def FormsS (oc : Bool) (N : Nat) (z : Int) (wrapping : Res (Limbs w)) (over : Res (Limbs w × Bool))
    (checked : Res (Option (Limbs w))) (op : Res (Limbs w)) : Prop :=
  (∃ v, wrapping = .ok v ∧ WrapS N z v) ∧ (∃ r, over = .ok r ∧ OverS N z r) ∧
    (∃ o, checked = .ok o ∧ CheckS N z o) ∧ OpS oc N z op

/-- Long division of `x` by a scalar `y` of `n` bits panics: the scalar fills two limbs and some
estimate has to be corrected. -/
def ScalarPanics (w n x y : Nat) : Prop := n = 2 * w ∧ DivPanics w 2 x y

/-- What long division on `N` limbs adds to the remainder `x % y` of a scalar `y` of `n` bits: nothing
for scalars of one or two limbs; for scalars of four limbs the part of `strayRem` that fits in the
scalar type. -/
def scalarStray (w N n x y : Nat) : Nat := if n = 4 * w then strayRem w N x y % 2 ^ n else 0

/-- A 128-bit number with its second and fourth 32-bit digits exchanged. -/
def swap128 (v : Nat) : Nat :=
  v % 2 ^ 32 + 2 ^ 32 * (v / 2 ^ 96 % 2 ^ 32) + 2 ^ 64 * (v / 2 ^ 64 % 2 ^ 32) +
    2 ^ 96 * (v / 2 ^ 32 % 2 ^ 32)

instance (w n x y : Nat) : Decidable (ScalarPanics w n x y) := by unfold ScalarPanics; infer_instance

end I256
