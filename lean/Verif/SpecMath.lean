import Verif.SpecDiv
import Verif.SpecRaw

/-!
# The functions of the public `math` module on arrays of any lengths

For the division functions, `x` and `y` are the values of arrays with `M` and `N` limbs of `w` bits.
-/

namespace I256

/-- `math::div::full` panics. Besides a division by zero: the remainder has no room for the numerator
because it would have to be widened; the add-back step indexes past the divisor; or an array is empty. -/
def FullPanics (w M N x y : Nat) : Prop :=
  N = 0 ∨ (N = 1 ∧ M ≠ 0 ∧ y = 0) ∨
    (2 ≤ N ∧ ((y = 0 ∧ x ≠ 0) ∨ M = 0 ∨ (M < N ∧ (x < y ∨ (y < x ∧ 2 ^ w ≤ y))) ∨
      (N ≤ M ∧ DivPanics w N x y)))

/-- The quotient `math::div::full` returns. -/
def fullQuo (N x y : Nat) : Nat := if 2 ≤ N ∧ x = 0 ∧ y = 0 then 1 else x / y

/-- `math::div::wide` panics, for a divisor of `2 * w` bits. -/
def WidePanics (w M x y : Nat) : Prop :=
  M = 0 ∨ (M = 1 ∧ (x < y ∨ (y = 0 ∧ x ≠ 0))) ∨ (2 ≤ M ∧ ((y = 0 ∧ x ≠ 0) ∨ DivPanics w 2 x y))

/-- The quotient `math::div::wide` returns. -/
def wideQuo (M x y : Nat) : Nat := if M = 1 ∧ x = 0 ∧ y = 0 then 1 else x / y

/-- `math::div::from_u128` panics, with limbs of 32 bits. -/
def U128Panics (M x y : Nat) : Prop :=
  (y = 0 ∧ x ≠ 0) ∨ M < 2 ∨ (M < 4 ∧ x ≠ 0) ∨ (M = 4 ∧ DivPanics 32 4 x y)

instance (w M N x y : Nat) : Decidable (FullPanics w M N x y) := by unfold FullPanics; infer_instance
instance (w M x y : Nat) : Decidable (WidePanics w M x y) := by unfold WidePanics; infer_instance
instance (M x y : Nat) : Decidable (U128Panics M x y) := by unfold U128Panics; infer_instance

/-- The run panics if `P`, and otherwise ends with an array that holds a number with the property `Q`. -/
def Leaves {w : Nat} (be : Bool) (P : Prop) (Q : Limbs w → Prop) (r : Res (Limbs w)) : Prop :=
  (P → r = .panic) ∧ (¬ P → Holds be Q r)

/-- The same for an array and a flag. -/
def LeavesO {w : Nat} (be : Bool) (P : Prop) (Q : Limbs w × Bool → Prop) (r : Res (Limbs w × Bool)) : Prop :=
  (P → r = .panic) ∧ (¬ P → HoldsO be Q r)

end I256
