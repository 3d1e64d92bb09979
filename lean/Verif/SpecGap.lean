import Verif.Spec

/-!
# Contracts of signed multiplication with the gap

The overflow test of signed multiplication takes the results in `Mul.Gap` for representable.  The
contracts below are those of `Verif/Spec.lean` with this one change.
-/

namespace I256

variable {w : Nat}

/-- The results that signed multiplication takes for representable. -/
def Passes (w N : Nat) (z : Int) : Prop := InS (w * N) z ∨ Mul.Gap w N z

/-- Contract of `overflowing_*`: the wrapped result; the flag is set iff `z` does not pass. -/
def OverG (N : Nat) (z : Int) (r : Limbs w × Bool) : Prop :=
  WrapS N z r.1 ∧ (r.2 = true ↔ ¬ Passes w N z)

/-- Contract of `checked_*`: `Some` of the wrapped result iff `z` passes. -/
def CheckG (N : Nat) (z : Int) (o : Option (Limbs w)) : Prop :=
  (Passes w N z → ∃ v, o = some v ∧ WrapS N z v) ∧ (¬ Passes w N z → o = none)

/-- Contract of `strict_*`: the wrapped result if `z` passes, otherwise a panic. -/
def StrictG (N : Nat) (z : Int) (o : Res (Limbs w)) : Prop :=
  (Passes w N z → ∃ v, o = .ok v ∧ WrapS N z v) ∧ (¬ Passes w N z → o = .panic)

/-- Contract of an operator in a build with (`oc = true`) or without overflow checks. -/
def OpG (oc : Bool) (N : Nat) (z : Int) (o : Res (Limbs w)) : Prop :=
  if oc then StrictG N z o else ∃ v, o = .ok v ∧ WrapS N z v

/-- Contract of `saturating_*`: the representable value nearest to `z`, but in the gap the wrapped
result, which is positive. -/
def SatG (N : Nat) (z : Int) (v : Limbs w) : Prop :=
  (¬ Mul.Gap w N z → SatS N z v) ∧ (Mul.Gap w N z → ExactS N (z + 2 ^ (w * N)) v ∧ 0 < toInt v)

/-- The four forms of an operation with a scalar (compare `FormsS`). -/
def FormsG (oc : Bool) (N : Nat) (z : Int) (wrapping : Res (Limbs w)) (over : Res (Limbs w × Bool))
    (checked : Res (Option (Limbs w))) (op : Res (Limbs w)) : Prop :=
  (∃ v, wrapping = .ok v ∧ WrapS N z v) ∧ (∃ r, over = .ok r ∧ OverG N z r) ∧
    (∃ o, checked = .ok o ∧ CheckG N z o) ∧ OpG oc N z op

end I256
