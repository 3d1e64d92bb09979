import Verif.SpecRaw
import Verif.SpecGap

/-!
# Contracts of the four forms of an operation on arrays in memory

`oc` tells whether overflow checks are on, `z` is the exact result; the four runs are those of the wrapping,
the overflowing and the checked method and of the operator.
-/

namespace I256

variable {w : Nat}

/-- The four forms of an operation of an unsigned type. -/
def MemFormsU (oc be : Bool) (N : Nat) (z : Int) (wrapping : Res (Limbs w)) (over : Res (Limbs w × Bool))
    (checked : Res (Option (Limbs w))) (op : Res (Limbs w)) : Prop :=
  Holds be (WrapU N z) wrapping ∧ HoldsO be (OverU N z) over ∧ HoldsC be (CheckU N z) checked ∧
    Ends be (OpU oc N z) op

/-- The four forms of an operation of a signed type. -/
def MemFormsS (oc be : Bool) (N : Nat) (z : Int) (wrapping : Res (Limbs w)) (over : Res (Limbs w × Bool))
    (checked : Res (Option (Limbs w))) (op : Res (Limbs w)) : Prop :=
  Holds be (WrapS N z) wrapping ∧ HoldsO be (OverS N z) over ∧ HoldsC be (CheckS N z) checked ∧
    Ends be (OpS oc N z) op

/-- The four forms of signed multiplication, which takes the results in the gap for representable. -/
def MemFormsG (oc be : Bool) (N : Nat) (z : Int) (wrapping : Res (Limbs w)) (over : Res (Limbs w × Bool))
    (checked : Res (Option (Limbs w))) (op : Res (Limbs w)) : Prop :=
  Holds be (WrapS N z) wrapping ∧ HoldsO be (OverG N z) over ∧ HoldsC be (CheckG N z) checked ∧
    Ends be (OpG oc N z) op

end I256
