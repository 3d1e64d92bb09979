import Verif.SpecWork
import Verif.SpecText

/-!
# How much work text conversion and the logarithm take
-/

namespace I256

/-- The divisions that writing `n` in base `r` takes: one number is divided for each digit but the first; a number of
more than two limbs takes a division for each of the `N` limbs of the array, any other one division. -/
def writeDivs (w N r n : Nat) : Nat :=
  if _h : 2 ≤ r ∧ r ≤ n then (if n < 2 ^ (w * 2) then 1 else N) + writeDivs w N r (n / r) else 0
termination_by n
decreasing_by exact Nat.div_lt_self (by omega) (by omega)

/-- The digits that have been read when reading stops: at the end, before something that is not a digit, or with the
digit that makes the number reach `M`. `a` is the number read so far. -/
def digitsRead (r M : Nat) : Nat → List Byte → Nat
  | _, [] => 0
  | a, c :: cs =>
    if isDigit r c then
      if a * r + (digitOf c).getD 0 < M then digitsRead r M (a * r + (digitOf c).getD 0) cs + 1 else 1
    else 0

/-- The text without its sign. -/
def unsignedPart (signed : Bool) : List Byte → List Byte
  | [] => []
  | c :: cs => if c = 43 ∨ (c = 45 ∧ signed = true) then cs else c :: cs

/-- The lower bound of the logarithm of `x` in base `b` that the binary logarithms give. -/
def logEstimate (b x : Nat) : Nat := x.log2 / (b.log2 + 1)

end I256
