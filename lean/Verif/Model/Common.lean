import Verif.Model.Sub
import Verif.Model.Ord

/-!
# Constants, small conversions and sign tests

`N` is the number of limbs (`LIMBS`).  `U` holds the functions of the unsigned types, `I` those of
the signed types.  Both are limb arrays: `as_signed`, `as_unsigned`, `from_signed`, `from_unsigned`
(src/shared/casts.rs L136-144, L371-379) reinterpret the same limbs and are the identity here.
-/

namespace I256

variable {w : Nat}

/-- `from_u8`, src/shared/casts.rs L55-57, L67-71. -/
def ofU8 (N v : Nat) : Limbs w := extU N (BitVec.ofNat w v)

/-- `from_i8`, src/shared/casts.rs L148-150, L160-193. -/
def ofI8 (N : Nat) (v : Int) : Limbs w := extI N (BitVec.ofInt w v)

/-- `if !overflowed { Some(value) } else { None }`, e.g. src/shared/checked.rs L18-22. -/
def mkChecked {α : Type} (r : α × Bool) : Option α := if !r.2 then some r.1 else none

/-- `match v { Some(v) => v, None => panic!(..) }`, e.g. src/shared/strict.rs L20-23. -/
def unwrapOrPanic {α : Type} (o : Option α) : Res α :=
  match o with
  | some v => .ok v
  | none => .panic

/-- `match v { Some(v) => v, None => d }`. -/
def unwrapOr {α : Type} (o : Option α) (d : α) : α :=
  match o with
  | some v => v
  | none => d

/-- The operator pattern of src/shared/ops.rs L57-66: without overflow checks the wrapping
function, with overflow checks the checked function, panicking on `None`.
`oc` is the build setting `have_overflow_checks`. -/
def opOf {α : Type} (oc : Bool) (wrapping : α) (checked : Option α) : Res α :=
  if !oc then .ok wrapping else unwrapOrPanic checked

namespace U

/-- `min_value`, src/uint/constants.rs L21-23. -/
def minValue (w N : Nat) : Limbs w := List.replicate N 0
/-- `max_value`, src/uint/constants.rs L28-30. -/
def maxValue (w N : Nat) : Limbs w := List.replicate N (BitVec.allOnes w)

end U

namespace I

/-- `min_value`, src/int/constants.rs L21-25. -/
def minValue (w N : Nat) : Limbs w := List.replicate (N - 1) 0 ++ [BitVec.intMin w]
/-- `max_value`, src/int/constants.rs L30-34. -/
def maxValue (w N : Nat) : Limbs w := List.replicate (N - 1) (BitVec.allOnes w) ++ [BitVec.intMax w]

/-- `is_negative`, src/int/ops.rs L50-54. -/
def isNegative (x : Limbs w) : Bool := (msLimb x).slt 0

/-- The loop of `is_positive`, src/int/ops.rs L35-42, on the limbs below the top one, most
significant first. -/
def isPositiveLoop : Limbs w → Bool
  | [] => false
  | a :: rest => if (0 : BitVec w).ult a then true else isPositiveLoop rest

/-- `is_positive`, src/int/ops.rs L26-43. -/
def isPositive (x : Limbs w) : Bool :=
  let high := msLimb x
  if high.slt 0 then false
  else if (0 : BitVec w).slt high then true
  else isPositiveLoop x.dropLast.reverse

end I

end I256
