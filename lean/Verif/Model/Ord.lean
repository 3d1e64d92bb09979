import Verif.Model.Add

/-!
# Model of `src/shared/ord.rs` and `src/shared/extensions.rs`

Comparisons work on the array of double-width values ("wide" values, `to_ne_wide`,
src/shared/endian.rs L327-333).  `signed` selects the type of the most significant wide value:
`UWide` for the unsigned types, `IWide` for the signed types.
-/

namespace I256

variable {w : Nat}

/-- `to_ne_wide`, src/shared/endian.rs L327-333, in logical order: adjacent limbs are joined, the
lower one being the low half. The number of limbs is even on all types of the crate. -/
def toWide : Limbs w → List (BitVec (w + w))
  | lo :: hi :: xs => (hi ++ lo) :: toWide xs
  | _ => []

/-- `get_limb`, src/shared/extensions.rs L19-21. The index is in range at every call. -/
def getLimb (x : Limbs w) (i : Nat) : BitVec w := x.getD i 0

/-- `most_significant_limb`, src/shared/extensions.rs L59-61 (before the cast to `$hi_t`). -/
def msLimb (x : Limbs w) : BitVec w := getLimb x (x.length - 1)

/-- `is_even`, src/shared/extensions.rs L7-9. -/
def isEven (x : Limbs w) : Bool := (getLimb x 0).toNat % 2 == 0
/-- `is_odd`, src/shared/extensions.rs L13-15. -/
def isOdd (x : Limbs w) : Bool := !isEven x

namespace Ord

/-- `lhs_0 < rhs_0` on the type of the most significant wide value. -/
def hiLt (signed : Bool) (a b : BitVec (w + w)) : Bool := if signed then a.slt b else a.ult b

/-- The loop `while i > 0 && !is_ord && is_eq`, src/shared/ord.rs L26-38. The list holds the
remaining pairs of wide values, the next one (`i - 1`) first, so `i == 0` after the decrement is
"no pairs left". `op2` is the operator of the last pair (`<` or `<=`). -/
def ordLoop (op2 : BitVec (w + w) → BitVec (w + w) → Bool) :
    List (BitVec (w + w) × BitVec (w + w)) → Bool → Bool → Bool
  | [], isOrd, _ => isOrd
  | (a, b) :: rest, isOrd, isEq =>
    if !isOrd && isEq then
      ordLoop op2 rest (if rest.isEmpty then op2 a b else a.ult b) (a == b)
    else isOrd

/-- The `@ord` rule, src/shared/ord.rs L16-39. -/
def ordConst (signed : Bool) (op2 : BitVec (w + w) → BitVec (w + w) → Bool) (x y : Limbs w) :
    Bool :=
  match ((toWide x).zip (toWide y)).reverse with
  | [] => false
  | (a, b) :: rest => ordLoop op2 rest (hiLt signed a b) (a == b)

/-- `lt_const`, src/shared/ord.rs L91-101. -/
def lt (signed : Bool) (x y : Limbs w) : Bool := ordConst signed (fun a b => a.ult b) x y
/-- `le_const`, src/shared/ord.rs L106-116. -/
def le (signed : Bool) (x y : Limbs w) : Bool := ordConst signed (fun a b => a.ule b) x y
/-- `gt_const`, src/shared/ord.rs L120-122. -/
def gt (signed : Bool) (x y : Limbs w) : Bool := !le signed x y
/-- `ge_const`, src/shared/ord.rs L126-128. -/
def ge (signed : Bool) (x y : Limbs w) : Bool := !lt signed x y

/-- `eq_branchless`, src/shared/ord.rs L47-58. `eq_const` (L76-82) calls it for every width below
4096 bits, that is for all types of the crate. -/
def eqConst (x y : Limbs w) : Bool :=
  ((toWide x).zip (toWide y)).foldl (fun isEq p => isEq && p.1 == p.2) true

/-- The loop of `cmp_const`, src/shared/ord.rs L143-150; the three flags are returned. -/
def cmpLoop : List (BitVec (w + w) × BitVec (w + w)) → Bool → Bool → Bool → Bool × Bool
  | [], _, isLt, isGt => (isLt, isGt)
  | (a, b) :: rest, isEq, isLt, isGt =>
    if !isLt && !isGt && isEq then cmpLoop rest (a == b) (a.ult b) (b.ult a)
    else (isLt, isGt)

/-- `cmp_const`, src/shared/ord.rs L132-159. -/
def cmp (signed : Bool) (x y : Limbs w) : Ordering :=
  match ((toWide x).zip (toWide y)).reverse with
  | [] => .eq
  | (a, b) :: rest =>
    let (isLt, isGt) := cmpLoop rest (a == b) (hiLt signed a b) (hiLt signed b a)
    if isLt then .lt else if isGt then .gt else .eq

end Ord

end I256
