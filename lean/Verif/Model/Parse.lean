import Verif.SpecText
import Verif.Model.MulApi
import Verif.Model.AddSubApi
import Verif.Model.Casts

/-!
# Model of the parser (`src/parse.rs`)

A string is the list of its bytes.  `IntErrorKind` and `Result<_, ParseIntError>` are the types
`ErrKind` and `Parsed`; the constructors `Zero` and `Unknown` are never built by this code.
-/

namespace I256

variable {w : Nat}

namespace Parse

/-- `overflow_digits`, src/parse.rs L8-17. `size` is `size_of::<T>()`. -/
def overflowDigits (size : Nat) (radix : BitVec 32) (signed : Bool) : Nat :=
  if radix ≤ 16 then size * 2 - signed.toNat else size

/-- `char_to_digit`, src/parse.rs L21-40.  The subtractions in the `match` stay within `u8`. -/
def charToDigit (c : Byte) (radix : BitVec 32) : Option (BitVec 32) :=
  let digit : BitVec 32 :=
    if radix ≤ 10 then (c - 48).setWidth 32
    else
      let digit : Byte :=
        if 48 ≤ c ∧ c ≤ 57 then c - 48
        else if 65 ≤ c ∧ c ≤ 90 then c - 65 + 10
        else if 97 ≤ c ∧ c ≤ 122 then c - 97 + 10
        else 0xFF
      digit.setWidth 32
  if digit < radix then some digit else none

/-- The methods of the integer type that the loops call. -/
structure Ops (w : Nat) where
  wMul : Limbs w → BitVec w → Limbs w
  wAdd : Limbs w → BitVec w → Limbs w
  wSub : Limbs w → BitVec w → Limbs w
  cMul : Limbs w → BitVec w → Option (Limbs w)
  cAdd : Limbs w → BitVec w → Option (Limbs w)
  cSub : Limbs w → BitVec w → Option (Limbs w)

/-- The loop of `unchecked_loop!`, src/parse.rs L43-64, on the bytes from `index` on. -/
def uncheckedLoop (mul add : Limbs w → BitVec w → Limbs w) (radix : BitVec 32) :
    List Byte → Limbs w → Parsed (Limbs w)
  | [], res => .ok res
  | c :: cs, res =>
    match charToDigit c radix with
    | some digit =>
      uncheckedLoop mul add radix cs (add (mul res (radix.setWidth w)) (digit.setWidth w))
    | none => .err .invalidDigit

/-- The loop of `checked_loop!`, src/parse.rs L67-94, on the bytes from `index` on. -/
def checkedLoop (overflow : ErrKind) (mul add : Limbs w → BitVec w → Option (Limbs w))
    (radix : BitVec 32) : List Byte → Limbs w → Parsed (Limbs w)
  | [], res => .ok res
  | c :: cs, res =>
    match charToDigit c radix with
    | none => .err .invalidDigit
    | some digit =>
      match mul res (radix.setWidth w) with
      | none => .err overflow
      | some value =>
        match add value (digit.setWidth w) with
        | none => .err overflow
        | some res => checkedLoop overflow mul add radix cs res

/-- The part of `from_str_radix` after the sign, src/parse.rs L146-157. `digits` are the bytes from
`index` on. -/
def body (ops : Ops w) (signed : Bool) (N : Nat) (radix : BitVec 32) (negative : Bool)
    (digits : List Byte) : Parsed (Limbs w) :=
  let cannotOverflow : Bool := digits.length ≤ overflowDigits (N * w / 8) radix signed
  if cannotOverflow && negative then uncheckedLoop ops.wMul ops.wSub radix digits (ofU8 N 0)
  else if cannotOverflow then uncheckedLoop ops.wMul ops.wAdd radix digits (ofU8 N 0)
  else if negative then checkedLoop .negOverflow ops.cMul ops.cSub radix digits (ofU8 N 0)
  else checkedLoop .posOverflow ops.cMul ops.cAdd radix digits (ofU8 N 0)

/-- `from_str_radix`, src/parse.rs L117-158. -/
def fromStrRadix (ops : Ops w) (signed : Bool) (N : Nat) (src : List Byte) (radix : BitVec 32) :
    Res (Parsed (Limbs w)) :=
  if radix < 2 || 36 < radix then .panic
  else
    match src with
    | [] => .ok (.err .empty)
    | c :: cs =>
      if c = 43 then .ok (body ops signed N radix false cs)
      else if c = 45 && signed then .ok (body ops signed N radix true cs)
      else if c = 45 then .ok (.err .negOverflow)
      else .ok (body ops signed N radix false (c :: cs))

/-- `uN::from_str` and `iN::from_str` of the standard library, by their documentation: an optional
`+` (and `-` if signed), then at least one decimal digit; anything else is `InvalidDigit`, a number out
of range is an overflow error.  (The crate calls them only on strings too short to overflow.) -/
def primFromStr (signed : Bool) (n : Nat) (src : List Byte) : Parsed (BitVec n) :=
  let digits (neg : Bool) (ds : List Byte) : Parsed (BitVec n) :=
    if ds = [] || !ds.all (isDigit 10) then .err .invalidDigit
    else
      let z : Int := if neg then -(numVal 10 ds : Int) else numVal 10 ds
      if z < (if signed then -2 ^ (n - 1) else 0) then .err .negOverflow
      else if (if signed then 2 ^ (n - 1) else 2 ^ n) ≤ z then .err .posOverflow
      else .ok (BitVec.ofInt n z)
  match src with
  | [] => .err .empty
  | c :: cs =>
    if c = 43 then digits false cs
    else if c = 45 && signed then digits true cs
    else digits false (c :: cs)

/-- `Ok(f(e?))`. -/
def Parsed.map {α β : Type} (f : α → β) : Parsed α → Parsed β
  | .ok v => .ok (f v)
  | .err e => .err e

end Parse

namespace U

/-- The methods used by the unsigned parser. -/
def parseOps : Parse.Ops w :=
  ⟨wrappingMulULimb, wrappingAddULimb, wrappingSubULimb, checkedMulULimb, checkedAddULimb,
    checkedSubULimb⟩

/-- `from_str_radix`, src/parse.rs L117-158 with `$is_signed = false`. -/
def fromStrRadix (N : Nat) (src : List Byte) (radix : BitVec 32) : Res (Parsed (Limbs w)) :=
  Parse.fromStrRadix parseOps false N src radix

/-- `FromStr::from_str`, src/uint/traits.rs L137-150. `p32` says that the pointer width is 16 or 32. -/
def fromStr (p32 : Bool) (N : Nat) (src : List Byte) : Res (Parsed (Limbs w)) :=
  if p32 && src.length < 20 then
    .ok (Parse.Parsed.map (Cast.fromU64 N) (Parse.primFromStr false 64 src))
  else if src.length < 39 then
    .ok (Parse.Parsed.map (Cast.fromU128 N) (Parse.primFromStr false 128 src))
  else fromStrRadix N src 10

end U

namespace I

/-- The methods used by the signed parser. -/
def parseOps : Parse.Ops w :=
  ⟨wrappingMulULimb, wrappingAddULimb, wrappingSubULimb, checkedMulULimb, checkedAddULimb,
    checkedSubULimb⟩

/-- `from_str_radix`, src/parse.rs L117-158 with `$is_signed = true`. -/
def fromStrRadix (N : Nat) (src : List Byte) (radix : BitVec 32) : Res (Parsed (Limbs w)) :=
  Parse.fromStrRadix parseOps true N src radix

/-- `FromStr::from_str`, src/int/traits.rs L38-51. `p32` says that the pointer width is 16 or 32. -/
def fromStr (p32 : Bool) (N : Nat) (src : List Byte) : Res (Parsed (Limbs w)) :=
  if p32 && src.length < 19 then
    .ok (Parse.Parsed.map (Cast.fromI64 N) (Parse.primFromStr true 64 src))
  else if src.length < 39 then
    .ok (Parse.Parsed.map (Cast.fromI128 N) (Parse.primFromStr true 128 src))
  else fromStrRadix N src 10

end I

end I256
