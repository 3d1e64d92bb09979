import Verif.Model.Shift
import Verif.Model.AddSubApi

/-!
# Model of `src/shared/casts.rs` and the conversion traits

`w` is the limb size; the code accepts 32 and 64 only (`assert!(BITS == 32 || BITS == 64)`, evaluated
at compile time).  A primitive integer of `n` bits is a `BitVec n` for both signs.
-/

namespace I256

variable {w : Nat}

/-- The sizes of the primitive integer types. -/
inductive Prim
  | b8 | b16 | b32 | b64 | b128
  deriving DecidableEq, Repr

/-- The number of bits of the primitive type. -/
abbrev Prim.n : Prim → Nat
  | .b8 => 8 | .b16 => 16 | .b32 => 32 | .b64 => 64 | .b128 => 128

namespace Cast

/-- `let mut limbs = [fill; LIMBS]; limbs[0] = ..; limbs[1] = ..`: the given low limbs, the rest
`fill`. -/
def put (N : Nat) (fill : BitVec w) (low : Limbs w) : Limbs w :=
  low ++ List.replicate (N - low.length) fill

/-- `from_u32`, src/shared/casts.rs L67-71. -/
def fromU32 (N : Nat) (v : BitVec 32) : Limbs w := put N 0 [v.setWidth w]

/-- `from_u64`, src/shared/casts.rs L75-87. -/
def fromU64 (N : Nat) (v : BitVec 64) : Limbs w :=
  if w = 32 then put N 0 [v.setWidth w, (v >>> 32).setWidth w]
  else put N 0 [v.setWidth w]

/-- `from_u128`, src/shared/casts.rs L91-106. -/
def fromU128 (N : Nat) (v : BitVec 128) : Limbs w :=
  if w = 32 then
    put N 0 [v.setWidth w, (v >>> 32).setWidth w, (v >>> 64).setWidth w, (v >>> 96).setWidth w]
  else put N 0 [v.setWidth w, (v >>> 64).setWidth w]

/-- `from_u8` (src/shared/casts.rs L55-57), `from_u16` (L61-63) and the above. -/
def fromU (N : Nat) : (p : Prim) → BitVec p.n → Limbs w
  | .b8, v => fromU32 N (v.setWidth 32)
  | .b16, v => fromU32 N (v.setWidth 32)
  | .b32, v => fromU32 N v
  | .b64, v => fromU64 N v
  | .b128, v => fromU128 N v

/-- `ULimb::MIN.wrapping_sub(value.is_negative() as ULimb)`, src/shared/casts.rs L164. -/
def signFill {n : Nat} (w : Nat) (v : BitVec n) : BitVec w := 0 - boolLimb w (v.slt 0)

/-- `from_i64`, src/shared/casts.rs L176-193. -/
def fromI64 (N : Nat) (v : BitVec 64) : Limbs w :=
  if w = 32 then put N (signFill w v) [v.setWidth w, (v >>> 32).setWidth w]
  else put N (signFill w v) [v.setWidth w]

/-- `from_i32`, src/shared/casts.rs L160-172. -/
def fromI32 (N : Nat) (v : BitVec 32) : Limbs w :=
  if w = 32 then put N (signFill w v) [v.setWidth w] else fromI64 N (v.signExtend 64)

/-- `from_i128`, src/shared/casts.rs L197-214. -/
def fromI128 (N : Nat) (v : BitVec 128) : Limbs w :=
  if w = 32 then
    put N (signFill w v)
      [v.setWidth w, (v >>> 32).setWidth w, (v >>> 64).setWidth w, (v >>> 96).setWidth w]
  else put N (signFill w v) [v.setWidth w, (v >>> 64).setWidth w]

/-- `from_i8` (src/shared/casts.rs L148-150), `from_i16` (L154-156) and the above. -/
def fromI (N : Nat) : (p : Prim) → BitVec p.n → Limbs w
  | .b8, v => fromI32 N (v.signExtend 32)
  | .b16, v => fromI32 N (v.signExtend 32)
  | .b32, v => fromI32 N v
  | .b64, v => fromI64 N v
  | .b128, v => fromI128 N v

/-- `from_ulimb`, src/shared/casts.rs L111-119. -/
def fromULimb (N : Nat) (v : BitVec w) : Limbs w :=
  if w = 32 then fromU32 N (v.setWidth 32) else fromU64 N (v.setWidth 64)
/-- `from_uwide`, src/shared/casts.rs L124-132. -/
def fromUWide (N : Nat) (v : BitVec (w + w)) : Limbs w :=
  if w + w = 64 then fromU64 N (v.setWidth 64) else fromU128 N (v.setWidth 128)
/-- `from_ilimb`, src/shared/casts.rs L219-227. -/
def fromILimb (N : Nat) (v : BitVec w) : Limbs w :=
  if w = 32 then fromI32 N (v.setWidth 32) else fromI64 N (v.setWidth 64)
/-- `from_iwide`, src/shared/casts.rs L232-240. -/
def fromIWide (N : Nat) (v : BitVec (w + w)) : Limbs w :=
  if w + w = 64 then fromI64 N (v.setWidth 64) else fromI128 N (v.setWidth 128)

/-- `as_u32`, src/shared/casts.rs L256-261. -/
def asU32' (x : Limbs w) : BitVec 32 := (getLimb x 0).setWidth 32

/-- `as_u64`, src/shared/casts.rs L265-277. -/
def asU64 (x : Limbs w) : BitVec 64 :=
  if w = 32 then
    let x0 := (getLimb x 0).setWidth 64
    let x1 := (getLimb x 1).setWidth 64
    x0 ||| (x1 <<< 32)
  else (getLimb x 0).setWidth 64

/-- `as_u128`, src/shared/casts.rs L281-297. -/
def asU128 (x : Limbs w) : BitVec 128 :=
  if w = 32 then
    let x0 := (getLimb x 0).setWidth 128
    let x1 := (getLimb x 1).setWidth 128
    let x2 := (getLimb x 2).setWidth 128
    let x3 := (getLimb x 3).setWidth 128
    x0 ||| (x1 <<< 32) ||| (x2 <<< 64) ||| (x3 <<< 96)
  else
    let x0 := (getLimb x 0).setWidth 128
    let x1 := (getLimb x 1).setWidth 128
    x0 ||| (x1 <<< 64)

/-- `as_u8` (src/shared/casts.rs L244-246), `as_u16` (L250-252) and the above. The signed forms
`as_i8` … `as_i128` (L327-353) are the same bits. -/
def asP (x : Limbs w) : (p : Prim) → BitVec p.n
  | .b8 => (asU32' x).setWidth 8
  | .b16 => (asU32' x).setWidth 16
  | .b32 => asU32' x
  | .b64 => asU64 x
  | .b128 => asU128 x

/-- `as_ulimb`, src/shared/casts.rs L302-310; `as_ilimb` (L358-360) is the same bits. -/
def asULimb (x : Limbs w) : BitVec w :=
  if w = 32 then (asU32' x).setWidth w else (asU64 x).setWidth w
/-- `as_uwide`, src/shared/casts.rs L315-323; `as_iwide` (L365-367) is the same bits. -/
def asUWide (x : Limbs w) : BitVec (w + w) :=
  if w + w = 64 then (asU64 x).setWidth (w + w) else (asU128 x).setWidth (w + w)

/-! ### `From` / `TryFrom` -/

/-- `TryFrom<iN>` for the unsigned types: `if u >= 0 { Ok(from_iN(u)) }`, src/shared/traits.rs
L97-105, src/uint/traits.rs L153-159. `none` is the error value. -/
def tryFromI (N : Nat) (p : Prim) (v : BitVec p.n) : Option (Limbs w) :=
  if (0 : BitVec p.n).sle v then some (fromI N p v) else none

/-- `TryFrom<signed>` for the unsigned type, src/uint/traits.rs L165-171. -/
def tryFromSigned (x : Limbs w) : Option (Limbs w) := if !I.isNegative x then some x else none

/-- `TryFrom<unsigned>` for the signed type, src/int/traits.rs L134-140. -/
def tryFromUnsigned (x : Limbs w) : Option (Limbs w) :=
  if Ord.lt false x (I.maxValue w x.length) then some x else none

/-! ### num-traits: `FromPrimitive`, `ToPrimitive`, `NumCast` -/

/-- `FromPrimitive::from_iN` for the unsigned types, src/uint/traits.rs L180-202: the primitive
conversion `iN → uN` (fails iff negative), then `from_uN`. -/
def uFromPrimI (N : Nat) (p : Prim) (v : BitVec p.n) : Option (Limbs w) :=
  if (0 : BitVec p.n).sle v then some (fromU N p v) else none
/-- `FromPrimitive::from_uN`, src/uint/traits.rs L210-232, src/int/traits.rs L214-236. -/
def fromPrimU (N : Nat) (p : Prim) (v : BitVec p.n) : Option (Limbs w) := some (fromU N p v)
/-- `FromPrimitive::from_iN` for the signed types, src/int/traits.rs L184-206. -/
def iFromPrimI (N : Nat) (p : Prim) (v : BitVec p.n) : Option (Limbs w) := some (fromI N p v)

/-- `ToPrimitive::to_uN` for the unsigned types, src/uint/traits.rs L313-360. -/
def uToU (x : Limbs w) (p : Prim) : Option (BitVec p.n) :=
  if Ord.le false x (fromU x.length p (BitVec.allOnes _)) then some (asP x p) else none
/-- `ToPrimitive::to_iN` for the unsigned types, src/uint/traits.rs L253-300. -/
def uToI (x : Limbs w) (p : Prim) : Option (BitVec p.n) :=
  if Ord.le false x (fromI x.length p (BitVec.intMax _)) then some (asP x p) else none
/-- `ToPrimitive::to_uN` for the signed types, src/int/traits.rs L323-375. -/
def iToU (x : Limbs w) (p : Prim) : Option (BitVec p.n) :=
  if Ord.le true x (fromU x.length p (BitVec.allOnes _)) &&
      Ord.ge true x (fromU x.length p 0) then some (asP x p) else none
/-- `ToPrimitive::to_iN` for the signed types, src/int/traits.rs L257-309. -/
def iToI (x : Limbs w) (p : Prim) : Option (BitVec p.n) :=
  if Ord.le true x (fromI x.length p (BitVec.intMax _)) &&
      Ord.ge true x (fromI x.length p (BitVec.intMin _)) then some (asP x p) else none

/-- `ToPrimitive::to_usize` for the unsigned types, src/uint/traits.rs L363-370; `pw` is the pointer
width. -/
def uToUsize (pw : Nat) (x : Limbs w) : Option (BitVec pw) :=
  if Ord.le false x (fromU x.length .b128 ((BitVec.allOnes pw).setWidth 128)) then
    some ((asP x .b128).setWidth pw) else none
/-- `ToPrimitive::to_isize` for the unsigned types, src/uint/traits.rs L303-310. -/
def uToIsize (pw : Nat) (x : Limbs w) : Option (BitVec pw) :=
  if Ord.le false x (fromI x.length .b128 ((BitVec.intMax pw).signExtend 128)) then
    some ((asP x .b128).setWidth pw) else none
/-- `ToPrimitive::to_usize` for the signed types, src/int/traits.rs L378-386. -/
def iToUsize (pw : Nat) (x : Limbs w) : Option (BitVec pw) :=
  if Ord.le true x (fromU x.length .b128 ((BitVec.allOnes pw).setWidth 128)) &&
      Ord.ge true x (fromU x.length .b128 0) then
    some ((asP x .b128).setWidth pw) else none
/-- `ToPrimitive::to_isize` for the signed types, src/int/traits.rs L312-320. -/
def iToIsize (pw : Nat) (x : Limbs w) : Option (BitVec pw) :=
  if Ord.le true x (fromI x.length .b128 ((BitVec.intMax pw).signExtend 128)) &&
      Ord.ge true x (fromI x.length .b128 ((BitVec.intMin pw).signExtend 128)) then
    some ((asP x .b128).setWidth pw) else none

/-- `NumCast::from` for the unsigned types, src/uint/traits.rs L386-392, on the result of the
source's `to_u128`. -/
def uNumCast (N : Nat) (toU128 : Option (BitVec 128)) : Option (Limbs w) :=
  match toU128 with
  | some v => fromPrimU N .b128 v
  | none => none
/-- `NumCast::from` for the signed types, src/int/traits.rs L402-410, on the results of the source's
`to_i128` and `to_u128`. -/
def iNumCast (N : Nat) (toI128 toU128 : Option (BitVec 128)) : Option (Limbs w) :=
  match toI128 with
  | some v => iFromPrimI N .b128 v
  | none => match toU128 with
    | some v => fromPrimU N .b128 v
    | none => none

end Cast

/-! ### num-traits: `Signed`, src/int/traits.rs L144-179 -/

namespace NumSigned

/-- `Signed::abs_sub`, src/int/traits.rs L151-157; `-` is the operator (`oc`: overflow checks). -/
def absSub (oc : Bool) (x y : Limbs w) : Res (Limbs w) :=
  if Ord.lt true x y then .ok (ofU8 x.length 0) else I.sub oc x y

/-- `Signed::signum`, src/int/traits.rs L160-168. -/
def signum (oc : Bool) (x : Limbs w) : Res (Limbs w) :=
  if Ord.eqConst x (ofU8 x.length 0) then .ok (ofU8 x.length 0)
  else if Ord.gt true x (ofU8 x.length 0) then .ok (ofU8 x.length 1)
  else I.neg oc (ofU8 x.length 1)

/-- `Signed::is_positive`, src/int/traits.rs L171-173. -/
def isPositive (x : Limbs w) : Bool := Ord.ge true x (ofU8 x.length 0)
/-- `Signed::is_negative`, src/int/traits.rs L176-178. -/
def isNegative (x : Limbs w) : Bool := Ord.lt true x (ofU8 x.length 0)

end NumSigned

end I256
