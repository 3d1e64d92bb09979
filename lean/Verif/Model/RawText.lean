import Verif.Model.RawScalar
import Verif.Model.RawCasts
import Verif.Model.RawMul
import Verif.Model.Write
import Verif.Model.Parse

/-!
# Literal model of `src/write.rs` and `src/parse.rs`

See `Raw.lean` for the vocabulary and `RawDiv.lean` for the kinds of build `Cfg`.  The buffer of the
formatter is a list of bytes that is written in place; the parser indexes the bytes of the string.  A
`return Err(..)` inside a loop sets the last component of the state, which ends the loop.
-/

namespace I256

variable {w : Nat}

namespace Raw

open Div (Cfg)

/-- `while cond { body }` where the condition calls functions that may panic. -/
def loopM {σ : Type} (fuel : Nat) (cond : σ → Res Bool) (body : σ → Res σ) (s : σ) : Res σ := do
  let c ← cond s
  if c then
    match fuel with
    | 0 => .panic
    | fuel + 1 => do
      let s ← body s
      loopM fuel cond body s
  else .ok s

namespace Write

/-- `digit_to_char`, src/write.rs L5-12. -/
def digitToChar (cf : Cfg) (digit radix : BitVec 32) : Res Byte := do
  if radix ≤ 10 || digit < 10 then Div.add cf (digit.setWidth 8) 48
  else
    let c ← Div.add cf (digit.setWidth 8) 65
    Div.sub cf c 10

/-- `self.lt_const(Self::from_u8(0))` in `is_negative`, src/write.rs L41; `&&` evaluates it only for the
signed types. -/
def isNegative (be signed : Bool) (self : Limbs w) : Res Bool :=
  if signed then do
    let zero ← fromU8 be self.length 0
    Ord.lt be signed self zero
  else .ok false

/-- The end of `to_str_radix`, src/write.rs L58-69: the last digit, the sign, and the returned slice;
the result is the buffer and the slice. -/
def finish (cf : Cfg) (be signed isNegative : Bool) (limit : Limbs w) (radix : BitVec 32)
    (self : Limbs w) (index : Nat) (buffer : List Byte) : Res (List Byte × List Byte) := do
  let lt ← Ord.lt be signed self limit
  assert lt
  let index ← usub index 1
  let d ← getLimb be self 0
  let c ← digitToChar cf (d.setWidth 32) radix
  let buffer ← set_ buffer index c
  if isNegative then
    let index ← usub index 1
    let buffer ← set_ buffer index 45
    if index ≤ buffer.length then .ok (buffer, buffer.drop index) else .panic
  else if index ≤ buffer.length then .ok (buffer, buffer.drop index) else .panic

/-- `to_str_radix`, src/write.rs L30-70, with `ge_const`, src/shared/ord.rs L126-128; `divRem` is
`div_rem_ulimb` of the type. The state of the loop is `(self, index, buffer)`. -/
def toStrRadix (cf : Cfg) (be signed : Bool)
    (divRem : Limbs w → BitVec w → Res (Limbs w × BitVec w)) (self : Limbs w) (buffer : List Byte)
    (radix : BitVec 32) : Res (List Byte × List Byte) := do
  if !(decide (2 ≤ radix) && decide (radix ≤ 36)) then .panic
  else if buffer.length < bits self + signed.toNat then .panic
  else
    let negative ← isNegative be signed self
    let start := if negative then 2 else 1
    let limit ← Cast.fromU32 be self.length radix
    let s ← loopM buffer.length
      (fun (self, index, _) => do
        let lt ← Ord.lt be signed self limit
        .ok (!lt && decide (start < index)))
      (fun (self, index, buffer) => do
        let index ← usub index 1
        let qr ← divRem self (radix.setWidth w)
        let c ← digitToChar cf (qr.2.setWidth 32) radix
        let buffer ← set_ buffer index c
        .ok (qr.1, index, buffer))
      (self, buffer.length, buffer)
    finish cf be signed negative limit radix s.1 s.2.1 s.2.2

end Write

namespace Parse

/-- `char_to_digit`, src/parse.rs L21-40. -/
def charToDigit (cf : Cfg) (c : Byte) (radix : BitVec 32) : Res (Option (BitVec 32)) := do
  if radix ≤ 10 then
    let digit : BitVec 32 := (c - 48).setWidth 32
    .ok (if digit < radix then some digit else none)
  else
    let digit ←
      if 48 ≤ c ∧ c ≤ 57 then Div.sub cf c 48
      else if 65 ≤ c ∧ c ≤ 90 then (Div.sub cf c 65).bind fun d => Div.add cf d 10
      else if 97 ≤ c ∧ c ≤ 122 then (Div.sub cf c 97).bind fun d => Div.add cf d 10
      else .ok 0xFF
    let digit : BitVec 32 := digit.setWidth 32
    .ok (if digit < radix then some digit else none)

/-- The methods of the integer type that the loops call. -/
structure Ops (w : Nat) where
  wMul : Limbs w → BitVec w → Res (Limbs w)
  wAdd : Limbs w → BitVec w → Res (Limbs w)
  wSub : Limbs w → BitVec w → Res (Limbs w)
  cMul : Limbs w → BitVec w → Res (Option (Limbs w))
  cAdd : Limbs w → BitVec w → Res (Option (Limbs w))
  cSub : Limbs w → BitVec w → Res (Option (Limbs w))

/-- The body of `unchecked_loop!`, src/parse.rs L54-59. -/
def uncheckedBody (cf : Cfg) (mul add : Limbs w → BitVec w → Res (Limbs w)) (digits : List Byte)
    (radix : BitVec 32) (s : Nat × Limbs w × Option ErrKind) : Res (Nat × Limbs w × Option ErrKind) := do
  let c ← at_ digits s.1
  let digit ← charToDigit cf c radix
  match digit with
  | none => .ok (s.1, s.2.1, some .invalidDigit)
  | some digit =>
    let t ← mul s.2.1 (radix.setWidth w)
    let res ← add t (digit.setWidth w)
    .ok (s.1 + 1, res, none)

/-- The body of `checked_loop!`, src/parse.rs L78-90. -/
def checkedBody (cf : Cfg) (overflow : ErrKind) (mul add : Limbs w → BitVec w → Res (Option (Limbs w)))
    (digits : List Byte) (radix : BitVec 32) (s : Nat × Limbs w × Option ErrKind) :
    Res (Nat × Limbs w × Option ErrKind) := do
  let c ← at_ digits s.1
  let digit ← charToDigit cf c radix
  match digit with
  | none => .ok (s.1, s.2.1, some .invalidDigit)
  | some digit =>
    let value ← mul s.2.1 (radix.setWidth w)
    match value with
    | none => .ok (s.1, s.2.1, some overflow)
    | some value =>
      let res ← add value (digit.setWidth w)
      match res with
      | none => .ok (s.1, s.2.1, some overflow)
      | some res => .ok (s.1 + 1, res, none)

/-- The frame of `unchecked_loop!` and `checked_loop!`, src/parse.rs L48-53, L62 and L72-77, L93. -/
def run (be : Bool) (N : Nat) (digits : List Byte) (index : Nat)
    (body : Nat × Limbs w × Option ErrKind → Res (Nat × Limbs w × Option ErrKind)) :
    Res (Parsed (Limbs w)) := do
  let res ← fromU8 be N 0
  let s ← loop digits.length (fun s => s.2.2.isNone && decide (s.1 < digits.length)) body
    (index, res, none)
  match s.2.2 with
  | some e => .ok (.err e)
  | none => .ok (.ok s.2.1)

/-- The part of `from_str_radix` after the sign, src/parse.rs L146-157. -/
def body (cf : Cfg) (be : Bool) (ops : Ops w) (signed : Bool) (N : Nat) (digits : List Byte)
    (radix : BitVec 32) (index : Nat) (isNegative : Bool) : Res (Parsed (Limbs w)) := do
  let overflowDigits := I256.Parse.overflowDigits (N * w / 8) radix signed
  let rest ← usub digits.length index
  let cannotOverflow := decide (rest ≤ overflowDigits)
  if cannotOverflow && isNegative then
    run be N digits index (uncheckedBody cf ops.wMul ops.wSub digits radix)
  else if cannotOverflow then
    run be N digits index (uncheckedBody cf ops.wMul ops.wAdd digits radix)
  else if isNegative then
    run be N digits index (checkedBody cf .negOverflow ops.cMul ops.cSub digits radix)
  else
    run be N digits index (checkedBody cf .posOverflow ops.cMul ops.cAdd digits radix)

/-- `from_str_radix`, src/parse.rs L117-158. -/
def fromStrRadix (cf : Cfg) (be : Bool) (ops : Ops w) (signed : Bool) (N : Nat) (src : List Byte)
    (radix : BitVec 32) : Res (Parsed (Limbs w)) := do
  if radix < 2 || 36 < radix then .panic
  else if src.isEmpty then .ok (.err .empty)
  else
    match src[0]? with
    | some c =>
      if c = 43 then body cf be ops signed N src radix 1 false
      else if c = 45 && signed then body cf be ops signed N src radix 1 true
      else if c = 45 then .ok (.err .negOverflow)
      else body cf be ops signed N src radix 0 false
    | none => body cf be ops signed N src radix 0 false

end Parse

namespace Fmt

/-- `core::str::from_utf8`; `none` is the error.  Here every byte outside ASCII counts as an error, which
is stricter than the standard library. -/
def fromUtf8 (bytes : List Byte) : Option (List Byte) :=
  if bytes.all (fun b => decide (b < 128)) then some bytes else none

/-- The padding of `Binary`, `LowerHex`, `UpperHex` and `Octal`, src/uint/traits.rs L21-27, L54-60,
L76-82, L118-124; `out` is what has been written to the formatter. -/
def fill (f : I256.Write.Flags) (count : Nat) (out : List Byte) : Res (List Byte) := do
  match f.width with
  | some width =>
    let pad := width - count
    let s ← loop pad (fun s : Nat × List Byte => decide (s.1 < pad))
      (fun s => .ok (s.1 + 1, s.2 ++ f.fill)) (0, out)
    .ok s.2
  | none => .ok out

/-- The end of `Binary`, `LowerHex`, `UpperHex` and `Octal`, src/uint/traits.rs L17-28, L50-61, L72-83,
L114-125. The result is what has been written, or `none` for `Err(core::fmt::Error)`. -/
def radixEnd (f : I256.Write.Flags) (pre bytes : List Byte) : Res (Option (List Byte)) := do
  match fromUtf8 bytes with
  | none => .ok none
  | some formatted =>
    let out := if f.alternate then pre else []
    let out ← fill f bytes.length out
    .ok (some (out ++ formatted))

/-- `buffer.map(op)` and the slice of its last `count` bytes, src/uint/traits.rs L48-49, L70-71. -/
def mapSlice (op : Byte → Byte) (buffer : List Byte) (count : Nat) : Res (List Byte) := do
  let mapped := buffer.map op
  let start ← usub buffer.length count
  if start ≤ mapped.length then .ok (mapped.drop start) else .panic

/-- The end of `LowerExp` and `UpperExp`, src/uint/traits.rs L92-94, L103-105; `e` is the letter.  The
exponent is a `usize` formatted by the standard library. -/
def expEnd (e : Byte) (bytes : List Byte) : Res (Option (List Byte)) := do
  if bytes.length < 1 then .panic
  else
    match fromUtf8 (bytes.drop 1) with
    | none => .ok none
    | some formatted =>
      let b ← at_ bytes 0
      let n ← usub bytes.length 1
      .ok (some (b :: 46#8 :: formatted ++ e :: numeral 10 n))

end Fmt

/-- `Self::from_ne_limbs` on the first component of the result of an overflowing kernel, and `None` if it
overflowed: src/shared/limb.rs L794-801, L808-815, L822-829. -/
def checkedOf (r : Res (Limbs w × Bool)) : Res (Option (Limbs w)) := do
  let v ← r
  let value ← fromNeLimbs v.1
  .ok (if v.2 then none else some value)

/-- `Self::from_ne_limbs` on the result of a wrapping kernel. -/
def wrappingOf (r : Res (Limbs w)) : Res (Limbs w) := do
  let v ← r
  fromNeLimbs v

namespace U

/-- The methods used by the unsigned parser: src/uint/limb.rs L23-26, L34-37, L63-93, L389-392,
L401-404, L432-435. -/
def parseOps (be : Bool) : Parse.Ops w where
  wMul x n := wrappingOf (Mul.wrappingLimb be x n)
  wAdd x n := wrappingOf (Add.wrappingLimb be x n)
  wSub x n := wrappingOf (Sub.wrappingLimb be x n)
  cMul x n := checkedOf (Mul.overflowingLimb be x n)
  cAdd x n := checkedOf (Add.overflowingLimb be x n)
  cSub x n := checkedOf (Sub.overflowingLimb be x n)

/-- `from_str_radix`, src/parse.rs L117-158 with `$is_signed = false`. -/
def fromStrRadix (cf : Cfg) (be : Bool) (N : Nat) (src : List Byte) (radix : BitVec 32) :
    Res (Parsed (Limbs w)) :=
  Parse.fromStrRadix cf be (parseOps be) false N src radix

/-- `to_str_radix`, src/write.rs L30-70 with `$is_signed = false`. -/
def toStrRadix (cf : Cfg) (be : Bool) (x : Limbs w) (buffer : List Byte) (radix : BitVec 32) :
    Res (List Byte × List Byte) :=
  Write.toStrRadix cf be false (divRemULimb cf be) x buffer radix

/-- `FromStr::from_str`, src/uint/traits.rs L137-150. -/
def fromStr (cf : Cfg) (be p32 : Bool) (N : Nat) (src : List Byte) : Res (Parsed (Limbs w)) := do
  if p32 && src.length < 20 then
    match I256.Parse.primFromStr false 64 src with
    | .err e => .ok (.err e)
    | .ok v =>
      let r ← Cast.fromU64 be N v
      .ok (.ok r)
  else if src.length < 39 then
    match I256.Parse.primFromStr false 128 src with
    | .err e => .ok (.err e)
    | .ok v =>
      let r ← Cast.fromU128 be N v
      .ok (.ok r)
  else fromStrRadix cf be N src 10

/-- `Binary::fmt`, src/uint/traits.rs L14-29. -/
def fmtBinary (cf : Cfg) (be : Bool) (f : I256.Write.Flags) (x : Limbs w) :
    Res (Option (List Byte)) := do
  let r ← toStrRadix cf be x (List.replicate (bits x) 0) 2
  Fmt.radixEnd f (ascii "0b") r.2
/-- `Display::fmt`, src/uint/traits.rs L35-40. -/
def fmtDisplay (cf : Cfg) (be : Bool) (_f : I256.Write.Flags) (x : Limbs w) :
    Res (Option (List Byte)) := do
  let r ← toStrRadix cf be x (List.replicate (bits x) 0) 10
  .ok (Fmt.fromUtf8 r.2)
/-- `LowerHex::fmt`, src/uint/traits.rs L45-62. -/
def fmtLowerHex (cf : Cfg) (be : Bool) (f : I256.Write.Flags) (x : Limbs w) :
    Res (Option (List Byte)) := do
  let r ← toStrRadix cf be x (List.replicate (bits x) 0) 16
  let bytes ← Fmt.mapSlice I256.Write.toLower r.1 r.2.length
  Fmt.radixEnd f (ascii "0x") bytes
/-- `UpperHex::fmt`, src/uint/traits.rs L67-84. -/
def fmtUpperHex (cf : Cfg) (be : Bool) (f : I256.Write.Flags) (x : Limbs w) :
    Res (Option (List Byte)) := do
  let r ← toStrRadix cf be x (List.replicate (bits x) 0) 16
  let bytes ← Fmt.mapSlice I256.Write.toUpper r.1 r.2.length
  Fmt.radixEnd f (ascii "0x") bytes
/-- `Octal::fmt`, src/uint/traits.rs L111-126. -/
def fmtOctal (cf : Cfg) (be : Bool) (f : I256.Write.Flags) (x : Limbs w) :
    Res (Option (List Byte)) := do
  let r ← toStrRadix cf be x (List.replicate (bits x) 0) 8
  Fmt.radixEnd f (ascii "0o") r.2
/-- `LowerExp::fmt`, src/uint/traits.rs L89-95. -/
def fmtLowerExp (cf : Cfg) (be : Bool) (_f : I256.Write.Flags) (x : Limbs w) :
    Res (Option (List Byte)) := do
  let r ← toStrRadix cf be x (List.replicate (bits x) 0) 10
  Fmt.expEnd 101 r.2
/-- `UpperExp::fmt`, src/uint/traits.rs L100-106. -/
def fmtUpperExp (cf : Cfg) (be : Bool) (_f : I256.Write.Flags) (x : Limbs w) :
    Res (Option (List Byte)) := do
  let r ← toStrRadix cf be x (List.replicate (bits x) 0) 10
  Fmt.expEnd 69 r.2

end U

namespace I

/-- The methods used by the signed parser: src/int/limb.rs L465-468, L486-489, L512-515, L1214-1217,
L1236-1239, L1260-1263.  `math::add::wrapping_ulimb` is `wrapping_limb`. -/
def parseOps (be : Bool) : Parse.Ops w where
  wMul x n := wrappingOf (Mul.wrappingLimb be x n)
  wAdd x n := wrappingOf (Add.wrappingLimb be x n)
  wSub x n := wrappingOf (Sub.wrappingLimb be x n)
  cMul x n := checkedOf (Mul.overflowingULimbS be x n)
  cAdd x n := checkedOf (Add.sOverflowingULimb be x n)
  cSub x n := checkedOf (Sub.sOverflowingULimb be x n)

/-- `from_str_radix`, src/parse.rs L117-158 with `$is_signed = true`. -/
def fromStrRadix (cf : Cfg) (be : Bool) (N : Nat) (src : List Byte) (radix : BitVec 32) :
    Res (Parsed (Limbs w)) :=
  Parse.fromStrRadix cf be (parseOps be) true N src radix

/-- `to_str_radix`, src/write.rs L30-70 with `$is_signed = true`. -/
def toStrRadix (cf : Cfg) (be : Bool) (x : Limbs w) (buffer : List Byte) (radix : BitVec 32) :
    Res (List Byte × List Byte) :=
  Write.toStrRadix cf be true (divRemULimb cf be) x buffer radix

/-- `FromStr::from_str`, src/int/traits.rs L38-51. -/
def fromStr (cf : Cfg) (be p32 : Bool) (N : Nat) (src : List Byte) : Res (Parsed (Limbs w)) := do
  if p32 && src.length < 19 then
    match I256.Parse.primFromStr true 64 src with
    | .err e => .ok (.err e)
    | .ok v =>
      let r ← Cast.fromI64 be N v
      .ok (.ok r)
  else if src.length < 39 then
    match I256.Parse.primFromStr true 128 src with
    | .err e => .ok (.err e)
    | .ok v =>
      let r ← Cast.fromI128 be N v
      .ok (.ok r)
  else fromStrRadix cf be N src 10

/-- The sign that `Display`, `LowerExp` and `UpperExp` write and the call of the unsigned
implementation, src/int/traits.rs L65-70, L77-82, L105-110. -/
def fmtSigned (cf : Cfg) (be : Bool) (f : I256.Write.Flags) (x : Limbs w)
    (inner : Limbs w → Res (Option (List Byte))) : Res (Option (List Byte)) := do
  let neg ← Bits.isNegative be x
  let out := if neg then ascii "-" else if f.signPlus then ascii "+" else []
  let v ← unsignedAbs cf be x
  let r ← inner v
  .ok (r.map (out ++ ·))
/-- `Display::fmt`, src/int/traits.rs L64-71. -/
def fmtDisplay (cf : Cfg) (be : Bool) (f : I256.Write.Flags) (x : Limbs w) :
    Res (Option (List Byte)) := fmtSigned cf be f x (U.fmtDisplay cf be f)
/-- `LowerExp::fmt`, src/int/traits.rs L76-83. -/
def fmtLowerExp (cf : Cfg) (be : Bool) (f : I256.Write.Flags) (x : Limbs w) :
    Res (Option (List Byte)) := fmtSigned cf be f x (U.fmtLowerExp cf be f)
/-- `UpperExp::fmt`, src/int/traits.rs L104-111. -/
def fmtUpperExp (cf : Cfg) (be : Bool) (f : I256.Write.Flags) (x : Limbs w) :
    Res (Option (List Byte)) := fmtSigned cf be f x (U.fmtUpperExp cf be f)

/-- `Binary::fmt`, src/int/traits.rs L56-59. -/
def fmtBinary (cf : Cfg) (be : Bool) (f : I256.Write.Flags) (x : Limbs w) :
    Res (Option (List Byte)) := do
  let v ← Cast.reinterpret x
  U.fmtBinary cf be f v
/-- `LowerHex::fmt`, src/int/traits.rs L88-91. -/
def fmtLowerHex (cf : Cfg) (be : Bool) (f : I256.Write.Flags) (x : Limbs w) :
    Res (Option (List Byte)) := do
  let v ← Cast.reinterpret x
  U.fmtLowerHex cf be f v
/-- `UpperHex::fmt`, src/int/traits.rs L116-119. -/
def fmtUpperHex (cf : Cfg) (be : Bool) (f : I256.Write.Flags) (x : Limbs w) :
    Res (Option (List Byte)) := do
  let v ← Cast.reinterpret x
  U.fmtUpperHex cf be f v
/-- `Octal::fmt`, src/int/traits.rs L96-99. -/
def fmtOctal (cf : Cfg) (be : Bool) (f : I256.Write.Flags) (x : Limbs w) :
    Res (Option (List Byte)) := do
  let v ← Cast.reinterpret x
  U.fmtOctal cf be f v

end I

end Raw

end I256
