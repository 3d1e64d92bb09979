import Verif.SpecText
import Verif.Model.DivScalar
import Verif.Model.AddSubApi
import Verif.Model.Casts

/-!
# Model of the formatter (`src/write.rs` and the `core::fmt` traits)

The buffer is filled from its end; the model keeps the part `buffer[index..]` that has been written,
which is also the returned slice.  The buffer length is a parameter.
-/

namespace I256

variable {w : Nat}

namespace Write

/-- `a + b` on `u8`; `oc` is the build setting `have_overflow_checks`. -/
def addU8 (oc : Bool) (a b : Byte) : Res Byte :=
  if oc && decide (256 ≤ a.toNat + b.toNat) then .panic else .ok (a + b)

/-- `a - b` on `u8`. -/
def subU8 (oc : Bool) (a b : Byte) : Res Byte :=
  if oc && decide (a.toNat < b.toNat) then .panic else .ok (a - b)

/-- `digit_to_char`, src/write.rs L5-12. -/
def digitToChar (oc : Bool) (digit radix : BitVec 32) : Res Byte :=
  if radix ≤ 10 || digit < 10 then addU8 oc (digit.setWidth 8) 48
  else (addU8 oc (digit.setWidth 8) 65).bind fun c => subU8 oc c 10

/-- The loop of `to_str_radix`, src/write.rs L52-56; the first argument is `index`. -/
def loop (oc signed : Bool) (divRem : Limbs w → BitVec w → Res (Limbs w × BitVec w))
    (limit : Limbs w) (radix : BitVec 32) (start : Nat) :
    Nat → Limbs w → List Byte → Res (Nat × Limbs w × List Byte)
  | 0, x, out => .ok (0, x, out)
  | index + 1, x, out =>
    if Ord.ge signed x limit && decide (start < index + 1) then
      (divRem x (radix.setWidth w)).bind fun qr =>
      (digitToChar oc (qr.2.setWidth 32) radix).bind fun c =>
      loop oc signed divRem limit radix start index qr.1 (c :: out)
    else .ok (index + 1, x, out)

/-- `to_str_radix`, src/write.rs L30-70. `len` is `buffer.len()`. -/
def toStrRadix (oc signed : Bool) (divRem : Limbs w → BitVec w → Res (Limbs w × BitVec w))
    (len : Nat) (x : Limbs w) (radix : BitVec 32) : Res (List Byte) :=
  if radix < 2 || 36 < radix then .panic
  else if len < bits x + signed.toNat then .panic
  else
    let negative := signed && Ord.lt signed x (ofU8 x.length 0)
    let start := if negative then 2 else 1
    let limit := Cast.fromU32 x.length radix
    (loop oc signed divRem limit radix start len x []).bind fun (_, x, out) =>
    if !Ord.lt signed x limit then .panic
    else
      (digitToChar oc ((getLimb x 0).setWidth 32) radix).bind fun c =>
      .ok (if negative then 45#8 :: c :: out else c :: out)

/-- The common end of `Binary`, `LowerHex`, `UpperHex` and `Octal`: the prefix if `f.alternate()`, then
the fill character `width - len` times, then the digits; src/uint/traits.rs L18-28, L50-61, L72-83,
L115-125. -/
def pad (f : Flags) (pre : List Byte) (digits : List Byte) : List Byte :=
  (if f.alternate then pre else []) ++
    (match f.width with
      | some width => (List.replicate (width - digits.length) f.fill).flatten
      | none => []) ++ digits

/-- `u8::to_ascii_lowercase` of the standard library. -/
def toLower (c : Byte) : Byte := if 65 ≤ c ∧ c ≤ 90 then c + 32 else c

/-- `u8::to_ascii_uppercase` of the standard library. -/
def toUpper (c : Byte) : Byte := if 97 ≤ c ∧ c ≤ 122 then c - 32 else c

/-- `"{}.{}e{}"` on the first digit, the other digits and their number, src/uint/traits.rs L94, L105.
The number is a `usize` formatted by the standard library. An empty digit string would make the
indexing `bytes[0]` panic. -/
def exp (e : Byte) : List Byte → Res (List Byte)
  | [] => .panic
  | d :: ds => .ok (d :: 46#8 :: ds ++ e :: numeral 10 ds.length)

end Write

namespace U

/-- `to_str_radix`, src/write.rs L30-70 with `$is_signed = false`. -/
def toStrRadix (oc : Bool) (len : Nat) (x : Limbs w) (radix : BitVec 32) : Res (List Byte) :=
  Write.toStrRadix oc false (divRemULimb oc) len x radix

/-- `Binary::fmt`, src/uint/traits.rs L14-29. -/
def fmtBinary (oc : Bool) (f : Write.Flags) (x : Limbs w) : Res (List Byte) :=
  (toStrRadix oc (bits x) x 2).map (Write.pad f (ascii "0b"))
/-- `Display::fmt`, src/uint/traits.rs L35-40. -/
def fmtDisplay (oc : Bool) (_f : Write.Flags) (x : Limbs w) : Res (List Byte) :=
  toStrRadix oc (bits x) x 10
/-- `LowerHex::fmt`, src/uint/traits.rs L45-62. -/
def fmtLowerHex (oc : Bool) (f : Write.Flags) (x : Limbs w) : Res (List Byte) :=
  (toStrRadix oc (bits x) x 16).map fun s => Write.pad f (ascii "0x") (s.map Write.toLower)
/-- `UpperHex::fmt`, src/uint/traits.rs L67-84. -/
def fmtUpperHex (oc : Bool) (f : Write.Flags) (x : Limbs w) : Res (List Byte) :=
  (toStrRadix oc (bits x) x 16).map fun s => Write.pad f (ascii "0x") (s.map Write.toUpper)
/-- `Octal::fmt`, src/uint/traits.rs L111-126. -/
def fmtOctal (oc : Bool) (f : Write.Flags) (x : Limbs w) : Res (List Byte) :=
  (toStrRadix oc (bits x) x 8).map (Write.pad f (ascii "0o"))
/-- `LowerExp::fmt`, src/uint/traits.rs L89-95. -/
def fmtLowerExp (oc : Bool) (_f : Write.Flags) (x : Limbs w) : Res (List Byte) :=
  (toStrRadix oc (bits x) x 10).bind (Write.exp 101)
/-- `UpperExp::fmt`, src/uint/traits.rs L100-106. -/
def fmtUpperExp (oc : Bool) (_f : Write.Flags) (x : Limbs w) : Res (List Byte) :=
  (toStrRadix oc (bits x) x 10).bind (Write.exp 69)

end U

namespace I

/-- `to_str_radix`, src/write.rs L30-70 with `$is_signed = true`. -/
def toStrRadix (oc : Bool) (len : Nat) (x : Limbs w) (radix : BitVec 32) : Res (List Byte) :=
  Write.toStrRadix oc true (divRemULimb oc) len x radix

/-- `Binary::fmt`, src/int/traits.rs L56-59. -/
def fmtBinary (oc : Bool) (f : Write.Flags) (x : Limbs w) : Res (List Byte) := U.fmtBinary oc f x
/-- `LowerHex::fmt`, src/int/traits.rs L88-91. -/
def fmtLowerHex (oc : Bool) (f : Write.Flags) (x : Limbs w) : Res (List Byte) := U.fmtLowerHex oc f x
/-- `UpperHex::fmt`, src/int/traits.rs L116-119. -/
def fmtUpperHex (oc : Bool) (f : Write.Flags) (x : Limbs w) : Res (List Byte) := U.fmtUpperHex oc f x
/-- `Octal::fmt`, src/int/traits.rs L96-99. -/
def fmtOctal (oc : Bool) (f : Write.Flags) (x : Limbs w) : Res (List Byte) := U.fmtOctal oc f x

/-- The sign written by `Display`, `LowerExp` and `UpperExp`, src/int/traits.rs L65-69, L77-81,
L105-109. -/
def fmtSign (f : Write.Flags) (x : Limbs w) : List Byte :=
  if isNegative x then ascii "-" else if f.signPlus then ascii "+" else []
/-- `Display::fmt`, src/int/traits.rs L64-71. -/
def fmtDisplay (oc : Bool) (f : Write.Flags) (x : Limbs w) : Res (List Byte) :=
  (U.fmtDisplay oc f (unsignedAbs x)).map (fmtSign f x ++ ·)
/-- `LowerExp::fmt`, src/int/traits.rs L76-83. -/
def fmtLowerExp (oc : Bool) (f : Write.Flags) (x : Limbs w) : Res (List Byte) :=
  (U.fmtLowerExp oc f (unsignedAbs x)).map (fmtSign f x ++ ·)
/-- `UpperExp::fmt`, src/int/traits.rs L104-111. -/
def fmtUpperExp (oc : Bool) (f : Write.Flags) (x : Limbs w) : Res (List Byte) :=
  (U.fmtUpperExp oc f (unsignedAbs x)).map (fmtSign f x ++ ·)

end I

end I256
