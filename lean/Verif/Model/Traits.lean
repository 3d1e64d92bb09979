import Verif.Model.Casts
import Verif.Model.MulApi
import Verif.SpecText

/-!
# Trait implementations

References are erased, so an implementation for `&T` or `&mut T` is the one for `T`
(src/shared/traits.rs L12-87, src/shared/shift.rs L68-124). Trait methods whose body only calls the
inherent method of the same name are that method; this is the case for `PrimInt`
(src/uint/traits.rs L396-490, src/int/traits.rs L414-508), `Pow`, `Euclid`, `CheckedEuclid`, `Num`,
`FromBytes` and `ToBytes` (src/shared/num_traits_impls.rs L85-221), `BitAnd`, `BitOr`, `BitXor`
(src/shared/bitops.rs L241-265), `Not` (src/shared/ops.rs L141-147), `Ord` and `PartialOrd`
(src/shared/ord.rs L166-199), and `Debug` (src/shared/traits.rs L119-124).
-/

namespace I256

variable {w : Nat}

namespace U
/-- `strict_neg`, src/uint/strict.rs L125-130. -/
def strictNeg (x : Limbs w) : Res (Limbs w) := unwrapOrPanic (checkedNeg x)
end U

namespace Traits

/-! ### The tables of one-line implementations, src/shared/num_traits_impls.rs L236-263 -/

/-- The operation a trait is named for. -/
inductive Arith | add | sub | mul
  deriving DecidableEq, Repr

/-- `WrappingAdd`, `WrappingSub`, `WrappingMul`, src/shared/num_traits_impls.rs L241-243, by the
macro of L10-21. -/
def uWrapping : Arith → Limbs w → Limbs w → Limbs w
  | .add => U.wrappingAdd
  | .sub => U.wrappingSub
  | .mul => U.wrappingMul
/-- The same for the signed types. -/
def iWrapping : Arith → Limbs w → Limbs w → Limbs w
  | .add => I.wrappingAdd
  | .sub => I.wrappingSub
  | .mul => I.wrappingMul
/-- `CheckedAdd`, `CheckedSub`, `CheckedMul`, src/shared/num_traits_impls.rs L244-246. -/
def uChecked : Arith → Limbs w → Limbs w → Option (Limbs w)
  | .add => U.checkedAdd
  | .sub => U.checkedSub
  | .mul => U.checkedMul
/-- The same for the signed types. -/
def iChecked : Arith → Limbs w → Limbs w → Option (Limbs w)
  | .add => I.checkedAdd
  | .sub => I.checkedSub
  | .mul => I.checkedMul
/-- `SaturatingAdd`, `SaturatingSub`, `SaturatingMul` (src/shared/num_traits_impls.rs L238-240) and
`Saturating` (L224-234). -/
def uSaturating : Arith → Limbs w → Limbs w → Limbs w
  | .add => U.saturatingAdd
  | .sub => U.saturatingSub
  | .mul => U.saturatingMul
/-- The same for the signed types. -/
def iSaturating : Arith → Limbs w → Limbs w → Limbs w
  | .add => I.saturatingAdd
  | .sub => I.saturatingSub
  | .mul => I.saturatingMul

/-! ### Bounds and constants -/

/-- `Bounded::min_value`, src/shared/num_traits_impls.rs L115-117. -/
def uMinValue (w N : Nat) : Limbs w := U.minValue w N
/-- `Bounded::max_value`, src/shared/num_traits_impls.rs L120-122. -/
def uMaxValue (w N : Nat) : Limbs w := U.maxValue w N
/-- `Bounded::min_value`, signed. -/
def iMinValue (w N : Nat) : Limbs w := I.minValue w N
/-- `Bounded::max_value`, signed. -/
def iMaxValue (w N : Nat) : Limbs w := I.maxValue w N
/-- `Zero::zero` and `ConstZero::ZERO`, src/shared/num_traits_impls.rs L127-129, L137-139. -/
def zero (w N : Nat) : Limbs w := Cast.fromU N .b8 0
/-- `One::one` and `ConstOne::ONE`, src/shared/num_traits_impls.rs L143-145, L153-155. -/
def one (w N : Nat) : Limbs w := Cast.fromU N .b8 1

/-! ### `From` and `AsPrimitive` -/

/-- `From<bool>`, `AsPrimitive` of a `bool`: `from_u8(value as u8)`, src/shared/traits.rs L66-68 and
L132, src/shared/num_traits_impls.rs L75-77 and L296. -/
def fromBool (N : Nat) (b : Bool) : Limbs w := Cast.fromU N .b8 (BitVec.ofNat 8 b.toNat)
/-- `From<char>`, `AsPrimitive` of a `char`: `from_u32(value as u32)`, src/shared/traits.rs L133,
src/shared/num_traits_impls.rs L295. -/
def fromChar (N : Nat) (c : Char) : Limbs w := Cast.fromU N .b32 c.val.toBitVec

/-- `AsPrimitive<usize>`: `as_u128(&self) as usize`, src/shared/num_traits_impls.rs L61-63 and L277;
`pw` is the pointer width. `AsPrimitive<isize>` (L278) is the same bits. -/
def asSize (pw : Nat) (x : Limbs w) : BitVec pw := (Cast.asP x .b128).setWidth pw
/-- `AsPrimitive` of a `usize`: `from_u128(self as u128)`, src/shared/num_traits_impls.rs L75-77 and
L293. -/
def ofUsize {pw : Nat} (N : Nat) (v : BitVec pw) : Limbs w := Cast.fromU N .b128 (v.setWidth 128)
/-- `AsPrimitive` of an `isize`: `from_i128(self as i128)`, src/shared/num_traits_impls.rs L294. -/
def ofIsize {pw : Nat} (N : Nat) (v : BitVec pw) : Limbs w := Cast.fromI N .b128 (v.signExtend 128)

/-- `FromPrimitive::from_isize` of the unsigned types, src/uint/traits.rs L205-207: the primitive
conversion `isize → u128` (fails iff negative), then `from_u128`. -/
def uFromIsize {pw : Nat} (N : Nat) (v : BitVec pw) : Option (Limbs w) :=
  if (0 : BitVec pw).sle v then some (Cast.fromU N .b128 (v.signExtend 128)) else none
/-- `FromPrimitive::from_usize`, src/uint/traits.rs L235-237, src/int/traits.rs L239-241. -/
def fromUsize {pw : Nat} (N : Nat) (v : BitVec pw) : Option (Limbs w) :=
  some (Cast.fromU N .b128 (v.setWidth 128))
/-- `FromPrimitive::from_isize` of the signed types, src/int/traits.rs L209-211. -/
def iFromIsize {pw : Nat} (N : Nat) (v : BitVec pw) : Option (Limbs w) :=
  some (Cast.fromI N .b128 (v.signExtend 128))

/-- `FromPrimitive::from_f32` and `from_f64`, src/uint/traits.rs L240-247, src/int/traits.rs L244-251:
`unimplemented!()` for every argument (`bits` are the bits of the floating-point number). -/
def fromFloat {n : Nat} (_N : Nat) (_bits : BitVec n) : Res (Option (Limbs w)) := .panic
/-- `ToPrimitive::to_f32` and `to_f64`, src/uint/traits.rs L373-380, src/int/traits.rs L389-396. -/
def toFloat (n : Nat) (_x : Limbs w) : Res (Option (BitVec n)) := .panic

/-! ### Errors -/

/-- The error kinds of the standard library that integer parsing may return; `other` stands for the
kinds that a later version may add (`#[non_exhaustive]`). -/
inductive StdKind | empty | invalidDigit | posOverflow | negOverflow | zero | other
  deriving DecidableEq, Repr

/-- `IntErrorKind`, src/error.rs L24-43. -/
inductive Kind | empty | invalidDigit | posOverflow | negOverflow | zero | unknown
  deriving DecidableEq, Repr

/-- `From<num::ParseIntError>`, src/error.rs L84-96. -/
def fromStd : StdKind → Kind
  | .empty => .empty
  | .invalidDigit => .invalidDigit
  | .posOverflow => .posOverflow
  | .negOverflow => .negOverflow
  | .zero => .zero
  | .other => .unknown

/-- The text of `Display` (src/error.rs L69-79) and of `Debug` (L63-65) of an error. -/
def message : Kind → String
  | .empty => "cannot parse integer from empty string"
  | .invalidDigit => "invalid digit found in string"
  | .posOverflow => "number too large to fit in target type"
  | .negOverflow => "number too small to fit in target type"
  | .zero => "number would be zero for non-zero type"
  | .unknown => "unknown, internal error"

end Traits

end I256
