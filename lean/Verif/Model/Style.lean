import Verif.SpecStyle
import Verif.Model.Prog

/-!
# Evaluation of straight-line programs with the methods of the crate

`Expr` and `Prog` are evaluated with `checked_*` and `?`, with `strict_*`, with `wrapping_*` and with
`saturating_*` in place of the operators.  Where a type has no such method (the bitwise operators, and
`%`, `<<` and `>>` among the saturating ones) the operator or the wrapping method is used.
-/

namespace I256

variable {w : Nat} {sg : Bool}

/-- The `?` of Rust on an `Option`, as after the `checked_*` of src/shared/checked.rs L16-179: `None` ends
the function. -/
def Res.orNone {α β : Type} (r : Res (Option α)) (f : α → Res (Option β)) : Res (Option β) :=
  r.bind fun
    | none => .ok none
    | some a => f a

/-- With `checked_*`: src/shared/checked.rs L16-119 and L157-179; `checked_neg`, src/int/checked.rs L51-58. -/
def Expr.checked (s : Nat → Limbs w) : Expr sg → Res (Option (Limbs w))
  | .var i => .ok (some (s i))
  | .add a b => (a.checked s).orNone fun x => (b.checked s).orNone fun y =>
      .ok (if sg then I.checkedAdd x y else U.checkedAdd x y)
  | .sub a b => (a.checked s).orNone fun x => (b.checked s).orNone fun y =>
      .ok (if sg then I.checkedSub x y else U.checkedSub x y)
  | .mul a b => (a.checked s).orNone fun x => (b.checked s).orNone fun y =>
      .ok (if sg then I.checkedMul x y else U.checkedMul x y)
  | .div a b => (a.checked s).orNone fun x => (b.checked s).orNone fun y =>
      if sg then I.checkedDiv x y else U.checkedDiv x y
  | .rem a b => (a.checked s).orNone fun x => (b.checked s).orNone fun y =>
      if sg then I.checkedRem x y else U.checkedRem x y
  | .and a b => (a.checked s).orNone fun x => (b.checked s).orNone fun y => .ok (some (Bits.and x y))
  | .or a b => (a.checked s).orNone fun x => (b.checked s).orNone fun y => .ok (some (Bits.or x y))
  | .xor a b => (a.checked s).orNone fun x => (b.checked s).orNone fun y => .ok (some (Bits.xor x y))
  | .not a => (a.checked s).orNone fun x => .ok (some (Bits.not x))
  | .neg _ a => (a.checked s).orNone fun x => .ok (I.checkedNeg x)
  | .shl a n => (a.checked s).orNone fun x => .ok (checkedShl x n.toNat)
  | .shr a n => (a.checked s).orNone fun x => .ok (checkedShr sg x n.toNat)
  | .pow a e => (a.checked s).orNone fun x =>
      .ok (if sg then I.checkedPow x e.toNat else U.checkedPow x e.toNat)

/-- With `strict_*`: src/shared/strict.rs L19-104; division, src/uint/strict.rs L44-69 and
src/int/strict.rs L61-86; `strict_neg`, src/int/strict.rs L137-142. -/
def Expr.strict (s : Nat → Limbs w) : Expr sg → Res (Limbs w)
  | .var i => .ok (s i)
  | .add a b => (a.strict s).bind fun x => (b.strict s).bind fun y =>
      if sg then I.strictAdd x y else U.strictAdd x y
  | .sub a b => (a.strict s).bind fun x => (b.strict s).bind fun y =>
      if sg then I.strictSub x y else U.strictSub x y
  | .mul a b => (a.strict s).bind fun x => (b.strict s).bind fun y =>
      if sg then I.strictMul x y else U.strictMul x y
  | .div a b => (a.strict s).bind fun x => (b.strict s).bind fun y =>
      if sg then I.strictDiv x y else U.strictDiv x y
  | .rem a b => (a.strict s).bind fun x => (b.strict s).bind fun y =>
      if sg then I.strictRem x y else U.strictRem x y
  | .and a b => (a.strict s).bind fun x => (b.strict s).bind fun y => .ok (Bits.and x y)
  | .or a b => (a.strict s).bind fun x => (b.strict s).bind fun y => .ok (Bits.or x y)
  | .xor a b => (a.strict s).bind fun x => (b.strict s).bind fun y => .ok (Bits.xor x y)
  | .not a => (a.strict s).bind fun x => .ok (Bits.not x)
  | .neg _ a => (a.strict s).bind fun x => I.strictNeg x
  | .shl a n => (a.strict s).bind fun x => strictShl x n.toNat
  | .shr a n => (a.strict s).bind fun x => strictShr sg x n.toNat
  | .pow a e => (a.strict s).bind fun x => if sg then I.strictPow x e.toNat else U.strictPow x e.toNat

/-- With `wrapping_*`: src/uint/wrapping.rs L22-290 and src/int/wrapping.rs L22-213; `wrapping_pow`,
src/shared/wrapping.rs L16-37; shifts, src/uint/bitops.rs L18-29 and src/int/bitops.rs L19-30. -/
def Expr.wrapping (s : Nat → Limbs w) : Expr sg → Res (Limbs w)
  | .var i => .ok (s i)
  | .add a b => (a.wrapping s).bind fun x => (b.wrapping s).bind fun y =>
      .ok (if sg then I.wrappingAdd x y else U.wrappingAdd x y)
  | .sub a b => (a.wrapping s).bind fun x => (b.wrapping s).bind fun y =>
      .ok (if sg then I.wrappingSub x y else U.wrappingSub x y)
  | .mul a b => (a.wrapping s).bind fun x => (b.wrapping s).bind fun y =>
      .ok (if sg then I.wrappingMul x y else U.wrappingMul x y)
  | .div a b => (a.wrapping s).bind fun x => (b.wrapping s).bind fun y =>
      if sg then I.wrappingDiv x y else U.wrappingDiv x y
  | .rem a b => (a.wrapping s).bind fun x => (b.wrapping s).bind fun y =>
      if sg then I.wrappingRem x y else U.wrappingRem x y
  | .and a b => (a.wrapping s).bind fun x => (b.wrapping s).bind fun y => .ok (Bits.and x y)
  | .or a b => (a.wrapping s).bind fun x => (b.wrapping s).bind fun y => .ok (Bits.or x y)
  | .xor a b => (a.wrapping s).bind fun x => (b.wrapping s).bind fun y => .ok (Bits.xor x y)
  | .not a => (a.wrapping s).bind fun x => .ok (Bits.not x)
  | .neg _ a => (a.wrapping s).bind fun x => .ok (I.wrappingNeg x)
  | .shl a n => (a.wrapping s).bind fun x => .ok (wrappingShl x n.toNat)
  | .shr a n => (a.wrapping s).bind fun x => .ok (wrappingShr sg x n.toNat)
  | .pow a e => (a.wrapping s).bind fun x =>
      .ok (if sg then I.wrappingPow x e.toNat else U.wrappingPow x e.toNat)

/-- With `saturating_*`: src/uint/saturating.rs L22-98 and src/int/saturating.rs L22-144; `%`, `<<` and
`>>` as `wrapping_*`. -/
def Expr.saturating (s : Nat → Limbs w) : Expr sg → Res (Limbs w)
  | .var i => .ok (s i)
  | .add a b => (a.saturating s).bind fun x => (b.saturating s).bind fun y =>
      .ok (if sg then I.saturatingAdd x y else U.saturatingAdd x y)
  | .sub a b => (a.saturating s).bind fun x => (b.saturating s).bind fun y =>
      .ok (if sg then I.saturatingSub x y else U.saturatingSub x y)
  | .mul a b => (a.saturating s).bind fun x => (b.saturating s).bind fun y =>
      .ok (if sg then I.saturatingMul x y else U.saturatingMul x y)
  | .div a b => (a.saturating s).bind fun x => (b.saturating s).bind fun y =>
      if sg then I.saturatingDiv x y else U.saturatingDiv x y
  | .rem a b => (a.saturating s).bind fun x => (b.saturating s).bind fun y =>
      if sg then I.wrappingRem x y else U.wrappingRem x y
  | .and a b => (a.saturating s).bind fun x => (b.saturating s).bind fun y => .ok (Bits.and x y)
  | .or a b => (a.saturating s).bind fun x => (b.saturating s).bind fun y => .ok (Bits.or x y)
  | .xor a b => (a.saturating s).bind fun x => (b.saturating s).bind fun y => .ok (Bits.xor x y)
  | .not a => (a.saturating s).bind fun x => .ok (Bits.not x)
  | .neg _ a => (a.saturating s).bind fun x => .ok (I.saturatingNeg x)
  | .shl a n => (a.saturating s).bind fun x => .ok (wrappingShl x n.toNat)
  | .shr a n => (a.saturating s).bind fun x => .ok (wrappingShr sg x n.toNat)
  | .pow a e => (a.saturating s).bind fun x =>
      .ok (if sg then I.saturatingPow x e.toNat else U.saturatingPow x e.toNat)

/-- A sequence of assignments `vᵢ = e` with `checked_*` (src/shared/checked.rs L16-179) and `?`. -/
def Prog.checked : Prog sg → (Nat → Limbs w) → Res (Option (Nat → Limbs w))
  | [], s => .ok (some s)
  | (i, e) :: p, s => (e.checked s).orNone fun v => Prog.checked p (Function.update s i v)

/-- With `strict_*`, src/shared/strict.rs L19-104. -/
def Prog.strict : Prog sg → (Nat → Limbs w) → Res (Nat → Limbs w)
  | [], s => .ok s
  | (i, e) :: p, s => (e.strict s).bind fun v => Prog.strict p (Function.update s i v)

/-- With `wrapping_*`, src/uint/wrapping.rs L22-290 and src/int/wrapping.rs L22-213. -/
def Prog.wrapping : Prog sg → (Nat → Limbs w) → Res (Nat → Limbs w)
  | [], s => .ok s
  | (i, e) :: p, s => (e.wrapping s).bind fun v => Prog.wrapping p (Function.update s i v)

/-- With `saturating_*`, src/uint/saturating.rs L22-98 and src/int/saturating.rs L22-144. -/
def Prog.saturating : Prog sg → (Nat → Limbs w) → Res (Nat → Limbs w)
  | [], s => .ok s
  | (i, e) :: p, s => (e.saturating s).bind fun v => Prog.saturating p (Function.update s i v)

end I256
