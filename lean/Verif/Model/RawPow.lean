import Verif.Model.RawText
import Verif.Model.Ilog

/-!
# Literal model of exponentiation and of the logarithm in any base

See `Raw.lean` for the vocabulary and `RawDiv.lean` for the kinds of build `Cfg`.  An exponent is a
native `u32`.  A `return` inside a loop sets the last component of the state, which ends the loop.  Bit
counts and logarithms base 2 are at most `BITS`; they are natural numbers here, and a subtraction that
would be negative panics.
-/

namespace I256

variable {w : Nat}

namespace Raw

open Div (Cfg debugAssert)

/-- `Self::from_ne_limbs` on the first component of the result of an overflowing kernel. -/
def overflowingOf (r : Res (Limbs w × Bool)) : Res (Limbs w × Bool) := do
  let (limbs, overflowed) ← r
  let value ← fromNeLimbs limbs
  .ok (value, overflowed)

namespace Pow

/-- One round of the loop of `wrapping_pow`, src/shared/wrapping.rs L25-34.  The state is
`(exp, base, acc, return value)`. -/
def body (cf : Cfg) (mul : Limbs w → Limbs w → Res (Limbs w)) :
    BitVec 32 × Limbs w × Limbs w × Option (Limbs w) →
      Res (BitVec 32 × Limbs w × Limbs w × Option (Limbs w))
  | (exp, base, acc, _) => do
    let acc ← if exp &&& 1 == 1 then mul acc base else .ok acc
    if exp &&& 1 == 1 && exp == 1 then .ok (exp, base, acc, some acc)
    else
      let exp := exp / 2
      let base ← mul base base
      debugAssert cf (exp != 0)
      .ok (exp, base, acc, none)

/-- The condition of the endless loops: nothing has been returned. -/
def running {α β γ δ : Type} : α × β × γ × Option δ → Bool
  | (_, _, _, r) => r.isNone

/-- `wrapping_pow`, src/shared/wrapping.rs L16-36.  The loop is given 32 rounds; needing more counts as a
panic. -/
def wrapping (cf : Cfg) (be : Bool) (mul : Limbs w → Limbs w → Res (Limbs w)) (self : Limbs w)
    (exp : BitVec 32) : Res (Limbs w) :=
  if exp == 0 then fromU8 be self.length 1
  else do
    let acc ← fromU8 be self.length 1
    let s ← loop 32 running (body cf mul) (exp, self, acc, none)
    unwrapOrPanic s.2.2.2

/-- One round of the loop of `overflowing_pow`, src/shared/overflowing.rs L30-44.  The state is
`(exp, base, (acc, overflowed), return value)`. -/
def bodyO (cf : Cfg) (mul : Limbs w → Limbs w → Res (Limbs w × Bool)) :
    BitVec 32 × Limbs w × (Limbs w × Bool) × Option (Limbs w × Bool) →
      Res (BitVec 32 × Limbs w × (Limbs w × Bool) × Option (Limbs w × Bool))
  | (exp, base, (acc, overflowed), _) => do
    let (acc, overflowed, ret) ← if exp &&& 1 == 1 then do
        let r ← mul acc base
        if exp == 1 then .ok (acc, overflowed, some (r.1, r.2 || overflowed))
        else .ok (r.1, overflowed || r.2, none)
      else .ok (acc, overflowed, none)
    if ret.isSome then .ok (exp, base, (acc, overflowed), ret)
    else
      let exp := exp / 2
      let r ← mul base base
      debugAssert cf (exp != 0)
      .ok (exp, r.1, (acc, overflowed || r.2), none)

/-- `overflowing_pow`, src/shared/overflowing.rs L19-46.  The loop is given 32 rounds; needing more counts
as a panic. -/
def overflowing (cf : Cfg) (be : Bool) (mul : Limbs w → Limbs w → Res (Limbs w × Bool))
    (self : Limbs w) (exp : BitVec 32) : Res (Limbs w × Bool) :=
  if exp == 0 then do
    let one ← fromU8 be self.length 1
    .ok (one, false)
  else do
    let acc ← fromU8 be self.length 1
    let s ← loop 32 running (bodyO cf mul) (exp, self, (acc, false), none)
    unwrapOrPanic s.2.2.2

/-- `checked_pow`, src/shared/checked.rs L71-76. -/
def checked (r : Res (Limbs w × Bool)) : Res (Option (Limbs w)) := do
  let (value, overflowed) ← r
  .ok (if overflowed then none else some value)

end Pow

/-- `checked_ilog2`, src/shared/checked.rs L187-192. -/
def checkedIlog2 (be signed : Bool) (self : Limbs w) : Res (Option Nat) := do
  let zero ← fromU8 be self.length 0
  let le ← Ord.le be signed self zero
  if le then .ok none
  else
    let a ← usub (bits self) 1
    let z ← Bits.leadingZeros be self
    let v ← usub a z
    .ok (some v)

/-- `ilog2`, src/uint/ops.rs L131-137 and src/int/ops.rs L251-257. -/
def ilog2 (be signed : Bool) (self : Limbs w) : Res Nat := do
  let o ← checkedIlog2 be signed self
  unwrapOrPanic o

namespace U

/-- `wrapping_mul`, src/uint/wrapping.rs L83-217 (L84-214 are comments). -/
def wrappingMul (be : Bool) (x y : Limbs w) : Res (Limbs w) := wrappingOf (Mul.wrappingFull be x y)
/-- `overflowing_mul`, src/uint/overflowing.rs L103-108. -/
def overflowingMul (be : Bool) (x y : Limbs w) : Res (Limbs w × Bool) :=
  overflowingOf (Mul.overflowingFull be x y)
/-- `checked_mul` with `IS_SIGNED = false`, src/shared/checked.rs L46-63. -/
def checkedMul (be : Bool) (self rhs : Limbs w) : Res (Option (Limbs w)) := do
  let l ← checkedIlog2 be false self
  let r ← checkedIlog2 be false rhs
  let general := do
    let (value, overflowed) ← overflowingMul be self rhs
    .ok (if !overflowed then some value else none)
  match l, r with
  | some l, some r =>
    let top ← usub (bits self) 1
    if l + r > top then .ok none else general
  | _, _ =>
    let zero ← fromU8 be self.length 0
    .ok (some zero)
/-- `*`, src/shared/ops.rs L89-98. -/
def mul (cf : Cfg) (be : Bool) (x y : Limbs w) : Res (Limbs w) :=
  opOf cf (wrappingMul be x y) (checkedMul be x y)

/-- `wrapping_pow`, src/shared/wrapping.rs L16-36. -/
def wrappingPow (cf : Cfg) (be : Bool) (x : Limbs w) (exp : BitVec 32) : Res (Limbs w) :=
  Pow.wrapping cf be (wrappingMul be) x exp
/-- `overflowing_pow`, src/shared/overflowing.rs L19-46. -/
def overflowingPow (cf : Cfg) (be : Bool) (x : Limbs w) (exp : BitVec 32) : Res (Limbs w × Bool) :=
  Pow.overflowing cf be (overflowingMul be) x exp
/-- `checked_pow`, src/shared/checked.rs L71-76. -/
def checkedPow (cf : Cfg) (be : Bool) (x : Limbs w) (exp : BitVec 32) : Res (Option (Limbs w)) :=
  Pow.checked (overflowingPow cf be x exp)
/-- `pow`, src/shared/ops.rs L20-26, with `strict_pow`, src/shared/strict.rs L67-72. -/
def pow (cf : Cfg) (be : Bool) (x : Limbs w) (exp : BitVec 32) : Res (Limbs w) :=
  opOf cf (wrappingPow cf be x exp) (checkedPow cf be x exp)

/-- `wrapping_div`, src/uint/wrapping.rs L251-253. -/
def wrappingDiv (cf : Cfg) (be : Bool) (x y : Limbs w) : Res (Limbs w) := do
  let (q, _) ← wrappingDivRem cf be x y
  .ok q
/-- `checked_div`, src/shared/checked.rs L99-105, with `is_div_none`, src/uint/ops.rs L18-20. -/
def checkedDiv (cf : Cfg) (be : Bool) (self rhs : Limbs w) : Res (Option (Limbs w)) := do
  let zero ← fromU8 be rhs.length 0
  let isNone ← Ord.eqConst be rhs zero
  if isNone then .ok none
  else
    let q ← wrappingDiv cf be self rhs
    .ok (some q)
/-- `/`, src/shared/ops.rs L73-82. -/
def div (cf : Cfg) (be : Bool) (x y : Limbs w) : Res (Limbs w) :=
  opOf cf (wrappingDiv cf be x y) (checkedDiv cf be x y)

/-- The condition `r <= self / base`, src/uint/checked.rs L79. -/
def ilogCond (cf : Cfg) (be : Bool) (self base r : Limbs w) : Res Bool := do
  let q ← div cf be self base
  Ord.le be false r q

/-- `n += 1; r *= base;`, src/uint/checked.rs L80-81. -/
def ilogBody (cf : Cfg) (be : Bool) (base : Limbs w) (n : BitVec 32) (r : Limbs w) :
    Res (BitVec 32 × Limbs w) := do
  let n ← Div.add cf n 1
  let r ← mul cf be r base
  .ok (n, r)

/-- `while r <= self / base { n += 1; r *= base; }`, src/uint/checked.rs L79-82.  The loop does not
terminate for all operands: `none` means that it is still running after the given number of rounds. -/
def ilogLoop (cf : Cfg) (be : Bool) (self base : Limbs w) : Nat → BitVec 32 → Limbs w → Option (Res Nat)
  | 0, _, _ => none
  | rounds + 1, n, r =>
    match ilogCond cf be self base r with
    | .panic => some .panic
    | .ok false => some (.ok n.toNat)
    | .ok true =>
      match ilogBody cf be base n r with
      | .panic => some .panic
      | .ok (n, r) => ilogLoop cf be self base rounds n r

/-- The start values of `n` and `r`, src/uint/checked.rs L62-77. -/
def ilogStart (cf : Cfg) (be : Bool) (self base : Limbs w) : Res (BitVec 32 × Limbs w) :=
  if bits self ≥ w + w then do
    let l ← ilog2 be false self
    let b ← ilog2 be false base
    let n := BitVec.ofNat 32 (l / (b + 1))
    let r ← pow cf be base n
    .ok (n, r)
  else .ok (1, base)

/-- The test for `None`, src/uint/checked.rs L56-57; `==` is the derived comparison of the limb arrays,
`<=` and `<` are `le_const` and `lt_const` (src/shared/ord.rs L181-188). -/
def ilogNone (be : Bool) (self base : Limbs w) : Res Bool := do
  let zero ← fromU8 be self.length 0
  if self == zero then .ok true
  else
    let c ← Ord.le be false base zero
    if c then .ok true else Ord.lt be false self base

/-- `checked_ilog`, src/uint/checked.rs L55-84. -/
def checkedIlog (cf : Cfg) (be : Bool) (rounds : Nat) (self base : Limbs w) :
    Option (Res (Option Nat)) :=
  match ilogNone be self base with
  | .panic => some .panic
  | .ok true => some (.ok none)
  | .ok false =>
    match ilogStart cf be self base with
    | .panic => some .panic
    | .ok (n, r) => (ilogLoop cf be self base rounds n r).map (Res.map some)

/-- `ilog`, src/uint/ops.rs L117-123. -/
def ilog (cf : Cfg) (be : Bool) (rounds : Nat) (self base : Limbs w) : Option (Res Nat) :=
  (checkedIlog cf be rounds self base).map fun r => r.bind unwrapOrPanic

end U

namespace I

/-- `wrapping_mul`, src/int/wrapping.rs L61-64. -/
def wrappingMul (be : Bool) (x y : Limbs w) : Res (Limbs w) := wrappingOf (Mul.wrappingFull be x y)
/-- `overflowing_mul`, src/int/overflowing.rs L85-90. -/
def overflowingMul (be : Bool) (x y : Limbs w) : Res (Limbs w × Bool) :=
  overflowingOf (Mul.overflowingFullS be x y)
/-- `wrapping_pow`, src/shared/wrapping.rs L16-36. -/
def wrappingPow (cf : Cfg) (be : Bool) (x : Limbs w) (exp : BitVec 32) : Res (Limbs w) :=
  Pow.wrapping cf be (wrappingMul be) x exp
/-- `overflowing_pow`, src/shared/overflowing.rs L19-46. -/
def overflowingPow (cf : Cfg) (be : Bool) (x : Limbs w) (exp : BitVec 32) : Res (Limbs w × Bool) :=
  Pow.overflowing cf be (overflowingMul be) x exp
/-- `checked_pow`, src/shared/checked.rs L71-76. -/
def checkedPow (cf : Cfg) (be : Bool) (x : Limbs w) (exp : BitVec 32) : Res (Option (Limbs w)) :=
  Pow.checked (overflowingPow cf be x exp)
/-- `pow`, src/shared/ops.rs L20-26, with `strict_pow`, src/shared/strict.rs L67-72. -/
def pow (cf : Cfg) (be : Bool) (x : Limbs w) (exp : BitVec 32) : Res (Limbs w) :=
  opOf cf (wrappingPow cf be x exp) (checkedPow cf be x exp)

/-- The test for `None`, src/int/checked.rs L87. -/
def ilogNone (be : Bool) (self base : Limbs w) : Res Bool := do
  let zero ← fromU8 be self.length 0
  let c ← Ord.le be true self zero
  if c then .ok true
  else
    let one ← fromU8 be self.length 1
    Ord.le be true base one

/-- `checked_ilog`, src/int/checked.rs L86-91. -/
def checkedIlog (cf : Cfg) (be : Bool) (rounds : Nat) (self base : Limbs w) :
    Option (Res (Option Nat)) :=
  match ilogNone be self base with
  | .panic => some .panic
  | .ok true => some (.ok none)
  | .ok false =>
    match (do let a ← Cast.reinterpret self; let b ← Cast.reinterpret base; .ok (a, b)) with
    | .panic => some .panic
    | .ok (a, b) => (U.ilog cf be rounds a b).map (Res.map some)

/-- `ilog`, src/int/ops.rs L231-241; `ge_const` is the negation of `lt_const` (src/shared/ord.rs
L126-128). -/
def ilog (cf : Cfg) (be : Bool) (rounds : Nat) (self base : Limbs w) : Option (Res Nat) :=
  match (do let two ← fromU8 be self.length 2; Ord.lt be true base two) with
  | .panic => some .panic
  | .ok true => some .panic
  | .ok false => (checkedIlog cf be rounds self base).map fun r => r.bind unwrapOrPanic

end I
end Raw
end I256
