import Verif.Model.RawDivForms
import Verif.Model.DivScalar
import Verif.Model.Fixed

/-!
# Literal model of the forms of division by a scalar

Division by `ULimb`, `UWide`, `ILimb` and `IWide` and, with feature `stdint`, by `u32`, `u64`, `u128`, `i32`,
`i64` and `i128`, on arrays in memory order.  See `Raw.lean` for the vocabulary and `Fixed.lean` for `Fix` and
for the choice between the two limb sizes; `cf` is the kind of build.  The wrapping divisions by a limb and by
a double limb are in `RawDivApi.lean` and `RawScalar.lean`.
-/

namespace I256

variable {w : Nat}

namespace Raw

open _root_.I256.Raw.Div (Cfg)

/-- `(.., false)`, e.g. src/shared/limb.rs L603. -/
def withFalse {α : Type} (r : Res α) : Res (α × Bool) := do
  let v ← r
  .ok (v, false)

/-- `let (value, overflowed) = ..; (value.0, overflowed)`, e.g. src/shared/limb.rs L614-615. -/
def fstFlag {α β : Type} (r : Res ((α × β) × Bool)) : Res (α × Bool) := do
  let (value, overflowed) ← r
  .ok (value.1, overflowed)

/-- `let (value, overflowed) = ..; (value.1, overflowed)`, e.g. src/shared/limb.rs L626-627. -/
def sndFlag {α β : Type} (r : Res ((α × β) × Bool)) : Res (β × Bool) := do
  let (value, overflowed) ← r
  .ok (value.2, overflowed)

/-- `Some(..?.0)`, e.g. src/shared/limb.rs L851. -/
def fstSome {α β : Type} (r : Res (Option (α × β))) : Res (Option α) := do
  let o ← r
  match o with
  | none => .ok none
  | some p => .ok (some p.1)

/-- `Some(..?.1)`, e.g. src/shared/limb.rs L861. -/
def sndSome {α β : Type} (r : Res (Option (α × β))) : Res (Option β) := do
  let o ← r
  match o with
  | none => .ok none
  | some p => .ok (some p.2)

/-- `match .. { (v, false) => Some(v), _ => None }`, e.g. src/int/limb.rs L1870-1873. -/
def someIfFits {α : Type} (r : Res (α × Bool)) : Res (Option α) := do
  let (v, overflowed) ← r
  match overflowed with
  | false => .ok (some v)
  | true => .ok none

/-- `let (quo, rem) = ..; (quo, rem as _)`, e.g. src/uint/limb.rs L225-226. -/
def castRem {α : Type} {m : Nat} (n : Nat) (r : Res (α × BitVec m)) : Res (α × BitVec n) := do
  let (quo, rem) ← r
  .ok (quo, rem.setWidth n)

/-- `let (quorem, overflowed) = ..; ((quorem.0, quorem.1 as _), overflowed)`, src/int/limb.rs L1503-1504 and
L1777-1778. -/
def castRemFlag {α : Type} {m : Nat} (n : Nat) (r : Res ((α × BitVec m) × Bool)) :
    Res ((α × BitVec n) × Bool) := do
  let (quorem, overflowed) ← r
  .ok ((quorem.1, quorem.2.setWidth n), overflowed)

namespace U

/-- `overflowing_div_rem_ulimb`, src/shared/limb.rs L602-604. -/
def overflowingDivRemULimb (cf : Cfg) (be : Bool) (x : Limbs w) (n : BitVec w) :
    Res ((Limbs w × BitVec w) × Bool) :=
  withFalse (wrappingDivRemULimb cf be x n)
/-- `checked_div_rem_ulimb`, src/shared/limb.rs L836-842. -/
def checkedDivRemULimb (cf : Cfg) (be : Bool) (x : Limbs w) (n : BitVec w) :
    Res (Option (Limbs w × BitVec w)) :=
  checkedBy n (wrappingDivRemULimb cf be x n)
/-- `wrapping_div_ulimb`, src/shared/limb.rs L481-483. -/
def wrappingDivULimb (cf : Cfg) (be : Bool) (x : Limbs w) (n : BitVec w) : Res (Limbs w) :=
  fst (wrappingDivRemULimb cf be x n)
/-- `overflowing_div_ulimb`, src/shared/limb.rs L613-616. -/
def overflowingDivULimb (cf : Cfg) (be : Bool) (x : Limbs w) (n : BitVec w) : Res (Limbs w × Bool) :=
  fstFlag (overflowingDivRemULimb cf be x n)
/-- `checked_div_ulimb`, src/shared/limb.rs L850-852. -/
def checkedDivULimb (cf : Cfg) (be : Bool) (x : Limbs w) (n : BitVec w) : Res (Option (Limbs w)) :=
  fstSome (checkedDivRemULimb cf be x n)
/-- `div_ulimb`, src/shared/limb.rs L81-83. -/
def divULimb (cf : Cfg) (be : Bool) (x : Limbs w) (n : BitVec w) : Res (Limbs w) :=
  fst (divRemULimb cf be x n)
/-- `wrapping_rem_ulimb`, src/shared/limb.rs L491-493. -/
def wrappingRemULimb (cf : Cfg) (be : Bool) (x : Limbs w) (n : BitVec w) : Res (BitVec w) :=
  snd (wrappingDivRemULimb cf be x n)
/-- `overflowing_rem_ulimb`, src/shared/limb.rs L625-628. -/
def overflowingRemULimb (cf : Cfg) (be : Bool) (x : Limbs w) (n : BitVec w) : Res (BitVec w × Bool) :=
  sndFlag (overflowingDivRemULimb cf be x n)
/-- `checked_rem_ulimb`, src/shared/limb.rs L860-862. -/
def checkedRemULimb (cf : Cfg) (be : Bool) (x : Limbs w) (n : BitVec w) : Res (Option (BitVec w)) :=
  sndSome (checkedDivRemULimb cf be x n)
/-- `rem_ulimb`, src/shared/limb.rs L90-92. -/
def remULimb (cf : Cfg) (be : Bool) (x : Limbs w) (n : BitVec w) : Res (BitVec w) :=
  snd (divRemULimb cf be x n)

/-- `overflowing_div_rem_uwide`, src/shared/limb.rs L638-640. -/
def overflowingDivRemUWide (cf : Cfg) (be : Bool) (x : Limbs w) (n : BitVec (w + w)) :
    Res ((Limbs w × BitVec (w + w)) × Bool) :=
  withFalse (wrappingDivRemUWide cf be x n)
/-- `checked_div_rem_uwide`, src/shared/limb.rs L913-919. -/
def checkedDivRemUWide (cf : Cfg) (be : Bool) (x : Limbs w) (n : BitVec (w + w)) :
    Res (Option (Limbs w × BitVec (w + w))) :=
  checkedBy n (wrappingDivRemUWide cf be x n)
/-- `div_rem_uwide`, src/shared/limb.rs L154-163. -/
def divRemUWide (cf : Cfg) (be : Bool) (x : Limbs w) (n : BitVec (w + w)) : Res (Limbs w × BitVec (w + w)) :=
  opOf cf (wrappingDivRemUWide cf be x n) (checkedDivRemUWide cf be x n)
/-- `wrapping_div_uwide`, src/shared/limb.rs L503-505. -/
def wrappingDivUWide (cf : Cfg) (be : Bool) (x : Limbs w) (n : BitVec (w + w)) : Res (Limbs w) :=
  fst (wrappingDivRemUWide cf be x n)
/-- `overflowing_div_uwide`, src/shared/limb.rs L649-652. -/
def overflowingDivUWide (cf : Cfg) (be : Bool) (x : Limbs w) (n : BitVec (w + w)) : Res (Limbs w × Bool) :=
  fstFlag (overflowingDivRemUWide cf be x n)
/-- `checked_div_uwide`, src/shared/limb.rs L927-929. -/
def checkedDivUWide (cf : Cfg) (be : Bool) (x : Limbs w) (n : BitVec (w + w)) : Res (Option (Limbs w)) :=
  fstSome (checkedDivRemUWide cf be x n)
/-- `div_uwide`, src/shared/limb.rs L170-172. -/
def divUWide (cf : Cfg) (be : Bool) (x : Limbs w) (n : BitVec (w + w)) : Res (Limbs w) :=
  fst (divRemUWide cf be x n)
/-- `wrapping_rem_uwide`, src/shared/limb.rs L513-515. -/
def wrappingRemUWide (cf : Cfg) (be : Bool) (x : Limbs w) (n : BitVec (w + w)) : Res (BitVec (w + w)) :=
  snd (wrappingDivRemUWide cf be x n)
/-- `overflowing_rem_uwide`, src/shared/limb.rs L661-664. -/
def overflowingRemUWide (cf : Cfg) (be : Bool) (x : Limbs w) (n : BitVec (w + w)) :
    Res (BitVec (w + w) × Bool) :=
  sndFlag (overflowingDivRemUWide cf be x n)
/-- `checked_rem_uwide`, src/shared/limb.rs L937-939. -/
def checkedRemUWide (cf : Cfg) (be : Bool) (x : Limbs w) (n : BitVec (w + w)) :
    Res (Option (BitVec (w + w))) :=
  sndSome (checkedDivRemUWide cf be x n)
/-- `rem_uwide`, src/shared/limb.rs L179-181. -/
def remUWide (cf : Cfg) (be : Bool) (x : Limbs w) (n : BitVec (w + w)) : Res (BitVec (w + w)) :=
  snd (divRemUWide cf be x n)

/-- `wrapping_div_rem_u32` (src/uint/limb.rs L224-227), `wrapping_div_rem_u64` (L276-286),
`wrapping_div_rem_u128` (L362-374). -/
def wrappingDivRemFix (cf : Cfg) (be : Bool) : (k : Fix) → Limbs w → BitVec k.n → Res (Limbs w × BitVec k.n)
  | .b32, x, n => castRem 32 (wrappingDivRemULimb cf be x (n.setWidth w))
  | .b64, x, n => do
    assert (w == 32 || w == 64)
    if w = 32 then castRem 64 (wrappingDivRemUWide cf be x (n.setWidth (w + w)))
    else castRem 64 (wrappingDivRemULimb cf be x (n.setWidth w))
  | .b128, x, n => do
    assert (w + w == 64 || w + w == 128)
    if w + w = 128 then castRem 128 (wrappingDivRemUWide cf be x (n.setWidth (w + w)))
    else wrappingDivRemU128 cf be x n
/-- `overflowing_div_rem_u32` (src/shared/limb.rs L677-679), `overflowing_div_rem_u64` (L716-718),
`overflowing_div_rem_u128` (L755-757). -/
def overflowingDivRemFix (cf : Cfg) (be : Bool) (k : Fix) (x : Limbs w) (n : BitVec k.n) :
    Res ((Limbs w × BitVec k.n) × Bool) :=
  withFalse (wrappingDivRemFix cf be k x n)
/-- `checked_div_rem_u32` (src/shared/limb.rs L996-1002), `checked_div_rem_u64` (L1079-1085),
`checked_div_rem_u128` (L1162-1168). -/
def checkedDivRemFix (cf : Cfg) (be : Bool) (k : Fix) (x : Limbs w) (n : BitVec k.n) :
    Res (Option (Limbs w × BitVec k.n)) :=
  checkedBy n (wrappingDivRemFix cf be k x n)
/-- `div_rem_u32` (src/shared/limb.rs L250-259), `div_rem_u64` (L345-354), `div_rem_u128`
(L440-449). -/
def divRemFix (cf : Cfg) (be : Bool) (k : Fix) (x : Limbs w) (n : BitVec k.n) : Res (Limbs w × BitVec k.n) :=
  opOf cf (wrappingDivRemFix cf be k x n) (checkedDivRemFix cf be k x n)
/-- `wrapping_div_u32` (src/shared/limb.rs L529-531), `wrapping_div_u64` (L553-555),
`wrapping_div_u128` (L577-579). -/
def wrappingDivFix (cf : Cfg) (be : Bool) (k : Fix) (x : Limbs w) (n : BitVec k.n) : Res (Limbs w) :=
  fst (wrappingDivRemFix cf be k x n)
/-- `overflowing_div_u32` (src/shared/limb.rs L689-692), `overflowing_div_u64` (L728-731),
`overflowing_div_u128` (L767-770). -/
def overflowingDivFix (cf : Cfg) (be : Bool) (k : Fix) (x : Limbs w) (n : BitVec k.n) :
    Res (Limbs w × Bool) :=
  fstFlag (overflowingDivRemFix cf be k x n)
/-- `checked_div_u32` (src/shared/limb.rs L1011-1013), `checked_div_u64` (L1094-1096),
`checked_div_u128` (L1177-1179). -/
def checkedDivFix (cf : Cfg) (be : Bool) (k : Fix) (x : Limbs w) (n : BitVec k.n) : Res (Option (Limbs w)) :=
  fstSome (checkedDivRemFix cf be k x n)
/-- `div_u32` (src/shared/limb.rs L267-269), `div_u64` (L362-364), `div_u128` (L457-459). -/
def divFix (cf : Cfg) (be : Bool) (k : Fix) (x : Limbs w) (n : BitVec k.n) : Res (Limbs w) :=
  fst (divRemFix cf be k x n)
/-- `wrapping_rem_u32` (src/shared/limb.rs L540-542), `wrapping_rem_u64` (L564-566),
`wrapping_rem_u128` (L588-590). -/
def wrappingRemFix (cf : Cfg) (be : Bool) (k : Fix) (x : Limbs w) (n : BitVec k.n) : Res (BitVec k.n) :=
  snd (wrappingDivRemFix cf be k x n)
/-- `overflowing_rem_u32` (src/shared/limb.rs L702-705), `overflowing_rem_u64` (L741-744),
`overflowing_rem_u128` (L780-783). -/
def overflowingRemFix (cf : Cfg) (be : Bool) (k : Fix) (x : Limbs w) (n : BitVec k.n) :
    Res (BitVec k.n × Bool) :=
  sndFlag (overflowingDivRemFix cf be k x n)
/-- `checked_rem_u32` (src/shared/limb.rs L1022-1024), `checked_rem_u64` (L1105-1107),
`checked_rem_u128` (L1188-1190). -/
def checkedRemFix (cf : Cfg) (be : Bool) (k : Fix) (x : Limbs w) (n : BitVec k.n) :
    Res (Option (BitVec k.n)) :=
  sndSome (checkedDivRemFix cf be k x n)
/-- `rem_u32` (src/shared/limb.rs L277-279), `rem_u64` (L372-374), `rem_u128` (L467-469). -/
def remFix (cf : Cfg) (be : Bool) (k : Fix) (x : Limbs w) (n : BitVec k.n) : Res (BitVec k.n) :=
  snd (divRemFix cf be k x n)

end U

namespace I

/-- `if self.eq_const(Self::MIN) && n == -1 { ((Self::MIN, 0), true) } else { (.., false) }`,
src/int/limb.rs L1286-1290, L1397-1401, L1606-1610 and L1780-1784. -/
def divRemFlag {m : Nat} (be : Bool) (self : Limbs w) (n : BitVec m) (wrapping : Res (Limbs w × BitVec m)) :
    Res ((Limbs w × BitVec m) × Bool) := do
  let min ← minValue be self.length
  let eq ← Ord.eqConst be self min
  if eq && n == -1 then
    let min ← minValue be self.length
    .ok ((min, 0), true)
  else
    let v ← wrapping
    .ok (v, false)

/-- `if n == 0 { None } else { match .. { (v, false) => Some(v), _ => None } }`, src/int/limb.rs L1867-1874,
L1948-1955, L2103-2110 and L2190-2197. -/
def checkedDivRemSigned {α : Type} {m : Nat} (n : BitVec m) (overflowing : Res (α × Bool)) : Res (Option α) :=
  if n == 0 then .ok none else someIfFits overflowing

/-- `overflowing_div_rem_ulimb`, src/shared/limb.rs L602-604. -/
def overflowingDivRemULimb (cf : Cfg) (be : Bool) (x : Limbs w) (n : BitVec w) :
    Res ((Limbs w × BitVec w) × Bool) :=
  withFalse (wrappingDivRemULimb cf be x n)
/-- `checked_div_rem_ulimb`, src/shared/limb.rs L836-842. -/
def checkedDivRemULimb (cf : Cfg) (be : Bool) (x : Limbs w) (n : BitVec w) :
    Res (Option (Limbs w × BitVec w)) :=
  checkedBy n (wrappingDivRemULimb cf be x n)
/-- `wrapping_div_ulimb`, src/shared/limb.rs L481-483. -/
def wrappingDivULimb (cf : Cfg) (be : Bool) (x : Limbs w) (n : BitVec w) : Res (Limbs w) :=
  fst (wrappingDivRemULimb cf be x n)
/-- `overflowing_div_ulimb`, src/shared/limb.rs L613-616. -/
def overflowingDivULimb (cf : Cfg) (be : Bool) (x : Limbs w) (n : BitVec w) : Res (Limbs w × Bool) :=
  fstFlag (overflowingDivRemULimb cf be x n)
/-- `checked_div_ulimb`, src/shared/limb.rs L850-852. -/
def checkedDivULimb (cf : Cfg) (be : Bool) (x : Limbs w) (n : BitVec w) : Res (Option (Limbs w)) :=
  fstSome (checkedDivRemULimb cf be x n)
/-- `div_ulimb`, src/shared/limb.rs L81-83. -/
def divULimb (cf : Cfg) (be : Bool) (x : Limbs w) (n : BitVec w) : Res (Limbs w) :=
  fst (divRemULimb cf be x n)
/-- `wrapping_rem_ulimb`, src/shared/limb.rs L491-493. -/
def wrappingRemULimb (cf : Cfg) (be : Bool) (x : Limbs w) (n : BitVec w) : Res (BitVec w) :=
  snd (wrappingDivRemULimb cf be x n)
/-- `overflowing_rem_ulimb`, src/shared/limb.rs L625-628. -/
def overflowingRemULimb (cf : Cfg) (be : Bool) (x : Limbs w) (n : BitVec w) : Res (BitVec w × Bool) :=
  sndFlag (overflowingDivRemULimb cf be x n)
/-- `checked_rem_ulimb`, src/shared/limb.rs L860-862. -/
def checkedRemULimb (cf : Cfg) (be : Bool) (x : Limbs w) (n : BitVec w) : Res (Option (BitVec w)) :=
  sndSome (checkedDivRemULimb cf be x n)
/-- `rem_ulimb`, src/shared/limb.rs L90-92. -/
def remULimb (cf : Cfg) (be : Bool) (x : Limbs w) (n : BitVec w) : Res (BitVec w) :=
  snd (divRemULimb cf be x n)

/-- `overflowing_div_rem_uwide`, src/shared/limb.rs L638-640. -/
def overflowingDivRemUWide (cf : Cfg) (be : Bool) (x : Limbs w) (n : BitVec (w + w)) :
    Res ((Limbs w × BitVec (w + w)) × Bool) :=
  withFalse (wrappingDivRemUWide cf be x n)
/-- `checked_div_rem_uwide`, src/shared/limb.rs L913-919. -/
def checkedDivRemUWide (cf : Cfg) (be : Bool) (x : Limbs w) (n : BitVec (w + w)) :
    Res (Option (Limbs w × BitVec (w + w))) :=
  checkedBy n (wrappingDivRemUWide cf be x n)
/-- `div_rem_uwide`, src/shared/limb.rs L154-163. -/
def divRemUWide (cf : Cfg) (be : Bool) (x : Limbs w) (n : BitVec (w + w)) : Res (Limbs w × BitVec (w + w)) :=
  opOf cf (wrappingDivRemUWide cf be x n) (checkedDivRemUWide cf be x n)
/-- `wrapping_div_uwide`, src/shared/limb.rs L503-505. -/
def wrappingDivUWide (cf : Cfg) (be : Bool) (x : Limbs w) (n : BitVec (w + w)) : Res (Limbs w) :=
  fst (wrappingDivRemUWide cf be x n)
/-- `overflowing_div_uwide`, src/shared/limb.rs L649-652. -/
def overflowingDivUWide (cf : Cfg) (be : Bool) (x : Limbs w) (n : BitVec (w + w)) : Res (Limbs w × Bool) :=
  fstFlag (overflowingDivRemUWide cf be x n)
/-- `checked_div_uwide`, src/shared/limb.rs L927-929. -/
def checkedDivUWide (cf : Cfg) (be : Bool) (x : Limbs w) (n : BitVec (w + w)) : Res (Option (Limbs w)) :=
  fstSome (checkedDivRemUWide cf be x n)
/-- `div_uwide`, src/shared/limb.rs L170-172. -/
def divUWide (cf : Cfg) (be : Bool) (x : Limbs w) (n : BitVec (w + w)) : Res (Limbs w) :=
  fst (divRemUWide cf be x n)
/-- `wrapping_rem_uwide`, src/shared/limb.rs L513-515. -/
def wrappingRemUWide (cf : Cfg) (be : Bool) (x : Limbs w) (n : BitVec (w + w)) : Res (BitVec (w + w)) :=
  snd (wrappingDivRemUWide cf be x n)
/-- `overflowing_rem_uwide`, src/shared/limb.rs L661-664. -/
def overflowingRemUWide (cf : Cfg) (be : Bool) (x : Limbs w) (n : BitVec (w + w)) :
    Res (BitVec (w + w) × Bool) :=
  sndFlag (overflowingDivRemUWide cf be x n)
/-- `checked_rem_uwide`, src/shared/limb.rs L937-939. -/
def checkedRemUWide (cf : Cfg) (be : Bool) (x : Limbs w) (n : BitVec (w + w)) :
    Res (Option (BitVec (w + w))) :=
  sndSome (checkedDivRemUWide cf be x n)
/-- `rem_uwide`, src/shared/limb.rs L179-181. -/
def remUWide (cf : Cfg) (be : Bool) (x : Limbs w) (n : BitVec (w + w)) : Res (BitVec (w + w)) :=
  snd (divRemUWide cf be x n)

/-- `overflowing_div_rem_ilimb`, src/int/limb.rs L1285-1291. -/
def overflowingDivRemILimb (cf : Cfg) (be : Bool) (x : Limbs w) (n : BitVec w) :
    Res ((Limbs w × BitVec w) × Bool) :=
  divRemFlag be x n (wrappingDivRemILimb cf be x n)
/-- `checked_div_rem_ilimb`, src/int/limb.rs L1866-1875. -/
def checkedDivRemILimb (cf : Cfg) (be : Bool) (x : Limbs w) (n : BitVec w) :
    Res (Option (Limbs w × BitVec w)) :=
  checkedDivRemSigned n (overflowingDivRemILimb cf be x n)
/-- `div_rem_ilimb`, src/int/limb.rs L63-72. -/
def divRemILimb (cf : Cfg) (be : Bool) (x : Limbs w) (n : BitVec w) : Res (Limbs w × BitVec w) :=
  opOf cf (wrappingDivRemILimb cf be x n) (checkedDivRemILimb cf be x n)
/-- `wrapping_div_ilimb`, src/int/limb.rs L590-592. -/
def wrappingDivILimb (cf : Cfg) (be : Bool) (x : Limbs w) (n : BitVec w) : Res (Limbs w) :=
  fst (wrappingDivRemILimb cf be x n)
/-- `overflowing_div_ilimb`, src/int/limb.rs L1300-1303. -/
def overflowingDivILimb (cf : Cfg) (be : Bool) (x : Limbs w) (n : BitVec w) : Res (Limbs w × Bool) :=
  fstFlag (overflowingDivRemILimb cf be x n)
/-- `checked_div_ilimb`, src/int/limb.rs L1883-1885. -/
def checkedDivILimb (cf : Cfg) (be : Bool) (x : Limbs w) (n : BitVec w) : Res (Option (Limbs w)) :=
  fstSome (checkedDivRemILimb cf be x n)
/-- `div_ilimb`, src/int/limb.rs L79-81. -/
def divILimb (cf : Cfg) (be : Bool) (x : Limbs w) (n : BitVec w) : Res (Limbs w) :=
  fst (divRemILimb cf be x n)
/-- `wrapping_rem_ilimb`, src/int/limb.rs L600-602. -/
def wrappingRemILimb (cf : Cfg) (be : Bool) (x : Limbs w) (n : BitVec w) : Res (BitVec w) :=
  snd (wrappingDivRemILimb cf be x n)
/-- `overflowing_rem_ilimb`, src/int/limb.rs L1312-1315. -/
def overflowingRemILimb (cf : Cfg) (be : Bool) (x : Limbs w) (n : BitVec w) : Res (BitVec w × Bool) :=
  sndFlag (overflowingDivRemILimb cf be x n)
/-- `checked_rem_ilimb`, src/int/limb.rs L1893-1895. -/
def checkedRemILimb (cf : Cfg) (be : Bool) (x : Limbs w) (n : BitVec w) : Res (Option (BitVec w)) :=
  sndSome (checkedDivRemILimb cf be x n)
/-- `rem_ilimb`, src/int/limb.rs L88-90. -/
def remILimb (cf : Cfg) (be : Bool) (x : Limbs w) (n : BitVec w) : Res (BitVec w) :=
  snd (divRemILimb cf be x n)

/-- `overflowing_div_rem_iwide`, src/int/limb.rs L1396-1402. -/
def overflowingDivRemIWide (cf : Cfg) (be : Bool) (x : Limbs w) (n : BitVec (w + w)) :
    Res ((Limbs w × BitVec (w + w)) × Bool) :=
  divRemFlag be x n (wrappingDivRemIWide cf be x n)
/-- `checked_div_rem_iwide`, src/int/limb.rs L1947-1956. -/
def checkedDivRemIWide (cf : Cfg) (be : Bool) (x : Limbs w) (n : BitVec (w + w)) :
    Res (Option (Limbs w × BitVec (w + w))) :=
  checkedDivRemSigned n (overflowingDivRemIWide cf be x n)
/-- `div_rem_iwide`, src/int/limb.rs L148-157. -/
def divRemIWide (cf : Cfg) (be : Bool) (x : Limbs w) (n : BitVec (w + w)) : Res (Limbs w × BitVec (w + w)) :=
  opOf cf (wrappingDivRemIWide cf be x n) (checkedDivRemIWide cf be x n)
/-- `wrapping_div_iwide`, src/int/limb.rs L720-722. -/
def wrappingDivIWide (cf : Cfg) (be : Bool) (x : Limbs w) (n : BitVec (w + w)) : Res (Limbs w) :=
  fst (wrappingDivRemIWide cf be x n)
/-- `overflowing_div_iwide`, src/int/limb.rs L1411-1414. -/
def overflowingDivIWide (cf : Cfg) (be : Bool) (x : Limbs w) (n : BitVec (w + w)) : Res (Limbs w × Bool) :=
  fstFlag (overflowingDivRemIWide cf be x n)
/-- `checked_div_iwide`, src/int/limb.rs L1964-1966. -/
def checkedDivIWide (cf : Cfg) (be : Bool) (x : Limbs w) (n : BitVec (w + w)) : Res (Option (Limbs w)) :=
  fstSome (checkedDivRemIWide cf be x n)
/-- `div_iwide`, src/int/limb.rs L164-166. -/
def divIWide (cf : Cfg) (be : Bool) (x : Limbs w) (n : BitVec (w + w)) : Res (Limbs w) :=
  fst (divRemIWide cf be x n)
/-- `wrapping_rem_iwide`, src/int/limb.rs L730-732. -/
def wrappingRemIWide (cf : Cfg) (be : Bool) (x : Limbs w) (n : BitVec (w + w)) : Res (BitVec (w + w)) :=
  snd (wrappingDivRemIWide cf be x n)
/-- `overflowing_rem_iwide`, src/int/limb.rs L1423-1426. -/
def overflowingRemIWide (cf : Cfg) (be : Bool) (x : Limbs w) (n : BitVec (w + w)) :
    Res (BitVec (w + w) × Bool) :=
  sndFlag (overflowingDivRemIWide cf be x n)
/-- `checked_rem_iwide`, src/int/limb.rs L1974-1976. -/
def checkedRemIWide (cf : Cfg) (be : Bool) (x : Limbs w) (n : BitVec (w + w)) :
    Res (Option (BitVec (w + w))) :=
  sndSome (checkedDivRemIWide cf be x n)
/-- `rem_iwide`, src/int/limb.rs L173-175. -/
def remIWide (cf : Cfg) (be : Bool) (x : Limbs w) (n : BitVec (w + w)) : Res (BitVec (w + w)) :=
  snd (divRemIWide cf be x n)

/-- `wrapping_div_rem_u32` (src/int/limb.rs L812-815), `wrapping_div_rem_u64` (L932-942),
`wrapping_div_rem_u128` (L1126-1146). -/
def wrappingDivRemFixU (cf : Cfg) (be : Bool) : (k : Fix) → Limbs w → BitVec k.n → Res (Limbs w × BitVec k.n)
  | .b32, x, n => castRem 32 (wrappingDivRemULimb cf be x (n.setWidth w))
  | .b64, x, n => do
    assert (w == 32 || w == 64)
    if w = 32 then castRem 64 (wrappingDivRemUWide cf be x (n.setWidth (w + w)))
    else castRem 64 (wrappingDivRemULimb cf be x (n.setWidth w))
  | .b128, x, n => do
    assert (w + w == 64 || w + w == 128)
    if w + w = 128 then castRem 128 (wrappingDivRemUWide cf be x (n.setWidth (w + w)))
    else wrappingDivRemU128 cf be x n
/-- `overflowing_div_rem_u32` (src/shared/limb.rs L677-679), `overflowing_div_rem_u64` (L716-718),
`overflowing_div_rem_u128` (L755-757). -/
def overflowingDivRemFixU (cf : Cfg) (be : Bool) (k : Fix) (x : Limbs w) (n : BitVec k.n) :
    Res ((Limbs w × BitVec k.n) × Bool) :=
  withFalse (wrappingDivRemFixU cf be k x n)
/-- `checked_div_rem_u32` (src/shared/limb.rs L996-1002), `checked_div_rem_u64` (L1079-1085),
`checked_div_rem_u128` (L1162-1168). -/
def checkedDivRemFixU (cf : Cfg) (be : Bool) (k : Fix) (x : Limbs w) (n : BitVec k.n) :
    Res (Option (Limbs w × BitVec k.n)) :=
  checkedBy n (wrappingDivRemFixU cf be k x n)
/-- `div_rem_u32` (src/shared/limb.rs L250-259), `div_rem_u64` (L345-354), `div_rem_u128`
(L440-449). -/
def divRemFixU (cf : Cfg) (be : Bool) (k : Fix) (x : Limbs w) (n : BitVec k.n) : Res (Limbs w × BitVec k.n) :=
  opOf cf (wrappingDivRemFixU cf be k x n) (checkedDivRemFixU cf be k x n)
/-- `wrapping_div_u32` (src/shared/limb.rs L529-531), `wrapping_div_u64` (L553-555),
`wrapping_div_u128` (L577-579). -/
def wrappingDivFixU (cf : Cfg) (be : Bool) (k : Fix) (x : Limbs w) (n : BitVec k.n) : Res (Limbs w) :=
  fst (wrappingDivRemFixU cf be k x n)
/-- `overflowing_div_u32` (src/shared/limb.rs L689-692), `overflowing_div_u64` (L728-731),
`overflowing_div_u128` (L767-770). -/
def overflowingDivFixU (cf : Cfg) (be : Bool) (k : Fix) (x : Limbs w) (n : BitVec k.n) :
    Res (Limbs w × Bool) :=
  fstFlag (overflowingDivRemFixU cf be k x n)
/-- `checked_div_u32` (src/shared/limb.rs L1011-1013), `checked_div_u64` (L1094-1096),
`checked_div_u128` (L1177-1179). -/
def checkedDivFixU (cf : Cfg) (be : Bool) (k : Fix) (x : Limbs w) (n : BitVec k.n) : Res (Option (Limbs w)) :=
  fstSome (checkedDivRemFixU cf be k x n)
/-- `div_u32` (src/shared/limb.rs L267-269), `div_u64` (L362-364), `div_u128` (L457-459). -/
def divFixU (cf : Cfg) (be : Bool) (k : Fix) (x : Limbs w) (n : BitVec k.n) : Res (Limbs w) :=
  fst (divRemFixU cf be k x n)
/-- `wrapping_rem_u32` (src/shared/limb.rs L540-542), `wrapping_rem_u64` (L564-566),
`wrapping_rem_u128` (L588-590). -/
def wrappingRemFixU (cf : Cfg) (be : Bool) (k : Fix) (x : Limbs w) (n : BitVec k.n) : Res (BitVec k.n) :=
  snd (wrappingDivRemFixU cf be k x n)
/-- `overflowing_rem_u32` (src/shared/limb.rs L702-705), `overflowing_rem_u64` (L741-744),
`overflowing_rem_u128` (L780-783). -/
def overflowingRemFixU (cf : Cfg) (be : Bool) (k : Fix) (x : Limbs w) (n : BitVec k.n) :
    Res (BitVec k.n × Bool) :=
  sndFlag (overflowingDivRemFixU cf be k x n)
/-- `checked_rem_u32` (src/shared/limb.rs L1022-1024), `checked_rem_u64` (L1105-1107),
`checked_rem_u128` (L1188-1190). -/
def checkedRemFixU (cf : Cfg) (be : Bool) (k : Fix) (x : Limbs w) (n : BitVec k.n) :
    Res (Option (BitVec k.n)) :=
  sndSome (checkedDivRemFixU cf be k x n)
/-- `rem_u32` (src/shared/limb.rs L277-279), `rem_u64` (L372-374), `rem_u128` (L467-469). -/
def remFixU (cf : Cfg) (be : Bool) (k : Fix) (x : Limbs w) (n : BitVec k.n) : Res (BitVec k.n) :=
  snd (divRemFixU cf be k x n)

/-- `wrapping_div_rem_i32` (src/int/limb.rs L825-828), `wrapping_div_rem_i64` (L952-962),
`wrapping_div_rem_i128` (L1156-1178). -/
def wrappingDivRemFixI (cf : Cfg) (be : Bool) : (k : Fix) → Limbs w → BitVec k.n → Res (Limbs w × BitVec k.n)
  | .b32, x, n => castRem 32 (wrappingDivRemILimb cf be x (n.signExtend w))
  | .b64, x, n => do
    assert (w == 32 || w == 64)
    if w = 32 then castRem 64 (wrappingDivRemIWide cf be x (n.signExtend (w + w)))
    else castRem 64 (wrappingDivRemILimb cf be x (n.signExtend w))
  | .b128, x, n => do
    assert (w + w == 64 || w + w == 128)
    if w + w = 128 then castRem 128 (wrappingDivRemIWide cf be x (n.signExtend (w + w)))
    else wrappingDivRemI128 cf be x n
/-- `overflowing_div_rem_i32` (src/int/limb.rs L1502-1505), `overflowing_div_rem_i64` (L1605-1611),
`overflowing_div_rem_i128` (L1772-1786). -/
def overflowingDivRemFixI (cf : Cfg) (be : Bool) :
    (k : Fix) → Limbs w → BitVec k.n → Res ((Limbs w × BitVec k.n) × Bool)
  | .b32, x, n => castRemFlag 32 (overflowingDivRemILimb cf be x (n.signExtend w))
  | .b64, x, n => divRemFlag be x n (wrappingDivRemFixI cf be .b64 x n)
  | .b128, x, n => do
    assert (w + w == 64 || w + w == 128)
    if w + w = 128 then castRemFlag 128 (overflowingDivRemIWide cf be x (n.signExtend (w + w)))
    else divRemFlag be x n (wrappingDivRemFixI cf be .b128 x n)
/-- `checked_div_rem_i32` (src/int/limb.rs L2021-2024), `checked_div_rem_i64` (L2102-2111),
`checked_div_rem_i128` (L2189-2198). -/
def checkedDivRemFixI (cf : Cfg) (be : Bool) :
    (k : Fix) → Limbs w → BitVec k.n → Res (Option (Limbs w × BitVec k.n))
  | .b32, x, n => do
    let o ← checkedDivRemILimb cf be x (n.signExtend w)
    match o with
    | none => .ok none
    | some (quo, rem) => .ok (some (quo, rem.setWidth 32))
  | .b64, x, n => checkedDivRemSigned n (overflowingDivRemFixI cf be .b64 x n)
  | .b128, x, n => checkedDivRemSigned n (overflowingDivRemFixI cf be .b128 x n)
/-- `div_rem_i32` (src/int/limb.rs L241-250), `div_rem_i64` (L332-341), `div_rem_i128` (L423-432). -/
def divRemFixI (cf : Cfg) (be : Bool) (k : Fix) (x : Limbs w) (n : BitVec k.n) : Res (Limbs w × BitVec k.n) :=
  opOf cf (wrappingDivRemFixI cf be k x n) (checkedDivRemFixI cf be k x n)
/-- `wrapping_div_i32` (src/int/limb.rs L837-839), `wrapping_div_i64` (L971-973),
`wrapping_div_i128` (L1187-1189). -/
def wrappingDivFixI (cf : Cfg) (be : Bool) (k : Fix) (x : Limbs w) (n : BitVec k.n) : Res (Limbs w) :=
  fst (wrappingDivRemFixI cf be k x n)
/-- `overflowing_div_i32` (src/int/limb.rs L1514-1516), `overflowing_div_i64` (L1620-1623),
`overflowing_div_i128` (L1795-1798). -/
def overflowingDivFixI (cf : Cfg) (be : Bool) : (k : Fix) → Limbs w → BitVec k.n → Res (Limbs w × Bool)
  | .b32, x, n => overflowingDivILimb cf be x (n.signExtend w)
  | .b64, x, n => fstFlag (overflowingDivRemFixI cf be .b64 x n)
  | .b128, x, n => fstFlag (overflowingDivRemFixI cf be .b128 x n)
/-- `overflowing_rem_i32` (src/int/limb.rs L1525-1528), `overflowing_rem_i64` (L1632-1635),
`overflowing_rem_i128` (L1807-1810). -/
def overflowingRemFixI (cf : Cfg) (be : Bool) : (k : Fix) → Limbs w → BitVec k.n → Res (BitVec k.n × Bool)
  | .b32, x, n => do
    let (quo, rem) ← overflowingRemILimb cf be x (n.signExtend w)
    .ok (quo.setWidth 32, rem)
  | .b64, x, n => sndFlag (overflowingDivRemFixI cf be .b64 x n)
  | .b128, x, n => sndFlag (overflowingDivRemFixI cf be .b128 x n)
/-- `checked_div_i32` (src/int/limb.rs L2033-2035), `checked_div_i64` (L2120-2122),
`checked_div_i128` (L2207-2209). -/
def checkedDivFixI (cf : Cfg) (be : Bool) (k : Fix) (x : Limbs w) (n : BitVec k.n) : Res (Option (Limbs w)) :=
  fstSome (checkedDivRemFixI cf be k x n)
/-- `div_i32` (src/int/limb.rs L258-260), `div_i64` (L349-351), `div_i128` (L440-442). -/
def divFixI (cf : Cfg) (be : Bool) (k : Fix) (x : Limbs w) (n : BitVec k.n) : Res (Limbs w) :=
  fst (divRemFixI cf be k x n)
/-- `wrapping_rem_i32` (src/int/limb.rs L848-850), `wrapping_rem_i64` (L982-984),
`wrapping_rem_i128` (L1198-1200). -/
def wrappingRemFixI (cf : Cfg) (be : Bool) (k : Fix) (x : Limbs w) (n : BitVec k.n) : Res (BitVec k.n) :=
  snd (wrappingDivRemFixI cf be k x n)
/-- `checked_rem_i32` (src/int/limb.rs L2044-2046), `checked_rem_i64` (L2131-2133),
`checked_rem_i128` (L2218-2220). -/
def checkedRemFixI (cf : Cfg) (be : Bool) (k : Fix) (x : Limbs w) (n : BitVec k.n) :
    Res (Option (BitVec k.n)) :=
  sndSome (checkedDivRemFixI cf be k x n)
/-- `rem_i32` (src/int/limb.rs L268-270), `rem_i64` (L359-361), `rem_i128` (L450-452). -/
def remFixI (cf : Cfg) (be : Bool) (k : Fix) (x : Limbs w) (n : BitVec k.n) : Res (BitVec k.n) :=
  snd (divRemFixI cf be k x n)

end I

end Raw

end I256
