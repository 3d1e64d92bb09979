import Verif.SpecWorkText
import Verif.Model.Work
import Verif.Model.Parse
import Verif.Model.Write

/-!
# The work of text conversion

The functions of `Verif.Model.Parse` and `Verif.Model.Write` once more, with counters.
-/

namespace I256.Count

variable {w : Nat}

/-- Unsigned `div_rem_ulimb`, src/shared/limb.rs L65-74, with `checked_div_rem_ulimb`, L836-842, and
`wrapping_div_rem_ulimb`, src/uint/limb.rs L103-107. -/
def divRemULimb (oc : Bool) (x : Limbs w) (n : BitVec w) : Res ((Limbs w × BitVec w) × Work) :=
  opOfR oc (limb x n) (checkedBy (isZeroScalar n) (limb x n))

/-- The loop of `to_str_radix`, src/write.rs L52-56; see `Write.loop`. -/
def writeLoop (oc signed : Bool) (divRem : Limbs w → BitVec w → Res ((Limbs w × BitVec w) × Work))
    (limit : Limbs w) (radix : BitVec 32) (start : Nat) :
    Nat → Limbs w → List Byte → Res ((Nat × Limbs w × List Byte) × Work)
  | 0, x, out => .ok ((0, x, out), ⟨0, 0⟩)
  | index + 1, x, out =>
    if Ord.ge signed x limit && decide (start < index + 1) then
      (divRem x (radix.setWidth w)).bind fun (qr, k) =>
      (Write.digitToChar oc (qr.2.setWidth 32) radix).bind fun c =>
      (writeLoop oc signed divRem limit radix start index qr.1 (c :: out)).bind fun (r, l) => .ok (r, k.add l)
    else .ok ((index + 1, x, out), ⟨0, 0⟩)

/-- `to_str_radix`, src/write.rs L30-70. -/
def toStrRadix (oc signed : Bool) (divRem : Limbs w → BitVec w → Res ((Limbs w × BitVec w) × Work))
    (len : Nat) (x : Limbs w) (radix : BitVec 32) : Res (List Byte × Work) :=
  if radix < 2 || 36 < radix then .panic
  else if len < bits x + signed.toNat then .panic
  else
    let negative := signed && Ord.lt signed x (ofU8 x.length 0)
    let start := if negative then 2 else 1
    let limit := Cast.fromU32 x.length radix
    (writeLoop oc signed divRem limit radix start len x []).bind fun ((_, x, out), k) =>
    if !Ord.lt signed x limit then .panic
    else
      (Write.digitToChar oc ((getLimb x 0).setWidth 32) radix).bind fun c =>
      .ok (if negative then 45#8 :: c :: out else c :: out, k)

/-- Unsigned `to_str_radix`, src/write.rs L30-70 with `$is_signed = false`. -/
def toStrRadixU (oc : Bool) (len : Nat) (x : Limbs w) (radix : BitVec 32) : Res (List Byte × Work) :=
  toStrRadix oc false (divRemULimb oc) len x radix

/-- Signed `Display::fmt`, src/int/traits.rs L64-71, with the unsigned one, src/uint/traits.rs L35-40. -/
def fmtDisplayS (oc : Bool) (f : Write.Flags) (x : Limbs w) : Res (List Byte × Work) :=
  (toStrRadixU oc (bits (I.unsignedAbs x)) (I.unsignedAbs x) 10).map fun (s, k) => (I.fmtSign f x ++ s, k)

/-- The loop of `unchecked_loop!`, src/parse.rs L43-64. -/
def uncheckedLoop (mul : Limbs w → BitVec w → Limbs w × Nat) (add : Limbs w → BitVec w → Limbs w) (radix : BitVec 32) :
    List Byte → Limbs w → Parsed (Limbs w) × Nat
  | [], res => (.ok res, 0)
  | c :: cs, res =>
    match Parse.charToDigit c radix with
    | some digit =>
      let (v, n) := mul res (radix.setWidth w)
      let (r, k) := uncheckedLoop mul add radix cs (add v (digit.setWidth w))
      (r, n + k)
    | none => (.err .invalidDigit, 0)

/-- The loop of `checked_loop!`, src/parse.rs L67-94. -/
def checkedLoop (overflow : ErrKind) (mul : Limbs w → BitVec w → Option (Limbs w) × Nat)
    (add : Limbs w → BitVec w → Option (Limbs w)) (radix : BitVec 32) : List Byte → Limbs w → Parsed (Limbs w) × Nat
  | [], res => (.ok res, 0)
  | c :: cs, res =>
    match Parse.charToDigit c radix with
    | none => (.err .invalidDigit, 0)
    | some digit =>
      match mul res (radix.setWidth w) with
      | (none, n) => (.err overflow, n)
      | (some value, n) =>
        match add value (digit.setWidth w) with
        | none => (.err overflow, n)
        | some res =>
          let (r, k) := checkedLoop overflow mul add radix cs res
          (r, n + k)

/-- Unsigned `checked_mul_ulimb`, src/shared/limb.rs L822-829. -/
def checkedULimb (x : Limbs w) (n : BitVec w) : Option (Limbs w) × Nat :=
  let (r, k) := overflowingLimb x n
  (mkChecked r, k)

/-- Signed `checked_mul_ulimb`, src/shared/limb.rs L822-829. -/
def checkedULimbS (x : Limbs w) (n : BitVec w) : Option (Limbs w) × Nat :=
  let (r, k) := overflowingULimbS x n
  (mkChecked r, k)

/-- The part of `from_str_radix` after the sign, src/parse.rs L146-157. -/
def body (ops : Parse.Ops w) (cMul : Limbs w → BitVec w → Option (Limbs w) × Nat) (signed : Bool) (N : Nat)
    (radix : BitVec 32) (negative : Bool) (digits : List Byte) : Parsed (Limbs w) × Nat :=
  let cannotOverflow : Bool := digits.length ≤ Parse.overflowDigits (N * w / 8) radix signed
  if cannotOverflow && negative then uncheckedLoop wrappingLimb ops.wSub radix digits (ofU8 N 0)
  else if cannotOverflow then uncheckedLoop wrappingLimb ops.wAdd radix digits (ofU8 N 0)
  else if negative then checkedLoop .negOverflow cMul ops.cSub radix digits (ofU8 N 0)
  else checkedLoop .posOverflow cMul ops.cAdd radix digits (ofU8 N 0)

/-- `from_str_radix`, src/parse.rs L117-158. -/
def fromStrRadix (ops : Parse.Ops w) (cMul : Limbs w → BitVec w → Option (Limbs w) × Nat) (signed : Bool) (N : Nat)
    (src : List Byte) (radix : BitVec 32) : Res (Parsed (Limbs w) × Nat) :=
  if radix < 2 || 36 < radix then .panic
  else
    match src with
    | [] => .ok (.err .empty, 0)
    | c :: cs =>
      if c = 43 then .ok (body ops cMul signed N radix false cs)
      else if c = 45 && signed then .ok (body ops cMul signed N radix true cs)
      else if c = 45 then .ok (.err .negOverflow, 0)
      else .ok (body ops cMul signed N radix false (c :: cs))

/-- Unsigned `from_str_radix`, src/parse.rs L117-158 with `$is_signed = false`. -/
def fromStrRadixU (N : Nat) (src : List Byte) (radix : BitVec 32) : Res (Parsed (Limbs w) × Nat) :=
  fromStrRadix U.parseOps checkedULimb false N src radix

/-- Signed `from_str_radix`, src/parse.rs L117-158 with `$is_signed = true`. -/
def fromStrRadixS (N : Nat) (src : List Byte) (radix : BitVec 32) : Res (Parsed (Limbs w) × Nat) :=
  fromStrRadix I.parseOps checkedULimbS true N src radix

end I256.Count
