import Verif.SpecAlign
import Verif.Repair.More

/-!
# A repair of `LowerExp` and `UpperExp` that respects every flag (B8, B23)

Not code of the crate.  The digits are rounded as text and the result is handed to
`Formatter::pad_integral` of the standard library.
-/

namespace I256

namespace Repair

variable {w : Nat}

/-- Adds one to a decimal number, given as text with the last digit first. -/
def incr : List Byte → List Byte
  | [] => [49#8]
  | c :: t => if c = 57#8 then 48#8 :: incr t else (c + 1) :: t

/-- Whether the digits `rest`, dropped after the digits `keep`, round up; halves go to the even digit. -/
def roundsUp (keep rest : List Byte) : Bool :=
  match rest with
  | [] => false
  | c :: t => decide (53#8 < c) ||
    (c == 53#8 && (t.any (· != 48#8) || (keep.getLast?.getD 48#8).toNat % 2 == 1))

/-- The scientific form of the decimal text `ds` with `p` digits after the point. -/
def expPrec (e : Byte) (ds : List Byte) (p : Nat) : List Byte :=
  let k := ds.length - 1
  let r : List Byte × Nat :=
    if k ≤ p then (ds ++ List.replicate (p - k) 48#8, k)
    else
      let keep := ds.take (p + 1)
      let s := if roundsUp keep (ds.drop (p + 1)) then (incr keep.reverse).reverse else keep
      if s.length = p + 2 then (s.take (p + 1), k + 1) else (s, k)
  r.1.take 1 ++ (if p = 0 then [] else 46#8 :: r.1.tail) ++ e :: numeral 10 r.2

/-- `LowerExp::fmt` (`e = 101`) and `UpperExp::fmt` (`e = 69`), src/uint/traits.rs L89-106, with the
precision and the flags; `al` and `prec` are those of the formatter. -/
def fmtExpFlagsU (oc : Bool) (e : Byte) (al : Align) (f : Write.Flags) (prec : Option Nat) (x : Limbs w) :
    Res (List Byte) :=
  (U.toStrRadix oc (bits x) x 10).bind fun s =>
    match prec with
    | none => (exp e s).map (padAligned al f false [])
    | some p => .ok (padAligned al f false [] (expPrec e s p))

/-- `LowerExp::fmt` and `UpperExp::fmt`, src/int/traits.rs L76-83, L104-111, likewise. -/
def fmtExpFlagsS (oc : Bool) (e : Byte) (al : Align) (f : Write.Flags) (prec : Option Nat) (x : Limbs w) :
    Res (List Byte) :=
  (U.toStrRadix oc (bits x) (I.unsignedAbs x) 10).bind fun s =>
    match prec with
    | none => (exp e s).map (padAligned al f (I.isNegative x) [])
    | some p => .ok (padAligned al f (I.isNegative x) [] (expPrec e s p))

end Repair

end I256
