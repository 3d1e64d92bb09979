import Verif.SpecAlign

/-!
# Exponents with a precision, and the debug form

What `LowerExp`, `UpperExp` and `Debug` of the primitive integers print with every flag.  The code never
asks for the precision or for the flags `x` and `X` of `?`, so they are not among the flags of the model.
-/

namespace I256

/-- `n / 10^k` rounded to the nearest number, halves to the even one. -/
def roundEven (n k : Nat) : Nat :=
  let q := n / 10 ^ k
  let r := n % 10 ^ k
  if 10 ^ k < 2 * r ∨ (10 ^ k = 2 * r ∧ q % 2 = 1) then q + 1 else q

/-- The scientific form with `p` digits after the point: missing digits are zeros, extra ones are rounded
away, and without digits there is no point. -/
def sciPrec (e : Byte) (n p : Nat) : List Byte :=
  let ds := numeral 10 n
  let k := ds.length - 1
  let m := roundEven n (k - p)
  let r : List Byte × Nat :=
    if k ≤ p then (ds ++ List.replicate (p - k) 48#8, k)
    else if m = 10 ^ (p + 1) then (numeral 10 (10 ^ p), k + 1)
    else (numeral 10 m, k)
  r.1.take 1 ++ (if p = 0 then [] else 46#8 :: r.1.tail) ++ e :: numeral 10 r.2

/-- The scientific form of the primitive integers, with or without a precision. -/
def sciText (e : Byte) (prec : Option Nat) (n : Nat) : List Byte :=
  match prec with
  | none => sciForm e n
  | some p => sciPrec e n p

/-- The flags `x` and `X` of `?` in a format string. -/
inductive DebugHex where
  | none
  | lower
  | upper
  deriving DecidableEq, Repr

/-- `Debug` of a primitive integer: `{:?}` is `Display`, `{:x?}` is `LowerHex`, `{:X?}` is `UpperHex`.
`neg` and `abs` are sign and absolute value, `raw` the unsigned number with the same bits. -/
def debugText (hex : DebugHex) (al : Align) (f : Write.Flags) (neg : Bool) (abs raw : Nat) : List Byte :=
  match hex with
  | .none => padAligned al f neg [] (numeral 10 abs)
  | .lower => padAligned al f false (ascii "0x") ((numeral 16 raw).map lowerByte)
  | .upper => padAligned al f false (ascii "0x") (numeral 16 raw)

example : sciPrec 101 1234 0 = ascii "1e3" ∧ sciPrec 101 1234 1 = ascii "1.2e3" ∧
    sciPrec 101 1250 1 = ascii "1.2e3" ∧ sciPrec 101 1350 1 = ascii "1.4e3" ∧
    sciPrec 101 1251 1 = ascii "1.3e3" ∧ sciPrec 101 9996 2 = ascii "1.00e4" ∧
    sciPrec 101 1234 5 = ascii "1.23400e3" ∧ sciPrec 69 0 2 = ascii "0.00E0" ∧
    sciPrec 69 95 0 = ascii "1E2" ∧ sciPrec 69 85 0 = ascii "8E1" := by decide +kernel

end I256
