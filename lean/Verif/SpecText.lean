import Mathlib.Data.Nat.Digits.Defs
import Verif.Spec

/-!
# Specification vocabulary for text

Text is a list of bytes (ASCII).  Nothing here refers to the model.
-/

namespace I256

/-- A byte of text. -/
abbrev Byte := BitVec 8

/-- The bytes of an ASCII string literal. -/
def ascii (s : String) : List Byte := s.toList.map fun c => BitVec.ofNat 8 c.toNat

/-- The error kinds of `src/error.rs` L24-43 that parsing can return. -/
inductive ErrKind where
  | empty
  | invalidDigit
  | posOverflow
  | negOverflow
  deriving DecidableEq, Repr

/-- `Result<T, ParseIntError>`. -/
inductive Parsed (α : Type) where
  | ok (v : α)
  | err (e : ErrKind)
  deriving DecidableEq, Repr

/-- The digit denoted by a character: `0-9`, then `A-Z` or `a-z` for 10 to 35. -/
def digitOf (c : Byte) : Option Nat :=
  if 48 ≤ c.toNat ∧ c.toNat ≤ 57 then some (c.toNat - 48)
  else if 65 ≤ c.toNat ∧ c.toNat ≤ 90 then some (c.toNat - 55)
  else if 97 ≤ c.toNat ∧ c.toNat ≤ 122 then some (c.toNat - 87)
  else none

/-- `c` is a digit of base `r`. -/
def isDigit (r : Nat) (c : Byte) : Bool :=
  match digitOf c with
  | some d => d < r
  | none => false

/-- The digits at the start of `s`. -/
def digitPart (r : Nat) (s : List Byte) : List Byte := s.takeWhile (isDigit r)

/-- The number denoted by a digit string, most significant digit first. -/
def numVal (r : Nat) (s : List Byte) : Nat :=
  Nat.ofDigits r (s.map fun c => (digitOf c).getD 0).reverse

/-- The character of the digit `d`, upper case. -/
def digitByte (d : Nat) : Byte := BitVec.ofNat 8 (if d < 10 then 48 + d else 55 + d)

/-- The canonical numeral of `n` in base `r`. -/
def numeral (r n : Nat) : List Byte :=
  if n = 0 then [digitByte 0] else ((Nat.digits r n).map digitByte).reverse

/-- The result of reading the unsigned digit string `ds` in base `r`: if the digits at its start
denote a number out of range it is the error `over`, otherwise if they are followed by something it is
`InvalidDigit`, otherwise it is the value. -/
def ReadsU {w : Nat} (N r : Nat) (over : ErrKind) (ds : List Byte) (res : Parsed (Limbs w)) : Prop :=
  (¬ InU (w * N) (numVal r (digitPart r ds)) → res = .err over) ∧
  (InU (w * N) (numVal r (digitPart r ds)) → digitPart r ds ≠ ds → res = .err .invalidDigit) ∧
  (InU (w * N) (numVal r (digitPart r ds)) → digitPart r ds = ds →
    ∃ v, res = .ok v ∧ ExactU N (numVal r ds) v)

/-- The same for signed results; `sgn` is `1` or `-1`. -/
def ReadsS {w : Nat} (N r : Nat) (sgn : Int) (over : ErrKind) (ds : List Byte)
    (res : Parsed (Limbs w)) : Prop :=
  (¬ InS (w * N) (sgn * numVal r (digitPart r ds)) → res = .err over) ∧
  (InS (w * N) (sgn * numVal r (digitPart r ds)) → digitPart r ds ≠ ds → res = .err .invalidDigit) ∧
  (InS (w * N) (sgn * numVal r (digitPart r ds)) → digitPart r ds = ds →
    ∃ v, res = .ok v ∧ ExactS N (sgn * numVal r ds) v)

/-- The result of parsing an unsigned number: an optional `+` and at least one digit.  A minus sign is
a negative overflow. -/
def ParsesU {w : Nat} (N r : Nat) (s : List Byte) (res : Parsed (Limbs w)) : Prop :=
  match s with
  | [] => res = .err .empty
  | c :: t =>
    if c = 43 then if t = [] then res = .err .invalidDigit else ReadsU N r .posOverflow t res
    else if c = 45 then res = .err .negOverflow
    else ReadsU N r .posOverflow (c :: t) res

/-- The result of parsing a signed number: an optional `+` or `-` and at least one digit. -/
def ParsesS {w : Nat} (N r : Nat) (s : List Byte) (res : Parsed (Limbs w)) : Prop :=
  match s with
  | [] => res = .err .empty
  | c :: t =>
    if c = 43 then if t = [] then res = .err .invalidDigit else ReadsS N r 1 .posOverflow t res
    else if c = 45 then if t = [] then res = .err .invalidDigit else ReadsS N r (-1) .negOverflow t res
    else ReadsS N r 1 .posOverflow (c :: t) res

/-- The negative numbers that the signed parser misreads: `r` times the number before the last digit
is just beyond `MIN`, by less than one unit of the top limb (`Mul.Gap`). -/
def GapText (w N r : Nat) (s : List Byte) : Prop :=
  ∃ t, s = 45 :: t ∧ Mul.Gap w N (-((r * numVal r (digitPart r t).dropLast : Nat) : Int))

/-- The numeral of a signed number: `-` and the numeral of the absolute value. -/
def numeralS (r : Nat) (z : Int) : List Byte := if z < 0 then 45#8 :: numeral r z.natAbs else numeral r z.natAbs

/-- Lower case of an ASCII character. -/
def lowerByte (c : Byte) : Byte := if 65 ≤ c.toNat ∧ c.toNat ≤ 90 then c + 32 else c

/-- The flags of `core::fmt::Formatter` that the code reads or that matter for primitive integers.
`fill` is the UTF-8 form of the fill character, `zero` the flag of `{:05}`. -/
structure Write.Flags where
  alternate : Bool := false
  signPlus : Bool := false
  zero : Bool := false
  width : Option Nat := none
  fill : List Byte := [32]

/-- `Formatter::pad_integral` of the standard library for the default alignment, which the primitive
integers use: sign, prefix and digits count towards the width; zeros go after the prefix, other fill
characters before the sign. -/
def padIntegral (f : Write.Flags) (negative : Bool) (pre digits : List Byte) : List Byte :=
  let head := (if negative then ascii "-" else if f.signPlus then ascii "+" else []) ++
    (if f.alternate then pre else [])
  let n := f.width.getD 0 - (head.length + digits.length)
  if f.zero then head ++ List.replicate n 48#8 ++ digits
  else (List.replicate n f.fill).flatten ++ head ++ digits

/-- The scientific form of the primitive integers: trailing zeros of the fraction are dropped, and
the point too if no fraction remains. -/
def sciForm (e : Byte) (n : Nat) : List Byte :=
  let ds := numeral 10 n
  let fr := (ds.tail.reverse.dropWhile (· == 48#8)).reverse
  ds.take 1 ++ (if fr = [] then [] else 46#8 :: fr) ++ e :: numeral 10 (ds.length - 1)

/-- `s` is `d.ffffeK` with decimal digits and denotes the number `n`, that is
`dffff * 10^K = n * 10^(number of f)`. -/
def SciDenotes (e : Byte) (s : List Byte) (n : Nat) : Prop :=
  ∃ d fr k, s = d :: 46#8 :: fr ++ e :: numeral 10 k ∧ (∀ c ∈ d :: fr, isDigit 10 c = true) ∧
    numVal 10 (d :: fr) * 10 ^ k = n * 10 ^ fr.length

end I256
