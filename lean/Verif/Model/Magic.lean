import Verif.Spec

/-!
# Model of `etc/magic.py`

Python integers are unbounded.  `math.log2` works on floating-point numbers and is not modelled: its
rounded result is an argument.  `is_valid` (L14-21), which only uses floating-point division, is left
out.
-/

namespace I256

namespace Magic

/-- The loop of `choose_multiplier`, etc/magic.py L42-45. -/
def reduce : Nat → Nat → Nat → Nat × Nat
  | _, mHigh, 0 => (mHigh, 0)
  | mLow, mHigh, shPost + 1 =>
    if mLow / 2 < mHigh / 2 then reduce (mLow / 2) (mHigh / 2) shPost else (mHigh, shPost + 1)

/-- `choose_multiplier`, etc/magic.py L24-47; `divBits` is `math.ceil(math.log2(divisor))` (L37). -/
def chooseMultiplier (divisor bits divBits : Nat) (isSigned : Bool) : Nat × Nat × Nat :=
  let precision := if isSigned then bits - 1 else bits
  let mLow := 2 ^ (bits + divBits) / divisor
  let mHigh := (2 ^ (bits + divBits) + 2 ^ (bits + divBits - precision)) / divisor
  let r := reduce mLow mHigh divBits
  (r.1, r.2, divBits)

/-- The loop of `fast_shift`, etc/magic.py L56-58, with a bound on the number of rounds. -/
def fastShiftLoop (divisor : Nat) : Nat → Nat → Nat
  | 0, n => n
  | fuel + 1, n => if divisor % 2 ^ (n + 1) = 0 then fastShiftLoop divisor fuel (n + 1) else n

/-- `fast_shift`, etc/magic.py L50-59, for a divisor other than zero (for zero the loop does not end). -/
def fastShift (divisor : Nat) : Nat := fastShiftLoop divisor divisor 0

/-- `calculate_factors`, etc/magic.py L67-80; `none` is `NotImplementedError`, and `dBits` is
`math.ceil(math.log2(d))`. -/
def calculateFactors (d numBits divBits dBits : Nat) : Option (Nat × Nat × Nat × Nat) :=
  let fastShr := fastShift d
  let (factor, factorShr, _) := chooseMultiplier d numBits dBits false
  if factor ≥ 2 ^ numBits then none
  else if fastShr ≠ 0 then some (1 <<< (divBits + fastShr), fastShr, factor, factorShr)
  else none

/-- `mulhi`, etc/magic.py L95-114. -/
def mulhi (x y halfBits : Nat) : Nat :=
  let yMask := 2 ^ halfBits - 1
  let x0 := x &&& yMask
  let x1 := (x >>> halfBits) &&& yMask
  let y0 := y &&& yMask
  let y1 := (y >>> halfBits) &&& yMask
  let w0 := (x0 * y0) &&& yMask
  let m := (((x0 * y1) &&& yMask) + (w0 >>> halfBits)) &&& yMask
  let w1 := m &&& yMask
  let w2 := (m >>> halfBits) &&& yMask
  let w3 := ((x1 * y0 + w1) >>> halfBits) &&& yMask
  let p0 := (x1 * y1) &&& yMask
  let p1 := (p0 + w2) &&& yMask
  let p2 := (p1 + w3) &&& yMask
  p2

/-- `fast_divrem`, etc/magic.py L83-92, with the factors as a tuple. A product above the numerator makes
the difference negative; `&` with the mask is the remainder modulo its power of two. -/
def fastDivrem (num den : Nat) (f : Nat × Nat × Nat × Nat) (numBits divBits : Nat) : Nat × Nat :=
  let (fast, fastShr, factor, factorShr) := f
  let divMask := 2 ^ divBits - 1
  let numMask := 2 ^ numBits - 1
  let quot :=
    if num < fast then ((num >>> fastShr) &&& divMask) / (den >>> fastShr)
    else mulhi num factor divBits >>> factorShr
  let rem := ((num : Int) - ((quot * den) &&& numMask : Nat)) % 2 ^ divBits
  (quot, rem.toNat)

/-- A repair of `mulhi`, etc/magic.py L95-114: without the masks that cut the partial products. -/
def mulhiFix (x y halfBits : Nat) : Nat :=
  let yMask := 2 ^ halfBits - 1
  let x0 := x &&& yMask
  let x1 := x >>> halfBits
  let y0 := y &&& yMask
  let y1 := y >>> halfBits
  let w0 := x0 * y0
  let m := x0 * y1 + (w0 >>> halfBits)
  let w1 := m &&& yMask
  let w2 := m >>> halfBits
  let w3 := (x1 * y0 + w1) >>> halfBits
  x1 * y1 + w2 + w3

/-- `fast_divrem`, etc/magic.py L83-92, with the repaired `mulhi`. -/
def fastDivremFix (num den : Nat) (f : Nat × Nat × Nat × Nat) (numBits divBits : Nat) : Nat × Nat :=
  let (fast, fastShr, factor, factorShr) := f
  let divMask := 2 ^ divBits - 1
  let numMask := 2 ^ numBits - 1
  let quot :=
    if num < fast then ((num >>> fastShr) &&& divMask) / (den >>> fastShr)
    else mulhiFix num factor divBits >>> factorShr
  let rem := ((num : Int) - ((quot * den) &&& numMask : Nat)) % 2 ^ divBits
  (quot, rem.toNat)

end Magic

end I256
