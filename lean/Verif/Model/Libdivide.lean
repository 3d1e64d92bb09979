import Verif.Spec

/-!
# Model of `etc/libdivide.py`

The repository keeps a Python version of libdivide (division by multiplication and shifts) "to validate
our algorithms".  Python integers are unbounded; exceptions are explicit.
-/

namespace I256

namespace Libdivide

/-- The exceptions that the script can raise. -/
inductive PyErr where
  | zeroDivision
  | value
  | unboundLocal
  | assertion
  | recursion
  deriving DecidableEq, Repr

/-- `Algorithm`, etc/libdivide.py L76-81. -/
inductive Algorithm where
  | shr
  | fast
  | general
  deriving DecidableEq, Repr

/-- `Divider`, etc/libdivide.py L84-104 (`unsigned` is always `True`). -/
structure Divider where
  bits : Nat
  divisor : Nat
  magic : Nat
  more : Int
  algorithm : Algorithm
  branchfree : Bool
  deriving DecidableEq, Repr

/-- `Mask.ADD_MARKER`, etc/libdivide.py L72. -/
def addMarker : Nat := 0x4000
/-- `x & Mask.UNIVERSAL`, etc/libdivide.py L71: Python's `&` of a negative number is that of two's
complement, so this is the remainder modulo `2^14`. -/
def universal (x : Int) : Int := x % 0x4000

/-- `leading_zeros`, etc/libdivide.py L132-139: the index of the first `1` in the binary digits, padded
to at least `bits` digits. -/
def leadingZeros (value bits : Nat) : Nat :=
  if value = 0 then bits else max bits (value.log2 + 1) - (value.log2 + 1)

/-- `mulhi`, etc/libdivide.py L142-144. -/
def mulhi (x y bits : Nat) : Nat := (x * y) >>> bits

/-- `unsigned_gen_impl`, etc/libdivide.py L152-214. The variable `more` is only assigned in some of the
branches; reading it unassigned raises `UnboundLocalError`. -/
def genImpl (bits : Nat) (divisor : Int) (branchfree : Bool) : Except PyErr Divider :=
  if divisor = 0 then .error .zeroDivision
  else if divisor > 2 ^ bits ∨ divisor < 1 then .error .value
  else
    let d := divisor.toNat
    let floorLog2 := bits - 1 - leadingZeros d bits
    if d &&& (d - 1) = 0 then
      .ok ⟨bits, d, 0, (floorLog2 : Int) - (branchfree.toNat : Int), .shr, branchfree⟩
    else
      let mask := (1 <<< bits) - 1
      let dPower := 1 <<< (floorLog2 + bits)
      let proposedM := dPower / d
      let rem := dPower % d
      let e := d - rem
      if branchfree = false ∧ e < 1 <<< floorLog2 then
        .ok ⟨bits, d, (1 + proposedM) &&& mask, floorLog2, .fast, branchfree⟩
      else
        let proposedM := (2 * proposedM) &&& mask
        let twiceRem := (rem + rem) &&& mask
        let (proposedM, more) :=
          if twiceRem ≥ d ∨ twiceRem < rem then
            ((proposedM + 1) &&& mask, some (floorLog2 ||| addMarker))
          else (proposedM, none)
        match more with
        | some more => .ok ⟨bits, d, (1 + proposedM) &&& mask, more, .general, branchfree⟩
        | none => .error .unboundLocal

/-- `unsigned_gen_branched`, etc/libdivide.py L217-219. -/
def genBranched (bits : Nat) (divisor : Int) : Except PyErr Divider := genImpl bits divisor false

/-- `unsigned_gen_branchfree`, etc/libdivide.py L222-226. -/
def genBranchfree (bits : Nat) (divisor : Int) : Except PyErr Divider := do
  let divider ← genImpl bits divisor true
  .ok { divider with more := universal divider.more }

/-- `Divider.unsigned_gen`, etc/libdivide.py L106-111. -/
def unsignedGen (bits : Nat) (divisor : Int) (branchfree : Bool) : Except PyErr Divider :=
  if branchfree then genBranchfree bits divisor else genBranched bits divisor

/-- `unsigned_divide_branched`, etc/libdivide.py L229-253; `more` is not negative here, a negative
amount would raise `ValueError`. -/
def divideBranched (numerator : Int) (divider : Divider) : Except PyErr Nat :=
  if divider.branchfree then .error .assertion
  else if ¬ numerator > 0 then .error .assertion
  else
    let n := numerator.toNat
    if divider.more < 0 then .error .value
    else
      let more := divider.more.toNat
      if divider.magic = 0 then .ok (n >>> more)
      else
        let mask := (1 <<< divider.bits) - 1
        let q := mulhi divider.magic n divider.bits
        if more &&& addMarker ≠ 0 then
          let t := (((n - 1) &&& mask) >>> 1) + q
          let t := t &&& mask
          .ok (t >>> (universal more).toNat)
        else .ok (q >>> more)

/-- `unsigned_divide_branchfree`, etc/libdivide.py L256-274. -/
def divideBranchfree (numerator : Int) (divider : Divider) : Except PyErr Nat :=
  if divider.branchfree = false then .error .assertion
  else if ¬ numerator > 0 then .error .assertion
  else
    let n := numerator.toNat
    let mask := (1 <<< divider.bits) - 1
    let q := mulhi divider.magic n divider.bits
    let t := (((n - 1) &&& mask) >>> 1) + q
    let t := t &&& mask
    if divider.more < 0 then .error .value else .ok (t >>> divider.more.toNat)

/-- `Divider.unsigned_divide`, etc/libdivide.py L113-117. -/
def unsignedDivide (divider : Divider) (numerator : Int) : Except PyErr Nat :=
  if divider.branchfree then divideBranchfree numerator divider else divideBranched numerator divider

/-- `Divider.unsigned_divide_remainder`, etc/libdivide.py L119-125: Python's `&` with the mask is the
remainder modulo `2^bits`. -/
def unsignedDivideRemainder (divider : Divider) (numerator : Int) : Except PyErr (Nat × Int) := do
  let mask := (1 <<< divider.bits) - 1
  let quotient ← unsignedDivide divider numerator
  let remainder := numerator - (((divider.divisor * quotient) &&& mask : Nat) : Int)
  .ok (quotient, remainder % 2 ^ divider.bits)

/-- `Divider.unsigned_remainder`, etc/libdivide.py L127-129: the method calls itself with the same
argument, until the interpreter gives up. -/
def unsignedRemainder (_divider : Divider) (_numerator : Int) : Except PyErr Int := .error .recursion

/-! A repair: `more` is assigned in both cases of L194-204, the shift paths of L249 and L271 use
`numerator - q`, and the branch-free form rejects the divisor 1, for which it has no shift. -/

/-- The repair of `unsigned_gen_impl`, etc/libdivide.py L152-214. -/
def genFix (bits : Nat) (divisor : Int) (branchfree : Bool) : Except PyErr Divider :=
  if divisor = 0 then .error .zeroDivision
  else if divisor ≥ 2 ^ bits ∨ divisor < 1 ∨ (branchfree = true ∧ divisor = 1) then .error .value
  else
    let d := divisor.toNat
    let floorLog2 := bits - 1 - leadingZeros d bits
    if d &&& (d - 1) = 0 then
      .ok ⟨bits, d, 0, (floorLog2 : Int) - (branchfree.toNat : Int), .shr, branchfree⟩
    else
      let mask := (1 <<< bits) - 1
      let dPower := 1 <<< (floorLog2 + bits)
      let proposedM := dPower / d
      let rem := dPower % d
      let e := d - rem
      if branchfree = false ∧ e < 1 <<< floorLog2 then
        .ok ⟨bits, d, (1 + proposedM) &&& mask, floorLog2, .fast, branchfree⟩
      else
        let proposedM := (2 * proposedM) &&& mask
        let twiceRem := (rem + rem) &&& mask
        let proposedM :=
          if twiceRem ≥ d ∨ twiceRem < rem then (proposedM + 1) &&& mask else proposedM
        let more := if branchfree then floorLog2 else floorLog2 ||| addMarker
        .ok ⟨bits, d, (1 + proposedM) &&& mask, more, .general, branchfree⟩

/-- The repair of `unsigned_divide_branched` and `unsigned_divide_branchfree`, etc/libdivide.py
L229-274. -/
def divideFix (divider : Divider) (numerator : Nat) : Nat :=
  let more := divider.more.toNat
  if divider.branchfree = false ∧ divider.magic = 0 then numerator >>> more
  else
    let mask := (1 <<< divider.bits) - 1
    let q := mulhi divider.magic numerator divider.bits
    if divider.branchfree = true ∨ more &&& addMarker ≠ 0 then
      let t := ((numerator - q) >>> 1) + q
      let t := t &&& mask
      t >>> (universal more).toNat
    else q >>> more

end Libdivide

end I256
