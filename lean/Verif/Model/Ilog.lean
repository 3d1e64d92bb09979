import Verif.Model.Bitops
import Verif.Model.MulApi
import Verif.Model.DivApi

/-!
# Model of `ilog` and `checked_ilog`

The `while` loop of `checked_ilog` does not terminate for all operands.  The model runs a given number
of rounds; the outcome `none` means that the loop has not ended by then.
-/

namespace I256

variable {w : Nat}

namespace U

/-- `while r <= self / base { n += 1; r *= base; }`, src/uint/checked.rs L79-82.  `n` is a `u32`, so
`n += 1` panics at its maximum with overflow checks and wraps without. -/
def ilogLoop (oc : Bool) (x base : Limbs w) : Nat → BitVec 32 → Limbs w → Option (Res Nat)
  | 0, _, _ => none
  | rounds + 1, n, r =>
    match div oc x base with
    | .panic => some .panic
    | .ok q =>
      if Ord.le false r q then
        if oc && n == BitVec.allOnes 32 then some .panic
        else
          match mul oc r base with
          | .panic => some .panic
          | .ok r => ilogLoop oc x base rounds (n + 1) r
      else some (.ok n.toNat)

/-- The start values of `n` and `r`, src/uint/checked.rs L62-77. -/
def ilogStart (oc : Bool) (x base : Limbs w) : Res (BitVec 32 × Limbs w) :=
  if bits x ≥ w + w then
    (ilog2 false x).bind fun lx =>
    (ilog2 false base).bind fun lb =>
    let n := lx / (lb + 1)
    (pow oc base n).bind fun r => .ok (BitVec.ofNat 32 n, r)
  else .ok (1, base)

/-- `checked_ilog`, src/uint/checked.rs L55-84. -/
def checkedIlog (oc : Bool) (rounds : Nat) (x base : Limbs w) : Option (Res (Option Nat)) :=
  let zero := ofU8 x.length 0
  if x == zero || Ord.le false base zero || Ord.lt false x base then some (.ok none)
  else
    match ilogStart oc x base with
    | .panic => some .panic
    | .ok (n, r) => (ilogLoop oc x base rounds n r).map (Res.map some)

/-- `ilog`, src/uint/ops.rs L117-123. -/
def ilog (oc : Bool) (rounds : Nat) (x base : Limbs w) : Option (Res Nat) :=
  (checkedIlog oc rounds x base).map fun r => r.bind unwrapOrPanic

end U

namespace I

/-- `checked_ilog`, src/int/checked.rs L86-91. -/
def checkedIlog (oc : Bool) (rounds : Nat) (x base : Limbs w) : Option (Res (Option Nat)) :=
  if Ord.le true x (ofU8 x.length 0) || Ord.le true base (ofU8 x.length 1) then some (.ok none)
  else (U.ilog oc rounds x base).map (Res.map some)

/-- `ilog`, src/int/ops.rs L231-241. -/
def ilog (oc : Bool) (rounds : Nat) (x base : Limbs w) : Option (Res Nat) :=
  if Ord.ge true base (ofU8 x.length 2) then
    (checkedIlog oc rounds x base).map fun r => r.bind unwrapOrPanic
  else some .panic

end I
end I256
