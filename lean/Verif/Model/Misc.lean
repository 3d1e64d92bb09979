import Verif.Model.AddSubApi
import Verif.Model.Bitops
import Verif.Model.Shift

/-!
# Model of the midpoint and power-of-two functions of `src/uint/ops.rs`, `src/int/ops.rs`
-/

namespace I256

variable {w : Nat}

namespace U

/-- `one_less_than_next_power_of_two`, src/uint/ops.rs L215-222. -/
def oneLessThanNextPowerOfTwo (x : Limbs w) : Limbs w :=
  if Ord.le false x (ofU8 x.length 1) then minValue w x.length
  else
    let p := wrappingSub x (ofU8 x.length 1)
    let z := Bits.leadingZeros p
    wrappingShr false (maxValue w x.length) z

/-- `wrapping_next_power_of_two`, src/uint/wrapping.rs L329-331. -/
def wrappingNextPowerOfTwo (x : Limbs w) : Limbs w :=
  wrappingAdd (oneLessThanNextPowerOfTwo x) (ofU8 x.length 1)

/-- `checked_next_power_of_two`, src/uint/checked.rs L149-151. -/
def checkedNextPowerOfTwo (x : Limbs w) : Option (Limbs w) :=
  checkedAdd (oneLessThanNextPowerOfTwo x) (ofU8 x.length 1)

/-- `next_power_of_two`, src/uint/ops.rs L233-242. -/
def nextPowerOfTwo (oc : Bool) (x : Limbs w) : Res (Limbs w) :=
  opOf oc (wrappingNextPowerOfTwo x) (checkedNextPowerOfTwo x)

/-- `midpoint`, src/uint/ops.rs L253-258. -/
def midpoint (x y : Limbs w) : Limbs w :=
  let xor := Bits.xor x y
  wrappingAdd (wrappingShr false xor 1) (Bits.and x y)

end U

namespace I

/-- `midpoint`, src/int/ops.rs L328-337. -/
def midpoint (x y : Limbs w) : Limbs w :=
  let xor := Bits.xor x y
  let t := wrappingAdd (wrappingShr true xor 1) (Bits.and x y)
  let neg := ofU8 x.length (isNegative t).toNat
  wrappingAdd t (Bits.and neg xor)

end I
end I256
