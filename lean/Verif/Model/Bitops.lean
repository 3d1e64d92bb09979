import Verif.Model.Common

/-!
# Model of `src/shared/bitops.rs`: bit counting and bitwise operators
-/

namespace I256

variable {w : Nat}

/-- Native `leading_zeros`. -/
def clz (x : BitVec w) : Nat := if x = 0 then w else w - 1 - x.toNat.log2
/-- Native `trailing_zeros`: the index of the lowest set bit, `w` if there is none. -/
def ctz (x : BitVec w) : Nat := (List.range w).findIdx (fun i => x.getLsbD i)
/-- Native `count_ones`. -/
def popcount (x : BitVec w) : Nat := (List.range w).countP (fun i => x.getLsbD i)

namespace Bits

/-- `bitand_const`, src/shared/bitops.rs L109-119. -/
def and (x y : Limbs w) : Limbs w := List.zipWith (· &&& ·) x y
/-- `bitor_const`, src/shared/bitops.rs L123-133. -/
def or (x y : Limbs w) : Limbs w := List.zipWith (· ||| ·) x y
/-- `bitxor_const`, src/shared/bitops.rs L137-147. -/
def xor (x y : Limbs w) : Limbs w := List.zipWith (· ^^^ ·) x y
/-- `not_const`, src/shared/bitops.rs L151-160. -/
def not (x : Limbs w) : Limbs w := x.map (~~~ ·)

/-- `count_ones`, src/shared/bitops.rs L17-26. -/
def countOnes (x : Limbs w) : Nat := x.foldl (fun count a => count + popcount a) 0
/-- `count_zeros`, src/shared/bitops.rs L32-34. -/
def countZeros (x : Limbs w) : Nat := countOnes (not x)

/-- The loop `while i < LIMBS && count == i * BITS` with a per-limb count, src/shared/bitops.rs
L63-68 and L78-83, over the limbs in the order in which they are visited. -/
def zerosLoop (f : BitVec w → Nat) : Limbs w → Nat → Nat → Nat
  | [], _, count => count
  | a :: rest, i, count => if count = i * w then zerosLoop f rest (i + 1) (count + f a) else count

/-- `leading_zeros`, src/shared/bitops.rs L62-70. -/
def leadingZeros (x : Limbs w) : Nat := zerosLoop clz x.reverse 0 0
/-- `trailing_zeros`, src/shared/bitops.rs L77-85. -/
def trailingZeros (x : Limbs w) : Nat := zerosLoop ctz x 0 0
/-- `leading_ones`, src/shared/bitops.rs L92-94. -/
def leadingOnes (x : Limbs w) : Nat := leadingZeros (not x)
/-- `trailing_ones`, src/shared/bitops.rs L101-103. -/
def trailingOnes (x : Limbs w) : Nat := trailingZeros (not x)

end Bits

/-- `checked_ilog2`, src/shared/checked.rs L187-192 (`signed` selects the type). -/
def checkedIlog2 (signed : Bool) (x : Limbs w) : Option Nat :=
  if Ord.le signed x (ofU8 x.length 0) then none
  else some (bits x - 1 - Bits.leadingZeros x)

/-- `ilog2`, src/uint/ops.rs L131-137 and src/int/ops.rs L251-257. -/
def ilog2 (signed : Bool) (x : Limbs w) : Res Nat := unwrapOrPanic (checkedIlog2 signed x)

namespace U

/-- `is_power_of_two`, src/uint/ops.rs L210-212. -/
def isPowerOfTwo (x : Limbs w) : Bool := Bits.countOnes x == 1

end U

end I256
