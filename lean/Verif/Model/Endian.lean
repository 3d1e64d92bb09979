import Verif.Model.Common

/-!
# Model of `src/shared/endian.rs`: byte order conversions

Everywhere else in the model a number is its limb list in logical little-endian order.  The functions
of this file look at the array as it lies in memory, so they take the byte order of the target as a
parameter (`be = true`: `target_endian = "big"`), and `mem` converts between the logical list and the
array.
-/

namespace I256

variable {w : Nat}

/-- The little-endian bytes of a native integer of `w` bits (`w` a multiple of 8). -/
def leBytes (a : BitVec w) : List (BitVec 8) :=
  (List.range (w / 8)).map (fun i => a.extractLsb' (8 * i) 8)

/-- The native integer with the given little-endian bytes. -/
def ofLeBytes (w : Nat) (bs : List (BitVec 8)) : BitVec w :=
  bs.foldr (fun b acc => b.setWidth w ||| acc <<< 8) 0

/-- Native `swap_bytes`. -/
def limbSwapBytes (a : BitVec w) : BitVec w := ofLeBytes w (leBytes a).reverse

namespace Endian

/-- `swap_array!`, src/util.rs L33-44. -/
def swapArray {α : Type} (l : List α) : List α := l.reverse

/-- The field `limbs` of a number, and back: `to_ne_index`, src/util.rs L9-15, puts limb `i` at index
`N - 1 - i` on big-endian targets. -/
def mem (be : Bool) (x : Limbs w) : Limbs w := if be then x.reverse else x

/-- The bytes of an array of native integers in memory: `transmute` to `[u8; _]`. -/
def memBytes (be : Bool) (l : Limbs w) : List (BitVec 8) :=
  l.flatMap (fun a => if be then (leBytes a).reverse else leBytes a)

/-- `transmute` of a byte array to an array of `n` native integers of `w` bits. -/
def ofMemBytes (be : Bool) (w : Nat) : Nat → List (BitVec 8) → Limbs w
  | 0, _ => []
  | n + 1, bs =>
    let c := bs.take (w / 8)
    ofLeBytes w (if be then c.reverse else c) :: ofMemBytes be w n (bs.drop (w / 8))

/-- `swap_bytes`, src/shared/endian.rs L25-35. -/
def swapBytes (be : Bool) (x : Limbs w) : Limbs w := mem be ((mem be x).reverse.map limbSwapBytes)
/-- `reverse_bits`, src/shared/endian.rs L44-54. -/
def reverseBits (be : Bool) (x : Limbs w) : Limbs w := mem be ((mem be x).reverse.map BitVec.reverse)

/-- `from_be`, src/shared/endian.rs L64-70. -/
def fromBe (be : Bool) (x : Limbs w) : Limbs w := if be then x else swapBytes be x
/-- `from_le`, src/shared/endian.rs L80-86. -/
def fromLe (be : Bool) (x : Limbs w) : Limbs w := if !be then x else swapBytes be x
/-- `to_be`, src/shared/endian.rs L96-102. -/
def toBe (be : Bool) (x : Limbs w) : Limbs w := if be then x else swapBytes be x
/-- `to_le`, src/shared/endian.rs L112-118. -/
def toLe (be : Bool) (x : Limbs w) : Limbs w := if !be then x else swapBytes be x

/-- `to_ne_bytes`, src/shared/endian.rs L153-158. -/
def toNeBytes (be : Bool) (x : Limbs w) : List (BitVec 8) := memBytes be (mem be x)
/-- `to_be_bytes`, src/shared/endian.rs L126-128. -/
def toBeBytes (be : Bool) (x : Limbs w) : List (BitVec 8) := toNeBytes be (toBe be x)
/-- `to_le_bytes`, src/shared/endian.rs L136-138. -/
def toLeBytes (be : Bool) (x : Limbs w) : List (BitVec 8) := toNeBytes be (toLe be x)

/-- `to_ne_limbs`, src/shared/endian.rs L241-243. -/
def toNeLimbs (be : Bool) (x : Limbs w) : Limbs w := mem be x
/-- `to_be_limbs`, src/shared/endian.rs L208-214. -/
def toBeLimbs (be : Bool) (x : Limbs w) : Limbs w :=
  if !be then swapArray (toNeLimbs be x) else toNeLimbs be x
/-- `to_le_limbs`, src/shared/endian.rs L223-229. -/
def toLeLimbs (be : Bool) (x : Limbs w) : Limbs w :=
  if !be then toNeLimbs be x else swapArray (toNeLimbs be x)

/-- `from_ne_limbs`, src/shared/endian.rs L286-291. -/
def fromNeLimbs (be : Bool) (l : Limbs w) : Res (Limbs w) :=
  if w * l.length % 128 = 0 then .ok (mem be l) else .panic
/-- `from_be_limbs`, src/shared/endian.rs L252-258. -/
def fromBeLimbs (be : Bool) (l : Limbs w) : Res (Limbs w) :=
  if be then fromNeLimbs be l else fromNeLimbs be (swapArray l)
/-- `from_le_limbs`, src/shared/endian.rs L267-273. -/
def fromLeLimbs (be : Bool) (l : Limbs w) : Res (Limbs w) :=
  if be then fromNeLimbs be (swapArray l) else fromNeLimbs be l

/-- `from_ne_bytes` of the type with `N` limbs, src/shared/endian.rs L193-199. -/
def fromNeBytes (be : Bool) (w N : Nat) (bs : List (BitVec 8)) : Res (Limbs w) :=
  fromNeLimbs be (ofMemBytes be w N bs)
/-- `from_be_bytes`, src/shared/endian.rs L166-168. -/
def fromBeBytes (be : Bool) (w N : Nat) (bs : List (BitVec 8)) : Res (Limbs w) :=
  (fromNeBytes be w N bs).map (toBe be)
/-- `from_le_bytes`, src/shared/endian.rs L176-178. -/
def fromLeBytes (be : Bool) (w N : Nat) (bs : List (BitVec 8)) : Res (Limbs w) :=
  (fromNeBytes be w N bs).map (toLe be)

/-! The array conversions with another element type: `v` is the width of the elements and `n` their
number (`UWide`/`WIDE`, `u32`/`U32_LEN`, `u64`/`U64_LEN`). -/

/-- `to_ne_wide`, `to_ne_u32`, `to_ne_u64`, src/shared/endian.rs L327-333, L412-418, L497-503. -/
def toNeArr (be : Bool) (v n : Nat) (x : Limbs w) : Limbs v := ofMemBytes be v n (toNeBytes be x)
/-- `to_be_wide`, `to_be_u32`, `to_be_u64`, src/shared/endian.rs L297-303, L382-388, L467-473. -/
def toBeArr (be : Bool) (v n : Nat) (x : Limbs w) : Limbs v :=
  if !be then swapArray (toNeArr be v n x) else toNeArr be v n x
/-- `to_le_wide`, `to_le_u32`, `to_le_u64`, src/shared/endian.rs L309-315, L394-400, L479-485. -/
def toLeArr (be : Bool) (v n : Nat) (x : Limbs w) : Limbs v :=
  if !be then toNeArr be v n x else swapArray (toNeArr be v n x)

/-- `from_ne_wide`, `from_ne_u32`, `from_ne_u64`, src/shared/endian.rs L370-376, L455-461,
L540-546. -/
def fromNeArr (be : Bool) (w N : Nat) {v : Nat} (l : Limbs v) : Res (Limbs w) :=
  fromNeBytes be w N (memBytes be l)
/-- `from_be_wide`, `from_be_u32`, `from_be_u64`, src/shared/endian.rs L339-345, L424-430,
L509-515. -/
def fromBeArr (be : Bool) (w N : Nat) {v : Nat} (l : Limbs v) : Res (Limbs w) :=
  if be then fromNeArr be w N l else fromNeArr be w N (swapArray l)
/-- `from_le_wide`, `from_le_u32`, `from_le_u64`, src/shared/endian.rs L351-357, L436-442,
L521-527. -/
def fromLeArr (be : Bool) (w N : Nat) {v : Nat} (l : Limbs v) : Res (Limbs w) :=
  if be then fromNeArr be w N (swapArray l) else fromNeArr be w N l

end Endian
end I256
