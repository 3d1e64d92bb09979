import Verif.Model.Raw

/-!
# Literal model of `src/math/add.rs` and `src/math/sub.rs`

See `Raw.lean` for the vocabulary.  The loops that several functions share word for word are defined
once, with their upper bound as a parameter.
-/

namespace I256

variable {w : Nat}

namespace Raw

/-- `rhs = [0; n]; rhs[0] = y as $u; rhs[1] = (y >> BITS) as $u`, src/math/add.rs L274-276, L671-673. -/
def rhsUW (be : Bool) (n : Nat) (y : BitVec (w + w)) : Res (Limbs w) := do
  let rhs ← wr be (List.replicate n 0) 0 (y.setWidth w)
  let hi ← shr y w
  wr be rhs 1 (hi.setWidth w)

/-- `rhs = [sign_bit; n]; rhs[0] = y as $u`, src/math/add.rs L617-619. -/
def rhsI (be : Bool) (n : Nat) (y : BitVec w) : Res (Limbs w) :=
  wr be (List.replicate n (0 - boolLimb w y.msb)) 0 y

/-- `rhs = [sign_bit; n]; rhs[0] = y as $u; rhs[1] = (y >> BITS) as $u`, src/math/add.rs L691-695. -/
def rhsIW (be : Bool) (n : Nat) (y : BitVec (w + w)) : Res (Limbs w) := do
  let rhs ← wr be (List.replicate n (0 - boolLimb w y.msb)) 0 (y.setWidth w)
  let hi ← shr y w
  wr be rhs 1 (hi.setWidth w)

namespace Add

/-- The loop `while index < hi { (vi, c) = carrying(x[index], y[index], c); result[index] = vi; index += 1 }`
of the functions below, e.g. src/math/add.rs L55-59. -/
def zipLoop (be : Bool) (x y : Limbs w) (hi : Nat) :
    Nat × Limbs w × Bool → Res (Nat × Limbs w × Bool) :=
  loop x.length (fun s => decide (s.1 < hi)) fun (index, result, c) => do
    let xi ← rd be x index
    let yi ← rd be y index
    let (vi, c) := carryingAdd xi yi c
    let result ← wr be result index vi
    .ok (index + 1, result, c)

/-- The loop `while index < hi { (v, c) = x[index].overflowing_add(c as $u); result[index] = v; index += 1 }`
of the functions below, e.g. src/math/add.rs L151-155. -/
def carryLoop (be : Bool) (x : Limbs w) (hi : Nat) :
    Nat × Limbs w × Bool → Res (Nat × Limbs w × Bool) :=
  loop x.length (fun s => decide (s.1 < hi)) fun (index, result, c) => do
    let xi ← rd be x index
    let (v, c) := uAddO xi (boolLimb w c)
    let result ← wr be result index v
    .ok (index + 1, result, c)

/-- `wrapping_full`, src/math/add.rs L50-65 (unsigned). -/
def wrappingFull (be : Bool) (x y : Limbs w) : Res (Limbs w) := do
  let last ← usub x.length 1
  let (index, result, c) ← zipLoop be x y last (0, List.replicate x.length 0, false)
  let xn ← rd be x index
  let yn ← rd be y index
  wr be result index (xn + yn + boolLimb w c)

/-- Signed `wrapping_full`, src/math/add.rs L386-405: the same with an assertion. -/
def sWrappingFull (be : Bool) (x y : Limbs w) : Res (Limbs w) := do
  assert (decide (x.length ≥ 2))
  wrappingFull be x y

/-- Unsigned `overflowing_full`, src/math/add.rs L97-112. -/
def overflowingFull (be : Bool) (x y : Limbs w) : Res (Limbs w × Bool) := do
  let (_, result, c) ← zipLoop be x y x.length (0, List.replicate x.length 0, false)
  .ok (result, c)

/-- Unsigned `wrapping_limb`, src/math/add.rs L142-161, and the signed `wrapping_ulimb`, L511-531. -/
def wrappingLimb (be : Bool) (x : Limbs w) (y : BitVec w) : Res (Limbs w) := do
  assert (decide (x.length ≥ 2))
  let x0 ← rd be x 0
  let (v, c) := uAddO x0 y
  let result ← wr be (List.replicate x.length 0) 0 v
  let last ← usub x.length 1
  let (index, result, c) ← carryLoop be x last (1, result, c)
  let xn ← rd be x index
  wr be result index (xn + boolLimb w c)

/-- Unsigned `overflowing_limb`, src/math/add.rs L192-207. -/
def overflowingLimb (be : Bool) (x : Limbs w) (y : BitVec w) : Res (Limbs w × Bool) := do
  assert (decide (x.length ≥ 2))
  let x0 ← rd be x 0
  let (v, c) := uAddO x0 y
  let result ← wr be (List.replicate x.length 0) 0 v
  let (_, result, c) ← carryLoop be x x.length (1, result, c)
  .ok (result, c)

/-- `wrapping_mn`, src/math/add.rs L213-238. -/
def wrappingMn (be : Bool) (x y : Limbs w) : Res (Limbs w) := do
  assert (decide (y.length ≥ 2) && decide (x.length > y.length))
  let (index, result, c) ← zipLoop be x y y.length (0, List.replicate x.length 0, false)
  let last ← usub x.length 1
  let (index, result, c) ← carryLoop be x last (index, result, c)
  let xn ← rd be x index
  wr be result index (xn + boolLimb w c)

/-- `overflowing_mn`, src/math/add.rs L244-268. -/
def overflowingMn (be : Bool) (x y : Limbs w) : Res (Limbs w × Bool) := do
  assert (decide (y.length ≥ 2) && decide (x.length > y.length))
  let (index, result, c) ← zipLoop be x y y.length (0, List.replicate x.length 0, false)
  let (_, result, c) ← carryLoop be x x.length (index, result, c)
  .ok (result, c)

/-- Unsigned `wrapping_wide`, src/math/add.rs L273-278. -/
def wrappingWide (be : Bool) (x : Limbs w) (y : BitVec (w + w)) : Res (Limbs w) := do
  let rhs ← rhsUW be 2 y
  wrappingMn be x rhs

/-- Unsigned `overflowing_wide`, src/math/add.rs L283-288. -/
def overflowingWide (be : Bool) (x : Limbs w) (y : BitVec (w + w)) : Res (Limbs w × Bool) := do
  let rhs ← rhsUW be 2 y
  overflowingMn be x rhs

/-- Signed `overflowing_full`, src/math/add.rs L444-481. -/
def sOverflowingFull (be : Bool) (x y : Limbs w) : Res (Limbs w × Bool) := do
  assert (decide (x.length ≥ 2))
  let last ← usub x.length 1
  let (index, result, c) ← zipLoop be x y last (0, List.replicate x.length 0, false)
  let xn ← rd be x index
  let yn ← rd be y index
  let (vn, c0) := sAddO xn yn
  let (vn, c1) := sAddO vn (boolLimb w c)
  let result ← wr be result index vn
  .ok (result, c0 ^^ c1)

/-- Signed `overflowing_ulimb`, src/math/add.rs L562-582. -/
def sOverflowingULimb (be : Bool) (x : Limbs w) (y : BitVec w) : Res (Limbs w × Bool) := do
  assert (decide (x.length ≥ 2))
  let x0 ← rd be x 0
  let (v, c) := uAddO x0 y
  let result ← wr be (List.replicate x.length 0) 0 v
  let last ← usub x.length 1
  let (index, result, c) ← carryLoop be x last (1, result, c)
  let xn ← rd be x index
  let (v, c) := sAddO xn (boolLimb w c)
  let result ← wr be result index v
  .ok (result, c)

/-- Signed `wrapping_ilimb`, src/math/add.rs L615-621. -/
def sWrappingILimb (be : Bool) (x : Limbs w) (y : BitVec w) : Res (Limbs w) := do
  let rhs ← rhsI be x.length y
  sWrappingFull be x rhs
/-- Signed `overflowing_ilimb`, src/math/add.rs L659-665. -/
def sOverflowingILimb (be : Bool) (x : Limbs w) (y : BitVec w) : Res (Limbs w × Bool) := do
  let rhs ← rhsI be x.length y
  sOverflowingFull be x rhs
/-- Signed `wrapping_uwide`, src/math/add.rs L670-675. -/
def sWrappingUWide (be : Bool) (x : Limbs w) (y : BitVec (w + w)) : Res (Limbs w) := do
  let rhs ← rhsUW be x.length y
  sWrappingFull be x rhs
/-- Signed `overflowing_uwide`, src/math/add.rs L680-685. -/
def sOverflowingUWide (be : Bool) (x : Limbs w) (y : BitVec (w + w)) : Res (Limbs w × Bool) := do
  let rhs ← rhsUW be x.length y
  sOverflowingFull be x rhs
/-- Signed `wrapping_iwide`, src/math/add.rs L690-697. -/
def sWrappingIWide (be : Bool) (x : Limbs w) (y : BitVec (w + w)) : Res (Limbs w) := do
  let rhs ← rhsIW be x.length y
  sWrappingFull be x rhs
/-- Signed `overflowing_iwide`, src/math/add.rs L702-709. -/
def sOverflowingIWide (be : Bool) (x : Limbs w) (y : BitVec (w + w)) : Res (Limbs w × Bool) := do
  let rhs ← rhsIW be x.length y
  sOverflowingFull be x rhs

end Add

namespace Sub

/-- The loop `while index < hi { (vi, c) = borrowing(x[index], y[index], c); result[index] = vi; index += 1 }`
of the functions below, e.g. src/math/sub.rs L57-61. -/
def zipLoop (be : Bool) (x y : Limbs w) (hi : Nat) :
    Nat × Limbs w × Bool → Res (Nat × Limbs w × Bool) :=
  loop x.length (fun s => decide (s.1 < hi)) fun (index, result, c) => do
    let xi ← rd be x index
    let yi ← rd be y index
    let (vi, c) := borrowingSub xi yi c
    let result ← wr be result index vi
    .ok (index + 1, result, c)

/-- The loop `while index < hi { (v, c) = x[index].overflowing_sub(c as $u); result[index] = v; index += 1 }`
of the functions below, e.g. src/math/sub.rs L155-159. -/
def carryLoop (be : Bool) (x : Limbs w) (hi : Nat) :
    Nat × Limbs w × Bool → Res (Nat × Limbs w × Bool) :=
  loop x.length (fun s => decide (s.1 < hi)) fun (index, result, c) => do
    let xi ← rd be x index
    let (v, c) := uSubO xi (boolLimb w c)
    let result ← wr be result index v
    .ok (index + 1, result, c)

/-- `wrapping_full`, src/math/sub.rs L50-67 (unsigned), and the signed copy L387-406. -/
def wrappingFull (be : Bool) (x y : Limbs w) : Res (Limbs w) := do
  assert (decide (x.length ≥ 2))
  let last ← usub x.length 1
  let (index, result, c) ← zipLoop be x y last (0, List.replicate x.length 0, false)
  let xn ← rd be x index
  let yn ← rd be y index
  wr be result index (xn - yn - boolLimb w c)

/-- Unsigned `overflowing_full`, src/math/sub.rs L99-116. -/
def overflowingFull (be : Bool) (x y : Limbs w) : Res (Limbs w × Bool) := do
  assert (decide (x.length ≥ 2))
  let (_, result, c) ← zipLoop be x y x.length (0, List.replicate x.length 0, false)
  .ok (result, c)

/-- Unsigned `wrapping_limb`, src/math/sub.rs L147-165, and the signed `wrapping_ulimb`, L510-530. -/
def wrappingLimb (be : Bool) (x : Limbs w) (y : BitVec w) : Res (Limbs w) := do
  assert (decide (x.length ≥ 2))
  let x0 ← rd be x 0
  let (v, c) := uSubO x0 y
  let result ← wr be (List.replicate x.length 0) 0 v
  let last ← usub x.length 1
  let (index, result, c) ← carryLoop be x last (1, result, c)
  let xn ← rd be x index
  wr be result index (xn - boolLimb w c)

/-- Unsigned `overflowing_limb`, src/math/sub.rs L197-212. -/
def overflowingLimb (be : Bool) (x : Limbs w) (y : BitVec w) : Res (Limbs w × Bool) := do
  assert (decide (x.length ≥ 2))
  let x0 ← rd be x 0
  let (v, c) := uSubO x0 y
  let result ← wr be (List.replicate x.length 0) 0 v
  let (_, result, c) ← carryLoop be x x.length (1, result, c)
  .ok (result, c)

/-- `wrapping_mn`, src/math/sub.rs L218-243. -/
def wrappingMn (be : Bool) (x y : Limbs w) : Res (Limbs w) := do
  assert (decide (y.length ≥ 2) && decide (x.length > y.length))
  let (index, result, c) ← zipLoop be x y y.length (0, List.replicate x.length 0, false)
  let last ← usub x.length 1
  let (index, result, c) ← carryLoop be x last (index, result, c)
  let xn ← rd be x index
  wr be result index (xn - boolLimb w c)

/-- `overflowing_mn`, src/math/sub.rs L249-273. -/
def overflowingMn (be : Bool) (x y : Limbs w) : Res (Limbs w × Bool) := do
  assert (decide (y.length ≥ 2) && decide (x.length > y.length))
  let (index, result, c) ← zipLoop be x y y.length (0, List.replicate x.length 0, false)
  let (_, result, c) ← carryLoop be x x.length (index, result, c)
  .ok (result, c)

/-- Unsigned `wrapping_wide`, src/math/sub.rs L278-283. -/
def wrappingWide (be : Bool) (x : Limbs w) (y : BitVec (w + w)) : Res (Limbs w) := do
  let rhs ← rhsUW be 2 y
  wrappingMn be x rhs

/-- Unsigned `overflowing_wide`, src/math/sub.rs L288-293. -/
def overflowingWide (be : Bool) (x : Limbs w) (y : BitVec (w + w)) : Res (Limbs w × Bool) := do
  let rhs ← rhsUW be 2 y
  overflowingMn be x rhs

/-- Signed `overflowing_full`, src/math/sub.rs L442-479. -/
def sOverflowingFull (be : Bool) (x y : Limbs w) : Res (Limbs w × Bool) := do
  assert (decide (x.length ≥ 2))
  let last ← usub x.length 1
  let (index, result, c) ← zipLoop be x y last (0, List.replicate x.length 0, false)
  let xn ← rd be x index
  let yn ← rd be y index
  let (vn, c0) := sSubO xn yn
  let (vn, c1) := sSubO vn (boolLimb w c)
  let result ← wr be result index vn
  .ok (result, c0 ^^ c1)

/-- Signed `overflowing_ulimb`, src/math/sub.rs L562-582. -/
def sOverflowingULimb (be : Bool) (x : Limbs w) (y : BitVec w) : Res (Limbs w × Bool) := do
  assert (decide (x.length ≥ 2))
  let x0 ← rd be x 0
  let (v, c) := uSubO x0 y
  let result ← wr be (List.replicate x.length 0) 0 v
  let last ← usub x.length 1
  let (index, result, c) ← carryLoop be x last (1, result, c)
  let xn ← rd be x index
  let (v, c) := sSubO xn (boolLimb w c)
  let result ← wr be result index v
  .ok (result, c)

/-- Signed `wrapping_ilimb`, src/math/sub.rs L616-622. -/
def sWrappingILimb (be : Bool) (x : Limbs w) (y : BitVec w) : Res (Limbs w) := do
  let rhs ← rhsI be x.length y
  wrappingFull be x rhs
/-- Signed `overflowing_ilimb`, src/math/sub.rs L660-666. -/
def sOverflowingILimb (be : Bool) (x : Limbs w) (y : BitVec w) : Res (Limbs w × Bool) := do
  let rhs ← rhsI be x.length y
  sOverflowingFull be x rhs
/-- Signed `wrapping_uwide`, src/math/sub.rs L671-676. -/
def sWrappingUWide (be : Bool) (x : Limbs w) (y : BitVec (w + w)) : Res (Limbs w) := do
  let rhs ← rhsUW be x.length y
  wrappingFull be x rhs
/-- Signed `overflowing_uwide`, src/math/sub.rs L681-686. -/
def sOverflowingUWide (be : Bool) (x : Limbs w) (y : BitVec (w + w)) : Res (Limbs w × Bool) := do
  let rhs ← rhsUW be x.length y
  sOverflowingFull be x rhs
/-- Signed `wrapping_iwide`, src/math/sub.rs L691-698. -/
def sWrappingIWide (be : Bool) (x : Limbs w) (y : BitVec (w + w)) : Res (Limbs w) := do
  let rhs ← rhsIW be x.length y
  wrappingFull be x rhs
/-- Signed `overflowing_iwide`, src/math/sub.rs L703-710. -/
def sOverflowingIWide (be : Bool) (x : Limbs w) (y : BitVec (w + w)) : Res (Limbs w × Bool) := do
  let rhs ← rhsIW be x.length y
  sOverflowingFull be x rhs

end Sub

end Raw

end I256
