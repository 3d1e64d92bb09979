import Verif.Model.RawAdd

/-!
# Literal model of `src/math/mul.rs`

See `Raw.lean` for the vocabulary.
-/

namespace I256

variable {w : Nat}

namespace Raw

/-- `is_negative!`, src/math/mul.rs L17-22. -/
def isNegative (be : Bool) (x : Limbs w) : Res Bool := do
  let last ← usub x.length 1
  let msl ← rd be x last
  .ok (msl.slt 0)

/-- `negate!`, src/math/mul.rs L27-50. -/
def negate (be : Bool) (x : Limbs w) : Res (Limbs w) := do
  let result := List.replicate x.length 0
  let x0 ← rd be x 0
  let (v, c) := uAddO (~~~x0) 1
  let result ← wr be result 0 v
  let last ← usub x.length 1
  let (index, result, c) ←
    loop x.length (fun s => decide (s.1 < last)) (fun (index, result, c) => do
      let xi ← rd be x index
      let (v, c) := uAddO (~~~xi) (boolLimb w c)
      let result ← wr be result index v
      .ok (index + 1, result, c)) (1, result, c)
  if x.length > 1 then
    let xn ← rd be x index
    wr be result index (~~~xn + boolLimb w c)
  else .ok result

namespace Mul

/-- The inner loop of `wrapping_full`, src/math/mul.rs L98-107: state `(j, r, carry)`. -/
def inner (be : Bool) (y : Limbs w) (xi : BitVec w) (i M : Nat) :
    Nat × Limbs w × BitVec w → Res (Nat × Limbs w × BitVec w) :=
  loop y.length (fun s => decide (s.1 < y.length) && decide (i + s.1 < M)) fun (j, r, carry) => do
    let ij := i + j
    let yj ← rd be y j
    let rij ← rd be r ij
    let (vij, carry) ← mac rij xi yj carry
    let r ← wr be r ij vij
    .ok (j + 1, r, carry)

/-- `wrapping_full`, src/math/mul.rs L80-120; the outer loop has the state `(i, r)`. -/
def wrappingFull (be : Bool) (x y : Limbs w) : Res (Limbs w) := do
  let M := x.length
  let N := y.length
  assert (decide (M ≥ N))
  let (_, r) ← loop M (fun s => decide (s.1 < M)) (fun (i, r) => do
    let xi ← rd be x i
    let (_, r, carry) ← inner be y xi i M (0, r, 0)
    let r ← if N < M ∧ i + N < M then wr be r (i + N) carry else .ok r
    .ok (i + 1, r)) (0, List.replicate M 0)
  .ok r

/-- Unsigned `wrapping_limb`, src/math/mul.rs L125-127. -/
def wrappingLimb (be : Bool) (x : Limbs w) (y : BitVec w) : Res (Limbs w) := wrappingFull be x [y]

/-- Unsigned `wrapping_wide`, src/math/mul.rs L132-137. -/
def wrappingWide (be : Bool) (x : Limbs w) (y : BitVec (w + w)) : Res (Limbs w) := do
  let rhs ← rhsUW be 2 y
  wrappingFull be x rhs

/-- Signed `wrapping_ilimb`, src/math/mul.rs L389-396. -/
def wrappingILimb (be : Bool) (x : Limbs w) (y : BitVec w) : Res (Limbs w) := do
  let rhs ← rhsI be x.length y
  wrappingFull be x rhs

/-- Signed `wrapping_iwide`, src/math/mul.rs L401-410. -/
def wrappingIWide (be : Bool) (x : Limbs w) (y : BitVec (w + w)) : Res (Limbs w) := do
  let rhs ← rhsIW be x.length y
  wrappingFull be x rhs

/-- The inner loop of `overflowing_full`, src/math/mul.rs L177-193: state
`(j, r, carry, overflowed, broken)`; `broken` stands for the `break`. -/
def innerO (be : Bool) (y : Limbs w) (xi : BitVec w) (i M : Nat) :
    Nat × Limbs w × BitVec w × Bool × Bool → Res (Nat × Limbs w × BitVec w × Bool × Bool) :=
  loop y.length (fun s => decide (s.1 < y.length) && !s.2.2.2.2)
    fun (j, r, carry, overflowed, broken) => do
      let ij := i + j
      let yj ← rd be y j
      if ij < M then
        let rij ← rd be r ij
        let (vij, carry) ← mac rij xi yj carry
        let r ← wr be r ij vij
        .ok (j + 1, r, carry, overflowed, broken)
      else if xi ≠ 0 ∧ yj ≠ 0 then .ok (j, r, carry, true, true)
      else .ok (j + 1, r, carry, overflowed, broken)

/-- Unsigned `overflowing_full`, src/math/mul.rs L154-207; the outer loop has the state
`(i, r, overflowed)`. -/
def overflowingFull (be : Bool) (x y : Limbs w) : Res (Limbs w × Bool) := do
  let M := x.length
  let N := y.length
  assert (decide (M ≥ N))
  let (_, r, overflowed) ← loop M (fun s => decide (s.1 < M)) (fun (i, r, overflowed) => do
    let xi ← rd be x i
    let (_, r, carry, overflowed, _) ← innerO be y xi i M (0, r, 0, overflowed, false)
    if N < M ∧ i + N < M then
      let r ← wr be r (i + N) carry
      .ok (i + 1, r, overflowed)
    else if carry ≠ 0 then .ok (i + 1, r, true)
    else .ok (i + 1, r, overflowed)) (0, List.replicate M 0, false)
  .ok (r, overflowed)

/-- Unsigned `overflowing_limb`, src/math/mul.rs L212-214. -/
def overflowingLimb (be : Bool) (x : Limbs w) (y : BitVec w) : Res (Limbs w × Bool) :=
  overflowingFull be x [y]

/-- Unsigned `overflowing_wide`, src/math/mul.rs L219-224. -/
def overflowingWide (be : Bool) (x : Limbs w) (y : BitVec (w + w)) : Res (Limbs w × Bool) := do
  let rhs ← rhsUW be 2 y
  overflowingFull be x rhs

/-- Signed `overflowing_full`, src/math/mul.rs L433-471. -/
def overflowingFullS (be : Bool) (x y : Limbs w) : Res (Limbs w × Bool) := do
  let xNeg ← isNegative be x
  let yNeg ← isNegative be y
  let shouldBeNegative := xNeg ^^ yNeg
  let x ← if xNeg then negate be x else .ok x
  let y ← if yNeg then negate be y else .ok y
  let (r, overflowed) ← overflowingFull be x y
  let last ← usub x.length 1
  let msl ← rd be r last
  let rNeg := msl.slt 0
  if !shouldBeNegative then .ok (r, overflowed || rNeg)
  else
    let isMin := msl == BitVec.intMin w
    let r ← negate be r
    .ok (r, overflowed || (rNeg ^^ isMin))

/-- Signed `overflowing_ulimb`, src/math/mul.rs L498-502. -/
def overflowingULimbS (be : Bool) (x : Limbs w) (y : BitVec w) : Res (Limbs w × Bool) := do
  let rhs ← wr be (List.replicate x.length 0) 0 y
  overflowingFullS be x rhs
/-- Signed `overflowing_uwide`, src/math/mul.rs L507-512. -/
def overflowingUWideS (be : Bool) (x : Limbs w) (y : BitVec (w + w)) : Res (Limbs w × Bool) := do
  let rhs ← rhsUW be x.length y
  overflowingFullS be x rhs
/-- Signed `overflowing_ilimb`, src/math/mul.rs L539-544. -/
def overflowingILimbS (be : Bool) (x : Limbs w) (y : BitVec w) : Res (Limbs w × Bool) := do
  let rhs ← rhsI be x.length y
  overflowingFullS be x rhs
/-- Signed `overflowing_iwide`, src/math/mul.rs L549-556. -/
def overflowingIWideS (be : Bool) (x : Limbs w) (y : BitVec (w + w)) : Res (Limbs w × Bool) := do
  let rhs ← rhsIW be x.length y
  overflowingFullS be x rhs

/-- The inner loop of `widening`, src/math/mul.rs L636-647: state `(j, lo, hi, carry)`. -/
def innerW (be : Bool) (y : Limbs w) (xi : BitVec w) (i M : Nat) :
    Nat × Limbs w × Limbs w × BitVec w → Res (Nat × Limbs w × Limbs w × BitVec w) :=
  loop M (fun s => decide (s.1 < M)) fun (j, lo, hi, carry) => do
    let ij := i + j
    let yj ← rd be y j
    if ij < M then
      let v ← rd be lo ij
      let (vij, carry) ← mac v xi yj carry
      let lo ← wr be lo ij vij
      .ok (j + 1, lo, hi, carry)
    else
      let k ← usub ij M
      let v ← rd be hi k
      let (vij, carry) ← mac v xi yj carry
      let hi ← wr be hi k vij
      .ok (j + 1, lo, hi, carry)

/-- `widening`, src/math/mul.rs L624-659; the outer loop has the state `(i, lo, hi)`. -/
def widening (be : Bool) (x y : Limbs w) : Res (Limbs w × Limbs w) := do
  let M := x.length
  let (_, lo, hi) ← loop M (fun s => decide (s.1 < M)) (fun (i, lo, hi) => do
    let xi ← rd be x i
    let (j, lo, hi, carry) ← innerW be y xi i M (0, lo, hi, 0)
    let ij := i + j
    if ij < M then
      let lo ← wr be lo ij carry
      .ok (i + 1, lo, hi)
    else
      let k ← usub ij M
      let hi ← wr be hi k carry
      .ok (i + 1, lo, hi)) (0, List.replicate M 0, List.replicate M 0)
  .ok (lo, hi)

end Mul

end Raw

end I256
