import Verif.SpecWork
import Verif.Model.MulApi
import Verif.Model.DivApi

/-!
# The work of multiplication, exponentiation and division

The functions of `Verif.Model.Mul`, `Verif.Model.MulApi` and `Verif.Model.Div` once more, with counters.  A call of
`mac` is one product of limbs, `div_rem_word` and `/` on the double-width type are one division.
-/

namespace I256.Count

variable {w : Nat}

/-- One row of `wrapping_full`, src/math/mul.rs L95-115. -/
def row (xi : BitVec w) : Limbs w → Limbs w → BitVec w → Limbs w × Nat
  | y :: ys, r :: rs, carry =>
    let (v, carry) := mac r xi y carry
    let (rs, n) := row xi ys rs carry
    (v :: rs, n + 1)
  | [], _ :: rs, carry => (carry :: rs, 0)
  | _, [], _ => ([], 0)

/-- The outer loop of `wrapping_full`, src/math/mul.rs L94-117. -/
def rows : Limbs w → Limbs w → Limbs w → Limbs w × Nat
  | [], _, rs => (rs, 0)
  | xi :: xs, ys, rs =>
    match row xi ys rs 0 with
    | (r :: rs, n) =>
      let (rs, k) := rows xs ys rs
      (r :: rs, n + k)
    | ([], n) => ([], n)

/-- `wrapping_full`, src/math/mul.rs L80-120. -/
def wrappingFull (x y : Limbs w) : Limbs w × Nat := rows x y (List.replicate x.length 0)

/-- One row of `overflowing_full`, src/math/mul.rs L171-202. -/
def rowO (xi : BitVec w) : Limbs w → Limbs w → BitVec w → (Limbs w × Bool) × Nat
  | y :: ys, r :: rs, carry =>
    let (v, carry) := mac r xi y carry
    let ((rs, o), n) := rowO xi ys rs carry
    ((v :: rs, o), n + 1)
  | [], _ :: rs, carry => ((carry :: rs, false), 0)
  | ys, [], carry => (([], Mul.dropped xi ys || decide (carry ≠ 0)), 0)

/-- The outer loop of `overflowing_full`, src/math/mul.rs L170-204. -/
def rowsO : Limbs w → Limbs w → Limbs w → (Limbs w × Bool) × Nat
  | [], _, rs => ((rs, false), 0)
  | xi :: xs, ys, rs =>
    match rowO xi ys rs 0 with
    | ((r :: rs, o), n) =>
      let ((rs, o'), k) := rowsO xs ys rs
      ((r :: rs, o || o'), n + k)
    | (([], o), n) => (([], o), n)

/-- Unsigned `overflowing_full`, src/math/mul.rs L154-207. -/
def overflowingFull (x y : Limbs w) : (Limbs w × Bool) × Nat := rowsO x y (List.replicate x.length 0)

/-- Signed `overflowing_full`, src/math/mul.rs L433-471. -/
def overflowingFullS (x y : Limbs w) : (Limbs w × Bool) × Nat :=
  let xNeg := (msLimb x).slt 0
  let yNeg := (msLimb y).slt 0
  let shouldBeNegative := xNeg ^^ yNeg
  let x := if xNeg then negate x else x
  let y := if yNeg then negate y else y
  let ((r, overflowed), n) := overflowingFull x y
  let msl := msLimb r
  let rNeg := msl.slt 0
  if !shouldBeNegative then ((r, overflowed || rNeg), n)
  else
    let isMin := msl == BitVec.intMin w
    ((negate r, overflowed || (rNeg ^^ isMin)), n)

/-- Unsigned `wrapping_limb`, src/math/mul.rs L125-127, and signed `wrapping_ulimb`, L347-349. -/
def wrappingLimb (x : Limbs w) (y : BitVec w) : Limbs w × Nat := wrappingFull x [y]
/-- Unsigned `wrapping_wide`, src/math/mul.rs L132-137, and signed `wrapping_uwide`, L354-359. -/
def wrappingWide (x : Limbs w) (y : BitVec (w + w)) : Limbs w × Nat := wrappingFull x (twoLimbs y)
/-- Signed `wrapping_ilimb`, src/math/mul.rs L389-396. -/
def wrappingILimb (x : Limbs w) (y : BitVec w) : Limbs w × Nat := wrappingFull x (extI x.length y)
/-- Signed `wrapping_iwide`, src/math/mul.rs L401-410. -/
def wrappingIWide (x : Limbs w) (y : BitVec (w + w)) : Limbs w × Nat := wrappingFull x (extIW x.length y)

/-- Unsigned `overflowing_limb`, src/math/mul.rs L212-214. -/
def overflowingLimb (x : Limbs w) (y : BitVec w) : (Limbs w × Bool) × Nat := overflowingFull x [y]
/-- Unsigned `overflowing_wide`, src/math/mul.rs L219-224. -/
def overflowingWide (x : Limbs w) (y : BitVec (w + w)) : (Limbs w × Bool) × Nat := overflowingFull x (twoLimbs y)
/-- Signed `overflowing_ulimb`, src/math/mul.rs L498-502. -/
def overflowingULimbS (x : Limbs w) (y : BitVec w) : (Limbs w × Bool) × Nat := overflowingFullS x (extU x.length y)
/-- Signed `overflowing_uwide`, src/math/mul.rs L507-512. -/
def overflowingUWideS (x : Limbs w) (y : BitVec (w + w)) : (Limbs w × Bool) × Nat :=
  overflowingFullS x (extUW x.length y)
/-- Signed `overflowing_ilimb`, src/math/mul.rs L539-544. -/
def overflowingILimbS (x : Limbs w) (y : BitVec w) : (Limbs w × Bool) × Nat := overflowingFullS x (extI x.length y)
/-- Signed `overflowing_iwide`, src/math/mul.rs L549-556. -/
def overflowingIWideS (x : Limbs w) (y : BitVec (w + w)) : (Limbs w × Bool) × Nat :=
  overflowingFullS x (extIW x.length y)

/-- `widening`, src/math/mul.rs L624-659. -/
def widening (x y : Limbs w) : (Limbs w × Limbs w) × Nat :=
  let (r, n) := rows x y (List.replicate (x.length + x.length) 0)
  ((r.take x.length, r.drop x.length), n)

/-- The loop of `wrapping_pow`, src/shared/wrapping.rs L24-35; see `wrappingPowLoop`. -/
def wrappingPowLoop (mul : Limbs w → Limbs w → Limbs w × Nat) : Nat → Nat → Limbs w → Limbs w → Limbs w × Nat
  | 0, _, _, acc => (acc, 0)
  | fuel + 1, exp, base, acc =>
    if exp &&& 1 == 1 then
      let (acc, n) := mul acc base
      if exp == 1 then (acc, n)
      else
        let (base, k) := mul base base
        let (r, l) := wrappingPowLoop mul fuel (exp / 2) base acc
        (r, n + k + l)
    else
      let (base, k) := mul base base
      let (r, l) := wrappingPowLoop mul fuel (exp / 2) base acc
      (r, k + l)

/-- `wrapping_pow`, src/shared/wrapping.rs L16-36. -/
def wrappingPow (mul : Limbs w → Limbs w → Limbs w × Nat) (x : Limbs w) (exp : Nat) : Limbs w × Nat :=
  if exp == 0 then (ofU8 x.length 1, 0)
  else wrappingPowLoop mul 32 exp x (ofU8 x.length 1)

/-- The loop of `overflowing_pow`, src/shared/overflowing.rs L29-45; see `overflowingPowLoop`. -/
def overflowingPowLoop (mul : Limbs w → Limbs w → (Limbs w × Bool) × Nat) :
    Nat → Nat → Limbs w → Limbs w → Bool → (Limbs w × Bool) × Nat
  | 0, _, _, acc, overflowed => ((acc, overflowed), 0)
  | fuel + 1, exp, base, acc, overflowed =>
    if exp &&& 1 == 1 then
      let (r, n) := mul acc base
      if exp == 1 then ((r.1, r.2 || overflowed), n)
      else
        let acc := r.1
        let overflowed := overflowed || r.2
        let (r, k) := mul base base
        let (p, l) := overflowingPowLoop mul fuel (exp / 2) r.1 acc (overflowed || r.2)
        (p, n + k + l)
    else
      let (r, k) := mul base base
      let (p, l) := overflowingPowLoop mul fuel (exp / 2) r.1 acc (overflowed || r.2)
      (p, k + l)

/-- `overflowing_pow`, src/shared/overflowing.rs L19-46. -/
def overflowingPow (mul : Limbs w → Limbs w → (Limbs w × Bool) × Nat) (x : Limbs w) (exp : Nat) :
    (Limbs w × Bool) × Nat :=
  if exp == 0 then ((ofU8 x.length 1, false), 0)
  else overflowingPowLoop mul 32 exp x (ofU8 x.length 1) false

/-- The loop of `full_mul_u64`, src/math/div.rs L513-521. -/
def fullMulLoop (b : BitVec w) : Limbs w → BitVec w → Limbs w × Nat
  | [], carry => ([carry], 0)
  | v :: vs, carry =>
    let r := wide v * wide b + wide carry
    let (rs, n) := fullMulLoop b vs (hiLimb r)
    (loLimb r :: rs, n + 1)

/-- `full_mul_u64`, src/math/div.rs L510-522. -/
def fullMul (a : Limbs w) (b : BitVec w) : Limbs w × Nat := fullMulLoop b a 0

/-- The estimate of a quotient digit, src/math/div.rs L347-379. -/
def estimate (a0 a1 a2 b0 b1 : BitVec w) : Res (BitVec w × Work) :=
  if a0.ult b0 then
    (Div.divRemWord a0 a1 b0).bind fun (q, r) =>
      let p := wide q * wide b1
      if Div.gtPair (hiLimb p) (loLimb p) r a2 then
        let q1 := q - 1
        let (r1, overflow) := uAddO r b0
        if !overflow then
          let p1 := wide q1 * wide b1
          if Div.gtPair (hiLimb p1) (loLimb p1) r1 a2 then .ok (q1 - 1, ⟨2, 1⟩) else .ok (q1, ⟨2, 1⟩)
        else .ok (q1, ⟨1, 1⟩)
      else .ok (q, ⟨1, 1⟩)
  else .ok (BitVec.allOnes w, ⟨0, 0⟩)

/-- One round of the main loop, src/math/div.rs L344-418. -/
def knuthStep (divisor : Limbs w) (n j : Nat) (num : Limbs w) : Res ((BitVec w × Limbs w) × Work) :=
  (estimate (getLimb num (j + n)) (getLimb num (j + n - 1)) (getLimb num (j + n - 2))
      (getLimb divisor (n - 1)) (getLimb divisor (n - 2))).bind fun (qHat, k) =>
    let (v, l) := fullMul divisor qHat
    let (win, c) := Div.subLoop (n + 1) (num.drop j) v false
    if c then
      (Div.addLoop (n + 1) win divisor false).bind fun (win', c') =>
        .ok ((qHat - 1, num.take j ++ win'.set n (getLimb win' n + boolLimb w c')), k.add ⟨l, 0⟩)
    else .ok ((qHat, num.take j ++ win), k.add ⟨l, 0⟩)

/-- The main loop, src/math/div.rs L341-420. -/
def knuthLoop (divisor : Limbs w) (n : Nat) : Nat → Limbs w → Limbs w → Res ((Limbs w × Limbs w) × Work)
  | 0, num, q => .ok ((q, num), ⟨0, 0⟩)
  | j + 1, num, q =>
    (knuthStep divisor n j num).bind fun ((d, num'), k) =>
      (knuthLoop divisor n j num' (d :: q)).bind fun (r, l) => .ok (r, k.add l)

/-- `div_rem_knuth`, src/math/div.rs L302-425. -/
def divRemKnuth (x y : Limbs w) (n m : Nat) : Res ((Limbs w × Limbs w) × Work) :=
  if n + m ≤ x.length then
    let shift := clz (getLimb y (n - 1))
    (knuthLoop (Div.shlWord y shift) n (m + 1) (Div.fullShl x shift) []).bind fun ((q, num), k) =>
      .ok ((q ++ List.replicate (x.length - (m + 1)) 0, (Div.fullShr num shift).take y.length), k)
  else .panic

/-- The loop of `limb`, src/math/div.rs L145-155. -/
def limbLoop (divisor : BitVec w) : Limbs w → Res ((Limbs w × BitVec w) × Work)
  | [] => .ok (([], 0), ⟨0, 0⟩)
  | d :: ds =>
    (limbLoop divisor ds).bind fun ((qs, r), k) =>
      (Div.divRemWord r d divisor).bind fun (q, r') => .ok ((q :: qs, r'), k.add ⟨0, 1⟩)

/-- `limb`, src/math/div.rs L134-157. -/
def limb (x : Limbs w) (divisor : BitVec w) : Res ((Limbs w × BitVec w) × Work) :=
  if 2 ≤ x.length ∧ Div.isZero x 2 = true then
    (Div.nativeDivRem (Div.low2 x) (wide divisor)).bind fun (q, r) =>
      .ok ((Div.scalar2 x.length q, loLimb r), ⟨0, 1⟩)
  else limbLoop divisor x

/-- `limb_padded`, src/math/div.rs L285-291. -/
def limbPadded (N : Nat) (x : Limbs w) (divisor : BitVec w) : Res ((Limbs w × Limbs w) × Work) :=
  (limb x divisor).bind fun ((q, r), k) => .ok ((q, Div.scalar1 N r), k)

/-- `full_gt`, src/math/div.rs L162-173. -/
def fullGt (x y : Limbs w) : Res ((Limbs w × Limbs w) × Work) :=
  let n := Div.lastIndex y
  if n = 0 then limbPadded y.length x (getLimb y 0)
  else divRemKnuth x y (n + 1) (Div.lastIndex x - n)

/-- `full`, src/math/div.rs L45-64. -/
def full (x y : Limbs w) : Res ((Limbs w × Limbs w) × Work) :=
  if y.length = 1 then limbPadded y.length x (getLimb y 0)
  else
    match Div.cmp x y with
    | .lt => .ok ((List.replicate x.length 0, x.take y.length), ⟨0, 0⟩)
    | .eq => .ok ((Div.scalar1 x.length 1, Div.scalar1 y.length 0), ⟨0, 0⟩)
    | .gt =>
      if Div.isZero x 0 then .ok ((Div.scalar1 x.length 0, Div.scalar1 y.length 0), ⟨0, 0⟩) else fullGt x y

/-- Signed `wrapping_div_rem`, src/int/wrapping.rs L74-99. -/
def wrappingDivRemS (x y : Limbs w) : Res ((Limbs w × Limbs w) × Work) :=
  (full (I.unsignedAbs x) (I.unsignedAbs y)).map fun ((div, rem), k) =>
    ((if I.isNegative x != I.isNegative y then I.wrappingNeg div else div,
      if I.isNegative x then I.wrappingNeg rem else rem), k)

end I256.Count
