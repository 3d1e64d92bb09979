import Verif.Model.Div

/-!
# Proposed repair of long division (not in the crate)

The definitions of this file are not a model of existing code.  They are the functions of
`src/math/div.rs` with the two changes that remove the disagreements B2 and B4 of DESIGN.md.  Only the
functions on the path to the changed lines are repeated; all others are those of `Verif.Model.Div`.
-/

namespace I256

variable {w : Nat}

namespace Repair

open _root_.I256.Div

/-- One round of the main loop, src/math/div.rs L344-418, with one change: the add-back loop (L402)
runs while `i < n` instead of `i <= n`, so that the statement after the loop (L413-414) adds the carry
to limb `j + n`, which the loop no longer touches. -/
def knuthStep (divisor : Limbs w) (n j : Nat) (num : Limbs w) : Res (BitVec w × Limbs w) :=
  (estimate (getLimb num (j + n)) (getLimb num (j + n - 1)) (getLimb num (j + n - 2))
      (getLimb divisor (n - 1)) (getLimb divisor (n - 2))).bind fun qHat =>
    let (win, c) := subLoop (n + 1) (num.drop j) (fullMul divisor qHat) false
    if c then
      (addLoop n win divisor false).bind fun (win', c') =>
        .ok (qHat - 1, num.take j ++ win'.set n (getLimb win' n + boolLimb w c'))
    else .ok (qHat, num.take j ++ win)

/-- The main loop, src/math/div.rs L341-420, with the changed round. -/
def knuthLoop (divisor : Limbs w) (n : Nat) : Nat → Limbs w → Limbs w → Res (Limbs w × Limbs w)
  | 0, num, q => .ok (q, num)
  | j + 1, num, q =>
    (knuthStep divisor n j num).bind fun (d, num') => knuthLoop divisor n j num' (d :: q)

/-- `div_rem_knuth`, src/math/div.rs L302-425, with the changed round. -/
def divRemKnuth (x y : Limbs w) (n m : Nat) : Res (Limbs w × Limbs w) :=
  if n + m ≤ x.length then
    let shift := clz (getLimb y (n - 1))
    (knuthLoop (shlWord y shift) n (m + 1) (fullShl x shift) []).bind fun (q, num) =>
      .ok (q ++ List.replicate (x.length - (m + 1)) 0, (fullShr num shift).take y.length)
  else .panic

/-- `full_gt`, src/math/div.rs L162-173, with the changed round. -/
def fullGt (x y : Limbs w) : Res (Limbs w × Limbs w) :=
  let n := lastIndex y
  if n = 0 then limbPadded y.length x (getLimb y 0)
  else divRemKnuth x y (n + 1) (lastIndex x - n)

/-- `full`, src/math/div.rs L45-64, with the changed round and a test for a zero divisor before the
comparison (L53). -/
def full (x y : Limbs w) : Res (Limbs w × Limbs w) :=
  if y.length = 1 then limbPadded y.length x (getLimb y 0)
  else if isZero y 0 then .panic
  else
    match cmp x y with
    | .lt => .ok (List.replicate x.length 0, x.take y.length)
    | .eq => .ok (scalar1 x.length 1, scalar1 y.length 0)
    | .gt =>
      if isZero x 0 then .ok (scalar1 x.length 0, scalar1 y.length 0) else fullGt x y

/-- `wide`, src/math/div.rs L74-98, with the changed round and a test for a zero divisor at the start
(L75). -/
def wideDiv (x : Limbs w) (divisor : BitVec (w + w)) : Res (Limbs w × BitVec (w + w)) :=
  if divisor = 0 then .panic
  else if 2 ≤ x.length ∧ isZero x 2 = true then
    if getLimb x 0 = 0 ∧ getLimb x 1 = 0 then .ok (scalar1 x.length 0, 0)
    else (nativeDivRem (low2 x) divisor).bind fun (q, r) => .ok (scalar2 x.length q, r)
  else
    let y := scalar2 2 divisor
    match cmp x y with
    | .lt => .ok (List.replicate x.length 0, low2 (x.take 2))
    | .eq => .ok (scalar1 x.length 1, 0)
    | .gt => (fullGt x y).bind fun (q, r) => .ok (q, low2 r)

end Repair

end I256
