import Verif.Model.Bitops

/-!
# Model of `src/math/div.rs`

`ArrayPlusOne<N>` (L585-605) is a list of `N + 1` limbs; `get` and `set` are list indexing.  All index
accesses are in range except `divisor[i]` in the add-back loop (L404), which is modelled as a panic
when the list ends.
-/

namespace I256

variable {w : Nat}

namespace Div

/-- `div_rem_word`, src/math/div.rs L437-506. The documented precondition is `hi < divisor`. Outside
it debug builds stop at the assertion L438 and the `div` instruction faults; a zero divisor panics in
every build. Callers break the precondition only with a zero divisor. -/
def divRemWord (hi lo divisor : BitVec w) : Res (BitVec w × BitVec w) :=
  if hi.ult divisor then
    let x := (wide hi <<< w) + wide lo
    let y := wide divisor
    .ok (loLimb (x / y), loLimb (x % y))
  else .panic

/-- The loop of `full_mul_u64`, src/math/div.rs L513-521; the last element is the carry. -/
def fullMulLoop (b : BitVec w) : Limbs w → BitVec w → Limbs w
  | [], carry => [carry]
  | v :: vs, carry =>
    let r := wide v * wide b + wide carry
    loLimb r :: fullMulLoop b vs (hiLimb r)

/-- `full_mul_u64`, src/math/div.rs L510-522. -/
def fullMul (a : Limbs w) (b : BitVec w) : Limbs w := fullMulLoop b a 0

/-- The loop of `full_shl`, src/math/div.rs L537-545; `prev` is `v[i - 1]`. For `i = 0` the source
writes `v[0] << shift`, which is the same with `prev = 0`. The last element is the carry. -/
def shlLoop (shift : Nat) : BitVec w → Limbs w → Limbs w
  | prev, [] => [prev >>> (w - shift)]
  | prev, v :: vs => ((prev >>> (w - shift)) ||| (v <<< shift)) :: shlLoop shift v vs

/-- `full_shl`, src/math/div.rs L532-546. -/
def fullShl (v : Limbs w) (shift : Nat) : Limbs w :=
  if shift = 0 then v ++ [0] else shlLoop shift 0 v

/-- `shl_word`, src/math/div.rs L526-528. -/
def shlWord (v : Limbs w) (shift : Nat) : Limbs w := (fullShl v shift).take v.length

/-- The loop of `full_shr`, src/math/div.rs L555-562, on the first `N` limbs. -/
def shrLoop (shift : Nat) : Limbs w → Limbs w
  | [] => []
  | [a] => [a >>> shift]
  | a :: b :: rest => ((a >>> shift) ||| (b <<< (w - shift))) :: shrLoop shift (b :: rest)

/-- `full_shr`, src/math/div.rs L550-563; `a` has one limb more than the result. -/
def fullShr (a : Limbs w) (shift : Nat) : Limbs w :=
  if shift = 0 then a.take (a.length - 1) else shrLoop shift (a.take (a.length - 1))

/-- `(hi, lo) > (r_hat, a2)`, the lexicographic order of pairs, src/math/div.rs L362, L370. -/
def gtPair (hi lo r a : BitVec w) : Bool := r.ult hi || (r == hi && a.ult lo)

/-- The estimate of a quotient digit, src/math/div.rs L347-379. The subtractions `q_hat -= 1` do not
underflow: they are reached only if `q_hat * b1` is positive. -/
def estimate (a0 a1 a2 b0 b1 : BitVec w) : Res (BitVec w) :=
  if a0.ult b0 then
    (divRemWord a0 a1 b0).bind fun (q, r) =>
      let p := wide q * wide b1
      if gtPair (hiLimb p) (loLimb p) r a2 then
        let q1 := q - 1
        let (r1, overflow) := uAddO r b0
        if !overflow then
          let p1 := wide q1 * wide b1
          if gtPair (hiLimb p1) (loLimb p1) r1 a2 then .ok (q1 - 1) else .ok q1
        else .ok q1
      else .ok q
  else .ok (BitVec.allOnes w)

/-- The subtraction loop, src/math/div.rs L386-394: `k` limbs of the running numerator (the list
starts at limb `j`) minus the limbs of `q_hat * divisor`. -/
def subLoop : Nat → Limbs w → Limbs w → Bool → Limbs w × Bool
  | k + 1, x :: xs, y :: ys, c =>
    let (res1, overflow1) := uAddO y (boolLimb w c)
    let (res2, overflow2) := uSubO x res1
    let (rest, c') := subLoop k xs ys (overflow1 || overflow2)
    (res2 :: rest, c')
  | _, xs, _, c => (xs, c)

/-- The add-back loop, src/math/div.rs L402-412. `divisor[i]` beyond the end of the divisor array
panics. -/
def addLoop : Nat → Limbs w → Limbs w → Bool → Res (Limbs w × Bool)
  | 0, xs, _, c => .ok (xs, c)
  | k + 1, x :: xs, y :: ys, c =>
    let (res1, overflow1) := uAddO y (boolLimb w c)
    let (res2, overflow2) := uAddO x res1
    (addLoop k xs ys (overflow1 || overflow2)).bind fun (rest, c') => .ok (res2 :: rest, c')
  | _ + 1, _, _, _ => .panic

/-- One round of the main loop, src/math/div.rs L344-418: the digit `q[j]` and the numerator. -/
def knuthStep (divisor : Limbs w) (n j : Nat) (num : Limbs w) : Res (BitVec w × Limbs w) :=
  (estimate (getLimb num (j + n)) (getLimb num (j + n - 1)) (getLimb num (j + n - 2))
      (getLimb divisor (n - 1)) (getLimb divisor (n - 2))).bind fun qHat =>
    let (win, c) := subLoop (n + 1) (num.drop j) (fullMul divisor qHat) false
    if c then
      (addLoop (n + 1) win divisor false).bind fun (win', c') =>
        .ok (qHat - 1, num.take j ++ win'.set n (getLimb win' n + boolLimb w c'))
    else .ok (qHat, num.take j ++ win)

/-- The main loop, src/math/div.rs L341-420, for `j` rounds; `q` collects the digits, lowest first. -/
def knuthLoop (divisor : Limbs w) (n : Nat) : Nat → Limbs w → Limbs w → Res (Limbs w × Limbs w)
  | 0, num, q => .ok (q, num)
  | j + 1, num, q =>
    (knuthStep divisor n j num).bind fun (d, num') => knuthLoop divisor n j num' (d :: q)

/-- `div_rem_knuth`, src/math/div.rs L302-425. -/
def divRemKnuth (x y : Limbs w) (n m : Nat) : Res (Limbs w × Limbs w) :=
  if n + m ≤ x.length then
    let shift := clz (getLimb y (n - 1))
    (knuthLoop (shlWord y shift) n (m + 1) (fullShl x shift) []).bind fun (q, num) =>
      .ok (q ++ List.replicate (x.length - (m + 1)) 0, (fullShr num shift).take y.length)
  else .panic

/-- `scalar1`, src/math/div.rs L234-239. -/
def scalar1 (N : Nat) (v : BitVec w) : Limbs w := v :: List.replicate (N - 1) 0
/-- `scalar2`, src/math/div.rs L243-249; `N ≥ 2` at every call. -/
def scalar2 (N : Nat) (v : BitVec (w + w)) : Limbs w :=
  loLimb v :: hiLimb v :: List.replicate (N - 2) 0

/-- `is_zero`, src/math/div.rs L210-217. -/
def isZero (x : Limbs w) (i : Nat) : Bool := (x.drop i).all (· == 0)

/-- The loop of `last_index`, src/math/div.rs L223-228. -/
def lastLoop (x : Limbs w) : Nat → Nat
  | 0 => 0
  | i + 1 => if getLimb x i != 0 then i else lastLoop x i

/-- `last_index`, src/math/div.rs L221-230. -/
def lastIndex (x : Limbs w) : Nat := lastLoop x x.length

/-- The second loop of `cmp`, src/math/div.rs L192-199. -/
def cmpLoop (x y : Limbs w) : Nat → Ordering
  | 0 => .eq
  | i + 1 =>
    if (getLimb y i).ult (getLimb x i) then .gt
    else if (getLimb x i).ult (getLimb y i) then .lt
    else cmpLoop x y i

/-- `cmp` with at least as many limbs on the left, src/math/div.rs L184-201. -/
def cmpGe (x y : Limbs w) : Ordering :=
  if isZero x y.length then cmpLoop x y y.length else .gt

/-- `cmp`, src/math/div.rs L178-202. -/
def cmp (x y : Limbs w) : Ordering :=
  if x.length < y.length then (cmpGe y x).swap else cmpGe x y

/-- The loop of `limb`, src/math/div.rs L145-155. The loop runs from the top limb down, so the
recursion divides the upper limbs first; returns the quotient limbs and the remainder. -/
def limbLoop (divisor : BitVec w) : Limbs w → Res (Limbs w × BitVec w)
  | [] => .ok ([], 0)
  | d :: ds =>
    (limbLoop divisor ds).bind fun (qs, r) =>
      (divRemWord r d divisor).bind fun (q, r') => .ok (q :: qs, r')

/-- Native `/` and `%` on the double-width type: panic on a zero divisor. -/
def nativeDivRem {n : Nat} (x y : BitVec n) : Res (BitVec n × BitVec n) :=
  if y = 0 then .panic else .ok (x / y, x % y)

/-- `lo | hi << BITS` of the two lowest limbs, src/math/div.rs L83-85, L139-141. -/
def low2 (x : Limbs w) : BitVec (w + w) := wide (getLimb x 0) ||| (wide (getLimb x 1) <<< w)

/-- `limb`, src/math/div.rs L134-157. -/
def limb (x : Limbs w) (divisor : BitVec w) : Res (Limbs w × BitVec w) :=
  if 2 ≤ x.length ∧ isZero x 2 = true then
    (nativeDivRem (low2 x) (wide divisor)).bind fun (q, r) => .ok (scalar2 x.length q, loLimb r)
  else limbLoop divisor x

/-- `limb_padded`, src/math/div.rs L285-291; `N` is the length of the remainder. -/
def limbPadded (N : Nat) (x : Limbs w) (divisor : BitVec w) : Res (Limbs w × Limbs w) :=
  (limb x divisor).bind fun (q, r) => .ok (q, scalar1 N r)

/-- `full_gt`, src/math/div.rs L162-173. -/
def fullGt (x y : Limbs w) : Res (Limbs w × Limbs w) :=
  let n := lastIndex y
  if n = 0 then limbPadded y.length x (getLimb y 0)
  else divRemKnuth x y (n + 1) (lastIndex x - n)

/-- `full`, src/math/div.rs L45-64. -/
def full (x y : Limbs w) : Res (Limbs w × Limbs w) :=
  if y.length = 1 then limbPadded y.length x (getLimb y 0)
  else
    match cmp x y with
    | .lt => .ok (List.replicate x.length 0, x.take y.length)
    | .eq => .ok (scalar1 x.length 1, scalar1 y.length 0)
    | .gt =>
      if isZero x 0 then .ok (scalar1 x.length 0, scalar1 y.length 0) else fullGt x y

/-- `wide`, src/math/div.rs L74-98. -/
def wideDiv (x : Limbs w) (divisor : BitVec (w + w)) : Res (Limbs w × BitVec (w + w)) :=
  if 2 ≤ x.length ∧ isZero x 2 = true then
    if getLimb x 0 = 0 ∧ getLimb x 1 = 0 then .ok (scalar1 x.length 0, 0)
    else (nativeDivRem (low2 x) divisor).bind fun (q, r) => .ok (scalar2 x.length q, r)
  else
    let y := scalar2 2 divisor
    match cmp x y with
    | .lt => .ok (List.replicate x.length 0, low2 (x.take 2))
    | .eq => .ok (scalar1 x.length 1, 0)
    | .gt => (fullGt x y).bind fun (q, r) => .ok (q, low2 r)

/-- `scalar_u128`, src/math/div.rs L255-266 (32-bit limbs). -/
def scalarU128 (N : Nat) (v : BitVec 128) : Limbs w :=
  v.setWidth w :: (v >>> 32).setWidth w :: (v >>> 64).setWidth w :: (v >>> 96).setWidth w ::
    List.replicate (N - 4) 0

/-- `u128_scalar`, src/math/div.rs L271-281 (32-bit limbs). -/
def u128Scalar (x : Limbs w) : BitVec 128 :=
  (getLimb x 0).setWidth 128 ||| ((getLimb x 1).setWidth 128 <<< 32) |||
    ((getLimb x 2).setWidth 128 <<< 64) ||| ((getLimb x 3).setWidth 128 <<< 96)

/-- `from_u128`, src/math/div.rs L105-129 (32-bit limbs). -/
def fromU128 (x : Limbs w) (divisor : BitVec 128) : Res (Limbs w × BitVec 128) :=
  if w = 32 then
    if 2 ≤ x.length ∧ isZero x 2 = true then
      if getLimb x 0 = 0 ∧ getLimb x 1 = 0 then .ok (scalar1 x.length 0, 0)
      else (nativeDivRem (u128Scalar x) divisor).bind fun (q, r) =>
        .ok (scalarU128 x.length q, r)
    else
      let y := scalarU128 x.length divisor
      match cmp x y with
      | .lt => .ok (List.replicate x.length 0, u128Scalar (x.take x.length))
      | .eq => .ok (scalar1 x.length 1, 0)
      | .gt => (fullGt x y).bind fun (q, r) => .ok (q, u128Scalar r)
  else .panic

end Div

end I256
