import Verif.Model.Raw
import Verif.Model.Div

/-!
# Literal model of `src/math/div.rs`

See `Raw.lean` for the vocabulary.  The arrays of this file of the crate are little-endian on every
machine.  Subtractions of `usize` values are checked in every build of the model; limb arithmetic is
checked only in builds with overflow checks, see `Cfg`.
-/

namespace I256

variable {w : Nat}

namespace Raw

namespace Div

/-- How the crate is compiled: with overflow checks, with debug assertions, and with the inline
assembler of `div_rem_word` (x86-64 without `noasm` and `limb32`). -/
structure Cfg where
  oc : Bool
  da : Bool
  asm : Bool

/-- `debug_assert!`. -/
def debugAssert (cf : Cfg) (b : Bool) : Res Unit := if cf.da then assert b else .ok ()

/-- Native `a - b`. -/
def sub (cf : Cfg) {n : Nat} (a b : BitVec n) : Res (BitVec n) :=
  if cf.oc then Raw.sub a b else .ok (a - b)
/-- Native `a + b`. -/
def add (cf : Cfg) {n : Nat} (a b : BitVec n) : Res (BitVec n) :=
  if cf.oc then Raw.add a b else .ok (a + b)
/-- Native `a * b`. -/
def mul (cf : Cfg) {n : Nat} (a b : BitVec n) : Res (BitVec n) :=
  if cf.oc then Raw.mul a b else .ok (a * b)
/-- Native `a << s`: the amount is masked without overflow checks. -/
def shl (cf : Cfg) {n : Nat} (a : BitVec n) (s : Nat) : Res (BitVec n) :=
  if cf.oc then Raw.shl a s else .ok (a <<< (s % n))
/-- Native `a >> s`: the amount is masked without overflow checks. -/
def shr (cf : Cfg) {n : Nat} (a : BitVec n) (s : Nat) : Res (BitVec n) :=
  if cf.oc then Raw.shr a s else .ok (a >>> (s % n))
/-- Native `a / b` and `a % b`: a zero divisor panics in every build. -/
def divRem {n : Nat} (a b : BitVec n) : Res (BitVec n × BitVec n) :=
  if b = 0 then .panic else .ok (a / b, a % b)

/-- `div_rem_word`, src/math/div.rs L437-506. The `div` instruction faults if the quotient does not
fit, that is, if `hi >= divisor`. -/
def divRemWord (cf : Cfg) (hi lo divisor : BitVec w) : Res (BitVec w × BitVec w) := do
  debugAssert cf (hi.ult divisor)
  debugAssert cf (divisor != 0)
  if cf.asm then
    assert (hi.ult divisor)
    let x := hi ++ lo
    .ok ((x / wide divisor).setWidth w, (x % wide divisor).setWidth w)
  else
    let h ← shl cf (wide hi) w
    let x ← add cf h (wide lo)
    let (q, r) ← divRem x (wide divisor)
    .ok (q.setWidth w, r.setWidth w)

/-- `ArrayPlusOne::get`, src/math/div.rs L589-595. -/
def get (a : Limbs w × BitVec w) (index : Nat) : Res (BitVec w) :=
  if index = a.1.length then .ok a.2 else at_ a.1 index

/-- `ArrayPlusOne::set`, src/math/div.rs L598-604. -/
def set (a : Limbs w × BitVec w) (index : Nat) (value : BitVec w) : Res (Limbs w × BitVec w) :=
  if index = a.1.length then .ok (a.1, value)
  else do
    let l ← set_ a.1 index value
    .ok (l, a.2)

/-- `full_mul_u64`, src/math/div.rs L510-522. The state is `(i, out, carry)`. -/
def fullMul (cf : Cfg) (a : Limbs w) (b : BitVec w) : Res (Limbs w × BitVec w) := do
  let N := a.length
  let (_, out, carry) ← loop N (fun s => decide (s.1 < N)) (fun (i, out, carry) => do
    let v ← at_ a i
    let p ← mul cf (wide v) (wide b)
    let r ← add cf p (wide carry)
    let out ← set_ out i (r.setWidth w)
    let c ← shr cf r w
    .ok (i + 1, out, c.setWidth w)) (0, List.replicate N 0, 0)
  .ok (out, carry)

/-- `full_shl`, src/math/div.rs L532-546. -/
def fullShl (cf : Cfg) (v : Limbs w) (shift : Nat) : Res (Limbs w × BitVec w) := do
  let N := v.length
  debugAssert cf (decide (shift < w))
  if shift = 0 then .ok (v, 0)
  else
    let v0 ← at_ v 0
    let t ← shl cf v0 shift
    let out ← set_ (List.replicate N 0) 0 t
    let (_, out) ← loop N (fun s => decide (s.1 < N)) (fun (i, out) => do
      let k ← usub i 1
      let a ← at_ v k
      let inv ← usub w shift
      let lo ← shr cf a inv
      let b ← at_ v i
      let hi ← shl cf b shift
      let out ← set_ out i (lo ||| hi)
      .ok (i + 1, out)) (1, out)
    let k ← usub N 1
    let a ← at_ v k
    let inv ← usub w shift
    let carry ← shr cf a inv
    .ok (out, carry)

/-- `shl_word`, src/math/div.rs L526-528. -/
def shlWord (cf : Cfg) (v : Limbs w) (shift : Nat) : Res (Limbs w) := do
  let r ← fullShl cf v shift
  .ok r.1

/-- `full_shr`, src/math/div.rs L550-563. -/
def fullShr (cf : Cfg) (a : Limbs w × BitVec w) (shift : Nat) : Res (Limbs w) := do
  let N := a.1.length
  debugAssert cf (decide (shift < w))
  if shift = 0 then .ok a.1
  else
    let last ← usub N 1
    let (_, out) ← loop N (fun s => decide (s.1 < last)) (fun (i, out) => do
      let b ← at_ a.1 i
      let lo ← shr cf b shift
      let c ← at_ a.1 (i + 1)
      let inv ← usub w shift
      let hi ← shl cf c inv
      let out ← set_ out i (lo ||| hi)
      .ok (i + 1, out)) (0, List.replicate N 0)
    let last ← usub N 1
    let b ← at_ a.1 last
    let t ← shr cf b shift
    set_ out last t

/-- `truncate`, src/math/div.rs L567-576; `N` is the length of the result. -/
def truncate (N : Nat) (v : Limbs w) : Res (Limbs w) := do
  assert (decide (v.length ≥ N))
  let (_, r) ← loop N (fun s => decide (s.1 < N)) (fun (i, r) => do
    let a ← at_ v i
    let r ← set_ r i a
    .ok (i + 1, r)) (0, List.replicate N 0)
  .ok r

/-- The estimate of a quotient digit, src/math/div.rs L347-379. -/
def estimate (cf : Cfg) (num : Limbs w × BitVec w) (jn : Nat) (a0 a1 b0 b1 : BitVec w) :
    Res (BitVec w) := do
  if a0.ult b0 then
    let (qHat, rHat) ← divRemWord cf a0 a1 b0
    let k ← usub jn 2
    let a2 ← at_ num.1 k
    let r ← mul cf (wide qHat) (wide b1)
    let h ← shr cf r w
    let lo : BitVec w := r.setWidth w
    let hi : BitVec w := h.setWidth w
    if rHat.ult hi || (rHat == hi && a2.ult lo) then
      let qHat ← sub cf qHat 1
      let (rNew, overflow) := uAddO rHat b0
      if !overflow then
        let r ← mul cf (wide qHat) (wide b1)
        let h ← shr cf r w
        let lo : BitVec w := r.setWidth w
        let hi : BitVec w := h.setWidth w
        if rNew.ult hi || (rNew == hi && a2.ult lo) then sub cf qHat 1 else .ok qHat
      else .ok qHat
    else .ok qHat
  else .ok (BitVec.allOnes w)

/-- The main loop of `div_rem_knuth`, src/math/div.rs L341-420, with the state `(j, numerator, q)`; the
inner loops have the state `(i, numerator, c)`. -/
def knuthBody (cf : Cfg) (divisor : Limbs w) (n : Nat) (b0 b1 : BitVec w)
    (s : Nat × (Limbs w × BitVec w) × Limbs w) : Res (Nat × (Limbs w × BitVec w) × Limbs w) := do
  let (j, num, q) := s
  let j ← usub j 1
  let a0 ← get num (j + n)
  let k ← usub (j + n) 1
  let a1 ← at_ num.1 k
  let qHat ← estimate cf num (j + n) a0 a1 b0 b1
  let qv ← fullMul cf divisor qHat
  let (_, num, c) ← loop (n + 1) (fun s => decide (s.1 < n + 1)) (fun (i, num, c) => do
    let x ← get num (i + j)
    let y ← get qv i
    let (res1, overflow1) := uAddO y (boolLimb w c)
    let (res2, overflow2) := uSubO x res1
    let num ← set num (i + j) res2
    .ok (i + 1, num, overflow1 || overflow2)) (0, num, false)
  if c then
    let qHat ← sub cf qHat 1
    let (_, num, c) ← loop (n + 1) (fun s => decide (s.1 < n + 1)) (fun (i, num, c) => do
      let x ← get num (i + j)
      let y ← at_ divisor i
      let (res1, overflow1) := uAddO y (boolLimb w c)
      let (res2, overflow2) := uAddO x res1
      let num ← set num (i + j) res2
      .ok (i + 1, num, overflow1 || overflow2)) (0, num, false)
    let t ← get num (j + n)
    let num ← set num (j + n) (t + boolLimb w c)
    let q ← set_ q j qHat
    .ok (j, num, q)
  else
    let q ← set_ q j qHat
    .ok (j, num, q)

/-- `div_rem_knuth`, src/math/div.rs L302-425. -/
def divRemKnuth (cf : Cfg) (x y : Limbs w) (n m : Nat) : Res (Limbs w × Limbs w) := do
  let M := x.length
  assert (decide (n + m ≤ M))
  let k ← usub n 1
  let top ← at_ y k
  let shift := clz top
  let divisor ← shlWord cf y shift
  let num ← fullShl cf x shift
  let k ← usub n 1
  let b0 ← at_ divisor k
  let k ← usub n 2
  let b1 ← at_ divisor k
  let (_, num, q) ← loop (m + 1) (fun s => decide (s.1 > 0)) (knuthBody cf divisor n b0 b1)
    (m + 1, num, List.replicate M 0)
  let r ← fullShr cf num shift
  let remainder ← truncate y.length r
  .ok (q, remainder)

/-- `scalar1`, src/math/div.rs L234-239. -/
def scalar1 (N : Nat) (value : BitVec w) : Res (Limbs w) := do
  assert (decide (N > 0))
  set_ (List.replicate N 0) 0 value

/-- `scalar2`, src/math/div.rs L243-249. -/
def scalar2 (cf : Cfg) (N : Nat) (value : BitVec (w + w)) : Res (Limbs w) := do
  assert (decide (N > 0))
  let r ← set_ (List.replicate N 0) 0 (value.setWidth w)
  let h ← shr cf value w
  set_ r 1 (h.setWidth w)

/-- `is_zero`, src/math/div.rs L210-217. -/
def isZero (x : Limbs w) (i : Nat) : Res Bool := do
  let N := x.length
  let (_, zero) ← loop N (fun s => decide (s.1 < N)) (fun (i, zero) => do
    let a ← at_ x i
    .ok (i + 1, zero && a == 0)) (i, true)
  .ok zero

/-- `last_index`, src/math/div.rs L221-230. The state is `i` and the value of an early `return`. -/
def lastIndex (x : Limbs w) : Res Nat := do
  let N := x.length
  let (_, ret) ← loop N (fun s => decide (s.1 > 0) && s.2.isNone) (fun (i, _) => do
    let i ← usub i 1
    let a ← at_ x i
    .ok (i, if a != 0 then some i else none)) (N, none)
  .ok (ret.getD 0)

/-- `cmp` with at least as many limbs on the left, src/math/div.rs L184-201. The state is `i` and the
value of an early `return`. -/
def cmpGe (x y : Limbs w) : Res Ordering := do
  let M := x.length
  let N := y.length
  let (i, ret) ← loop M (fun s => decide (s.1 > N) && s.2.isNone) (fun (i, _) => do
    let i ← usub i 1
    let a ← at_ x i
    .ok (i, if (0 : BitVec w).ult a then some .gt else none)) (M, none)
  if let some r := ret then .ok r
  else
    let (_, ret) ← loop M (fun s => decide (s.1 > 0) && s.2.isNone) (fun (i, _) => do
      let i ← usub i 1
      let a ← at_ x i
      let b ← at_ y i
      .ok (i, if b.ult a then some .gt else if a.ult b then some .lt else none)) (i, none)
    .ok (ret.getD Ordering.eq)

/-- `cmp`, src/math/div.rs L178-202. -/
def cmp (x y : Limbs w) : Res Ordering := do
  if x.length < y.length then
    let r ← cmpGe y x
    .ok r.swap
  else cmpGe x y

/-- `lo | hi << BITS` of the two lowest limbs, src/math/div.rs L83-85, L95, L139-141. -/
def low2 (cf : Cfg) (x : Limbs w) : Res (BitVec (w + w)) := do
  let x0 ← at_ x 0
  let x1 ← at_ x 1
  let hi ← shl cf (wide x1) w
  .ok (wide x0 ||| hi)

/-- `limb`, src/math/div.rs L134-157. -/
def limb (cf : Cfg) (x : Limbs w) (divisor : BitVec w) : Res (Limbs w × BitVec w) := do
  let M := x.length
  let z ← isZero x 2
  if decide (M ≥ 2) && z then
    let num ← low2 cf x
    let (q, r) ← divRem num (wide divisor)
    let q ← scalar2 cf M q
    .ok (q, r.setWidth w)
  else
    let (_, num, r) ← loop M (fun s => decide (s.1 > 0)) (fun (i, num, r) => do
      let i ← usub i 1
      let d ← at_ num i
      let (q, r) ← divRemWord cf r d divisor
      let num ← set_ num i q
      .ok (i, num, r)) (M, x, 0)
    .ok (num, r)

/-- `limb_padded`, src/math/div.rs L285-291. -/
def limbPadded (cf : Cfg) (N : Nat) (x : Limbs w) (divisor : BitVec w) : Res (Limbs w × Limbs w) := do
  let (q, r) ← limb cf x divisor
  let rem ← scalar1 N r
  .ok (q, rem)

/-- `full_gt`, src/math/div.rs L162-173. -/
def fullGt (cf : Cfg) (x y : Limbs w) : Res (Limbs w × Limbs w) := do
  let n ← lastIndex y
  if n = 0 then
    let y0 ← at_ y 0
    limbPadded cf y.length x y0
  else
    let l ← lastIndex x
    let m ← usub l n
    divRemKnuth cf x y (n + 1) m

/-- `full`, src/math/div.rs L45-64. -/
def full (cf : Cfg) (x y : Limbs w) : Res (Limbs w × Limbs w) := do
  if y.length = 1 then
    let y0 ← at_ y 0
    limbPadded cf y.length x y0
  else
    let o ← cmp x y
    match o with
    | .lt =>
      let r ← truncate y.length x
      .ok (List.replicate x.length 0, r)
    | .eq =>
      let q ← scalar1 x.length 1
      let r ← scalar1 y.length 0
      .ok (q, r)
    | .gt =>
      let z ← isZero x 0
      if z then
        let q ← scalar1 x.length 0
        let r ← scalar1 y.length 0
        .ok (q, r)
      else fullGt cf x y

/-- `wide`, src/math/div.rs L74-98. -/
def wideDiv (cf : Cfg) (x : Limbs w) (divisor : BitVec (w + w)) : Res (Limbs w × BitVec (w + w)) := do
  let M := x.length
  let z ← isZero x 2
  if decide (M ≥ 2) && z then
    let x0 ← at_ x 0
    let x1 ← at_ x 1
    if x0 == 0 && x1 == 0 then
      let q ← scalar1 M 0
      .ok (q, 0)
    else
      let num ← low2 cf x
      let (q, r) ← divRem num divisor
      let q ← scalar2 cf M q
      .ok (q, r)
  else
    let y ← scalar2 cf 2 divisor
    let o ← cmp x y
    match o with
    | .lt =>
      let r ← truncate 2 x
      let r ← low2 cf r
      .ok (List.replicate M 0, r)
    | .eq =>
      let q ← scalar1 M 1
      .ok (q, 0)
    | .gt =>
      let (q, r) ← fullGt cf x y
      let r ← low2 cf r
      .ok (q, r)

/-- `scalar_u128`, src/math/div.rs L255-266. -/
def scalarU128 (cf : Cfg) (N : Nat) (value : BitVec 128) : Res (Limbs w) := do
  assert (decide (N ≥ 4))
  assert (decide (w = 32))
  let r ← set_ (List.replicate N 0) 0 (value.setWidth w)
  let v ← shr cf value 32
  let r ← set_ r 1 (v.setWidth w)
  let v ← shr cf value 64
  let r ← set_ r 2 (v.setWidth w)
  let v ← shr cf value 96
  set_ r 3 (v.setWidth w)

/-- `u128_scalar`, src/math/div.rs L271-281. -/
def u128Scalar (cf : Cfg) (x : Limbs w) : Res (BitVec 128) := do
  assert (decide (x.length ≥ 4))
  assert (decide (w = 32))
  let v0 ← at_ x 0
  let v1 ← at_ x 1
  let x1 ← shl cf (v1.setWidth 128) 32
  let v2 ← at_ x 2
  let x2 ← shl cf (v2.setWidth 128) 64
  let v3 ← at_ x 3
  let x3 ← shl cf (v3.setWidth 128) 96
  .ok (v0.setWidth 128 ||| x1 ||| x2 ||| x3)

/-- `from_u128`, src/math/div.rs L105-129. -/
def fromU128 (cf : Cfg) (x : Limbs w) (divisor : BitVec 128) : Res (Limbs w × BitVec 128) := do
  let M := x.length
  assert (decide (w = 32))
  let z ← isZero x 2
  if decide (M ≥ 2) && z then
    let x0 ← at_ x 0
    let x1 ← at_ x 1
    if x0 == 0 && x1 == 0 then
      let q ← scalar1 M 0
      .ok (q, 0)
    else
      let num ← u128Scalar cf x
      let (q, r) ← divRem num divisor
      let q ← scalarU128 cf M q
      .ok (q, r)
  else
    let y ← scalarU128 cf M divisor
    let o ← cmp x y
    match o with
    | .lt =>
      let r ← truncate M x
      let r ← u128Scalar cf r
      .ok (List.replicate M 0, r)
    | .eq =>
      let q ← scalar1 M 1
      .ok (q, 0)
    | .gt =>
      let (q, r) ← fullGt cf x y
      let r ← u128Scalar cf r
      .ok (q, r)

end Div

end Raw

end I256
