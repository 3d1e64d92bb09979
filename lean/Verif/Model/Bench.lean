import Verif.Model.RawDiv
import Verif.Model.Glue
import Verif.Model.Casts
import Verif.Model.AddSubApi

/-!
# Model of the algorithms in `devel/benches`

The benchmarks contain their own implementations of multiplication, shifts, bit counting and division
by a constant, which they compare for speed.  The macros are expanded for `u64` and `u128`; the model
takes any `BitVec (h + h)` with halves of `h` bits.  Native arithmetic panics or wraps as the build
says (`Cfg`), see `RawDiv.lean`.
-/

namespace I256

namespace Bench

open Raw (loop usub at_ set_)
open Raw.Div (Cfg add mul shl shr debugAssert)

/-- Native `x.wrapping_shl(s)`. -/
def wShl {n : Nat} (x : BitVec n) (s : Nat) : BitVec n := x <<< (s % n)
/-- Native `x.wrapping_shr(s)`. -/
def wShr {n : Nat} (x : BitVec n) (s : Nat) : BitVec n := x >>> (s % n)
/-- Native `x.checked_shl(s)`. -/
def cShl {n : Nat} (x : BitVec n) (s : Nat) : Option (BitVec n) :=
  if s < n then some (x <<< s) else none
/-- Native `x.checked_shr(s)`. -/
def cShr {n : Nat} (x : BitVec n) (s : Nat) : Option (BitVec n) :=
  if s < n then some (x >>> s) else none

section Mul
variable {h : Nat}

/-- `$narrow`, devel/benches/mul_algos.rs L26-52. -/
def narrow (cf : Cfg) (x y : BitVec (h + h)) : Res (BitVec (h + h) × BitVec (h + h)) := do
  let LO : BitVec (h + h) := BitVec.allOnes (h + h) >>> h
  let (x0, x1) := (x &&& LO, wShr x h)
  let (y0, y1) := (y &&& LO, wShr y h)
  let x0y0 ← mul cf x0 y0
  let x0y1 ← mul cf x0 y1
  let x1y0 ← mul cf x1 y0
  let x1y1 ← mul cf x1 y1
  let (lo, c) := (x0y0 &&& LO, wShr x0y0 h)
  let c ← add cf c x1y0
  let lo ← add cf lo (wShl c h)
  let hi := wShr c h
  let c := wShr lo h
  let lo := lo &&& LO
  let c ← add cf c x0y1
  let lo ← add cf lo (wShl c h)
  let hi ← add cf hi (wShr c h)
  let hi ← add cf hi x1y1
  .ok (lo, hi)

/-- `$v1`, devel/benches/mul_algos.rs L16-23. -/
def mulV1 (cf : Cfg) (x0 x1 y0 y1 : BitVec (h + h)) : Res (BitVec (h + h) × BitVec (h + h)) := do
  let (lo, hi) ← narrow cf x0 y0
  let x0y1 := x0 * y1
  let x1y0 := x1 * y0
  let hi := hi + x0y1
  let hi := hi + x1y0
  .ok (lo, hi)

/-- The two loops of `$v2`, devel/benches/mul_algos.rs L61-73: the table `r`. -/
def mulV2Table (cf : Cfg) (hi lo : List (BitVec (h + h))) : Res (List (List (BitVec (h + h)))) := do
  let (_, r) ← loop 4 (fun s => decide (s.1 > 0)) (fun (y, r) => do
    let y1 ← usub y 1
    let (_, r) ← loop 4 (fun s => decide (s.1 > 0)) (fun (x, r) => do
      let x1 ← usub x 1
      let a ← at_ hi x1
      let b ← at_ lo y1
      let p ← mul cf a b
      let k ← usub 3 x1
      let row ← at_ r k
      let row ← set_ row y1 p
      let r ← set_ r k row
      let x ← usub x 1
      .ok (x, r)) (4, r)
    let y ← usub y 1
    .ok (y, r)) (4, List.replicate 4 (List.replicate 4 0))
  .ok r

/-- `r[i][j]` in `$v2`. -/
def cell {α : Type} (r : List (List α)) (i j : Nat) : Res α := do
  let row ← at_ r i
  at_ row j

/-- `(r[i][j] & MASK) + (r[k][l] >> SHIFT)` in `$v2`, devel/benches/mul_algos.rs L77-88. -/
def mulV2Pair (cf : Cfg) (r : List (List (BitVec (h + h)))) (i j k l : Nat) :
    Res (BitVec (h + h)) := do
  let MASK : BitVec (h + h) := wide (BitVec.allOnes h)
  let a ← cell r i j
  let b ← cell r k l
  let c ← shr cf b h
  add cf (a &&& MASK) c

/-- The sums and carries of `$v2`, devel/benches/mul_algos.rs L75-107. -/
def mulV2Sum (cf : Cfg) (r : List (List (BitVec (h + h)))) :
    Res (BitVec (h + h) × BitVec (h + h)) := do
  let MASK : BitVec (h + h) := wide (BitVec.allOnes h)
  -- first row
  let r03 ← cell r 0 3
  let ry0 := r03 &&& MASK
  let ry1 ← mulV2Pair cf r 0 2 0 3
  let xy0 ← mulV2Pair cf r 0 1 0 2
  let xy1 ← mulV2Pair cf r 0 0 0 1
  -- second row
  let r13 ← cell r 1 3
  let ry1 ← add cf ry1 (r13 &&& MASK)
  let t ← mulV2Pair cf r 1 2 1 3
  let xy0 ← add cf xy0 t
  let t ← mulV2Pair cf r 1 1 1 2
  let xy1 ← add cf xy1 t
  -- third row
  let r23 ← cell r 2 3
  let xy0 ← add cf xy0 (r23 &&& MASK)
  let t ← mulV2Pair cf r 2 2 2 3
  let xy1 ← add cf xy1 t
  -- fourth row
  let r33 ← cell r 3 3
  let xy1 ← add cf xy1 (r33 &&& MASK)
  -- move carry to next digit
  let c ← shr cf ry0 h
  let ry1 ← add cf ry1 c
  let c ← shr cf ry1 h
  let xy0 ← add cf xy0 c
  let c ← shr cf xy0 h
  let xy1 ← add cf xy1 c
  -- remove carry from current digit
  let ry0 := ry0 &&& MASK
  let ry1 := ry1 &&& MASK
  let xy0 := xy0 &&& MASK
  let xy1 := xy1 &&& MASK
  -- combine components
  let t ← shl cf xy1 h
  let hi := t ||| xy0
  let t ← shl cf ry1 h
  let lo := t ||| ry0
  .ok (lo, hi)

/-- `$v2`, devel/benches/mul_algos.rs L55-108. -/
def mulV2 (cf : Cfg) (x0 x1 y0 y1 : BitVec (h + h)) : Res (BitVec (h + h) × BitVec (h + h)) := do
  let MASK : BitVec (h + h) := wide (BitVec.allOnes h)
  let x1h ← shr cf x1 h
  let x0h ← shr cf x0 h
  let hi := [x1h, x1 &&& MASK, x0h, x0 &&& MASK]
  let y1h ← shr cf y1 h
  let y0h ← shr cf y0 h
  let lo := [y1h, y1 &&& MASK, y0h, y0 &&& MASK]
  let r ← mulV2Table cf hi lo
  mulV2Sum cf r

/-- The body of the inner loop of `$v3`, devel/benches/mul_algos.rs L130-140: state
`(j, r, carry, broken)`; `broken` stands for the `break`. -/
def mulV3Body (cf : Cfg) (y : List (BitVec h)) (xi : BitVec h) (i : Nat) :
    Nat × List (BitVec h) × BitVec h × Bool → Res (Nat × List (BitVec h) × BitVec h × Bool) :=
  fun (j, r, carry, broken) => do
    let ij := i + j
    let yj ← at_ y j
    if ij < 4 then
      let full ← mul cf (wide xi) (wide yj)
      let rij ← at_ r ij
      let s ← add cf (wide carry) (wide rij)
      let prod ← add cf s full
      let r ← set_ r ij (prod.setWidth h)
      let c ← shr cf prod h
      .ok (j + 1, r, c.setWidth h, broken)
    else if xi ≠ 0 ∧ yj ≠ 0 then .ok (j, r, carry, true)
    else .ok (j + 1, r, carry, broken)

/-- The inner loop of `$v3`, devel/benches/mul_algos.rs L129-141. -/
def mulV3Inner (cf : Cfg) (y : List (BitVec h)) (xi : BitVec h) (i : Nat) :
    Nat × List (BitVec h) × BitVec h × Bool → Res (Nat × List (BitVec h) × BitVec h × Bool) :=
  loop 4 (fun s => decide (s.1 < 4) && !s.2.2.2) (mulV3Body cf y xi i)

/-- `$v3`, devel/benches/mul_algos.rs L111-147. -/
def mulV3 (cf : Cfg) (x0 x1 y0 y1 : BitVec (h + h)) : Res (BitVec (h + h) × BitVec (h + h)) := do
  let MASK : BitVec (h + h) := wide (BitVec.allOnes h)
  let x0h ← shr cf x0 h
  let x1h ← shr cf x1 h
  let x : List (BitVec h) :=
    [(x0 &&& MASK).setWidth h, x0h.setWidth h, (x1 &&& MASK).setWidth h, x1h.setWidth h]
  let y0h ← shr cf y0 h
  let y1h ← shr cf y1 h
  let y : List (BitVec h) :=
    [(y0 &&& MASK).setWidth h, y0h.setWidth h, (y1 &&& MASK).setWidth h, y1h.setWidth h]
  let (_, r) ← loop 4 (fun s => decide (s.1 < 4)) (fun (i, r) => do
    let xi ← at_ x i
    let (_, r, _, _) ← mulV3Inner cf y xi i (0, r, 0, false)
    .ok (i + 1, r)) (0, List.replicate 4 0)
  let r1 ← at_ r 1
  let t ← shl cf (wide r1) h
  let r0 ← at_ r 0
  let lo := t ||| wide r0
  let r3 ← at_ r 3
  let t ← shl cf (wide r3) h
  let r2 ← at_ r 2
  let hi := t ||| wide r2
  .ok (lo, hi)

end Mul

section Shift
variable {n : Nat}

/-- `$v1` of `shl!`, devel/benches/shift_algos.rs L15-29: `x0` is the low half. -/
def shlV1 (cf : Cfg) (x0 x1 : BitVec n) (shift : Nat) : Res (BitVec n × BitVec n) := do
  debugAssert cf (decide (shift < 2 * n))
  let shift := shift % (2 * n)
  if shift ≥ n then
    let s ← usub shift n
    .ok (0, wShl x0 s)
  else if shift = 0 then .ok (x0, x1)
  else
    let hi := wShl x1 shift
    let lo := wShl x0 shift
    let s ← usub n shift
    let carry := wShr x0 s
    .ok (lo, hi ||| carry)

/-- `$v2` of `shl!`, devel/benches/shift_algos.rs L32-46. -/
def shlV2 (cf : Cfg) (x0 x1 : BitVec n) (shift : Nat) : Res (BitVec n × BitVec n) := do
  debugAssert cf (decide (shift < 2 * n))
  let shift := shift % (2 * n)
  if shift ≥ n then
    let s ← usub shift n
    .ok (0, wShl x0 s)
  else
    let hi := wShl x1 shift
    let lo := wShl x0 shift
    let s ← usub n shift
    match cShr x0 s with
    | some carry => .ok (lo, hi ||| carry)
    | none => .ok (lo, hi)

/-- `$v3` of `shl!`, devel/benches/shift_algos.rs L49-64. -/
def shlV3 (cf : Cfg) (x0 x1 : BitVec n) (shift : Nat) : Res (BitVec n × BitVec n) := do
  debugAssert cf (decide (shift < 2 * n))
  let shift := shift % (2 * n)
  if shift ≥ n then
    let s ← usub shift n
    .ok (0, wShl x0 s)
  else
    let hi := wShl x1 shift
    let lo := wShl x0 shift
    let s ← usub n shift
    let carry := match cShr x0 s with
      | some carry => carry
      | none => 0
    .ok (lo, hi ||| carry)

/-- `$v1` of `shr!`, devel/benches/shift_algos.rs L74-88. -/
def shrV1 (cf : Cfg) (x0 x1 : BitVec n) (shift : Nat) : Res (BitVec n × BitVec n) := do
  debugAssert cf (decide (shift < 2 * n))
  let shift := shift % (2 * n)
  if shift ≥ n then
    let s ← usub shift n
    .ok (0, wShr x0 s)
  else if shift = 0 then .ok (x0, x1)
  else
    let hi := wShr x1 shift
    let lo := wShr x0 shift
    let s ← usub n shift
    let carry := wShl x0 s
    .ok (lo, hi ||| carry)

/-- `$v2` of `shr!`, devel/benches/shift_algos.rs L91-105. -/
def shrV2 (cf : Cfg) (x0 x1 : BitVec n) (shift : Nat) : Res (BitVec n × BitVec n) := do
  debugAssert cf (decide (shift < 2 * n))
  let shift := shift % (2 * n)
  if shift ≥ n then
    let s ← usub shift n
    .ok (0, wShr x0 s)
  else
    let hi := wShr x1 shift
    let lo := wShr x0 shift
    let s ← usub n shift
    match cShl x0 s with
    | some carry => .ok (lo, hi ||| carry)
    | none => .ok (lo, hi)

/-- `$v3` of `shr!`, devel/benches/shift_algos.rs L108-123. -/
def shrV3 (cf : Cfg) (x0 x1 : BitVec n) (shift : Nat) : Res (BitVec n × BitVec n) := do
  debugAssert cf (decide (shift < 2 * n))
  let shift := shift % (2 * n)
  if shift ≥ n then
    let s ← usub shift n
    .ok (0, wShr x0 s)
  else
    let hi := wShr x1 shift
    let lo := wShr x0 shift
    let s ← usub n shift
    let carry := match cShl x0 s with
      | some carry => carry
      | none => 0
    .ok (lo, hi ||| carry)

end Shift

/-- `count_ones_u128`, devel/benches/bit_algos.rs L15-17. -/
def countOnes128 (x y : BitVec 128) : Nat := popcount y + popcount x

/-- `count_ones_u64`, devel/benches/bit_algos.rs L20-28. -/
def countOnes64 (x : Limbs 64) : Res Nat := do
  let (_, count) ← loop x.length (fun s => decide (s.1 < x.length)) (fun (i, count) => do
    let a ← at_ x i
    .ok (i + 1, count + popcount a)) (0, 0)
  .ok count

/-- `leading_zeros_u128`, devel/benches/bit_algos.rs L31-37. -/
def leadingZeros128 (x y : BitVec 128) : Nat :=
  let leading := clz y
  if leading = 128 then leading + clz x else leading

/-- `leading_zeros_u64`, devel/benches/bit_algos.rs L40-48. -/
def leadingZeros64 (x : Limbs 64) : Res Nat := do
  let (_, count) ← loop x.length (fun s => decide (s.1 < x.length) && decide (s.2 = s.1 * 64))
    (fun (i, count) => do
      let k ← usub x.length i
      let k ← usub k 1
      let a ← at_ x k
      .ok (i + 1, count + clz a)) (0, 0)
  .ok count

section DivMul

/-- `hi`, devel/benches/div_by_mul.rs L13-15: the benchmark only compiles with 64-bit limbs, as
`from_u128` takes what `get_wide` gives. -/
def hiWide (be : Bool) (x : Limbs 64) : Res (Limbs 64) := do
  let v ← Access.getWide be x 1
  .ok (Cast.fromU128 4 v)

/-- `lo`, devel/benches/div_by_mul.rs L18-20. -/
def loWide (be : Bool) (x : Limbs 64) : Res (Limbs 64) := do
  let v ← Access.getWide be x 0
  .ok (Cast.fromU128 4 v)

/-- `mulhi`, devel/benches/div_by_mul.rs L23-38. -/
def mulhi (be : Bool) (x y : Limbs 64) : Res (Limbs 64) := do
  let x1 ← hiWide be x
  let x0 ← loWide be x
  let y1 ← hiWide be y
  let y0 ← loWide be y
  let w0 := U.wrappingMul x0 y0
  let t ← hiWide be w0
  let m := U.wrappingAdd (U.wrappingMul x0 y1) t
  let w1 ← loWide be m
  let w2 ← hiWide be m
  let w3 ← loWide be (U.wrappingAdd (U.wrappingMul x1 y0) w1)
  .ok (U.wrappingAdd (U.wrappingAdd (U.wrappingMul x1 y1) w2) w3)

/-- `divide_by_num`, devel/benches/div_by_mul.rs L43-57; `ADD_MARKER` and `UNIVERSAL` are L9-10. -/
def divideByNum (be : Bool) (num den : Limbs 64) (more : BitVec 32) : Res (Limbs 64) := do
  if Ord.eqConst den (ofU8 4 0) then .ok (wrappingShr false num more.toNat)
  else
    let mask : Limbs 64 := List.replicate 4 (BitVec.allOnes 64)
    let q ← mulhi be den num
    if more &&& 0x4000 ≠ 0 then
      let t := U.wrappingAdd (wrappingShr false (Bits.and (U.wrappingSubULimb num 1) mask) 1) q
      let t := Bits.and t mask
      .ok (wrappingShr false t (more &&& 0x3FFF).toNat)
    else .ok (wrappingShr false q more.toNat)

/-- `div_rem_by_num`, devel/benches/div_by_mul.rs L60-64. -/
def divRemByNum (be : Bool) (num den : Limbs 64) (more : BitVec 32) :
    Res (Limbs 64 × Limbs 64) := do
  let quo ← divideByNum be num den more
  let rem := U.wrappingSub num (U.wrappingMul quo den)
  .ok (quo, rem)

/-- `div10_magic`, devel/benches/div_by_mul.rs L79-84, with `div10_more = 3`. -/
def div10Magic : Limbs 64 :=
  [0xcccccccccccccccd, 0xcccccccccccccccc, 0xcccccccccccccccc, 0xcccccccccccccccc]

/-- `div1234_magic`, devel/benches/div_by_mul.rs L87-92, with `div1234_more = 28`. -/
def div1234Magic : Limbs 64 :=
  [0x112efe24120f7033, 0xf2109855898d0ed7, 0x8040021bc22011eb, 0xe10000077880003f]

/-- A repair of `mulhi`, devel/benches/div_by_mul.rs L23-38: line 35 takes the high half. -/
def mulhiFix (be : Bool) (x y : Limbs 64) : Res (Limbs 64) := do
  let x1 ← hiWide be x
  let x0 ← loWide be x
  let y1 ← hiWide be y
  let y0 ← loWide be y
  let w0 := U.wrappingMul x0 y0
  let t ← hiWide be w0
  let m := U.wrappingAdd (U.wrappingMul x0 y1) t
  let w1 ← loWide be m
  let w2 ← hiWide be m
  let w3 ← hiWide be (U.wrappingAdd (U.wrappingMul x1 y0) w1)
  .ok (U.wrappingAdd (U.wrappingAdd (U.wrappingMul x1 y1) w2) w3)

/-- A repair of `divide_by_num`, devel/benches/div_by_mul.rs L43-57: the repaired `mulhi`, and line 50
subtracts `q` instead of 1. -/
def divideByNumFix (be : Bool) (num den : Limbs 64) (more : BitVec 32) : Res (Limbs 64) := do
  if Ord.eqConst den (ofU8 4 0) then .ok (wrappingShr false num more.toNat)
  else
    let q ← mulhiFix be den num
    if more &&& 0x4000 ≠ 0 then
      let t := U.wrappingAdd (wrappingShr false (U.wrappingSub num q) 1) q
      .ok (wrappingShr false t (more &&& 0x3FFF).toNat)
    else .ok (wrappingShr false q more.toNat)

/-- A repair of `div_rem_by_num`, devel/benches/div_by_mul.rs L60-64: line 62 multiplies by the divisor
`d`, of which `den` is the magic number. -/
def divRemByNumFix (be : Bool) (num d den : Limbs 64) (more : BitVec 32) :
    Res (Limbs 64 × Limbs 64) := do
  let quo ← divideByNumFix be num den more
  let rem := U.wrappingSub num (U.wrappingMul quo d)
  .ok (quo, rem)

end DivMul

end Bench

end I256
