import Verif.Model.Add
import Verif.Model.Ord

/-!
# Vocabulary of the literal model

The files `Raw*.lean` transcribe the kernels of `src/math` a second time, statement by statement: the
arrays are in memory order, every index access is checked, the `while` loops run on an index, native
arithmetic panics where a build with overflow checks panics, and `assert!`/`debug_assert!` are
executed.  `be` is `cfg!(target_endian = "big")`.  A `usize` is a natural number: the sizes and indices
never come near its limit, so only subtractions are checked.
-/

namespace I256

variable {w : Nat}

namespace Raw

/-- The array in memory of a number with the limbs `x`, least significant first: reversed on
big-endian machines. -/
def mem {α : Type} (be : Bool) (x : List α) : List α := if be then x.reverse else x

/-- Subtraction of `usize` values, checked. -/
def usub (a b : Nat) : Res Nat := if b ≤ a then .ok (a - b) else .panic

/-- `to_ne_index`, src/util.rs L9-15. -/
def neIndex (be : Bool) (index n : Nat) : Res Nat := do
  if be then
    let t ← usub n 1
    usub t index
  else .ok index

/-- Array access `a[k]`. -/
def at_ {α : Type} (a : List α) (k : Nat) : Res α :=
  match a[k]? with
  | some v => .ok v
  | none => .panic

/-- Array update `a[k] = v`. -/
def set_ {α : Type} (a : List α) (k : Nat) (v : α) : Res (List α) :=
  if k < a.length then .ok (a.set k v) else .panic

/-- `ne_index!(a[index])`, src/util.rs L20-23. -/
def rd {α : Type} (be : Bool) (a : List α) (index : Nat) : Res α := do
  let k ← neIndex be index a.length
  at_ a k

/-- `ne_index!(a[index] = v)`, src/util.rs L25-27. -/
def wr {α : Type} (be : Bool) (a : List α) (index : Nat) (v : α) : Res (List α) := do
  let k ← neIndex be index a.length
  set_ a k v

/-- `assert!` and, in debug builds, `debug_assert!`. -/
def assert (b : Bool) : Res Unit := if b then .ok () else .panic

/-- `while cond { body }`. A loop that does not end within `fuel` rounds counts as a panic, so that
`ok` includes termination. -/
def loop {σ : Type} (fuel : Nat) (cond : σ → Bool) (body : σ → Res σ) (s : σ) : Res σ :=
  if cond s then
    match fuel with
    | 0 => .panic
    | fuel + 1 => do
      let s ← body s
      loop fuel cond body s
  else .ok s

/-- Native `a + b` on unsigned integers with overflow checks. -/
def add {n : Nat} (a b : BitVec n) : Res (BitVec n) :=
  if a.toNat + b.toNat < 2 ^ n then .ok (a + b) else .panic
/-- Native `a - b` on unsigned integers with overflow checks. -/
def sub {n : Nat} (a b : BitVec n) : Res (BitVec n) :=
  if b.toNat ≤ a.toNat then .ok (a - b) else .panic
/-- Native `a * b` on unsigned integers with overflow checks. -/
def mul {n : Nat} (a b : BitVec n) : Res (BitVec n) :=
  if a.toNat * b.toNat < 2 ^ n then .ok (a * b) else .panic
/-- Native `a << s` with overflow checks. -/
def shl {n : Nat} (a : BitVec n) (s : Nat) : Res (BitVec n) :=
  if s < n then .ok (a <<< s) else .panic
/-- Native `a >> s` on unsigned integers with overflow checks. -/
def shr {n : Nat} (a : BitVec n) (s : Nat) : Res (BitVec n) :=
  if s < n then .ok (a >>> s) else .panic
/-- Native `a >> s` on signed integers with overflow checks. -/
def sar {n : Nat} (a : BitVec n) (s : Nat) : Res (BitVec n) :=
  if s < n then .ok (a.sshiftRight s) else .panic

/-- `mac_u32/u64`, src/math/bigint.rs L45-51, with checked native arithmetic. -/
def mac (a b c carry : BitVec w) : Res (BitVec w × BitVec w) := do
  let p ← mul (wide b) (wide c)
  let s ← add (wide a) p
  let value ← add s (wide carry)
  let hi ← shr value w
  .ok (value.setWidth w, hi.setWidth w)

/-- `carrying_mul_u32/u64`, src/math/bigint.rs L36-43, with checked native arithmetic. -/
def carryingMul (lhs rhs carry : BitVec w) : Res (BitVec w × BitVec w) := do
  let p ← mul (wide lhs) (wide rhs)
  let value ← add p (wide carry)
  let hi ← shr value w
  .ok (value.setWidth w, hi.setWidth w)

end Raw

end I256
