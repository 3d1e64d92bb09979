import Verif.SpecLoop

/-!
# What programs should do in either build

The rules of C100 and C101 without the known faults of the crate.
-/

namespace I256

variable {sg : Bool}

/-- What an expression denotes for a type of `n` bits: with overflow checks a result that does not fit is
a panic (`none`), without it is reduced modulo `2 ^ n`; a shift amount that is too large is a panic or is
reduced modulo `n`.  Division by zero is a panic in both builds. -/
def Expr.ideal (oc : Bool) (n : Nat) (env : Nat → Int) : Expr sg → Option Int
  | .var i => some (env i)
  | .add a b => do settle oc sg n ((← a.ideal oc n env) + (← b.ideal oc n env))
  | .sub a b => do settle oc sg n ((← a.ideal oc n env) - (← b.ideal oc n env))
  | .mul a b => do settle oc sg n ((← a.ideal oc n env) * (← b.ideal oc n env))
  | .div a b => do
      let x ← a.ideal oc n env
      let y ← b.ideal oc n env
      if y = 0 then none else settle oc sg n (x.tdiv y)
  | .rem a b => do
      let x ← a.ideal oc n env
      let y ← b.ideal oc n env
      if y = 0 ∨ oc = true ∧ ¬ Fits sg n (x.tdiv y) then none else some (x.tmod y)
  | .and a b => do some (onBits sg n (· &&& ·) (← a.ideal oc n env) (← b.ideal oc n env))
  | .or a b => do some (onBits sg n (· ||| ·) (← a.ideal oc n env) (← b.ideal oc n env))
  | .xor a b => do some (onBits sg n (· ^^^ ·) (← a.ideal oc n env) (← b.ideal oc n env))
  | .not a => do some ((if sg then -1 else 2 ^ n - 1) - (← a.ideal oc n env))
  | .neg _ a => do settle oc sg n (-(← a.ideal oc n env))
  | .shl a s => do
      let x ← a.ideal oc n env
      if oc = true ∧ ¬ s.toNat < n then none else some (reduce sg n (x * 2 ^ (s.toNat % n)))
  | .shr a s => do
      let x ← a.ideal oc n env
      if oc = true ∧ ¬ s.toNat < n then none else some (x / 2 ^ (s.toNat % n))
  | .pow a e => do settle oc sg n ((← a.ideal oc n env) ^ e.toNat)

/-- The program with these rules. -/
def Cmd.ideal (oc : Bool) (n : Nat) : Nat → Cmd sg → (Nat → Int) → Outcome (Nat → Int) :=
  Cmd.sem fun env e => e.ideal oc n env

end I256
