import Verif.SpecProg

/-!
# The same programs, written with methods

Client code that must not depend on the build writes `checked_add(…)?`, `strict_add`, `wrapping_add` or
`saturating_add` instead of `+`.  Here is what such programs mean on the integers.
-/

namespace I256

variable {w : Nat} {sg : Bool}

/-- A checked program returns the value that denotes the integer, or `None` if there is none; it does not
panic. -/
def ExprChecks (sg : Bool) (N : Nat) : Option Int → Res (Option (Limbs w)) → Prop
  | some z, r => ∃ v, r = .ok (some v) ∧ v.length = N ∧ value sg v = z
  | none, r => r = .ok none

/-- The same for the variables after a sequence of assignments. -/
def ProgChecks (sg : Bool) (N : Nat) : Option (Nat → Int) → Res (Option (Nat → Limbs w)) → Prop
  | some env, r => ∃ s, r = .ok (some s) ∧ ∀ i, (s i).length = N ∧ value sg (s i) = env i
  | none, r => r = .ok none

/-- The checked program returns a value just if the operators compute it, and returns `None` or panics
just if they panic. -/
def ChecksLike {α : Type} (checked : Res (Option α)) (op : Res α) : Prop :=
  match op with
  | .ok v => checked = .ok (some v)
  | .panic => checked = .ok none ∨ checked = .panic

/-- The value of the type of `n` bits that is nearest to `z`. -/
def clamp (sg : Bool) (n : Nat) (z : Int) : Int :=
  if sg then max (-2 ^ (n - 1)) (min z (2 ^ (n - 1) - 1)) else max 0 (min z (2 ^ n - 1))

/-- What an expression denotes if every sum, difference, product, quotient, power and negation is replaced
by the nearest value of the type.  Shift amounts are taken modulo the width. -/
def Expr.clamped (n : Nat) (env : Nat → Int) : Expr sg → Int
  | .var i => env i
  | .add a b => clamp sg n (a.clamped n env + b.clamped n env)
  | .sub a b => clamp sg n (a.clamped n env - b.clamped n env)
  | .mul a b => clamp sg n (a.clamped n env * b.clamped n env)
  | .div a b => clamp sg n ((a.clamped n env).tdiv (b.clamped n env))
  | .rem a b => (a.clamped n env).tmod (b.clamped n env)
  | .and a b => onBits sg n (· &&& ·) (a.clamped n env) (b.clamped n env)
  | .or a b => onBits sg n (· ||| ·) (a.clamped n env) (b.clamped n env)
  | .xor a b => onBits sg n (· ^^^ ·) (a.clamped n env) (b.clamped n env)
  | .not a => (if sg then -1 else 2 ^ n - 1) - a.clamped n env
  | .neg _ a => clamp sg n (-a.clamped n env)
  | .shl a s => reduce sg n (a.clamped n env * 2 ^ (s.toNat % n))
  | .shr a s => a.clamped n env / 2 ^ (s.toNat % n)
  | .pow a e => clamp sg n (a.clamped n env ^ e.toNat)

/-- The values of the variables after a program, as for expressions. -/
def Prog.clamped (n : Nat) : Prog sg → (Nat → Int) → Nat → Int
  | [], env => env
  | (i, e) :: p, env => Prog.clamped n p (Function.update env i (e.clamped n env))

/-- No divisor is zero, and no operation of the saturating program meets one of the known faults of the
crate. -/
def Expr.Safe (w N : Nat) (env : Nat → Int) : Expr sg → Prop
  | .var _ => True
  | .add a b | .sub a b | .and a b | .or a b | .xor a b => a.Safe w N env ∧ b.Safe w N env
  | .not a | .neg _ a | .shl a _ | .shr a _ => a.Safe w N env
  | .mul a b => a.Safe w N env ∧ b.Safe w N env ∧
      (sg = true → ¬ Mul.Gap w N (a.clamped (w * N) env * b.clamped (w * N) env))
  | .div a b => a.Safe w N env ∧ b.Safe w N env ∧ b.clamped (w * N) env ≠ 0 ∧
      ¬ DivPanics w N (a.clamped (w * N) env).natAbs (b.clamped (w * N) env).natAbs
  | .rem a b => a.Safe w N env ∧ b.Safe w N env ∧ b.clamped (w * N) env ≠ 0 ∧
      DivExact w N (a.clamped (w * N) env).natAbs (b.clamped (w * N) env).natAbs
  | .pow a e => a.Safe w N env ∧ (sg = true → ¬ Mul.Gap w N (a.clamped (w * N) env ^ e.toNat))

/-- As for expressions, for each assignment. -/
def Prog.Safe (w N : Nat) : Prog sg → (Nat → Int) → Prop
  | [], _ => True
  | (i, e) :: p, env => e.Safe w N env ∧ Prog.Safe w N p (Function.update env i (e.clamped (w * N) env))

/-- The expression has no `/` and no `%`. -/
def Expr.NoDiv : Expr sg → Prop
  | .var _ => True
  | .add a b | .sub a b | .mul a b | .and a b | .or a b | .xor a b => a.NoDiv ∧ b.NoDiv
  | .not a | .neg _ a | .shl a _ | .shr a _ | .pow a _ => a.NoDiv
  | .div .. | .rem .. => False

end I256
