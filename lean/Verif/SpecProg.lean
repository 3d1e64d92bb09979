import Verif.SpecDiv
import Verif.SpecGap
import Verif.SpecWiden

/-!
# Straight-line programs over one type

Expressions and assignments as client code writes them with the operators of one type, and what they
mean on the integers.  `sg` says whether the type is signed.
-/

namespace I256

variable {w : Nat}

/-- The value of an operand. -/
def value (sg : Bool) (x : Limbs w) : Int := if sg then toInt x else toNat x

/-- An expression over variables `0, 1, 2, …` of one type.  Only signed types have a negation. -/
inductive Expr (sg : Bool) where
  | var (i : Nat)
  | add (a b : Expr sg)
  | sub (a b : Expr sg)
  | mul (a b : Expr sg)
  | div (a b : Expr sg)
  | rem (a b : Expr sg)
  | and (a b : Expr sg)
  | or (a b : Expr sg)
  | xor (a b : Expr sg)
  | not (a : Expr sg)
  | neg (h : sg = true) (a : Expr sg)
  | shl (a : Expr sg) (s : BitVec 32)
  | shr (a : Expr sg) (s : BitVec 32)
  | pow (a : Expr sg) (e : BitVec 32)

/-- A sequence of assignments to variables. -/
abbrev Prog (sg : Bool) := List (Nat × Expr sg)

/-- `z` is in the range of the type of `n` bits. -/
def Fits (sg : Bool) (n : Nat) (z : Int) : Prop := if sg then InS n z else InU n z

instance (sg : Bool) (n : Nat) (z : Int) : Decidable (Fits sg n z) := by
  unfold Fits InS InU; infer_instance

/-- `z`, if the type can hold it. -/
def keep (sg : Bool) (n : Nat) (z : Int) : Option Int := if Fits sg n z then some z else none

/-- The value of the type of `n` bits that is congruent to `z` modulo `2 ^ n`. -/
def reduce (sg : Bool) (n : Nat) (z : Int) : Int := if sg then z.bmod (2 ^ n) else z % 2 ^ n

/-- An operation on the two's complement forms of two values. -/
def onBits (sg : Bool) (n : Nat) (f : BitVec n → BitVec n → BitVec n) (x y : Int) : Int :=
  if sg then (f (BitVec.ofInt n x) (BitVec.ofInt n y)).toInt
  else (f (BitVec.ofInt n x) (BitVec.ofInt n y)).toNat

/-- The integer that an expression denotes if every intermediate result fits; `none` if one does not, if
a divisor is zero or if a shift amount is not below the width. -/
def Expr.exact {sg : Bool} (n : Nat) (env : Nat → Int) : Expr sg → Option Int
  | .var i => some (env i)
  | .add a b => do keep sg n ((← a.exact n env) + (← b.exact n env))
  | .sub a b => do keep sg n ((← a.exact n env) - (← b.exact n env))
  | .mul a b => do keep sg n ((← a.exact n env) * (← b.exact n env))
  | .div a b => do
      let x ← a.exact n env
      let y ← b.exact n env
      if y = 0 then none else keep sg n (x.tdiv y)
  | .rem a b => do
      let x ← a.exact n env
      let y ← b.exact n env
      if y = 0 ∨ ¬ Fits sg n (x.tdiv y) then none else some (x.tmod y)
  | .and a b => do some (onBits sg n (· &&& ·) (← a.exact n env) (← b.exact n env))
  | .or a b => do some (onBits sg n (· ||| ·) (← a.exact n env) (← b.exact n env))
  | .xor a b => do some (onBits sg n (· ^^^ ·) (← a.exact n env) (← b.exact n env))
  | .not a => do some ((if sg then -1 else 2 ^ n - 1) - (← a.exact n env))
  | .neg _ a => do keep sg n (-(← a.exact n env))
  | .shl a s => do
      let x ← a.exact n env
      if s.toNat < n then some (reduce sg n (x * 2 ^ s.toNat)) else none
  | .shr a s => do
      let x ← a.exact n env
      if s.toNat < n then some (x / 2 ^ s.toNat) else none
  | .pow a e => do keep sg n ((← a.exact n env) ^ e.toNat)

/-- The values of the variables after a program; `none` as for expressions. -/
def Prog.exact {sg : Bool} (n : Nat) : Prog sg → (Nat → Int) → Option (Nat → Int)
  | [], env => some env
  | (i, e) :: p, env => do
      let z ← e.exact n env
      Prog.exact n p (Function.update env i z)

/-- `r` is a value that denotes the integer, or a panic if there is none. -/
def ExprGives (sg : Bool) (N : Nat) : Option Int → Res (Limbs w) → Prop
  | some z, r => ∃ v, r = .ok v ∧ v.length = N ∧ value sg v = z
  | none, r => r = .panic

/-- `r` is a state whose variables denote the integers, or a panic if there are none. -/
def ProgEnds (sg : Bool) (N : Nat) : Option (Nat → Int) → Res (Nat → Limbs w) → Prop
  | some env, r => ∃ s, r = .ok s ∧ ∀ i, (s i).length = N ∧ value sg (s i) = env i
  | none, r => r = .panic

/-- `P` holds of the two values, if there are two. -/
def Both (P : Int → Int → Prop) : Option Int → Option Int → Prop
  | some x, some y => P x y
  | _, _ => True

/-- No operation of the expression meets one of the known faults of the crate: no signed product or
power lies in the gap of C08, and no division has to correct an estimated digit in such a way that it
panics (C14) or leaves a wrong remainder (C13). -/
def Expr.Tame {sg : Bool} (w N : Nat) (env : Nat → Int) : Expr sg → Prop
  | .var _ => True
  | .add a b | .sub a b | .and a b | .or a b | .xor a b => a.Tame w N env ∧ b.Tame w N env
  | .not a | .neg _ a | .shl a _ | .shr a _ => a.Tame w N env
  | .mul a b => a.Tame w N env ∧ b.Tame w N env ∧
      Both (fun x y => sg = true → ¬ Mul.Gap w N (x * y)) (a.exact (w * N) env) (b.exact (w * N) env)
  | .div a b => a.Tame w N env ∧ b.Tame w N env ∧
      Both (fun x y => ¬ DivPanics w N x.natAbs y.natAbs) (a.exact (w * N) env) (b.exact (w * N) env)
  | .rem a b => a.Tame w N env ∧ b.Tame w N env ∧
      Both (fun x y => DivExact w N x.natAbs y.natAbs) (a.exact (w * N) env) (b.exact (w * N) env)
  | .pow a e => a.Tame w N env ∧
      Both (fun x _ => sg = true → ¬ Mul.Gap w N (x ^ e.toNat)) (a.exact (w * N) env) (some 0)

/-- Every expression of the program is tame when it is evaluated. -/
def Prog.Tame {sg : Bool} (w N : Nat) : Prog sg → (Nat → Int) → Prop
  | [], _ => True
  | (i, e) :: p, env => e.Tame w N env ∧
      ∀ z, e.exact (w * N) env = some z → Prog.Tame w N p (Function.update env i z)

/-- What `z` becomes in a build with or without overflow checks. -/
def settle (oc sg : Bool) (n : Nat) (z : Int) : Option Int :=
  if oc then keep sg n z else some (reduce sg n z)

instance (w N : Nat) (z : Int) : Decidable (Passes w N z) := by unfold Passes; infer_instance

/-- The same for a product or power: for a signed type the gap passes for representable. -/
def settleMul (oc sg : Bool) (w N : Nat) (z : Int) : Option Int :=
  if sg && oc then if Passes w N z then some (reduce true (w * N) z) else none
  else settle oc sg (w * N) z

/-- What an expression denotes if the known faults of the crate are taken for its rules; `none` is a
panic.  Without overflow checks `0 / 0` is 1 and `0 % 0` is 0. -/
def Expr.actual {sg : Bool} (oc : Bool) (w N : Nat) (env : Nat → Int) : Expr sg → Option Int
  | .var i => some (env i)
  | .add a b => do settle oc sg (w * N) ((← a.actual oc w N env) + (← b.actual oc w N env))
  | .sub a b => do settle oc sg (w * N) ((← a.actual oc w N env) - (← b.actual oc w N env))
  | .mul a b => do settleMul oc sg w N ((← a.actual oc w N env) * (← b.actual oc w N env))
  | .div a b => do
      let x ← a.actual oc w N env
      let y ← b.actual oc w N env
      if y = 0 then if oc = true ∨ x ≠ 0 then none else some 1
      else if DivPanics w N x.natAbs y.natAbs then none else settle oc sg (w * N) (x.tdiv y)
  | .rem a b => do
      let x ← a.actual oc w N env
      let y ← b.actual oc w N env
      if y = 0 then if oc = true ∨ x ≠ 0 then none else some 0
      else if DivPanics w N x.natAbs y.natAbs ∨ oc = true ∧ ¬ Fits sg (w * N) (x.tdiv y) then none
      else some (x.tmod y + x.sign * strayRem w N x.natAbs y.natAbs)
  | .and a b => do some (onBits sg (w * N) (· &&& ·) (← a.actual oc w N env) (← b.actual oc w N env))
  | .or a b => do some (onBits sg (w * N) (· ||| ·) (← a.actual oc w N env) (← b.actual oc w N env))
  | .xor a b => do some (onBits sg (w * N) (· ^^^ ·) (← a.actual oc w N env) (← b.actual oc w N env))
  | .not a => do some ((if sg then -1 else 2 ^ (w * N) - 1) - (← a.actual oc w N env))
  | .neg _ a => do settle oc sg (w * N) (-(← a.actual oc w N env))
  | .shl a s => do
      let x ← a.actual oc w N env
      if oc = true ∧ ¬ s.toNat < w * N then none
      else some (reduce sg (w * N) (x * 2 ^ (s.toNat % (w * N))))
  | .shr a s => do
      let x ← a.actual oc w N env
      if oc = true ∧ ¬ s.toNat < w * N then none else some (x / 2 ^ (s.toNat % (w * N)))
  | .pow a e => do settleMul oc sg w N ((← a.actual oc w N env) ^ e.toNat)

/-- The values of the variables after a program, as for expressions. -/
def Prog.actual {sg : Bool} (oc : Bool) (w N : Nat) : Prog sg → (Nat → Int) → Option (Nat → Int)
  | [], env => some env
  | (i, e) :: p, env => do
      let z ← e.actual oc w N env
      Prog.actual oc w N p (Function.update env i z)

/-- The expression uses only operations that are compatible with reduction modulo `2 ^ n`. -/
def Expr.Ring {sg : Bool} : Expr sg → Prop
  | .var _ => True
  | .add a b | .sub a b | .mul a b => a.Ring ∧ b.Ring
  | .not a | .neg _ a | .shl a _ | .pow a _ => a.Ring
  | .div .. | .rem .. | .and .. | .or .. | .xor .. | .shr .. => False

/-- The unbounded integer that such an expression denotes: a polynomial in the variables. -/
def Expr.poly {sg : Bool} (n : Nat) (env : Nat → Int) : Expr sg → Int
  | .var i => env i
  | .add a b => a.poly n env + b.poly n env
  | .sub a b => a.poly n env - b.poly n env
  | .mul a b => a.poly n env * b.poly n env
  | .not a => -1 - a.poly n env
  | .neg _ a => -a.poly n env
  | .shl a s => a.poly n env * 2 ^ (s.toNat % n)
  | .pow a e => a.poly n env ^ e.toNat
  | .div .. | .rem .. | .and .. | .or .. | .xor .. | .shr .. => 0

/-- The unbounded integers in the variables after a program. -/
def Prog.poly {sg : Bool} (n : Nat) : Prog sg → (Nat → Int) → Nat → Int
  | [], env => env
  | (i, e) :: p, env => Prog.poly n p (Function.update env i (e.poly n env))

instance (P : Int → Int → Prop) [∀ x y, Decidable (P x y)] (oa ob : Option Int) : Decidable (Both P oa ob) := by
  unfold Both; split <;> infer_instance

/-- Tameness is decidable. -/
def Expr.decTame {sg : Bool} (w N : Nat) (env : Nat → Int) : (e : Expr sg) → Decidable (e.Tame w N env)
  | .var _ => isTrue trivial
  | .add a b | .sub a b | .and a b | .or a b | .xor a b =>
      haveI := a.decTame w N env; haveI := b.decTame w N env; instDecidableAnd
  | .not a | .neg _ a | .shl a _ | .shr a _ => a.decTame w N env
  | .mul a b | .div a b | .rem a b =>
      haveI := a.decTame w N env; haveI := b.decTame w N env; instDecidableAnd
  | .pow a _ => haveI := a.decTame w N env; instDecidableAnd

instance {sg : Bool} (w N : Nat) (env : Nat → Int) (e : Expr sg) : Decidable (e.Tame w N env) :=
  e.decTame w N env

/-- Tameness is decidable. -/
def Prog.decTame {sg : Bool} (w N : Nat) : (p : Prog sg) → (env : Nat → Int) → Decidable (Prog.Tame w N p env)
  | [], _ => isTrue trivial
  | (i, e) :: p, env =>
    match h : e.exact (w * N) env with
    | none => decidable_of_iff (e.Tame w N env) ⟨fun t => ⟨t, fun z hz => by simp [h] at hz⟩, fun t => t.1⟩
    | some z =>
      haveI := Prog.decTame w N p (Function.update env i z)
      decidable_of_iff (e.Tame w N env ∧ Prog.Tame w N p (Function.update env i z))
        ⟨fun t => ⟨t.1, fun z' hz => by rw [h] at hz; cases hz; exact t.2⟩, fun t => ⟨t.1, t.2 z h⟩⟩

instance {sg : Bool} (w N : Nat) (p : Prog sg) (env : Nat → Int) : Decidable (Prog.Tame w N p env) :=
  Prog.decTame w N p env

end I256
