import Verif.SpecProg

/-!
# Programs with branches and loops over one type

Comparisons, `&&`, `||`, `!`, `if` and `while` as client code writes them, and what they mean on the
integers.
-/

namespace I256

variable {w : Nat} {sg : Bool} {α β : Type}

/-- A condition over variables of one type. -/
inductive Cond (sg : Bool) where
  | eq (a b : Expr sg)
  | ne (a b : Expr sg)
  | lt (a b : Expr sg)
  | le (a b : Expr sg)
  | gt (a b : Expr sg)
  | ge (a b : Expr sg)
  | not (c : Cond sg)
  | and (c d : Cond sg)
  | or (c d : Cond sg)

/-- A program. -/
inductive Cmd (sg : Bool) where
  | skip
  | set (i : Nat) (e : Expr sg)
  | seq (c d : Cmd sg)
  | ite (b : Cond sg) (c d : Cmd sg)
  | loop (b : Cond sg) (c : Cmd sg)

/-- The outcome of a program whose loops may take a limited number of rounds: `more` says that some loop
needs more. -/
inductive Outcome (α : Type) where
  | more
  | panic
  | ends (a : α)

/-- Continue after a program that has ended. -/
def Outcome.bind : Outcome α → (α → Outcome β) → Outcome β
  | .more, _ => .more
  | .panic, _ => .panic
  | .ends a, f => f a

/-- `none` is a panic. -/
def Outcome.ofOption : Option α → Outcome α
  | none => .panic
  | some a => .ends a

/-- Repeat `body` as long as `test` says so, at most `k` times. -/
def repeatWhile (test : α → Outcome Bool) (body : α → Outcome α) : Nat → α → Outcome α
  | 0, s => (test s).bind fun b => if b then .more else .ends s
  | k + 1, s => (test s).bind fun b => if b then (body s).bind (repeatWhile test body k) else .ends s

/-- What a condition means if `ev` says what an expression means. -/
def Cond.sem (ev : Expr sg → Option Int) : Cond sg → Option Bool
  | .eq a b => do some (decide ((← ev a) = (← ev b)))
  | .ne a b => do some (decide ((← ev a) ≠ (← ev b)))
  | .lt a b => do some (decide ((← ev a) < (← ev b)))
  | .le a b => do some (decide ((← ev a) ≤ (← ev b)))
  | .gt a b => do some (decide ((← ev a) > (← ev b)))
  | .ge a b => do some (decide ((← ev a) ≥ (← ev b)))
  | .not c => do some (!(← c.sem ev))
  | .and c d => do if ← c.sem ev then d.sem ev else some false
  | .or c d => do if ← c.sem ev then some true else d.sem ev

/-- What a program means if `ev` says what an expression means; no loop takes more than `k` rounds. -/
def Cmd.sem (ev : (Nat → Int) → Expr sg → Option Int) (k : Nat) : Cmd sg → (Nat → Int) → Outcome (Nat → Int)
  | .skip, env => .ends env
  | .set i e, env => (Outcome.ofOption (ev env e)).bind fun z => .ends (Function.update env i z)
  | .seq c d, env => (c.sem ev k env).bind (d.sem ev k)
  | .ite b c d, env => (Outcome.ofOption (b.sem (ev env))).bind fun t =>
      if t then c.sem ev k env else d.sem ev k env
  | .loop b c, env => repeatWhile (fun env => Outcome.ofOption (b.sem (ev env))) (c.sem ev k) k env

/-- The program on the integers, for a type of `n` bits. -/
def Cmd.exact (n : Nat) : Nat → Cmd sg → (Nat → Int) → Outcome (Nat → Int) :=
  Cmd.sem fun env e => e.exact n env

/-- The program with the known faults as rules. -/
def Cmd.actual (oc : Bool) (w N : Nat) : Nat → Cmd sg → (Nat → Int) → Outcome (Nat → Int) :=
  Cmd.sem fun env e => e.actual oc w N env

/-- Every expression that the condition evaluates satisfies `P`. -/
def Cond.Meets (P : Expr sg → Prop) (ev : Expr sg → Option Int) : Cond sg → Prop
  | .eq a b | .ne a b | .lt a b | .le a b | .gt a b | .ge a b => P a ∧ P b
  | .not c => c.Meets P ev
  | .and c d => c.Meets P ev ∧ (c.sem ev = some true → d.Meets P ev)
  | .or c d => c.Meets P ev ∧ (c.sem ev = some false → d.Meets P ev)

/-- `T` holds before each test of `repeatWhile` and `B` before each round. -/
def repeatMeets (test : α → Outcome Bool) (body : α → Outcome α) (T B : α → Prop) : Nat → α → Prop
  | 0, s => T s
  | k + 1, s => T s ∧ (test s = .ends true → B s ∧ ∀ s', body s = .ends s' → repeatMeets test body T B k s')

/-- Every expression that the program evaluates satisfies `P`. -/
def Cmd.Meets (P : (Nat → Int) → Expr sg → Prop) (ev : (Nat → Int) → Expr sg → Option Int) (k : Nat) :
    Cmd sg → (Nat → Int) → Prop
  | .skip, _ => True
  | .set _ e, env => P env e
  | .seq c d, env => c.Meets P ev k env ∧ ∀ env', c.sem ev k env = .ends env' → d.Meets P ev k env'
  | .ite b c d, env => b.Meets (P env) (ev env) ∧ (b.sem (ev env) = some true → c.Meets P ev k env) ∧
      (b.sem (ev env) = some false → d.Meets P ev k env)
  | .loop b c, env => repeatMeets (fun env => Outcome.ofOption (b.sem (ev env))) (c.sem ev k)
      (fun env => b.Meets (P env) (ev env)) (c.Meets P ev k) k env

/-- No operation that the program evaluates within `k` rounds per loop meets a known fault. -/
def Cmd.Tame (w N k : Nat) (c : Cmd sg) (env : Nat → Int) : Prop :=
  c.Meets (fun env e => e.Tame w N env) (fun env e => e.exact (w * N) env) k env

/-- The program has no `/`, no `%` and, for a signed type, no `*` and no `pow`. -/
def Expr.Plain : Expr sg → Prop
  | .var _ => True
  | .add a b | .sub a b | .and a b | .or a b | .xor a b => a.Plain ∧ b.Plain
  | .not a | .neg _ a | .shl a _ | .shr a _ => a.Plain
  | .mul a b => sg = false ∧ a.Plain ∧ b.Plain
  | .pow a _ => sg = false ∧ a.Plain
  | .div .. | .rem .. => False

/-- As for expressions. -/
def Cond.Plain : Cond sg → Prop
  | .eq a b | .ne a b | .lt a b | .le a b | .gt a b | .ge a b => a.Plain ∧ b.Plain
  | .not c => c.Plain
  | .and c d | .or c d => c.Plain ∧ d.Plain

/-- As for expressions. -/
def Cmd.Plain : Cmd sg → Prop
  | .skip => True
  | .set _ e => e.Plain
  | .seq c d => c.Plain ∧ d.Plain
  | .ite b c d => b.Plain ∧ c.Plain ∧ d.Plain
  | .loop b c => b.Plain ∧ c.Plain

/-- The same outcome: a state whose variables denote the integers, a panic, or a loop that needs more
rounds. -/
def CmdEnds (sg : Bool) (N : Nat) : Outcome (Nat → Int) → Outcome (Nat → Limbs w) → Prop
  | .more, r => r = .more
  | .panic, r => r = .panic
  | .ends env, r => ∃ s, r = .ends s ∧ ∀ i, (s i).length = N ∧ value sg (s i) = env i

end I256
