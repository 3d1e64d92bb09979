import Verif.SpecIdeal

/-!
# Programs over the signed and the unsigned type of one width

Client code mixes the two types of a width: literals, `as_signed`, `as_unsigned`, `unsigned_abs` and `TryFrom`
go between them.
-/

namespace I256

variable {w : Nat} {sg : Bool} {α β : Type}

/-- A conversion between the two types; `trySigned` and `tryUnsigned` are `TryFrom` with `unwrap`. -/
inductive Move where
  | asSigned
  | asUnsigned
  | unsignedAbs
  | trySigned
  | tryUnsigned

/-- Whether the operand is signed. -/
def Move.src : Move → Bool
  | .asSigned | .trySigned => false
  | .asUnsigned | .unsignedAbs | .tryUnsigned => true

/-- What a conversion means for types of `n` bits. -/
def Move.exact (n : Nat) (z : Int) : Move → Option Int
  | .asSigned => some (reduce true n z)
  | .asUnsigned => some (reduce false n z)
  | .unsignedAbs => some |z|
  | .trySigned => keep true n z
  | .tryUnsigned => keep false n z

/-- The same with the fault of C28 as a rule: `TryFrom` rejects the largest signed number. -/
def Move.actual (n : Nat) (z : Int) : Move → Option Int
  | .trySigned => if z = 2 ^ (n - 1) - 1 then none else keep true n z
  | m => m.exact n z

/-- A program over the two types.  `lit` assigns a literal of the type `u128` or `i128`, `move m i j` assigns the
converted variable `j` to the variable `i` of the other type. -/
inductive Mix where
  | skip
  | lit (sg : Bool) (i : Nat) (v : BitVec 128)
  | set {sg : Bool} (i : Nat) (e : Expr sg)
  | move (m : Move) (i j : Nat)
  | seq (c d : Mix)
  | ite {sg : Bool} (b : Cond sg) (c d : Mix)
  | loop {sg : Bool} (b : Cond sg) (c : Mix)

/-- Change a variable of one of the types. -/
def setVar (s : Bool → Nat → α) (sg : Bool) (i : Nat) (a : α) : Bool → Nat → α :=
  Function.update s sg (Function.update (s sg) i a)

/-- What a program means if `ev` says what an expression means and `mv` what a conversion means. -/
def Mix.sem (ev : (sg : Bool) → (Nat → Int) → Expr sg → Option Int) (mv : Int → Move → Option Int) (k : Nat) :
    Mix → (Bool → Nat → Int) → Outcome (Bool → Nat → Int)
  | .skip, env => .ends env
  | .lit sg i v, env => .ends (setVar env sg i (if sg then v.toInt else v.toNat))
  | .set (sg := sg) i e, env => (Outcome.ofOption (ev sg (env sg) e)).bind fun z => .ends (setVar env sg i z)
  | .move m i j, env => (Outcome.ofOption (mv (env m.src j) m)).bind fun z => .ends (setVar env (!m.src) i z)
  | .seq c d, env => (c.sem ev mv k env).bind (d.sem ev mv k)
  | .ite (sg := sg) b c d, env => (Outcome.ofOption (b.sem (ev sg (env sg)))).bind fun t =>
      if t then c.sem ev mv k env else d.sem ev mv k env
  | .loop (sg := sg) b c, env =>
      repeatWhile (fun env => Outcome.ofOption (b.sem (ev sg (env sg)))) (c.sem ev mv k) k env

/-- The program on the integers, for types of `n` bits. -/
def Mix.exact (n : Nat) : Nat → Mix → (Bool → Nat → Int) → Outcome (Bool → Nat → Int) :=
  Mix.sem (fun _ env e => e.exact n env) (Move.exact n)

/-- The program with the known faults as rules. -/
def Mix.actual (oc : Bool) (w N : Nat) : Nat → Mix → (Bool → Nat → Int) → Outcome (Bool → Nat → Int) :=
  Mix.sem (fun _ env e => e.actual oc w N env) (Move.actual (w * N))

/-- What a program should do for types of `n` bits in either build. -/
def Mix.ideal (oc : Bool) (n : Nat) : Nat → Mix → (Bool → Nat → Int) → Outcome (Bool → Nat → Int) :=
  Mix.sem (fun _ env e => e.ideal oc n env) (Move.exact n)

/-- Every expression that the program evaluates satisfies `P` and every conversion `Q`. -/
def Mix.Meets (P : (sg : Bool) → (Nat → Int) → Expr sg → Prop) (Q : Int → Move → Prop)
    (ev : (sg : Bool) → (Nat → Int) → Expr sg → Option Int) (mv : Int → Move → Option Int) (k : Nat) :
    Mix → (Bool → Nat → Int) → Prop
  | .skip, _ => True
  | .lit .., _ => True
  | .set (sg := sg) _ e, env => P sg (env sg) e
  | .move m _ j, env => Q (env m.src j) m
  | .seq c d, env => c.Meets P Q ev mv k env ∧ ∀ env', c.sem ev mv k env = .ends env' → d.Meets P Q ev mv k env'
  | .ite (sg := sg) b c d, env => b.Meets (P sg (env sg)) (ev sg (env sg)) ∧
      (b.sem (ev sg (env sg)) = some true → c.Meets P Q ev mv k env) ∧
      (b.sem (ev sg (env sg)) = some false → d.Meets P Q ev mv k env)
  | .loop (sg := sg) b c, env => repeatMeets (fun env => Outcome.ofOption (b.sem (ev sg (env sg)))) (c.sem ev mv k)
      (fun env => b.Meets (P sg (env sg)) (ev sg (env sg))) (c.Meets P Q ev mv k) k env

/-- No operation that the program evaluates within `k` rounds per loop meets a known fault. -/
def Mix.Tame (w N k : Nat) (c : Mix) (env : Bool → Nat → Int) : Prop :=
  c.Meets (fun _ env e => e.Tame w N env) (fun z m => m = .trySigned → z ≠ 2 ^ (w * N - 1) - 1)
    (fun _ env e => e.exact (w * N) env) (Move.exact (w * N)) k env

/-- The program has no `/`, no `%`, no signed `*` and `pow` and no `TryFrom` to the signed type. -/
def Mix.Plain : Mix → Prop
  | .skip => True
  | .lit .. => True
  | .set _ e => e.Plain
  | .move m _ _ => m ≠ .trySigned
  | .seq c d => c.Plain ∧ d.Plain
  | .ite b c d => b.Plain ∧ c.Plain ∧ d.Plain
  | .loop b c => b.Plain ∧ c.Plain

/-- The same outcome, variables of both types. -/
def MixEnds (N : Nat) : Outcome (Bool → Nat → Int) → Outcome (Bool → Nat → Limbs w) → Prop
  | .more, r => r = .more
  | .panic, r => r = .panic
  | .ends env, r => ∃ s, r = .ends s ∧ ∀ sg i, (s sg i).length = N ∧ value sg (s sg i) = env sg i

end I256
