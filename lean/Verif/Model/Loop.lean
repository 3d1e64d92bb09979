import Verif.SpecLoop
import Verif.Model.Prog
import Verif.Model.Ord

/-!
# Evaluation of programs with branches and loops

`&&` and `||` evaluate their second operand only if they have to.  `oc` says whether the build has
overflow checks, `k` bounds the rounds of every loop.
-/

namespace I256

variable {w : Nat} {sg : Bool}

/-- A condition evaluated with the comparisons of one type: `PartialEq` is derived, src/shared/mod.rs
L63; `lt`, `le`, `gt` and `ge` of `PartialOrd`, src/shared/ord.rs L180-198. -/
def Cond.eval (oc : Bool) (s : Nat → Limbs w) : Cond sg → Res Bool
  | .eq a b => (a.eval oc s).bind fun x => (b.eval oc s).bind fun y => .ok (x == y)
  | .ne a b => (a.eval oc s).bind fun x => (b.eval oc s).bind fun y => .ok (x != y)
  | .lt a b => (a.eval oc s).bind fun x => (b.eval oc s).bind fun y => .ok (Ord.lt sg x y)
  | .le a b => (a.eval oc s).bind fun x => (b.eval oc s).bind fun y => .ok (Ord.le sg x y)
  | .gt a b => (a.eval oc s).bind fun x => (b.eval oc s).bind fun y => .ok (Ord.gt sg x y)
  | .ge a b => (a.eval oc s).bind fun x => (b.eval oc s).bind fun y => .ok (Ord.ge sg x y)
  | .not c => (c.eval oc s).bind fun t => .ok (!t)
  | .and c d => (c.eval oc s).bind fun t => if t then d.eval oc s else .ok false
  | .or c d => (c.eval oc s).bind fun t => if t then .ok true else d.eval oc s

/-- A panic ends the program. -/
def Outcome.ofRes {α : Type} : Res α → Outcome α
  | .panic => .panic
  | .ok a => .ends a

/-- A program with branches and loops, with the operators of src/shared/ops.rs L53-131 and the
comparisons of src/shared/ord.rs L180-198. -/
def Cmd.run (oc : Bool) (k : Nat) : Cmd sg → (Nat → Limbs w) → Outcome (Nat → Limbs w)
  | .skip, s => .ends s
  | .set i e, s => (Outcome.ofRes (e.eval oc s)).bind fun v => .ends (Function.update s i v)
  | .seq c d, s => (c.run oc k s).bind (d.run oc k)
  | .ite b c d, s => (Outcome.ofRes (b.eval oc s)).bind fun t => if t then c.run oc k s else d.run oc k s
  | .loop b c, s => repeatWhile (fun s => Outcome.ofRes (b.eval oc s)) (c.run oc k) k s

end I256
