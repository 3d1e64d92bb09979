import Verif.SpecIdeal
import Verif.Repair.Rest
import Verif.Model.Loop

/-!
# Programs with the repaired operations (not in the crate)

Like `Verif.Repair.Div`: not a model of existing code.  The operators are those of the crate with
`Repair.full` (B2, B4) in the place of `full` and `Repair.overflowingFullS` (B1) in the place of
`overflowing_full`; all others are unchanged.
-/

namespace I256

variable {w : Nat} {sg : Bool}

namespace Repair

/-- Signed `Mul::mul`, src/shared/ops.rs L89-98, on the changed kernel (B1). -/
def mulS (oc : Bool) (x y : Limbs w) : Res (Limbs w) :=
  opOf oc (I.wrappingMul x y) (mkChecked (overflowingFullS x y))

/-- Signed `pow`, src/shared/ops.rs L20-26, on the changed kernel (B1). -/
def powS (oc : Bool) (x : Limbs w) (e : Nat) : Res (Limbs w) :=
  opOf oc (I.wrappingPow x e) (mkChecked (overflowingPow overflowingFullS x e))

/-- `Div::div`, src/shared/ops.rs L73-82, on the changed `full` (B2, B4). -/
def divOp (sg oc : Bool) (x y : Limbs w) : Res (Limbs w) :=
  if sg then opOfR oc ((wrappingDivRemS x y).map (·.1)) (checkedBy (I.isDivNone x y) ((wrappingDivRemS x y).map (·.1)))
  else opOfR oc ((full x y).map (·.1)) (checkedBy (U.isDivNone y) ((full x y).map (·.1)))

/-- `Rem::rem`, src/shared/ops.rs L105-114, on the changed `full` (B2, B4). -/
def remOp (sg oc : Bool) (x y : Limbs w) : Res (Limbs w) :=
  if sg then opOfR oc ((wrappingDivRemS x y).map (·.2)) (checkedBy (I.isDivNone x y) ((wrappingDivRemS x y).map (·.2)))
  else opOfR oc ((full x y).map (·.2)) (checkedBy (U.isDivNone y) ((full x y).map (·.2)))

/-- `Expr.eval` with the changed operators. -/
def eval (oc : Bool) (s : Nat → Limbs w) : Expr sg → Res (Limbs w)
  | .var i => .ok (s i)
  | .add a b => (eval oc s a).bind fun x => (eval oc s b).bind fun y =>
      if sg then I.add oc x y else U.add oc x y
  | .sub a b => (eval oc s a).bind fun x => (eval oc s b).bind fun y =>
      if sg then I.sub oc x y else U.sub oc x y
  | .mul a b => (eval oc s a).bind fun x => (eval oc s b).bind fun y =>
      if sg then mulS oc x y else U.mul oc x y
  | .div a b => (eval oc s a).bind fun x => (eval oc s b).bind fun y => divOp sg oc x y
  | .rem a b => (eval oc s a).bind fun x => (eval oc s b).bind fun y => remOp sg oc x y
  | .and a b => (eval oc s a).bind fun x => (eval oc s b).bind fun y => .ok (Bits.and x y)
  | .or a b => (eval oc s a).bind fun x => (eval oc s b).bind fun y => .ok (Bits.or x y)
  | .xor a b => (eval oc s a).bind fun x => (eval oc s b).bind fun y => .ok (Bits.xor x y)
  | .not a => (eval oc s a).bind fun x => .ok (Bits.not x)
  | .neg _ a => (eval oc s a).bind fun x => I.neg oc x
  | .shl a n => (eval oc s a).bind fun x => I256.shlPrim oc false x n
  | .shr a n => (eval oc s a).bind fun x => I256.shrPrim oc false sg x n
  | .pow a e => (eval oc s a).bind fun x => if sg then powS oc x e.toNat else U.pow oc x e.toNat

/-- `Cond.eval` with the changed operators. -/
def test (oc : Bool) (s : Nat → Limbs w) : Cond sg → Res Bool
  | .eq a b => (eval oc s a).bind fun x => (eval oc s b).bind fun y => .ok (x == y)
  | .ne a b => (eval oc s a).bind fun x => (eval oc s b).bind fun y => .ok (x != y)
  | .lt a b => (eval oc s a).bind fun x => (eval oc s b).bind fun y => .ok (Ord.lt sg x y)
  | .le a b => (eval oc s a).bind fun x => (eval oc s b).bind fun y => .ok (Ord.le sg x y)
  | .gt a b => (eval oc s a).bind fun x => (eval oc s b).bind fun y => .ok (Ord.gt sg x y)
  | .ge a b => (eval oc s a).bind fun x => (eval oc s b).bind fun y => .ok (Ord.ge sg x y)
  | .not c => (test oc s c).bind fun t => .ok (!t)
  | .and c d => (test oc s c).bind fun t => if t then test oc s d else .ok false
  | .or c d => (test oc s c).bind fun t => if t then .ok true else test oc s d

/-- `Cmd.run` with the changed operators. -/
def run (oc : Bool) (k : Nat) : Cmd sg → (Nat → Limbs w) → Outcome (Nat → Limbs w)
  | .skip, s => .ends s
  | .set i e, s => (Outcome.ofRes (eval oc s e)).bind fun v => .ends (Function.update s i v)
  | .seq c d, s => (run oc k c s).bind (run oc k d)
  | .ite b c d, s => (Outcome.ofRes (test oc s b)).bind fun t => if t then run oc k c s else run oc k d s
  | .loop b c, s => repeatWhile (fun s => Outcome.ofRes (test oc s b)) (run oc k c) k s

end Repair

end I256
