import Verif.SpecProg
import Verif.Model.AddSubApi
import Verif.Model.MulApi
import Verif.Model.DivApi
import Verif.Model.Bitops
import Verif.Model.Shift

/-!
# Evaluation of straight-line programs with the operators of the crate

The operands of an operator are evaluated from left to right, then the operator is applied; a panic
ends the program.  `oc` says whether the build has overflow checks.
-/

namespace I256

variable {w : Nat}

/-- An expression evaluated with the operators of one type: `Add`, `Div`, `Mul`, `Rem` and `Sub`,
src/shared/ops.rs L53-131; `pow`, L20-26; `Not`, L141-148; `BitAnd`, `BitOr` and `BitXor`,
src/shared/bitops.rs L241-265; `Neg`, src/int/traits.rs L12-26; `Shl<u32>` and `Shr<u32>`,
src/shared/shift.rs L5-31. -/
def Expr.eval {sg : Bool} (oc : Bool) (s : Nat → Limbs w) : Expr sg → Res (Limbs w)
  | .var i => .ok (s i)
  | .add a b => (a.eval oc s).bind fun x => (b.eval oc s).bind fun y =>
      if sg then I.add oc x y else U.add oc x y
  | .sub a b => (a.eval oc s).bind fun x => (b.eval oc s).bind fun y =>
      if sg then I.sub oc x y else U.sub oc x y
  | .mul a b => (a.eval oc s).bind fun x => (b.eval oc s).bind fun y =>
      if sg then I.mul oc x y else U.mul oc x y
  | .div a b => (a.eval oc s).bind fun x => (b.eval oc s).bind fun y =>
      if sg then I.div oc x y else U.div oc x y
  | .rem a b => (a.eval oc s).bind fun x => (b.eval oc s).bind fun y =>
      if sg then I.rem oc x y else U.rem oc x y
  | .and a b => (a.eval oc s).bind fun x => (b.eval oc s).bind fun y => .ok (Bits.and x y)
  | .or a b => (a.eval oc s).bind fun x => (b.eval oc s).bind fun y => .ok (Bits.or x y)
  | .xor a b => (a.eval oc s).bind fun x => (b.eval oc s).bind fun y => .ok (Bits.xor x y)
  | .not a => (a.eval oc s).bind fun x => .ok (Bits.not x)
  | .neg _ a => (a.eval oc s).bind fun x => I.neg oc x
  | .shl a n => (a.eval oc s).bind fun x => shlPrim oc false x n
  | .shr a n => (a.eval oc s).bind fun x => shrPrim oc false sg x n
  | .pow a e => (a.eval oc s).bind fun x => if sg then I.pow oc x e.toNat else U.pow oc x e.toNat

/-- A sequence of assignments `vᵢ = e`, with the operators of src/shared/ops.rs L53-131. -/
def Prog.run {sg : Bool} (oc : Bool) : Prog sg → (Nat → Limbs w) → Res (Nat → Limbs w)
  | [], s => .ok s
  | (i, e) :: p, s => (e.eval oc s).bind fun v => Prog.run oc p (Function.update s i v)

end I256
