import Verif.SpecMixed
import Verif.Model.Loop
import Verif.Model.Casts

/-!
# Evaluation of programs over the signed and the unsigned type of one width

`as_signed` and `as_unsigned` keep the limbs (see `Verif.Model.Common`).
-/

namespace I256

variable {w : Nat}

/-- The result of a conversion: `as_unsigned` and `as_signed`, src/shared/casts.rs L371-379; `unsigned_abs`,
src/int/ops.rs L68-70; `TryFrom`, src/int/traits.rs L134-140 and src/uint/traits.rs L165-171, with `unwrap`. -/
def Move.run (x : Limbs w) : Move → Res (Limbs w)
  | .asSigned => .ok x
  | .asUnsigned => .ok x
  | .unsignedAbs => .ok (I.unsignedAbs x)
  | .trySigned => match Cast.tryFromUnsigned x with
    | none => .panic
    | some y => .ok y
  | .tryUnsigned => match Cast.tryFromSigned x with
    | none => .panic
    | some y => .ok y

/-- A program over both types, with the operators of src/shared/ops.rs L53-131, the comparisons of
src/shared/ord.rs L180-198 and `from_u128` and `from_i128`, src/shared/casts.rs L91-106 and L197-214. -/
def Mix.run (oc : Bool) (N k : Nat) : Mix → (Bool → Nat → Limbs w) → Outcome (Bool → Nat → Limbs w)
  | .skip, s => .ends s
  | .lit sg i v, s => .ends (setVar s sg i (if sg then Cast.fromI128 N v else Cast.fromU128 N v))
  | .set (sg := sg) i e, s => (Outcome.ofRes (e.eval oc (s sg))).bind fun x => .ends (setVar s sg i x)
  | .move m i j, s => (Outcome.ofRes (m.run (s m.src j))).bind fun x => .ends (setVar s (!m.src) i x)
  | .seq c d, s => (c.run oc N k s).bind (d.run oc N k)
  | .ite (sg := sg) b c d, s => (Outcome.ofRes (b.eval oc (s sg))).bind fun t =>
      if t then c.run oc N k s else d.run oc N k s
  | .loop (sg := sg) b c, s =>
      repeatWhile (fun s => Outcome.ofRes (b.eval oc (s sg))) (c.run oc N k) k s

end I256
