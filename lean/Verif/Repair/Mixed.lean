import Verif.Model.Mixed
import Verif.Repair.Prog

/-!
# Programs over both types with the repaired operations (not in the crate)

Like `Verif.Repair.Prog`, with `Repair.tryFromUnsigned` (B11) in the place of `TryFrom` to the signed type.
-/

namespace I256

variable {w : Nat}

namespace Repair

/-- `Move.run` with the changed `TryFrom`. -/
def move (x : Limbs w) : Move → Res (Limbs w)
  | .trySigned => match tryFromUnsigned x with
    | none => .panic
    | some y => .ok y
  | m => m.run x

/-- `Mix.run` with the changed operators. -/
def runMix (oc : Bool) (N k : Nat) : Mix → (Bool → Nat → Limbs w) → Outcome (Bool → Nat → Limbs w)
  | .skip, s => .ends s
  | .lit sg i v, s => .ends (setVar s sg i (if sg then Cast.fromI128 N v else Cast.fromU128 N v))
  | .set (sg := sg) i e, s => (Outcome.ofRes (eval oc (s sg) e)).bind fun x => .ends (setVar s sg i x)
  | .move m i j, s => (Outcome.ofRes (move (s m.src j) m)).bind fun x => .ends (setVar s (!m.src) i x)
  | .seq c d, s => (runMix oc N k c s).bind (runMix oc N k d)
  | .ite (sg := sg) b c d, s => (Outcome.ofRes (test oc (s sg) b)).bind fun t =>
      if t then runMix oc N k c s else runMix oc N k d s
  | .loop (sg := sg) b c, s =>
      repeatWhile (fun s => Outcome.ofRes (test oc (s sg) b)) (runMix oc N k c) k s

end Repair

end I256
