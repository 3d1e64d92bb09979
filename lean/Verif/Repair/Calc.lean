import Verif.Repair.Prog
import Verif.Model.Calc

/-!
# Repaired programs from text to text (not in the crate)

Like `Verif.Repair.Div`: not a model of existing code.  The programs of `Verif.Model.Calc` with the operators
of `Verif.Repair.Prog` and a signed parser that multiplies with `Repair.checkedMulULimbS` (B1).
-/

namespace I256.Repair

variable {w : Nat} {sg : Bool}

/-- `FromStr::from_str`, src/int/traits.rs L38-51, with the changed `checked_mul_ulimb` (B1) in
`from_str_radix`. -/
def fromStrS (p32 : Bool) (N : Nat) (src : List Byte) : Res (Parsed (Limbs w)) :=
  if p32 && src.length < 19 then
    .ok (Parse.Parsed.map (Cast.fromI64 N) (Parse.primFromStr true 64 src))
  else if src.length < 39 then
    .ok (Parse.Parsed.map (Cast.fromI128 N) (Parse.primFromStr true 128 src))
  else Parse.fromStrRadix parseOpsS true N src 10

/-- `FromStr`, src/uint/traits.rs L137-150 unchanged and src/int/traits.rs L38-51 changed (B1). -/
def parse (sg p32 : Bool) (N : Nat) (t : List Byte) : Res (Parsed (Limbs w)) :=
  if sg then fromStrS p32 N t else U.fromStr p32 N t

/-- The whole program, with the operators of src/shared/ops.rs L53-131 and the signed `FromStr` of
src/int/traits.rs L38-51 changed (B1, B2, B4). -/
def main (oc p32 : Bool) (N k : Nat) (c : Cmd sg) (o : Nat) (ts : List (List Byte)) :
    Outcome (Parsed (List Byte)) :=
  Calc.session (w := w) N o (parse sg p32 N) (run oc k c) (Calc.print sg oc) ts

end I256.Repair
