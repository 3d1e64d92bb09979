import Verif.SpecCalc
import Verif.Model.Loop
import Verif.Model.Parse
import Verif.Model.Write

/-!
# Programs that read and write decimal text

Client code of the form `let a: i256 = args[0].parse()?; …; println!("{}", r)`.
-/

namespace I256.Calc

variable {w : Nat} {sg : Bool}

/-- `str::parse` with `FromStr`, src/uint/traits.rs L137-150 and src/int/traits.rs L38-51. -/
def parse (sg p32 : Bool) (N : Nat) (t : List Byte) : Res (Parsed (Limbs w)) :=
  if sg then I.fromStr p32 N t else U.fromStr p32 N t

/-- The texts are read in order with `?`: the first error ends the program.  `FromStr`,
src/uint/traits.rs L137-150 and src/int/traits.rs L38-51. -/
def read (parse : List Byte → Res (Parsed (Limbs w))) : List (List Byte) → Res (Parsed (List (Limbs w)))
  | [] => .ok (.ok [])
  | t :: ts => (parse t).bind fun
    | .err e => .ok (.err e)
    | .ok x => (read parse ts).map fun
      | .err e => .err e
      | .ok xs => .ok (x :: xs)

/-- `{}` of `Display`, src/uint/traits.rs L35-40 and src/int/traits.rs L64-71. -/
def print (sg oc : Bool) (x : Limbs w) : Res (List Byte) :=
  if sg then I.fmtDisplay oc {} x else U.fmtDisplay oc {} x

/-- A program that reads with `parse`, computes with `run` and writes variable `o` with `print`; `FromStr`,
src/uint/traits.rs L137-150, and `Display`, src/uint/traits.rs L35-40.  The variables without a text are
zero. -/
def session (N o : Nat) (parse : List Byte → Res (Parsed (Limbs w)))
    (run : (Nat → Limbs w) → Outcome (Nat → Limbs w)) (print : Limbs w → Res (List Byte)) (ts : List (List Byte)) :
    Outcome (Parsed (List Byte)) :=
  (Outcome.ofRes (read parse ts)).bind fun
    | .err e => .ends (.err e)
    | .ok xs => (run fun i => xs.getD i (List.replicate N 0)).bind fun s =>
        (Outcome.ofRes (print (s o))).bind fun t => .ends (.ok t)

/-- The whole program: `FromStr`, src/uint/traits.rs L137-150 and src/int/traits.rs L38-51, the operators of
src/shared/ops.rs L53-131, the comparisons of src/shared/ord.rs L180-198 and `Display`, src/uint/traits.rs
L35-40 and src/int/traits.rs L64-71. -/
def main (oc p32 : Bool) (N k : Nat) (c : Cmd sg) (o : Nat) (ts : List (List Byte)) :
    Outcome (Parsed (List Byte)) :=
  session (w := w) N o (parse sg p32 N) (c.run oc k) (print sg oc) ts

end I256.Calc
