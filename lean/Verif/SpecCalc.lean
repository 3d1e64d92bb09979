import Verif.SpecLoop
import Verif.SpecText

/-!
# Programs that read and write decimal text

What a program means whose variables are read from decimal texts and whose result is written as one.
-/

namespace I256

/-- The integer that a decimal text denotes: an optional sign and at least one digit. -/
def decimal (t : List Byte) : Option Int :=
  let ds := if t.head? = some 45 ∨ t.head? = some 43 then t.tail else t
  if ds ≠ [] ∧ ds.all (isDigit 10) then some ((if t.head? = some 45 then -1 else 1) * numVal 10 ds) else none

/-- The value that a type of `n` bits should read; `none` is an error.  An unsigned type rejects a minus
sign. -/
def readDec (sg : Bool) (n : Nat) (t : List Byte) : Option Int :=
  if sg = false ∧ t.head? = some 45 then none else do keep sg n (← decimal t)

/-- The same with the fault of C29 as a rule: a signed type reads some numbers just below its range
`2 ^ n` too high. -/
def readActual (sg : Bool) (w N : Nat) (t : List Byte) : Option Int :=
  if sg = true ∧ t.head? = some 45 ∧ Mul.Gap w N (-((10 * numVal 10 t.tail.dropLast : Nat) : Int)) then do
    some (2 ^ (w * N) + (← decimal t))
  else readDec sg (w * N) t

/-- The program reads its variables `0, 1, 2, …` from the texts `ts` with `rd`, has zero in the others, does
what `mean` says and writes variable `o`.  `.ends none` says that a text was rejected. -/
def calculator (rd : List Byte → Option Int) (mean : (Nat → Int) → Outcome (Nat → Int)) (o : Nat)
    (ts : List (List Byte)) : Outcome (Option (List Byte)) :=
  match ts.mapM rd with
  | none => .ends none
  | some zs => (mean fun i => zs.getD i 0).bind fun env => .ends (some (numeralS 10 (env o)))

/-- Forget which error a rejected text has. -/
def Parsed.toOption {α : Type} : Parsed α → Option α
  | .ok a => some a
  | .err _ => none

/-- The program writes what it should, or rejects a text, panics or needs more rounds as it should. -/
def Prints (z : Outcome (Option (List Byte))) (r : Outcome (Parsed (List Byte))) : Prop :=
  r.bind (fun p => .ends p.toOption) = z

end I256
