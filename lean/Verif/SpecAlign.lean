import Verif.SpecText

/-!
# Alignment

What `Formatter::pad_integral` of the standard library prints with an explicit alignment.  The code
never asks for the alignment, so it is not among the flags of the model.
-/

namespace I256

/-- The alignment of a format string: none given, `<`, `^`, `>`. -/
inductive Align where
  | unknown
  | left
  | center
  | right
  deriving DecidableEq, Repr

/-- `Formatter::pad_integral`: as `padIntegral`, but without the flag `0` the fill characters go to the
side or sides that the alignment says; the default for numbers is the left side. -/
def padAligned (al : Align) (f : Write.Flags) (negative : Bool) (pre digits : List Byte) : List Byte :=
  let head := (if negative then ascii "-" else if f.signPlus then ascii "+" else []) ++
    (if f.alternate then pre else [])
  let n := f.width.getD 0 - (head.length + digits.length)
  let fill (k : Nat) := (List.replicate k f.fill).flatten
  if f.zero then head ++ List.replicate n 48#8 ++ digits
  else match al with
    | .unknown | .right => fill n ++ head ++ digits
    | .left => head ++ digits ++ fill n
    | .center => fill (n / 2) ++ head ++ digits ++ fill ((n + 1) / 2)

/-- `l` can be the UTF-8 form of a character: one byte, or several of which the first is not ASCII. -/
def CharBytes (l : List Byte) : Prop := ∃ c t, l = c :: t ∧ (t = [] ∨ 128 ≤ c.toNat)

end I256
