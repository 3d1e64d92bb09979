import Verif.Lemmas.Calc

/-!
# C104: programs that read and write decimal text

The programs of C101 from text to text: the operands are parsed with `FromStr`, the result is printed with
`Display`.
-/

namespace I256

open Sample

variable {w N : Nat} {sg : Bool}

/-- `v2 = v0 + v1`. -/
def Sample.sum {sg : Bool} : Cmd sg := .set 2 (.add (.var 0) (.var 1))

/-- `v2 = v0 * v1 - v0`. -/
def Sample.prod {sg : Bool} : Cmd sg := .set 2 (.sub (.mul (.var 0) (.var 1)) (.var 0))

/-- The text that a program writes, if it ends and rejects no operand. -/
def Sample.shown : Outcome (Option (List Byte)) → Option (List Byte)
  | .ends t => t
  | _ => none

/-- The text that the model writes. -/
def Sample.printed : Outcome (Parsed (List Byte)) → Option (List Byte)
  | .ends (.ok t) => some t
  | _ => none

/-- C104, partial: what every program from text to text does, in either build and for every text, with no
proviso.  The known faults of the parser and of the operators are taken for their rules; the full claim has
`readDec` and `Cmd.exact` in their place. -/
theorem C104_all_partial (T : IsType w N) (oc p32 : Bool) (k : Nat) (c : Cmd sg) (o : Nat) (ts : List (List Byte)) :
    Prints (calculator (readActual sg w N) (c.actual oc w N k) o ts) (Calc.main (w := w) oc p32 N k c o ts) :=
  Calc.main_prints T p32 o ts rfl fun _ hs _ _ _ => C101_all_partial T hs c oc k

example (oc p32 : Bool) (ts : List (List Byte)) :=
  C104_all_partial (w := 64) (N := 4) (sg := true) (by decide) oc p32 5 prod 2 ts
example : shown (calculator (readActual true 64 4) (Cmd.actual (sg := true) true 64 4 0 prod) 2
    [ascii "-12", ascii "+0030"]) = some (ascii "-348") := by decide +kernel

/-- C104, partial: in a build with overflow checks the program writes the numeral of the integer that it
computes from the integers denoted by the texts; it rejects the operands just if one is not a decimal
number in range, and panics just if an intermediate result does not fit, a divisor is zero or a shift amount
is too large.  Provided that no operand of a signed type is in the gap of C29 and that no operation
meets a known fault; the full claim has neither proviso. -/
theorem C104_exact_partial (T : IsType w N) (p32 : Bool) (k : Nat) (c : Cmd sg) (o : Nat) (ts : List (List Byte))
    (hg : sg = true → ∀ t ∈ ts, ¬ GapText w N 10 t)
    (ht : ∀ zs, ts.mapM (readDec sg (w * N)) = some zs → c.Tame w N k fun i => zs.getD i 0) :
    Prints (calculator (readDec sg (w * N)) (c.exact (w * N) k) o ts) (Calc.main (w := w) true p32 N k c o ts) :=
  Calc.main_prints T p32 o ts (readActual_eq hg) fun _ hs zs hz he =>
    C101_exact_partial T hs c k (he ▸ ht zs hz)

/-- The operands `-12` and `+0030` of a program with a product satisfy the hypotheses. -/
example := C104_exact_partial (w := 64) (N := 4) (sg := true) (by decide) false 7 prod 2
  [ascii "-12", ascii "+0030"]
  (by
    intro _ t ht
    rintro ⟨t', e, hg⟩
    rcases List.mem_cons.1 ht with rfl | ht
    · obtain rfl : t' = ascii "12" := (List.cons.inj e).2.symm
      exact absurd hg (by decide +kernel)
    · rw [List.mem_singleton.1 ht] at e
      exact absurd (List.cons.inj e).1 (by decide))
  (by
    intro zs h
    rw [show [ascii "-12", ascii "+0030"].mapM (readDec true (64 * 4)) = some [-12, 30] by decide +kernel] at h
    cases h
    exact ⟨⟨trivial, trivial, fun _ => by decide +kernel⟩, trivial⟩)
example : shown (calculator (readDec false 256) (euclid.exact 256 7) 0 [ascii "48", ascii "36"]) =
      some (ascii "12") ∧
    printed (Calc.main (w := 64) true false 4 7 euclid 0 [ascii "48", ascii "36"]) = some (ascii "12") := by
  decide +kernel

/-- C104: for the unsigned types and programs without `/` and `%` there is no proviso. -/
theorem C104_uint_plain (T : IsType w N) (p32 : Bool) (k : Nat) (c : Cmd false) (hc : c.Plain) (o : Nat)
    (ts : List (List Byte)) :
    Prints (calculator (readDec false (w * N)) (c.exact (w * N) k) o ts)
      (Calc.main (w := w) true p32 N k c o ts) :=
  C104_exact_partial T p32 k c o ts (fun h => absurd h (by decide)) fun _ _ => hc.tame k _

example (ts : List (List Byte)) := C104_uint_plain (w := 32) (N := 8) (by decide) true 0 prod
  (by simp [prod, Cmd.Plain, Expr.Plain]) 2 ts
example : shown (calculator (readDec false 256) (Cmd.exact (sg := false) 256 0 prod) 2
    [ascii "340282366920938463463374607431768211455", ascii "+340282366920938463463374607431768211457"]) =
      some (ascii "115792089237316195423570985008687907852929702298719625575994209400481361428480") ∧
    shown (calculator (readDec false 256) (Cmd.exact (sg := false) 256 0 prod) 2 [ascii "1", ascii "-1"]) = none := by
  decide +kernel

/-- C104, partial: for the signed types and programs without `/`, `%`, `*` and `pow` the only proviso is that
no operand is in the gap of C29. -/
theorem C104_int_plain_partial (T : IsType w N) (p32 : Bool) (k : Nat) (c : Cmd true) (hc : c.Plain) (o : Nat)
    (ts : List (List Byte)) (hg : ∀ t ∈ ts, ¬ GapText w N 10 t) :
    Prints (calculator (readDec true (w * N)) (c.exact (w * N) k) o ts)
      (Calc.main (w := w) true p32 N k c o ts) :=
  C104_exact_partial T p32 k c o ts (fun _ => hg) fun _ _ => hc.tame k _

example := C104_int_plain_partial (w := 64) (N := 4) (by decide) false 0 sum
  (by simp [sum, Cmd.Plain, Expr.Plain]) 2 [ascii "-7", ascii "3"] (by
    intro t ht
    rintro ⟨t', e, hg⟩
    rcases List.mem_cons.1 ht with rfl | ht
    · obtain rfl : t' = ascii "7" := (List.cons.inj e).2.symm
      exact absurd hg (by decide +kernel)
    · rw [List.mem_singleton.1 ht] at e
      exact absurd (List.cons.inj e).1 (by decide))
example : printed (Calc.main (w := 64) (sg := true) true false 4 0 sum 2 [ascii "-7", ascii "3"]) =
    some (ascii "-4") := by decide +kernel

/-- C104: what a program writes in a build with overflow checks it also writes in a build without.  This
holds for every program and all texts. -/
theorem C104_debug_release (T : IsType w N) (p32 : Bool) (k : Nat) (c : Cmd sg) (o : Nat) (ts : List (List Byte))
    (r : Parsed (List Byte)) (h : Calc.main (w := w) true p32 N k c o ts = .ends r) :
    Calc.main (w := w) false p32 N k c o ts = .ends r := by
  obtain ⟨p, e, hr⟩ := Calc.read_reads (Calc.parse_actual (w := w) (sg := sg) T p32) ts
  rw [Calc.main, Calc.session, e] at h ⊢
  cases p with
  | err k => exact h
  | ok xs =>
    cases hz : ts.mapM (readActual sg w N) with
    | none => rw [hz] at hr; exact hr.elim
    | some zs =>
      rw [hz] at hr
      have hv := getD_value (value_replicate_zero sg N) hr
      simp only [Outcome.ofRes, Outcome.bind] at h ⊢
      cases hrun : c.run true k fun i => xs.getD i (List.replicate N 0) with
      | more => rw [hrun] at h; cases h
      | panic => rw [hrun] at h; cases h
      | ends s' =>
        obtain ⟨h1, hs'⟩ := (C101_debug_release T (fun i => (hv i).1) c k).1 s' hrun
        rw [hrun] at h
        rw [h1]
        simp only [Calc.print_value T _ (hs' o)] at h ⊢
        exact h

example : printed (Calc.main (w := 64) (sg := true) true false 4 0 prod 2 [ascii "-12", ascii "30"]) =
    some (ascii "-348") := by decide +kernel

/-- C104 is false without the provisos.  A program that adds zero to its operand reads `-(2^255 + 2)`, which is
out of range, and writes `2^255 - 2`; and Euclid's algorithm writes `2^159 - 2` for two numbers whose greatest
common divisor is 2. -/
theorem C104_exact_false :
    shown (calculator (readDec true 256) (Cmd.exact (sg := true) 256 0 sum) 2
      [ascii "-57896044618658097711785492504343953926634992332820282019728792003956564819970"]) = none ∧
    (∀ oc, printed (Calc.main (w := 64) (sg := true) oc false 4 0 sum 2
      [ascii "-57896044618658097711785492504343953926634992332820282019728792003956564819970"]) =
        some (ascii "57896044618658097711785492504343953926634992332820282019728792003956564819966")) ∧
    shown (calculator (readDec false 256) (euclid.exact 256 3) 0
      [ascii "130073645722450359720127950111749188749377996324506", ascii "730750818665451459101842416358141509827966271486"]) =
        some (ascii "2") ∧
    ∀ oc, printed (Calc.main (w := 64) oc false 4 3 euclid 0
      [ascii "130073645722450359720127950111749188749377996324506", ascii "730750818665451459101842416358141509827966271486"]) =
        some (ascii "730750818665451459101842416358141509827966271486") := by
  decide +kernel

end I256
