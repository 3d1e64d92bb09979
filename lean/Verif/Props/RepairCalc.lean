import Verif.Lemmas.RepairCalc
import Verif.Props.Calc
import Verif.Props.RepairProg

/-!
# C105: the repairs of C102 are enough for programs from text to text

The programs of C104 with the changed operators of C102 and a signed parser on the changed product.  The
changed functions are not in the crate.
-/

namespace I256

open Sample

variable {w v N M : Nat} {sg : Bool}

/-- C105: every program from text to text does what it should do, in either build and for every text, with
no proviso. -/
theorem C105_program (T : IsType w N) (oc p32 : Bool) (k : Nat) (c : Cmd sg) (o : Nat) (ts : List (List Byte)) :
    Prints (calculator (readDec sg (w * N)) (c.ideal oc (w * N) k) o ts)
      (Repair.main (w := w) oc p32 N k c o ts) :=
  Calc.session_prints T o ts (Repair.parse_reads T p32) rfl fun _ hs _ _ _ => C102_program T hs c oc k

example (oc p32 : Bool) (ts : List (List Byte)) :=
  C105_program (w := 32) (N := 8) (sg := true) (by decide) oc p32 5 prod 2 ts
/-- A product that wraps in a build without overflow checks. -/
example : shown (calculator (readDec true 256) (Cmd.ideal (sg := true) false 256 0 prod) 2
    [ascii "-12", ascii "57896044618658097711785492504343953926634992332820282019728792003956564819967"]) =
    some (ascii "24") := by decide +kernel

/-- C105: with overflow checks this is the program on the integers: the full claim of C104. -/
theorem C105_exact (T : IsType w N) (p32 : Bool) (k : Nat) (c : Cmd sg) (o : Nat) (ts : List (List Byte)) :
    Prints (calculator (readDec sg (w * N)) (c.exact (w * N) k) o ts)
      (Repair.main (w := w) true p32 N k c o ts) :=
  Calc.session_prints T o ts (Repair.parse_reads T p32) rfl fun _ hs _ _ _ => C102_exact T hs c k

/-- The operands of `C104_exact_false`. -/
example : printed (Repair.main (w := 64) (sg := true) true false 4 0 sum 2
      [ascii "-57896044618658097711785492504343953926634992332820282019728792003956564819970"]) = none ∧
    printed (Repair.main (w := 64) true false 4 3 euclid 0
      [ascii "130073645722450359720127950111749188749377996324506",
        ascii "730750818665451459101842416358141509827966271486"]) = some (ascii "2") := by decide +kernel

/-- C105: the text does not depend on the size of the limbs, nor on the pointer size. -/
theorem C105_limb_size (T : Builds w N v M) (oc p32 q32 : Bool) (k : Nat) (c : Cmd sg) (o : Nat)
    (ts : List (List Byte)) :
    (Repair.main (w := w) oc p32 N k c o ts).bind (fun p => .ends p.toOption) =
      (Repair.main (w := v) oc q32 M k c o ts).bind fun p => .ends p.toOption := by
  have h1 := C105_program (w := w) (N := N) ⟨T.left, T.left, rfl, T.large, T.wide, T.small⟩ oc p32 k c o ts
  have h2 := C105_program (w := v) (N := M)
    ⟨T.right, T.right, rfl, T.width ▸ T.large, T.width ▸ T.wide, T.width ▸ T.small⟩ oc q32 k c o ts
  rw [← T.width] at h2
  exact Eq.trans h1 (Eq.symm h2)

example (ts : List (List Byte)) := C105_limb_size (w := 64) (N := 4) (v := 32) (M := 8) (by decide) true false true 7
  euclid 0 ts

/-- C105: Euclid's algorithm from text to text: for two decimal numbers in range it writes the numeral of their
greatest common divisor, in both builds. -/
theorem C105_euclid (T : IsType w N) (oc p32 : Bool) {k a b : Nat} (ha : a < 2 ^ (w * N)) (hb : b < 2 ^ (w * N))
    (hk : b ≤ k) :
    Repair.main (w := w) oc p32 N k euclid 0 [numeral 10 a, numeral 10 b] =
      .ends (.ok (numeral 10 (Nat.gcd a b))) := by
  obtain ⟨p, e, h⟩ := Calc.read_reads (Repair.parse_reads (w := w) (sg := false) T p32) [numeral 10 a, numeral 10 b]
  have hm : [numeral 10 a, numeral 10 b].mapM (readDec false (w * N)) = some [(a : Int), (b : Int)] := by
    simp [readDec_numeral ha, readDec_numeral hb]
  rw [hm] at h
  cases p with
  | err k => exact h.elim
  | ok xs =>
    have hv := getD_value (value_replicate_zero false N) h
    have hn : ∀ i, (toNat (xs.getD i (List.replicate N 0)) : Int) = [(a : Int), (b : Int)].getD i 0 :=
      fun i => (hv i).2
    have h0 : toNat (xs.getD 0 (List.replicate N 0)) = a := Int.ofNat.inj (hn 0)
    have h1 : toNat (xs.getD 1 (List.replicate N 0)) = b := Int.ofNat.inj (hn 1)
    have h3 : toNat (xs.getD 3 (List.replicate N 0)) = 0 := Int.ofNat.inj (hn 3)
    obtain ⟨s', er, hg⟩ := C102_euclid (s := fun i => xs.getD i (List.replicate N 0)) T (fun i => (hv i).1) h3 oc
      (k := k) (by rw [h1]; exact hk)
    have hl : (s' 0).length = N := by
      have := C102_program T (s := fun i => xs.getD i (List.replicate N 0)) (fun i => (hv i).1) euclid oc k
      rw [er] at this
      revert this
      cases euclid.ideal oc (w * N) k fun i => value false (xs.getD i (List.replicate N 0)) with
      | more => intro this; cases this
      | panic => intro this; cases this
      | ends env =>
        rintro ⟨s, es, hs⟩
        cases es
        exact (hs 0).1
    rw [Repair.main, Calc.session, e]
    simp only [Outcome.ofRes, Outcome.bind, er, Calc.print_value T oc hl]
    rw [h0, h1] at hg
    simp [value, hg, numeralS]

example (oc : Bool) := C105_euclid (w := 64) (N := 4) (by decide) oc false (k := 36) (a := 48) (b := 36) (by decide)
  (by decide) (by decide)
example : numeral 10 (Nat.gcd 48 36) = ascii "12" := by decide +kernel

end I256
