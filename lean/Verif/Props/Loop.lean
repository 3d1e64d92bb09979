import Verif.Lemmas.Loop
import Verif.Lemmas.DivClean
import Verif.Props.Prog

/-!
# C101: programs with branches and loops

The comparisons, `if` and `while` added to the programs of C100.  `k` bounds the rounds of every loop;
`C101_rounds` says that the bound has no other effect.
-/

namespace I256

open Sample

variable {w v N M : Nat} {sg : Bool} {s : Nat → Limbs w} {t : Nat → Limbs v}

/-- `while v1 != v3 { v2 = v0 % v1; v0 = v1; v1 = v2 }`: Euclid's algorithm, if `v3` is zero. -/
def Sample.euclid : Cmd false :=
  .loop (.ne (.var 1) (.var 3))
    (.seq (.set 2 (.rem (.var 0) (.var 1))) (.seq (.set 0 (.var 1)) (.set 1 (.var 2))))

/-- `while v0 < v1 && !(v2 == v3) { v0 = v0 + v4; if v2 >= v0 { v2 = v2 >> 1 } else { v2 = v2 ^ v4 } }`. -/
def Sample.walk {sg : Bool} : Cmd sg :=
  .loop (.and (.lt (.var 0) (.var 1)) (.not (.eq (.var 2) (.var 3))))
    (.seq (.set 0 (.add (.var 0) (.var 4)))
      (.ite (.ge (.var 2) (.var 0)) (.set 2 (.shr (.var 2) 1)) (.set 2 (.xor (.var 2) (.var 4)))))

/-- Sample state: `2^254`, `2^255 - 1`, `2^128 * 5 + 2^64 - 1`, 0, `2^253`, then ones. -/
def Sample.st2 : Nat → Limbs 64
  | 0 => [0, 0, 0, 0x4000000000000000]
  | 1 => maxS
  | 2 => a
  | 3 => zero
  | 4 => [0, 0, 0, 0x2000000000000000]
  | _ => one

theorem Sample.st2_length : ∀ i, (st2 i).length = 4 := by
  intro i; unfold st2; split <;> rfl

/-- `st2` on 32-bit limbs. -/
def Sample.st3 : Nat → Limbs 32
  | 0 => [0, 0, 0, 0, 0, 0, 0, 0x40000000]
  | 1 => [0xffffffff, 0xffffffff, 0xffffffff, 0xffffffff, 0xffffffff, 0xffffffff, 0xffffffff, 0x7fffffff]
  | 2 => [0xffffffff, 0xffffffff, 0, 0, 5, 0, 0, 0]
  | 3 => List.replicate 8 0
  | 4 => [0, 0, 0, 0, 0, 0, 0, 0x20000000]
  | _ => [1, 0, 0, 0, 0, 0, 0, 0]

theorem Sample.st3_length : ∀ i, (st3 i).length = 8 := by
  intro i; unfold st3; split <;> rfl

theorem Sample.st3_value (sg : Bool) : ∀ i, value sg (st2 i) = value sg (st3 i) := by
  intro i; unfold st2 st3; cases sg <;> split <;> decide +kernel

/-- The operands of Euclid's algorithm for which the crate is wrong: `178 * (2^159 - 2) - 2` and `2^159 - 2`. -/
def Sample.st4 : Nat → Limbs 64
  | 0 => [0xfffffffffffffe9a, 0xffffffffffffffff, 0x58ffffffff, 0]
  | 1 => [0xfffffffffffffffe, 0xffffffffffffffff, 0x7fffffff, 0]
  | _ => zero

theorem Sample.st4_length : ∀ i, (st4 i).length = 4 := by
  intro i; unfold st4; split <;> rfl

/-- Operands of Euclid's algorithm whose second is one limb. -/
def Sample.st5 : Nat → Limbs 64
  | 0 => a
  | 1 => [0xfffffffffffffff0, 0, 0, 0]
  | _ => zero

theorem Sample.st5_length : ∀ i, (st5 i).length = 4 := by
  intro i; unfold st5; split <;> rfl

/-- The final value of variable `i`, if the program ends. -/
def Sample.final {α : Type} (i : Nat) : Outcome (Nat → α) → Option α
  | .ends s => some (s i)
  | _ => none

/-- C101, partial: what every program with branches and loops does in either build, with no proviso.  As
in C100 the known faults are taken for the rules of the crate; the full claim has the integers
(`Cmd.exact`) in their place. -/
theorem C101_all_partial (T : IsType w N) (hs : ∀ i, (s i).length = N) (c : Cmd sg) (oc : Bool) (k : Nat) :
    CmdEnds sg N (c.actual oc w N k fun i => value sg (s i)) (c.run oc k s) :=
  c.run_sem (P := fun _ _ => True) T
    (fun s env hd e _ => by
      obtain rfl : (fun i => value sg (s i)) = env := funext fun i => (hd i).2
      exact e.eval_actual T (fun i => (hd i).1) oc)
    k s _ (fun i => ⟨hs i, rfl⟩) (c.meets_all (fun _ _ => trivial) k _)

example (oc : Bool) := C101_all_partial (s := st4) (by decide) st4_length euclid oc 7
example : final 0 (euclid.actual true 64 4 7 fun i => value false (st4 i)) = some (2 ^ 159 - 2) := by
  decide +kernel
example : final 0 (walk.actual (sg := false) true 64 4 7 fun i => value false (st2 i)) = some (2 ^ 255) := by
  decide +kernel
example : final 0 (walk.actual (sg := true) true 64 4 7 fun i => value true (st2 i)) = none ∧
    final 0 (walk.actual (sg := true) false 64 4 7 fun i => value true (st2 i)) = none := by decide +kernel

/-- C101, partial: a program in a build with overflow checks takes the same branches and the same number
of rounds as on the integers and ends with the same values; it panics just if an intermediate result does
not fit, a divisor is zero or a shift amount is too large — provided no operation meets one of the known
faults within `k` rounds (`Cmd.Tame`).  The full claim has no such proviso. -/
theorem C101_exact_partial (T : IsType w N) (hs : ∀ i, (s i).length = N) (c : Cmd sg) (k : Nat)
    (ht : c.Tame w N k fun i => value sg (s i)) :
    CmdEnds sg N (c.exact (w * N) k fun i => value sg (s i)) (c.run true k s) :=
  c.run_sem (P := fun env e => e.Tame w N env) T
    (fun s env hd e he => by
      obtain rfl : (fun i => value sg (s i)) = env := funext fun i => (hd i).2
      exact e.eval_exact T (fun i => (hd i).1) he)
    k s _ (fun i => ⟨hs i, rfl⟩) ht

example := C101_exact_partial (sg := true) (s := st2) (by decide) st2_length walk 9
  (Cmd.Plain.tame (by simp [walk, Cmd.Plain, Cond.Plain, Expr.Plain]) 9 _)

/-- C101: for programs without `/` and `%` (and, for a signed type, without `*` and `pow`) there is no
proviso. -/
theorem C101_plain (T : IsType w N) (hs : ∀ i, (s i).length = N) (c : Cmd sg) (hc : c.Plain) (k : Nat) :
    CmdEnds sg N (c.exact (w * N) k fun i => value sg (s i)) (c.run true k s) :=
  C101_exact_partial T hs c k (hc.tame k _)

example := C101_plain (sg := false) (s := st2) (by decide) st2_length walk
  (by simp [walk, Cmd.Plain, Cond.Plain, Expr.Plain])
example : final 2 (walk.exact (sg := false) 256 7 fun i => value false (st2 i)) ≠ none := by decide +kernel

/-- C101: a program that ends in a build with overflow checks ends with the same variables in a build
without, and a program that needs more rounds there needs more rounds here.  This holds for every program,
also where an operation meets a known fault. -/
theorem C101_debug_release (T : IsType w N) (hs : ∀ i, (s i).length = N) (c : Cmd sg) (k : Nat) :
    (∀ s', c.run true k s = .ends s' → c.run false k s = .ends s' ∧ ∀ i, (s' i).length = N) ∧
      (c.run true k s = .more → c.run false k s = .more) :=
  c.run_stable T k s hs

example : final 0 (euclid.run true 7 st4) ≠ none := by decide +kernel
example := C101_debug_release (s := st4) (by decide) st4_length euclid 7

/-- C101: the bound on the rounds has no effect but to stop a program: if no loop needs more than `k`
rounds, then the outcome is the same for every larger bound. -/
theorem C101_rounds (oc : Bool) (c : Cmd sg) {k k' : Nat} (hk : k ≤ k') (h : c.run oc k s ≠ .more) :
    c.run oc k' s = c.run oc k s :=
  c.run_more hk s h

example : final 0 (euclid.run true 3 st4) = final 0 (euclid.run true 9 st4) ∧
    final 0 (euclid.run true 2 st4) = none := by decide +kernel

/-- C101, partial: a program has the same outcome in the builds with 32-bit and with 64-bit limbs, provided
no operation meets one of the known faults in either of them. -/
theorem C101_limb_size_partial (T : Builds w N v M) (hs : ∀ i, (s i).length = N) (hs' : ∀ i, (t i).length = M)
    (he : ∀ i, value sg (s i) = value sg (t i)) (c : Cmd sg) (k : Nat)
    (ht : c.Tame w N k fun i => value sg (s i)) (ht' : c.Tame v M k fun i => value sg (s i)) :
    match c.run true k s, c.run true k t with
    | .ends a, .ends b => ∀ i, value sg (a i) = value sg (b i)
    | .panic, .panic => True
    | .more, .more => True
    | _, _ => False := by
  have T1 : IsType w N := ⟨T.left, T.left, rfl, T.large, T.wide, T.small⟩
  have T2 : IsType v M := ⟨T.right, T.right, rfl, T.width ▸ T.large, T.width ▸ T.wide, T.width ▸ T.small⟩
  have e : (fun i => value sg (s i)) = fun i => value sg (t i) := funext he
  have h1 := C101_exact_partial T1 hs c k ht
  have h2 := C101_exact_partial T2 hs' c k (e ▸ ht')
  rw [← T.width, ← e] at h2
  cases ho : c.exact (w * N) k (fun i => value sg (s i)) with
  | more =>
    rw [ho] at h1 h2
    rw [show c.run true k s = .more from h1, show c.run true k t = .more from h2]
    trivial
  | panic =>
    rw [ho] at h1 h2
    rw [show c.run true k s = .panic from h1, show c.run true k t = .panic from h2]
    trivial
  | ends env =>
    rw [ho] at h1 h2
    obtain ⟨a, ea, ha⟩ := h1
    obtain ⟨b, eb, hb⟩ := h2
    rw [ea, eb]
    intro i
    rw [(ha i).2, (hb i).2]

example (k : Nat) := C101_limb_size_partial (sg := true) (s := st2) (t := st3) (by decide) st2_length st3_length
  (st3_value true) walk k (Cmd.Plain.tame (by simp [walk, Cmd.Plain, Cond.Plain, Expr.Plain]) k _)
  (Cmd.Plain.tame (by simp [walk, Cmd.Plain, Cond.Plain, Expr.Plain]) k _)

/-- C101, partial: Euclid's algorithm ends with the greatest common divisor in both builds, if the second
operand is below `2 ^ w` or both are below `2 ^ (2 * w)`.  The full claim has no such restriction. -/
theorem C101_euclid_partial (T : IsType w N) (hs : ∀ i, (s i).length = N) (h3 : toNat (s 3) = 0)
    (hsm : toNat (s 1) < 2 ^ w ∨ toNat (s 0) < 2 ^ (w * 2) ∧ toNat (s 1) < 2 ^ (w * 2)) (oc : Bool) {k : Nat}
    (hk : toNat (s 1) ≤ k) :
    ∃ s', euclid.run oc k s = .ends s' ∧ toNat (s' 0) = Nat.gcd (toNat (s 0)) (toNat (s 1)) := by
  rw [euclid, Cmd.run]
  -- the body keeps its own bound
  suffices H : ∀ (m r : Nat) (s : Nat → Limbs w), (∀ i, (s i).length = N) → toNat (s 3) = 0 →
      (toNat (s 1) < 2 ^ w ∨ toNat (s 0) < 2 ^ (w * 2) ∧ toNat (s 1) < 2 ^ (w * 2)) → toNat (s 1) ≤ m →
      ∃ s', repeatWhile (fun s => Outcome.ofRes ((Cond.ne (.var 1) (.var 3) : Cond false).eval oc s))
        (Cmd.run (sg := false) oc r (.seq (.set 2 (.rem (.var 0) (.var 1))) (.seq (.set 0 (.var 1)) (.set 1 (.var 2)))))
        m s = .ends s' ∧ toNat (s' 0) = Nat.gcd (toNat (s 0)) (toNat (s 1)) from
    H k k s hs h3 hsm hk
  clear hs h3 hsm hk
  intro m r
  have stop : ∀ s : Nat → Limbs w, (∀ i, (s i).length = N) → toNat (s 3) = 0 → toNat (s 1) = 0 →
      (Cond.ne (.var 1) (.var 3) : Cond false).eval oc s = .ok false := by
    intro s hs h3 h1
    have : s 1 = s 3 := toNat_inj ((hs 1).trans (hs 3).symm) (by rw [h1, h3])
    simp [Cond.eval, Expr.eval, this]
  have go : ∀ s : Nat → Limbs w, toNat (s 3) = 0 → toNat (s 1) ≠ 0 →
      (Cond.ne (.var 1) (.var 3) : Cond false).eval oc s = .ok true := by
    intro s h3 h1
    have : s 1 ≠ s 3 := fun e => h1 (by rw [e, h3])
    simp [Cond.eval, Expr.eval, this]
  induction m with
  | zero =>
    intro s hs h3 _ hk
    have h1 : toNat (s 1) = 0 := by omega
    refine ⟨s, ?_, by simp [h1]⟩
    simp only [repeatWhile, stop s hs h3 h1]
    rfl
  | succ m ih =>
    intro s hs h3 hsm hk
    by_cases h1 : toNat (s 1) = 0
    · refine ⟨s, ?_, by simp [h1]⟩
      simp only [repeatWhile, stop s hs h3 h1]
      rfl
    · have hc : Clean w (toNat (s 0)) (toNat (s 1)) := by
        rcases hsm with h | h
        · simpa using clean_of_one_limb (w := w) T.pos (k := 0) h
        · exact Div.clean_two T.pos h.1
      have hr := actual_rem (sg := false) T (hs 0) (hs 1) oc
      have fit : Fits false (w * N) ((toNat (s 0) : Int).tdiv (toNat (s 1))) := by
        rw [← hs 0]; exact fits_ediv _
      simp only [value, Bool.false_eq_true, if_false, Int.natAbs_natCast, hc.stray, Int.natCast_eq_zero, h1,
        hc.noPanic, fit, not_true_eq_false, and_false, or_false, Nat.cast_zero, mul_zero, add_zero] at hr
      obtain ⟨x, ex, hx, hv⟩ := hr
      simp only [value, Bool.false_eq_true, if_false] at hv
      rw [Int.tmod_eq_emod_of_nonneg (by omega)] at hv
      have hv' : toNat x = toNat (s 0) % toNat (s 1) := by exact_mod_cast hv
      have hlt : toNat x < toNat (s 1) := hv' ▸ Nat.mod_lt _ (by omega)
      obtain ⟨s', e', h'⟩ := ih
        (Function.update (Function.update (Function.update s 2 x) 0 (s 1)) 1 x)
        (update_length (update_length (update_length hs hx 2) (hs 1) 0) hx 1)
        (by simpa using h3)
        (by simp only [Function.update_self, ne_eq, zero_ne_one, not_false_eq_true, Function.update_of_ne]
            rcases hsm with h | h
            · exact Or.inl (by omega)
            · exact Or.inr ⟨h.2, by omega⟩)
        (by simp only [Function.update_self]; omega)
      refine ⟨s', ?_, ?_⟩
      · rw [repeatWhile, go s h3 h1]
        simp only [Outcome.ofRes, Outcome.bind, if_true, Cmd.run, Expr.eval, Res.bind_ok, Bool.false_eq_true,
          if_false, ex]
        exact e'
      · rw [h']
        simp only [Function.update_self, ne_eq, zero_ne_one, not_false_eq_true, Function.update_of_ne]
        rw [hv', Nat.gcd_comm (toNat (s 0)), Nat.gcd_rec (toNat (s 1)) (toNat (s 0)), Nat.gcd_comm]

example (oc : Bool) := C101_euclid_partial (N := 4) (s := st5) (by decide) st5_length (by decide) (by decide +kernel)
  oc (Nat.le_refl _)
example : final 0 (euclid.run true 90 st5) = some [35, 0, 0, 0] := by decide +kernel

/-- C101 is false without the provisos: Euclid's algorithm has the value 2 on the integers, and both builds
end with the value `2^159 - 2`. -/
theorem C101_exact_false :
    ∃ s : Nat → Limbs 64, (∀ i, (s i).length = 4) ∧ toNat (s 3) = 0 ∧
      Nat.gcd (toNat (s 0)) (toNat (s 1)) = 2 ∧
      final 0 (euclid.exact 256 3 fun i => value false (s i)) = some 2 ∧
      ∀ oc, (final 0 (euclid.run oc 3 s)).map toNat = some (2 ^ 159 - 2) :=
  ⟨st4, st4_length, by decide +kernel, by decide +kernel, by decide +kernel, by decide +kernel⟩

end I256
