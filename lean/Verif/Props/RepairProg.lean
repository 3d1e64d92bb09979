import Verif.Lemmas.RepairProg
import Verif.Props.Loop

/-!
# C102: the repairs of long division and of the signed product are enough for every program

The programs of C101 with the operators on `Repair.full` (B2, B4) and `Repair.overflowingFullS` (B1).  The
changed functions are not in the crate.
-/

namespace I256

open Sample

variable {w v N M : Nat} {sg : Bool} {s : Nat → Limbs w} {t : Nat → Limbs v}

/-- C102: every expression has the value that it should have (`Expr.ideal`) in either build, with no
proviso. -/
theorem C102_expr (T : IsType w N) (hs : ∀ i, (s i).length = N) (oc : Bool) (e : Expr sg) :
    ExprGives sg N (e.ideal oc (w * N) fun i => value sg (s i)) (Repair.eval oc s e) :=
  Repair.eval_ideal T hs oc e

example (oc : Bool) := C102_expr (sg := false) (s := st4) (by decide) st4_length oc (.rem (.var 0) (.var 1))
/-- The remainder that the crate gets wrong. -/
example : (Expr.rem (sg := false) (.var 0) (.var 1)).ideal true 256 (fun i => value false (st4 i)) =
      some (2 ^ 159 - 4) ∧
    (Repair.eval (sg := false) true st4 (.rem (.var 0) (.var 1))).map toNat = .ok (2 ^ 159 - 4) ∧
    (Expr.eval (sg := false) true st4 (.rem (.var 0) (.var 1))).map toNat ≠ .ok (2 ^ 159 - 4) := by decide +kernel

/-- C102: every program with branches and loops does what it should do in either build, with no proviso. -/
theorem C102_program (T : IsType w N) (hs : ∀ i, (s i).length = N) (c : Cmd sg) (oc : Bool) (k : Nat) :
    CmdEnds sg N (c.ideal oc (w * N) k fun i => value sg (s i)) (Repair.run oc k c s) :=
  Repair.run_sem T
    (fun s env hd e => by
      obtain rfl : (fun i => value sg (s i)) = env := funext fun i => (hd i).2
      exact Repair.eval_ideal T (fun i => (hd i).1) oc e)
    k c s _ fun i => ⟨hs i, rfl⟩

example (oc : Bool) := C102_program (s := st4) (by decide) st4_length euclid oc 7
example : final 2 (walk.ideal (sg := false) false 256 7 fun i => value false (st2 i)) ≠ none := by decide +kernel

/-- C102: with overflow checks this is the program on the integers: the full claim of C101. -/
theorem C102_exact (T : IsType w N) (hs : ∀ i, (s i).length = N) (c : Cmd sg) (k : Nat) :
    CmdEnds sg N (c.exact (w * N) k fun i => value sg (s i)) (Repair.run true k c s) := by
  rw [← Cmd.ideal_exact]
  exact C102_program T hs c true k

example := C102_exact (s := st4) (by decide) st4_length euclid 7

/-- C102: a program that does not panic in a build with overflow checks has the same outcome in a build
without. -/
theorem C102_debug_release (T : IsType w N) (hs : ∀ i, (s i).length = N) (c : Cmd sg) (k : Nat)
    (h : Repair.run true k c s ≠ .panic) : Repair.run false k c s = Repair.run true k c s := by
  have h1 := C102_exact T hs c k
  have h2 := C102_program T hs c false k
  have hk : c.exact (w * N) k (fun i => value sg (s i)) ≠ .panic → c.ideal false (w * N) k (fun i => value sg (s i)) =
      c.exact (w * N) k (fun i => value sg (s i)) :=
    c.sem_kept (fun _ e _ => e.ideal_release) k _
  cases ho : c.exact (w * N) k (fun i => value sg (s i)) with
  | panic => rw [ho] at h1; exact absurd h1 h
  | more =>
    rw [hk (by rw [ho]; simp)] at h2
    rw [ho] at h1 h2
    rw [show Repair.run true k c s = .more from h1, show Repair.run false k c s = .more from h2]
  | ends env =>
    rw [hk (by rw [ho]; simp)] at h2
    rw [ho] at h1 h2
    obtain ⟨a, ea, ha⟩ := h1
    obtain ⟨b, eb, hb⟩ := h2
    rw [ea, eb, show a = b from funext fun i =>
      (value_eq_iff (ha i).1 (hb i).1).1 ((ha i).2.trans (hb i).2.symm)]

example : final 0 (Repair.run true 90 euclid st4) ≠ none := by decide +kernel
example := C102_debug_release (s := st4) (by decide) st4_length euclid 90

/-- C102: a program that meets none of the known faults is not affected by the repairs. -/
theorem C102_same (T : IsType w N) (hs : ∀ i, (s i).length = N) (c : Cmd sg) (k : Nat)
    (ht : c.Tame w N k fun i => value sg (s i)) : Repair.run true k c s = c.run true k s := by
  have h1 := C102_exact T hs c k
  have h2 := C101_exact_partial T hs c k ht
  cases ho : c.exact (w * N) k (fun i => value sg (s i)) with
  | more =>
    rw [ho] at h1 h2
    rw [show c.run true k s = .more from h2, show Repair.run true k c s = .more from h1]
  | panic =>
    rw [ho] at h1 h2
    rw [show c.run true k s = .panic from h2, show Repair.run true k c s = .panic from h1]
  | ends env =>
    rw [ho] at h1 h2
    obtain ⟨a, ea, ha⟩ := h1
    obtain ⟨b, eb, hb⟩ := h2
    rw [ea, eb, show a = b from funext fun i =>
      (value_eq_iff (ha i).1 (hb i).1).1 ((ha i).2.trans (hb i).2.symm)]

example := C102_same (sg := true) (s := st2) (by decide) st2_length walk 9
  (Cmd.Plain.tame (by simp [walk, Cmd.Plain, Cond.Plain, Expr.Plain]) 9 _)

/-- C102: a program has the same outcome in the builds with 32-bit and with 64-bit limbs, with and without
overflow checks, with no proviso. -/
theorem C102_limb_size (T : Builds w N v M) (hs : ∀ i, (s i).length = N) (hs' : ∀ i, (t i).length = M)
    (he : ∀ i, value sg (s i) = value sg (t i)) (c : Cmd sg) (oc : Bool) (k : Nat) :
    match Repair.run oc k c s, Repair.run oc k c t with
    | .ends a, .ends b => ∀ i, value sg (a i) = value sg (b i)
    | .panic, .panic => True
    | .more, .more => True
    | _, _ => False := by
  have T1 : IsType w N := ⟨T.left, T.left, rfl, T.large, T.wide, T.small⟩
  have T2 : IsType v M := ⟨T.right, T.right, rfl, T.width ▸ T.large, T.width ▸ T.wide, T.width ▸ T.small⟩
  have e : (fun i => value sg (s i)) = fun i => value sg (t i) := funext he
  have h1 := C102_program T1 hs c oc k
  have h2 := C102_program T2 hs' c oc k
  rw [← T.width, ← e] at h2
  cases ho : c.ideal oc (w * N) k (fun i => value sg (s i)) with
  | more =>
    rw [ho] at h1 h2
    rw [show Repair.run oc k c s = .more from h1, show Repair.run oc k c t = .more from h2]
    trivial
  | panic =>
    rw [ho] at h1 h2
    rw [show Repair.run oc k c s = .panic from h1, show Repair.run oc k c t = .panic from h2]
    trivial
  | ends env =>
    rw [ho] at h1 h2
    obtain ⟨a, ea, ha⟩ := h1
    obtain ⟨b, eb, hb⟩ := h2
    rw [ea, eb]
    intro i
    rw [(ha i).2, (hb i).2]

example (oc : Bool) (k : Nat) := C102_limb_size (sg := true) (s := st2) (t := st3) (by decide) st2_length st3_length
  (st3_value true) walk oc k

/-- C102: Euclid's algorithm ends with the greatest common divisor in both builds for all operands. -/
theorem C102_euclid (T : IsType w N) (hs : ∀ i, (s i).length = N) (h3 : toNat (s 3) = 0) (oc : Bool) {k : Nat}
    (hk : toNat (s 1) ≤ k) :
    ∃ s', Repair.run oc k euclid s = .ends s' ∧ toNat (s' 0) = Nat.gcd (toNat (s 0)) (toNat (s 1)) := by
  rw [euclid, Repair.run]
  -- the body keeps its own bound
  suffices H : ∀ (m r : Nat) (s : Nat → Limbs w), (∀ i, (s i).length = N) → toNat (s 3) = 0 → toNat (s 1) ≤ m →
      ∃ s', repeatWhile (fun s => Outcome.ofRes (Repair.test (sg := false) oc s (.ne (.var 1) (.var 3))))
        (Repair.run (sg := false) oc r (.seq (.set 2 (.rem (.var 0) (.var 1))) (.seq (.set 0 (.var 1)) (.set 1 (.var 2)))))
        m s = .ends s' ∧ toNat (s' 0) = Nat.gcd (toNat (s 0)) (toNat (s 1)) from
    H k k s hs h3 hk
  clear hs h3 hk
  intro m r
  have stop : ∀ s : Nat → Limbs w, (∀ i, (s i).length = N) → toNat (s 3) = 0 → toNat (s 1) = 0 →
      Repair.test (sg := false) oc s (.ne (.var 1) (.var 3)) = .ok false := by
    intro s hs h3 h1
    have : s 1 = s 3 := toNat_inj ((hs 1).trans (hs 3).symm) (by rw [h1, h3])
    simp [Repair.test, Repair.eval, this]
  have go : ∀ s : Nat → Limbs w, toNat (s 3) = 0 → toNat (s 1) ≠ 0 →
      Repair.test (sg := false) oc s (.ne (.var 1) (.var 3)) = .ok true := by
    intro s h3 h1
    have : s 1 ≠ s 3 := fun e => h1 (by rw [e, h3])
    simp [Repair.test, Repair.eval, this]
  induction m with
  | zero =>
    intro s hs h3 hk
    have h1 : toNat (s 1) = 0 := by omega
    refine ⟨s, ?_, by simp [h1]⟩
    simp only [repeatWhile, stop s hs h3 h1]
    rfl
  | succ m ih =>
    intro s hs h3 hk
    by_cases h1 : toNat (s 1) = 0
    · refine ⟨s, ?_, by simp [h1]⟩
      simp only [repeatWhile, stop s hs h3 h1]
      rfl
    · have hr := Repair.gives_rem (sg := false) (oc := oc) T (hs 0) (hs 1)
      have fit : Fits false (w * N) ((toNat (s 0) : Int).tdiv (toNat (s 1))) := by
        rw [← hs 0]; exact fits_ediv _
      simp only [value, Bool.false_eq_true, if_false, Int.natCast_eq_zero, h1, fit, not_true_eq_false, and_false,
        or_false] at hr
      obtain ⟨x, ex, hx, hv⟩ := hr
      simp only [value, Bool.false_eq_true, if_false] at hv
      rw [Int.tmod_eq_emod_of_nonneg (by omega)] at hv
      have hv' : toNat x = toNat (s 0) % toNat (s 1) := by exact_mod_cast hv
      have hlt : toNat x < toNat (s 1) := hv' ▸ Nat.mod_lt _ (by omega)
      obtain ⟨s', e', h'⟩ := ih
        (Function.update (Function.update (Function.update s 2 x) 0 (s 1)) 1 x)
        (update_length (update_length (update_length hs hx 2) (hs 1) 0) hx 1)
        (by simpa using h3)
        (by simp only [Function.update_self]; omega)
      refine ⟨s', ?_, ?_⟩
      · rw [repeatWhile, go s h3 h1]
        simp only [Outcome.ofRes, Outcome.bind, if_true, Repair.run, Repair.eval, Res.bind_ok, ex]
        exact e'
      · rw [h']
        simp only [Function.update_self, ne_eq, zero_ne_one, not_false_eq_true, Function.update_of_ne]
        rw [hv', Nat.gcd_comm (toNat (s 0)), Nat.gcd_rec (toNat (s 1)) (toNat (s 0)), Nat.gcd_comm]

example (oc : Bool) := C102_euclid (N := 4) (s := st4) (by decide) st4_length (by decide +kernel) oc (Nat.le_refl _)
/-- The operands of C101_exact_false. -/
example : (final 0 (Repair.run true 90 euclid st4)).map toNat = some 2 := by decide +kernel

end I256
