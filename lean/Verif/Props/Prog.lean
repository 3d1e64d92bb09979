import Verif.Lemmas.Prog
import Verif.Props.Widen
import Verif.Props.Samples

/-!
# C100: straight-line programs

The theorems about single operations compose: a sequence of assignments whose right-hand sides are
arbitrary expressions over the operators of one type computes what the same program computes on the
integers.
-/

namespace I256

open Sample

variable {w v N M : Nat} {sg : Bool} {s : Nat → Limbs w} {t : Nat → Limbs v}

/-- Sample state: `3 * 2^189`, `2^189 + 1`, `2^128 * 5 + 2^64 - 1`, `-1` (or `2^256 - 1`), then zeros. -/
def Sample.st : Nat → Limbs 64
  | 0 => [0, 0, 0x6000000000000000, 0]
  | 1 => [1, 0, 0x2000000000000000, 0]
  | 2 => a
  | 3 => ones
  | _ => zero

theorem Sample.st_length : ∀ i, (st i).length = 4 := by
  intro i; unfold st; split <;> rfl

/-- `st` on 32-bit limbs. -/
def Sample.st32 : Nat → Limbs 32
  | 0 => [0, 0, 0, 0, 0, 0x60000000, 0, 0]
  | 1 => [1, 0, 0, 0, 0, 0x20000000, 0, 0]
  | 2 => [0xffffffff, 0xffffffff, 0, 0, 5, 0, 0, 0]
  | 3 => ones32
  | _ => List.replicate 8 0

theorem Sample.st32_length : ∀ i, (st32 i).length = 8 := by
  intro i; unfold st32; split <;> rfl

theorem Sample.st_value (sg : Bool) : ∀ i, value sg (st i) = value sg (st32 i) := by
  intro i; unfold st st32; cases sg <;> split <;> decide +kernel

/-- `v4 = (v2 + v0) / v2; v5 = (v0 - v1) % v2; v6 = (v4 << 3) ^ v5; v7 = v6 & v3`. -/
def Sample.prog {sg : Bool} : Prog sg :=
  [(4, .div (.add (.var 2) (.var 0)) (.var 2)), (5, .rem (.sub (.var 0) (.var 1)) (.var 2)),
    (6, .xor (.shl (.var 4) 3) (.var 5)), (7, .and (.var 6) (.var 3))]

/-- `v4 = v2 * v2 - (!v0).pow(3); v5 = v4 << 259`, which overflows. -/
def Sample.ring {sg : Bool} : Prog sg :=
  [(4, .sub (.mul (.var 2) (.var 2)) (.pow (.not (.var 0)) 3)), (5, .shl (.var 4) 259)]

/-- C100, partial: a program run in a build with overflow checks ends with the variables that the program
has on the integers, and panics just if an intermediate result does not fit, a divisor is zero or a
shift amount is too large — provided no operation meets one of the known faults (`Prog.Tame`).  The full
claim has no such proviso. -/
theorem C100_exact_partial (T : IsType w N) (hs : ∀ i, (s i).length = N) (p : Prog sg)
    (ht : p.Tame w N fun i => value sg (s i)) :
    ProgEnds sg N (p.exact (w * N) fun i => value sg (s i)) (p.run true s) := by
  induction p generalizing s with
  | nil => exact ⟨s, rfl, fun i => ⟨hs i, rfl⟩⟩
  | cons q p ih =>
    obtain ⟨j, e⟩ := q
    have h := e.eval_exact T hs ht.1
    rw [Prog.exact, Prog.run]
    have h2 := ht.2
    generalize e.exact (w * N) (fun i => value sg (s i)) = o at h h2
    cases o with
    | none => rw [show e.eval true s = .panic from h]; rfl
    | some z =>
      obtain ⟨x, ex, hx, rfl⟩ := h
      rw [ex]
      have := ih (update_length hs hx j) (by rw [value_update]; exact h2 _ rfl)
      rw [value_update] at this
      exact this

example := C100_exact_partial (sg := true) (s := st) (by decide) st_length prog (by decide +kernel)
example : ((prog (sg := false)).exact 256 fun i => value false (st i)).map (· 7) =
    some 0x3f333333333333334955555555555556b := by decide +kernel
-- `v5 = v3 * v3` does not fit an unsigned type
example : Prog.exact (sg := false) 256 [(5, .mul (.var 3) (.var 3))] (fun i => value false (st i)) |>.isNone := by
  decide +kernel
example : Prog.Tame (sg := false) 64 4 [(5, .mul (.var 3) (.var 3))] (fun i => value false (st i)) := by
  decide +kernel

/-- C100, partial: what every program does in either build, with no proviso.  The known faults appear in
`Expr.actual` as the rules of the crate: a remainder has a stray part, some divisions panic, a signed
product in the gap passes for representable, and `0 / 0` is 1 without overflow checks.  The full claim has
the integers in their place. -/
theorem C100_all_partial (T : IsType w N) (hs : ∀ i, (s i).length = N) (p : Prog sg) (oc : Bool) :
    ProgEnds sg N (p.actual oc w N fun i => value sg (s i)) (p.run oc s) := by
  induction p generalizing s with
  | nil => exact ⟨s, rfl, fun i => ⟨hs i, rfl⟩⟩
  | cons q p ih =>
    obtain ⟨j, e⟩ := q
    have h := e.eval_actual T hs oc
    rw [Prog.actual, Prog.run]
    generalize e.actual oc w N (fun i => value sg (s i)) = o at h
    cases o with
    | none => rw [show e.eval oc s = .panic from h]; rfl
    | some z =>
      obtain ⟨x, ex, hx, rfl⟩ := h
      rw [ex]
      have := ih (update_length hs hx j)
      rw [value_update] at this
      exact this

example (oc : Bool) := C100_all_partial (sg := true) (s := st) (by decide) st_length prog oc
-- `v4 = v0 % v1` has a stray part, and `v5 = v4 / v6` divides by zero
example : (Prog.actual (sg := false) true 64 4 [(4, .rem (.var 0) (.var 1))] (fun i => value false (st i))).map (· 4) =
    some (2 ^ 189 - 2 + 2 ^ 190) := by decide +kernel
example : (Prog.actual (sg := false) false 64 4 [(4, .rem (.var 0) (.var 1)), (5, .div (.var 4) (.var 6))]
    (fun i => value false (st i))).isNone := by decide +kernel
example : (Prog.actual (sg := true) false 64 4 [(4, .sub (.mul (.var 2) (.var 2)) (.var 3)), (5, .div (.var 6) (.var 6))]
    (fun i => value true (st i))).map (fun e => (e 4, e 5)) =
    some (0x9fffffffffffffff6fffffffffffffffe0000000000000002, 1) := by decide +kernel

/-- C100: a program that ends in a build with overflow checks ends with the same variables in a build
without; all variables keep their number of limbs.  This holds for every program, also where an operation
meets a known fault.  Hence a program that panics without overflow checks panics with them. -/
theorem C100_debug_release (T : IsType w N) (hs : ∀ i, (s i).length = N) (p : Prog sg) {s' : Nat → Limbs w}
    (h : p.run true s = .ok s') : p.run false s = .ok s' ∧ ∀ i, (s' i).length = N := by
  induction p generalizing s with
  | nil => cases h; exact ⟨rfl, hs⟩
  | cons q p ih =>
    obtain ⟨j, e⟩ := q
    rw [Prog.run] at h ⊢
    cases ex : e.eval true s with
    | panic => rw [ex] at h; simp at h
    | ok x =>
      obtain ⟨ex', hx⟩ := e.eval_stable T hs x ex
      rw [ex] at h
      rw [ex']
      exact ih (update_length hs hx j) h

example : ∃ s', (prog (sg := true)).run true st = .ok s' := by
  obtain ⟨s', h, -⟩ := C100_exact_partial (sg := true) (s := st) (by decide) st_length prog (by decide +kernel)
  exact ⟨s', h⟩

/-- C100, partial: if the program has a meaning on the integers, then both builds compute it, provided no
operation meets one of the known faults. -/
theorem C100_both_builds_partial (T : IsType w N) (hs : ∀ i, (s i).length = N) (p : Prog sg)
    (ht : p.Tame w N fun i => value sg (s i)) {env : Nat → Int}
    (he : (p.exact (w * N) fun i => value sg (s i)) = some env) (oc : Bool) :
    ∃ s', p.run oc s = .ok s' ∧ ∀ i, (s' i).length = N ∧ value sg (s' i) = env i := by
  have h := C100_exact_partial T hs p ht
  rw [he] at h
  obtain ⟨s', h1, h2⟩ := h
  cases oc
  · exact ⟨s', (C100_debug_release T hs p h1).1, h2⟩
  · exact ⟨s', h1, h2⟩

example (oc : Bool) : ∃ s', (prog (sg := true)).run oc st = .ok s' := by
  obtain ⟨env, he⟩ := Option.isSome_iff_exists.1
    (show ((prog (sg := true)).exact 256 fun i => value true (st i)).isSome = true by decide +kernel)
  obtain ⟨s', h, -⟩ := C100_both_builds_partial (N := 4) (by decide) st_length prog (by decide +kernel) he oc
  exact ⟨s', h⟩

/-- C100: in a build without overflow checks a program over `+`, `-`, `*`, `!`, unary `-`, `<<` and `pow`
never panics, and its variables hold the unbounded integers of the same program (a polynomial in the
initial values; shifts by the amount modulo `BITS`) reduced modulo `2 ^ BITS`. -/
theorem C100_ring (T : IsType w N) (hs : ∀ i, (s i).length = N) (p : Prog sg) (hr : ∀ q ∈ p, q.2.Ring) :
    ∃ s', p.run false s = .ok s' ∧
      ∀ i, WrapU N (p.poly (w * N) (fun i => value sg (s i)) i) (s' i) ∧
        WrapS N (p.poly (w * N) (fun i => value sg (s i)) i) (s' i) := by
  suffices h : ∀ env : Nat → Int, (∀ i, (toNat (s i) : Int) ≡ env i [ZMOD 2 ^ (w * N)]) →
      ∃ s', p.run false s = .ok s' ∧ ∀ i, WrapU N (p.poly (w * N) env i) (s' i) by
    obtain ⟨s', h1, h2⟩ := h (fun i => value sg (s i)) fun i => by
      cases sg
      · rfl
      · exact (value_modEq (hs i)).symm
    exact ⟨s', h1, fun i => ⟨h2 i, (h2 i).wrapS⟩⟩
  induction p generalizing s with
  | nil =>
    intro env hv
    refine ⟨s, rfl, fun i => ⟨hs i, ?_⟩⟩
    have h3 := toNat_lt_int (s i)
    rw [bits, hs i] at h3
    rw [Prog.poly, ← hv i, Int.emod_eq_of_lt (by omega) h3]
  | cons q p ih =>
    intro env hv
    obtain ⟨j, e⟩ := q
    obtain ⟨x, ex, hx, hm⟩ := e.eval_poly T hs hv (hr (j, e) (by simp))
    rw [Prog.run, ex]
    refine ih (update_length hs hx j) (fun q hq => hr q (by simp [hq])) _ fun i => ?_
    by_cases h : i = j
    · subst h; simpa using hm
    · simpa [h] using hv i

example := C100_ring (sg := true) (s := st) (by decide) st_length ring (by simp [ring, Expr.Ring])
example : ¬ Fits true 256 ((ring (sg := true)).poly 256 (fun i => value true (st i)) 5) := by decide +kernel

/-- C100, partial: a program gives the same values in the builds with 32-bit and with 64-bit limbs, and
panics in both or in neither, provided no operation meets one of the known faults in either of them. -/
theorem C100_limb_size_partial (T : Builds w N v M) (hs : ∀ i, (s i).length = N) (hs' : ∀ i, (t i).length = M)
    (he : ∀ i, value sg (s i) = value sg (t i)) (p : Prog sg)
    (ht : p.Tame w N fun i => value sg (s i)) (ht' : p.Tame v M fun i => value sg (s i)) :
    match p.run true s, p.run true t with
    | .ok a, .ok b => ∀ i, value sg (a i) = value sg (b i)
    | .panic, .panic => True
    | _, _ => False := by
  have T1 : IsType w N := ⟨T.left, T.left, rfl, T.large, T.wide, T.small⟩
  have T2 : IsType v M := ⟨T.right, T.right, rfl, T.width ▸ T.large, T.width ▸ T.wide, T.width ▸ T.small⟩
  have e : (fun i => value sg (s i)) = fun i => value sg (t i) := funext he
  have h1 := C100_exact_partial T1 hs p ht
  have h2 := C100_exact_partial T2 hs' p (e ▸ ht')
  rw [← T.width, ← e] at h2
  cases ho : p.exact (w * N) (fun i => value sg (s i)) with
  | none =>
    rw [ho] at h1 h2
    rw [show p.run true s = .panic from h1, show p.run true t = .panic from h2]
    trivial
  | some env =>
    rw [ho] at h1 h2
    obtain ⟨a, ea, ha⟩ := h1
    obtain ⟨b, eb, hb⟩ := h2
    rw [ea, eb]
    intro i
    rw [(ha i).2, (hb i).2]

example := C100_limb_size_partial (sg := true) (s := st) (t := st32) (by decide) st_length st32_length
  (st_value true) prog (by decide +kernel) (by decide +kernel)

/-- C100 is false without the proviso: `v0 % v1` ends with a wrong value, and a signed product in the gap
ends although it does not fit. -/
theorem C100_exact_false :
    (∃ s : Nat → Limbs 64, (∀ i, (s i).length = 4) ∧ ∃ p : Prog false,
      ¬ ProgEnds false 4 (p.exact 256 fun i => value false (s i)) (p.run true s)) ∧
    (∃ s : Nat → Limbs 64, (∀ i, (s i).length = 4) ∧ ∃ (p : Prog true) (s' : Nat → Limbs 64),
      (p.exact 256 fun i => value true (s i)).isNone ∧ p.run true s = .ok s') := by
  refine ⟨⟨st, st_length, [(4, .rem (.var 0) (.var 1))], ?_⟩, ?_⟩
  · have e : U.rem true (st 0) (st 1) = .ok [0xfffffffffffffffe, 0xffffffffffffffff, 0x5fffffffffffffff, 0] := by
      decide +kernel
    intro h
    simp only [Prog.exact, Expr.exact, Prog.run, Expr.eval, Res.bind_ok, Bool.false_eq_true, if_false, e] at h
    have hn : ¬ (value false (st 1) = 0 ∨ ¬ Fits false 256 ((value false (st 0)).tdiv (value false (st 1)))) := by
      decide +kernel
    simp only [if_neg hn, Option.bind_eq_bind, Option.bind_some] at h
    obtain ⟨s', e1, h1⟩ := h
    cases e1
    have := (h1 4).2
    simp only [Function.update_self] at this
    exact absurd this (by decide +kernel)
  · refine ⟨fun i => if i = 0 then [0xaaaaaaaaaaaaaaab, 0xaaaaaaaaaaaaaaaa, 0xaaaaaaaaaaaaaaaa, 0x2aaaaaaaaaaaaaaa]
      else [0xfffffffffffffffd, 0xffffffffffffffff, 0xffffffffffffffff, 0xffffffffffffffff],
      fun i => by dsimp only; split <;> rfl, [(2, .mul (.var 0) (.var 1))], ?_⟩
    have e : I.mul true [0xaaaaaaaaaaaaaaab, 0xaaaaaaaaaaaaaaaa, 0xaaaaaaaaaaaaaaaa, 0x2aaaaaaaaaaaaaaa]
      [0xfffffffffffffffd, 0xffffffffffffffff, 0xffffffffffffffff, 0xffffffffffffffff] = .ok maxS := by decide +kernel
    exact ⟨_, by decide +kernel, show Res.bind _ _ = _ by
      simp only [Expr.eval, Res.bind_ok, if_true, if_neg (show ¬ (1 = 0) by decide), e]; rfl⟩

end I256
