import Verif.Lemmas.Style
import Verif.Props.Prog

/-!
# C103: programs written with methods

The programs of C100, with `checked_*` and `?`, with `strict_*`, with `wrapping_*` and with `saturating_*` in
place of the operators.
-/

namespace I256

open Sample

variable {w N : Nat} {sg : Bool} {s : Nat → Limbs w}

/-- C103: in every build a program written with `wrapping_*` does what the program written with operators
does in a build without overflow checks, panics included. -/
theorem C103_wrapping (T : IsType w N) (hs : ∀ i, (s i).length = N) (p : Prog sg) :
    p.wrapping s = p.run false s := by
  induction p generalizing s with
  | nil => rfl
  | cons q p ih =>
    obtain ⟨j, e⟩ := q
    exact bind_congr' (e.wrapping_eval T hs) fun x ex => ih (update_length hs (e.eval_length T hs false ex) j)

example := C103_wrapping (sg := true) (s := st) (by decide) st_length ring
example : ∃ s', (ring (sg := true)).wrapping st = .ok s' := by
  obtain ⟨s', h, -⟩ := C100_ring (sg := true) (s := st) (by decide) st_length ring (by simp [ring, Expr.Ring])
  exact ⟨s', (C103_wrapping (by decide) st_length ring).trans h⟩

/-- C103: in every build a program written with `strict_*` does what the program written with operators does
in a build with overflow checks. -/
theorem C103_strict (T : IsType w N) (hs : ∀ i, (s i).length = N) (p : Prog sg) :
    p.strict s = p.run true s := by
  induction p generalizing s with
  | nil => rfl
  | cons q p ih =>
    obtain ⟨j, e⟩ := q
    exact bind_congr' (e.strict_eval T hs) fun x ex => ih (update_length hs (e.eval_length T hs true ex) j)

example := C103_strict (sg := false) (s := st) (by decide) st_length prog

/-- C103: a program written with `checked_*` and `?` returns a value just if the program written with
operators ends in a build with overflow checks, and the same value; otherwise it returns `None` or panics. -/
theorem C103_checked (T : IsType w N) (hs : ∀ i, (s i).length = N) (p : Prog sg) :
    ChecksLike (p.checked s) (p.run true s) := by
  induction p generalizing s with
  | nil => rfl
  | cons q p ih =>
    obtain ⟨j, e⟩ := q
    exact (e.checked_eval T hs).bind fun x ex => ih (update_length hs (e.eval_length T hs true ex) j)

example := C103_checked (sg := true) (s := st) (by decide) st_length prog
example : ∃ s', (prog (sg := true)).checked st = .ok (some s') := by
  obtain ⟨s', h, -⟩ := C100_exact_partial (sg := true) (s := st) (by decide) st_length prog (by decide +kernel)
  have := C103_checked (sg := true) (s := st) (by decide) st_length prog
  rw [h] at this
  exact ⟨s', this⟩

/-- C103, partial: a program written with `checked_*` and `?` never panics, returns the values that the
program has on the integers, and returns `None` just if there are none: an intermediate result does not fit,
a divisor is zero or a shift amount is too large — provided no operation meets one of the known faults
(`Prog.Tame`).  The full claim has no such proviso. -/
theorem C103_checked_partial (T : IsType w N) (hs : ∀ i, (s i).length = N) (p : Prog sg)
    (ht : p.Tame w N fun i => value sg (s i)) :
    ProgChecks sg N (p.exact (w * N) fun i => value sg (s i)) (p.checked s) := by
  induction p generalizing s with
  | nil => exact ⟨s, rfl, fun i => ⟨hs i, rfl⟩⟩
  | cons q p ih =>
    obtain ⟨j, e⟩ := q
    have h := e.checked_exact T hs ht.1
    rw [Prog.exact, Prog.checked]
    have h2 := ht.2
    generalize e.exact (w * N) (fun i => value sg (s i)) = o at h h2
    cases o with
    | none => rw [show e.checked s = .ok none from h]; rfl
    | some z =>
      obtain ⟨x, ex, hx, rfl⟩ := h
      rw [ex]
      have := ih (update_length hs hx j) (by rw [value_update]; exact h2 _ rfl)
      rw [value_update] at this
      exact this

example := C103_checked_partial (sg := false) (s := st) (by decide) st_length prog (by decide +kernel)
-- a sum that does not fit, a division by zero and a shift that is too far
example : (Prog.exact (sg := false) 256 [(4, .add (.var 3) (.var 1))] (fun i => value false (st i))).isNone ∧
    (Prog.exact (sg := false) 256 [(4, .div (.var 3) (.var 9))] (fun i => value false (st i))).isNone ∧
    (Prog.exact (sg := true) 256 [(4, .shl (.var 3) 256)] (fun i => value true (st i))).isNone := by decide +kernel
example : Prog.Tame (sg := false) 64 4 [(4, .add (.var 3) (.var 1))] (fun i => value false (st i)) ∧
    Prog.Tame (sg := false) 64 4 [(4, .div (.var 3) (.var 9))] (fun i => value false (st i)) ∧
    Prog.Tame (sg := true) 64 4 [(4, .shl (.var 3) 256)] (fun i => value true (st i)) := by decide +kernel

/-- C103: without `/` and `%` neither the checked nor the wrapping nor the saturating program panics. -/
theorem C103_never_panics (p : Prog sg) (hp : ∀ q ∈ p, q.2.NoDiv) :
    p.checked s ≠ .panic ∧ p.wrapping s ≠ .panic ∧ p.saturating s ≠ .panic := by
  suffices h : (∃ o, p.checked s = .ok o) ∧ (∃ v, p.wrapping s = .ok v) ∧ ∃ v, p.saturating s = .ok v by
    obtain ⟨⟨o, h1⟩, ⟨v, h2⟩, ⟨u, h3⟩⟩ := h
    rw [h1, h2, h3]
    exact ⟨by simp, by simp, by simp⟩
  induction p generalizing s with
  | nil => exact ⟨⟨_, rfl⟩, ⟨_, rfl⟩, ⟨_, rfl⟩⟩
  | cons q p ih =>
    obtain ⟨j, e⟩ := q
    obtain ⟨h1, h2, h3⟩ := e.noDiv_ok (s := s) (hp (j, e) (by simp))
    have i := fun {t} => ih (s := t) fun q hq => hp q (by simp [hq])
    exact ⟨Res.orNone_ok h1 fun x => i.1, Res.bind_isOk h2 fun x => i.2.1, Res.bind_isOk h3 fun x => i.2.2⟩

example := C103_never_panics (sg := true) (s := st) ring (by simp [ring, Expr.NoDiv])

/-- C103, partial: in a program written with `saturating_*` every sum, difference, product, quotient, power
and negation is the value of the type nearest to the integer; `%` and the shifts are those of `wrapping_*`.
The program does not panic if no divisor is zero — provided no operation meets one of the known faults
(`Prog.Safe`).  The full claim has only the proviso about zero. -/
theorem C103_saturating_partial (T : IsType w N) (hs : ∀ i, (s i).length = N) (p : Prog sg)
    (ht : p.Safe w N fun i => value sg (s i)) :
    ∃ s', p.saturating s = .ok s' ∧
      ∀ i, (s' i).length = N ∧ value sg (s' i) = p.clamped (w * N) (fun i => value sg (s i)) i := by
  induction p generalizing s with
  | nil => exact ⟨s, rfl, fun i => ⟨hs i, rfl⟩⟩
  | cons q p ih =>
    obtain ⟨j, e⟩ := q
    obtain ⟨x, ex, hx, hv⟩ := e.saturating_clamped T hs ht.1
    have h2 := ht.2
    rw [← hv, ← value_update] at h2
    obtain ⟨s', e', h'⟩ := ih (update_length hs hx j) h2
    rw [value_update, hv] at h'
    exact ⟨s', by rw [Prog.saturating, ex]; exact e', h'⟩

/-- `v4 = v3.saturating_mul(v2).saturating_sub(v1); v5 = v4.saturating_pow(3).saturating_div(v2)`. -/
def Sample.sat {sg : Bool} : Prog sg :=
  [(4, .sub (.mul (.var 3) (.var 2)) (.var 1)), (5, .div (.pow (.var 4) 3) (.var 2))]

example := C103_saturating_partial (sg := false) (s := st) (by decide) st_length sat
  (by simp only [sat, Prog.Safe, Expr.Safe, true_and, and_true]; decide +kernel)
example := C103_saturating_partial (sg := true) (s := st) (by decide) st_length sat
  (by simp only [sat, Prog.Safe, Expr.Safe, true_and, and_true]; decide +kernel)
example : (sat (sg := true)).clamped 256 (fun i => value true (st i)) 5 = -2 ^ 255 / value true (st 2) + 1 ∧
    (sat (sg := false)).clamped 256 (fun i => value false (st i)) 5 = (2 ^ 256 - 1) / value false (st 2) := by
  decide +kernel

/-- `v0 * v1` is one below the minimum of the signed type. -/
def Sample.gap : Nat → Limbs 64
  | 0 => [0xaaaaaaaaaaaaaaab, 0xaaaaaaaaaaaaaaaa, 0xaaaaaaaaaaaaaaaa, 0x2aaaaaaaaaaaaaaa]
  | _ => [0xfffffffffffffffd, 0xffffffffffffffff, 0xffffffffffffffff, 0xffffffffffffffff]

theorem Sample.gap_length : ∀ i, (gap i).length = 4 := by
  intro i; unfold gap; split <;> rfl

/-- C103 is false without the proviso: the checked program panics in a division, returns a wrong remainder,
and returns a product that does not fit; the saturating program wraps such a product. -/
theorem C103_false :
    (∃ s : Nat → Limbs 64, (∀ i, (s i).length = 4) ∧ ∃ p : Prog false, p.checked s = .panic) ∧
    (∃ s : Nat → Limbs 64, (∀ i, (s i).length = 4) ∧ ∃ p : Prog false,
      ∃ s', p.checked s = .ok (some s') ∧
        (p.exact 256 fun i => value false (s i)).map (· 2) ≠ some (value false (s' 2))) ∧
    (∃ s : Nat → Limbs 64, (∀ i, (s i).length = 4) ∧ ∃ p : Prog true,
      (p.exact 256 fun i => value true (s i)).isNone ∧ (∃ s', p.checked s = .ok (some s')) ∧
      ∃ s', p.saturating s = .ok s' ∧ value true (s' 2) ≠ p.clamped 256 (fun i => value true (s i)) 2) := by
  refine ⟨⟨fun i => if i = 0 then n3 else d3, fun i => by dsimp only; split <;> rfl,
    [(2, .div (.var 0) (.var 1))], ?_⟩, ?_, ?_⟩
  · have e : U.checkedDiv n3 d3 = .panic := by decide +kernel
    simp [Prog.checked, Expr.checked, Res.orNone, e]
  · have e : U.checkedRem (st 0) (st 1) =
        .ok (some [0xfffffffffffffffe, 0xffffffffffffffff, 0x5fffffffffffffff, 0]) := by decide +kernel
    refine ⟨st, st_length, [(2, .rem (.var 0) (.var 1))],
      Function.update st 2 [0xfffffffffffffffe, 0xffffffffffffffff, 0x5fffffffffffffff, 0],
      by simp only [Prog.checked, Expr.checked, Res.orNone, Res.bind_ok, Bool.false_eq_true, if_false, e], ?_⟩
    simp only [Function.update_self]
    decide +kernel
  · have e : I.checkedMul (gap 0) (gap 1) = some maxS := by decide +kernel
    have e' : I.saturatingMul (gap 0) (gap 1) = maxS := by decide +kernel
    refine ⟨gap, gap_length, [(2, .mul (.var 0) (.var 1))], by decide +kernel,
      ⟨Function.update gap 2 maxS, ?_⟩, Function.update gap 2 maxS, ?_, ?_⟩
    · simp only [Prog.checked, Expr.checked, Res.orNone, Res.bind_ok, if_true, e]
    · simp only [Prog.saturating, Expr.saturating, Res.bind_ok, if_true, e']
    · simp only [Function.update_self]
      decide +kernel

end I256
