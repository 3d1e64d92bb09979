import Verif.Lemmas.RareMul
import Verif.Props.GapAll

/-!
# C116: how many signed products overflow without notice

C08 finds that the overflow test of signed products lets some products below `MIN` pass.  For every factor `y`, the number of
factors `x` whose product with `y` does so is known up to two.  `Set.ncard` counts the elements of a finite set.
-/

namespace I256

open Sample

variable {w N : Nat} {x y : Limbs w}

/-- C116: which products are wrong.  The same products break the contracts of all the checked forms: those below
`-2 ^ (BITS - 1)` by less than one unit of the top limb. -/
theorem C116_where (hw : 0 < w) (hx : x ≠ []) (hl : x.length = y.length) :
    ∀ P ∈ [OverS x.length (toInt x * toInt y) (I.overflowingMul x y),
      CheckS x.length (toInt x * toInt y) (I.checkedMul x y), SatS x.length (toInt x * toInt y) (I.saturatingMul x y),
      StrictS x.length (toInt x * toInt y) (I.strictMul x y), OpS true x.length (toInt x * toInt y) (I.mul true x y)],
    ¬ P ↔ toInt x * toInt y < -2 ^ (w * x.length - 1) ∧
      -2 ^ (w * x.length - 1) - 2 ^ (w * (x.length - 1)) < toInt x * toInt y := by
  have hg := C08_int_mul_partial hw hx hl true
  obtain ⟨a1, a2, a3, a4, a5⟩ := C08_int_mul_all_partial hw hx hl true
  have hm : -(2 : Int) ^ (w * x.length - 1) ≤ 0 := by simp
  have key : Mul.Gap w x.length (toInt x * toInt y) →
      ¬ OverS x.length (toInt x * toInt y) (I.overflowingMul x y) ∧
      ¬ CheckS x.length (toInt x * toInt y) (I.checkedMul x y) ∧
      ¬ SatS x.length (toInt x * toInt y) (I.saturatingMul x y) ∧
      ¬ StrictS x.length (toInt x * toInt y) (I.strictMul x y) ∧
      ¬ OpS true x.length (toInt x * toInt y) (I.mul true x y) := by
    intro h
    have hi := (C08_int_mul_gap_false hw hx hl h).1
    refine ⟨fun c => a1.2.1 (c.2.2 hi) (.inr h), fun c => ?_, fun c => ?_, fun c => ?_, fun c => ?_⟩
    · obtain ⟨v, e, -⟩ := a2.1 (.inr h)
      rw [c.2 hi] at e
      exact absurd e (by simp)
    · have h1 := (a3.2 h).2
      have h2 : toInt x * toInt y < -2 ^ (w * x.length - 1) := h.1
      rw [c.2, min_eq_left (by omega), max_eq_left (by omega)] at h1
      omega
    · obtain ⟨v, e, -⟩ := a4.1 (.inr h)
      rw [c.2 hi] at e
      exact absurd e (by simp)
    · have c' : StrictS x.length (toInt x * toInt y) (I.mul true x y) := c
      have a5' : StrictG x.length (toInt x * toInt y) (I.mul true x y) := a5
      obtain ⟨v, e, -⟩ := a5'.1 (.inr h)
      rw [c'.2 hi] at e
      exact absurd e (by simp)
  intro P hP
  change ¬ P ↔ Mul.Gap w x.length (toInt x * toInt y)
  simp only [List.mem_cons, List.not_mem_nil, or_false] at hP
  rcases hP with rfl | rfl | rfl | rfl | rfl
  · exact ⟨fun h => by_contra fun c => h (hg c).1, fun h => (key h).1⟩
  · exact ⟨fun h => by_contra fun c => h (hg c).2.1, fun h => (key h).2.1⟩
  · exact ⟨fun h => by_contra fun c => h (hg c).2.2.1, fun h => (key h).2.2.1⟩
  · exact ⟨fun h => by_contra fun c => h (hg c).2.2.2.1, fun h => (key h).2.2.2.1⟩
  · exact ⟨fun h => by_contra fun c => h (hg c).2.2.2.2, fun h => (key h).2.2.2.2⟩

example := C116_where (w := 64) (x := m2) (y := a) (by decide) (by decide) rfl
/-- A product of both kinds. -/
example : Mul.Gap 64 4 (toInt ([0xaaaaaaaaaaaaaaab, 0xaaaaaaaaaaaaaaaa, 0xaaaaaaaaaaaaaaaa, 0x2aaaaaaaaaaaaaaa] : Limbs 64) *
      toInt ([0xfffffffffffffffd, 0xffffffffffffffff, 0xffffffffffffffff, 0xffffffffffffffff] : Limbs 64)) ∧
    ¬ Mul.Gap 64 4 (toInt m2 * toInt a) := by
  unfold Mul.Gap; decide +kernel

/-- C116: for a factor `y`, no more than `2 ^ (w * (N - 1)) / |y| + 1` of the `2 ^ (w * N)` factors are multiplied with it
wrongly. -/
theorem C116_most (hw : 0 < w) (hN : 0 < N) (hl : y.length = N) :
    {x : Limbs w | x.length = N ∧ ¬ OverS N (toInt x * toInt y) (I.overflowingMul x y)}.ncard ≤
      2 ^ (w * (N - 1)) / (toInt y).natAbs + 1 := by
  convert card_gap_le (N := N) y using 4 with x
  refine and_congr_right fun hx => ?_
  subst hx
  exact C116_where hw (List.length_pos_iff.1 hN) hl.symm _ (by simp)

example := C116_most (w := 64) (N := 4) (y := m2) (by decide) (by decide) rfl

/-- C116: for a factor `y` other than `0`, `1` and `-1`, at least `(2 ^ (w * (N - 1)) - 1) / |y|` factors are multiplied
with it wrongly. -/
theorem C116_least (hw : 0 < w) (hN : 0 < N) (hl : y.length = N) (hy : 2 ≤ (toInt y).natAbs) :
    (2 ^ (w * (N - 1)) - 1) / (toInt y).natAbs ≤
      {x : Limbs w | x.length = N ∧ ¬ OverS N (toInt x * toInt y) (I.overflowingMul x y)}.ncard := by
  convert le_card_gap hw hN y hy using 4 with x
  refine and_congr_right fun hx => ?_
  subst hx
  exact C116_where hw (List.length_pos_iff.1 hN) hl.symm _ (by simp)

example := C116_least (w := 64) (N := 4) (y := m2) (by decide) (by decide) rfl (by decide +kernel)
/-- `I256` on 64-bit limbs: multiplied by 3, at least `2 ^ 190` numbers overflow without notice. -/
example : 2 ^ 190 ≤ {x : Limbs 64 | x.length = 4 ∧
    ¬ OverS 4 (toInt x * toInt ([3, 0, 0, 0] : Limbs 64)) (I.overflowingMul x [3, 0, 0, 0])}.ncard :=
  le_trans (by decide +kernel)
    (C116_least (w := 64) (N := 4) (y := [3, 0, 0, 0]) (by decide) (by decide) rfl (by decide +kernel))

/-- C116: every factor of no more than `N - 1` limbs, other than `0`, `1` and `-1`, meets with some factor in a product that
is wrong. -/
theorem C116_some (hw : 0 < w) (hN : 0 < N) (hl : y.length = N) (hy : 2 ≤ (toInt y).natAbs)
    (hb : (toInt y).natAbs < 2 ^ (w * (N - 1))) :
    ∃ x : Limbs w, x.length = N ∧ ¬ InS (w * N) (toInt x * toInt y) ∧ ∃ v, I.overflowingMul x y = (v, false) ∧
      I.checkedMul x y = some v ∧ 0 < toInt v := by
  have h := C116_least hw hN hl hy
  have h1 : 1 ≤ (2 ^ (w * (N - 1)) - 1) / (toInt y).natAbs := (Nat.one_le_div_iff (by omega)).2 (by omega)
  obtain ⟨x, hx, hn⟩ := Set.nonempty_of_ncard_ne_zero (Nat.ne_of_gt (Nat.lt_of_lt_of_le h1 h))
  subst hx
  have hg := (C116_where hw (List.length_pos_iff.1 hN) hl.symm _ (by simp)).1 hn
  obtain ⟨i, v, e1, e2, e3⟩ := C08_int_mul_gap_false hw (List.length_pos_iff.1 hN) hl.symm hg
  refine ⟨x, rfl, i, v, e1, e2, ?_⟩
  have h3 : (2 : Int) ^ (w * (x.length - 1)) ≤ 2 ^ (w * x.length - 1) := by
    rw [pow_pred_mul hw hN]
    exact pow_le_pow_right₀ (by omega) (by omega)
  have h2 : (2 : Int) ^ (w * x.length) = 2 * 2 ^ (w * x.length - 1) := by
    rw [← pow_succ', show w * x.length - 1 + 1 = w * x.length by have := Nat.mul_pos hw hN; omega]
  have h4 := hg.2
  omega

example := C116_some (w := 64) (N := 4) (y := m2) (by decide) (by decide) rfl (by decide +kernel) (by decide +kernel)

/-- C116: the factors `0`, `1` and `-1` are always multiplied rightly. -/
theorem C116_none (hw : 0 < w) (hx : x ≠ []) (hl : x.length = y.length) (hy : (toInt y).natAbs < 2) :
    OverS x.length (toInt x * toInt y) (I.overflowingMul x y) := by
  by_contra h
  obtain ⟨h1, h2⟩ := (C116_where hw hx hl _ (by simp)).1 h
  have hi := toInt_InS x
  unfold InS at hi
  rw [bits] at hi
  have h3 : (2 : Int) ^ (w * x.length) = 2 * 2 ^ (w * x.length - 1) := by
    rw [← pow_succ', show w * x.length - 1 + 1 = w * x.length by
      have := Nat.mul_pos hw (List.length_pos_iff.2 hx); omega]
  have hc : toInt y = 0 ∨ toInt y = 1 ∨ toInt y = -1 := by omega
  rcases hc with e | e | e <;> rw [e] at h1 <;> omega

example := C116_none (w := 64) (x := m2) (y := ones) (by decide) (by decide) rfl (by decide +kernel)

end I256
