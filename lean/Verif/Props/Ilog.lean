import Verif.Lemmas.Ilog
import Verif.Lemmas.DivClean
import Verif.Props.Samples

/-!
# Integer logarithm in any base (C32)

The first argument `rounds` of the model bounds the number of loop rounds: `none` means "still
running".  A loop that ends within `bits x` rounds is stated by quantifying over all
`rounds ≥ bits x`; non-termination by `none` for all `rounds`.
-/

namespace I256

open Sample

variable {w : Nat} {x y : Limbs w}

/-- C32 fails for values below the base (disagreement B5): `checked_ilog(3, 10)` is `None`, not
`Some(0)`. -/
theorem C32_uint_checked_ilog_false : ¬ ∀ (x b : Limbs 64), x.length = 4 → b.length = 4 →
    1 ≤ toNat x → 2 ≤ toNat b →
    ∃ rounds, U.checkedIlog false rounds x b = some (.ok (some (Nat.log (toNat b) (toNat x)))) := by
  intro h
  obtain ⟨r, hr⟩ := h [3, 0, 0, 0] [10, 0, 0, 0] rfl rfl (by decide) (by decide)
  rw [U.checkedIlog, if_pos (by decide)] at hr
  simp at hr

/-- C32 fails for base 1 (disagreement B5): the documented answer is `None`, but without overflow
checks the loop never ends. -/
theorem C32_uint_base_one_false : ¬ ∀ (x b : Limbs 64), x.length = 4 → b.length = 4 →
    toNat b ≤ 1 → ∃ rounds, U.checkedIlog false rounds x b = some (.ok none) := by
  intro h
  obtain ⟨r, hr⟩ := h a one rfl rfl (by decide)
  rw [checkedIlogU_one (by decide) (by decide) (by decide) (by decide) false (by decide) (by decide)
    (by decide)] at hr
  simp at hr

/-- C32 fails for the signed type as well (B5): `checked_ilog(3, 10)` panics. -/
theorem C32_int_checked_ilog_false : ¬ ∀ (x b : Limbs 64), x.length = 4 → b.length = 4 →
    1 ≤ toInt x → 2 ≤ toInt b → ∃ rounds v, I.checkedIlog false rounds x b = some (.ok v) := by
  intro h
  obtain ⟨r, v, hr⟩ := h [3, 0, 0, 0] [10, 0, 0, 0] rfl rfl (by decide +kernel) (by decide +kernel)
  rw [I.checkedIlog, if_neg (by decide), U.ilog, U.checkedIlog, if_pos (by decide)] at hr
  simp [unwrapOrPanic] at hr

section
variable (hw : 0 < w) (hl : x.length = y.length) (he : x.length % 2 = 0) (h4 : 4 ≤ x.length)
  (hbits : bits x < 2 ^ 32)
include hw hl he h4 hbits

/-- C32, violated in full (`C32_uint_checked_ilog_false`, `C32_uint_base_one_false`): the full
statement is `some (.ok (if 1 ≤ x ∧ 2 ≤ b then some ⌊log_b x⌋ else none))`.  For every base other than
1 the loop ends within `BITS` rounds, and the result is: `None` for `x = 0`, `b = 0` **and `x < b`**;
a panic if the division `x / b` panics (B2); otherwise the exact `⌊log_b x⌋`. -/
theorem C32_uint_checked_ilog_partial (oc : Bool) (hb : toNat y ≠ 1) (rounds : Nat)
    (hr : bits x ≤ rounds) :
    U.checkedIlog oc rounds x y =
      if toNat x = 0 ∨ toNat y = 0 ∨ toNat x < toNat y then some (.ok none)
      else if DivPanics w x.length (toNat x) (toNat y) then some .panic
      else some (.ok (some (Nat.log (toNat y) (toNat x)))) :=
  checkedIlogU hw hl he h4 oc hb hbits rounds hr

/-- C32: for bases that fit in one limb (and `2 ≤ b ≤ x`) the answer is exact. -/
theorem C32_uint_checked_ilog_small_partial (oc : Bool) (hb : 2 ≤ toNat y) (hb' : toNat y < 2 ^ w)
    (hle : toNat y ≤ toNat x) (rounds : Nat) (hr : bits x ≤ rounds) :
    U.checkedIlog oc rounds x y = some (.ok (some (Nat.log (toNat y) (toNat x)))) ∧
    U.ilog oc rounds x y = some (.ok (Nat.log (toNat y) (toNat x))) := by
  have hc := clean_of_one_limb hw (x := toNat x) (k := 0) hb'
  rw [pow_zero, mul_one] at hc
  have h := checkedIlogU hw hl he h4 oc (by omega) hbits rounds hr
  rw [if_neg (by omega), if_neg hc.noPanic] at h
  exact ⟨h, by rw [U.ilog, h]; rfl⟩

/-- C32: with base 1 and `x ≥ 1` there is no answer: without overflow checks the loop never ends, with
overflow checks it panics when its 32-bit counter overflows. -/
theorem C32_uint_base_one_partial (oc : Bool) (hb : toNat y = 1) (hx : toNat x ≠ 0) (rounds : Nat) :
    U.checkedIlog oc rounds x y =
      if oc = true ∧ 2 ^ 32 ≤ (toNat x).log2 + rounds then some .panic else none :=
  checkedIlogU_one hw hl he h4 oc hb hx hbits rounds

/-- C32: unsigned `ilog` panics exactly if `checked_ilog` is `None` or panics. -/
theorem C32_uint_ilog_partial (oc : Bool) (hb : toNat y ≠ 1) (rounds : Nat) (hr : bits x ≤ rounds) :
    U.ilog oc rounds x y =
      if toNat x = 0 ∨ toNat y = 0 ∨ toNat x < toNat y ∨ DivPanics w x.length (toNat x) (toNat y) then
        some .panic
      else some (.ok (Nat.log (toNat y) (toNat x))) := by
  rw [U.ilog, checkedIlogU hw hl he h4 oc hb hbits rounds hr]
  by_cases c : toNat x = 0 ∨ toNat y = 0 ∨ toNat x < toNat y
  · rw [if_pos c, if_pos (by tauto)]; rfl
  · rw [if_neg c]
    by_cases p : DivPanics w x.length (toNat x) (toNat y)
    · rw [if_pos p, if_pos (by tauto)]; rfl
    · rw [if_neg p, if_neg (by tauto)]; rfl

/-- C32, violated in full (`C32_int_checked_ilog_false`): signed `checked_ilog` is `None` for `x ≤ 0`
or `b ≤ 1`, the exact `⌊log_b x⌋` for `2 ≤ b ≤ x` unless the division panics (B2), and it **panics** for
`1 ≤ x < b`. -/
theorem C32_int_checked_ilog_partial (oc : Bool) (rounds : Nat) (hr : bits x ≤ rounds) :
    I.checkedIlog oc rounds x y =
      if toInt x ≤ 0 ∨ toInt y ≤ 1 then some (.ok none)
      else if toInt x < toInt y ∨ DivPanics w x.length (toNat x) (toNat y) then some .panic
      else some (.ok (some (Nat.log (toNat y) (toNat x)))) := by
  obtain ⟨o1, o2⟩ := ofU8S (w := w) (N := x.length) (v := 0) hw (by omega) (Nat.two_pow_pos w)
  obtain ⟨p1, p2⟩ := ofU8S (w := w) (N := x.length) (v := 1) hw (by omega) (one_lt_two_pow' hw)
  have h1 := Ord.le_iff hw true (x := x) (y := ofU8 x.length 0) (by rw [o1]) he h4
  have h2 := Ord.le_iff hw true (x := y) (y := ofU8 x.length 1) (by rw [p1, hl]) (by omega) (by omega)
  simp only [Ord.val, if_true] at h1 h2
  rw [o2] at h1
  rw [p2] at h2
  have hx := toInt_cases x
  have hy := toInt_cases y
  rw [I.checkedIlog]
  by_cases c : toInt x ≤ 0 ∨ toInt y ≤ 1
  · rw [if_pos c, if_pos]
    rw [Bool.or_eq_true, h1, h2]
    exact_mod_cast c
  · rw [if_neg c, if_neg (by rw [Bool.or_eq_true, h1, h2]; exact_mod_cast c)]
    have hxv : (toNat x : Int) = toInt x := by omega
    have hyv : (toNat y : Int) = toInt y := by omega
    rw [C32_uint_ilog_partial hw hl he h4 hbits oc (by omega) rounds hr]
    by_cases q : toInt x < toInt y ∨ DivPanics w x.length (toNat x) (toNat y)
    · rw [if_pos q, if_pos]
      · rfl
      · rcases q with q | q
        · right; right; left; omega
        · tauto
    · rw [if_neg q, if_neg]
      · rfl
      · rintro (h | h | h | h)
        · omega
        · omega
        · exact q (.inl (by omega))
        · exact q (.inr h)

/-- C32, violated in full (`C32_int_checked_ilog_false`): signed `ilog` returns the exact logarithm for
`2 ≤ b ≤ x` and panics otherwise (or if the division panics, B2). -/
theorem C32_int_ilog_partial (hw1 : 1 < w) (oc : Bool) (rounds : Nat) (hr : bits x ≤ rounds) :
    I.ilog oc rounds x y =
      if toInt x ≤ 0 ∨ toInt y ≤ 1 ∨ toInt x < toInt y ∨ DivPanics w x.length (toNat x) (toNat y) then
        some .panic
      else some (.ok (Nat.log (toNat y) (toNat x))) := by
  have h2w : 2 < 2 ^ w :=
    calc 2 < 2 ^ 2 := by decide
      _ ≤ 2 ^ w := Nat.pow_le_pow_right (by omega) hw1
  rw [I.ilog, C32_int_checked_ilog_partial hw hl he h4 hbits oc rounds hr]
  have hge : Ord.ge true y (ofU8 x.length 2) = true ↔ ¬ toInt y ≤ 1 := by
    obtain ⟨o1, o2⟩ := ofU8S (w := w) (N := x.length) (v := 2) hw (by omega) h2w
    rw [Ord.ge, Bool.not_eq_true', ← Bool.not_eq_true,
      Ord.lt_iff hw true (by rw [o1, hl]) (by omega) (by omega)]
    simp only [Ord.val, if_true]
    rw [o2]
    push_cast
    omega
  by_cases c1 : toInt y ≤ 1
  · rw [if_neg (by rw [hge]; exact not_not.2 c1), if_pos (by tauto)]
  · rw [if_pos (hge.2 c1)]
    by_cases c2 : toInt x ≤ 0
    · rw [if_pos (.inl c2), if_pos (.inl c2)]; rfl
    · rw [if_neg (by tauto)]
      by_cases q : toInt x < toInt y ∨ DivPanics w x.length (toNat x) (toNat y)
      · rw [if_pos q, if_pos (by tauto)]; rfl
      · rw [if_neg q, if_neg (by tauto)]; rfl

end

example := C32_uint_checked_ilog_partial (x := ones) (y := a) (by decide) (by decide) (by decide) (by decide)
  (by decide) true (by decide) 256 (by decide)
example := C32_uint_checked_ilog_small_partial (x := ones) (y := ([10, 0, 0, 0] : Limbs 64)) (by decide)
  (by decide) (by decide) (by decide) (by decide) true (by decide) (by decide) (by decide) 256 (by decide)
example : U.checkedIlog true 256 ones ([10, 0, 0, 0] : Limbs 64) = some (.ok (some 77)) := by
  decide +kernel
example := C32_uint_base_one_partial (x := a) (y := one) (by decide) (by decide) (by decide) (by decide)
  (by decide) true (by decide) (by decide) 100
example := C32_uint_ilog_partial (x := ones) (y := a) (by decide) (by decide) (by decide) (by decide)
  (by decide) true (by decide) 256 (by decide)
example := C32_int_checked_ilog_partial (x := maxS) (y := a) (by decide) (by decide) (by decide) (by decide)
  (by decide) true 256 (by decide)
example : I.checkedIlog true 256 maxS ([10, 0, 0, 0] : Limbs 64) = some (.ok (some 76)) := by
  decide +kernel
example := C32_int_ilog_partial (x := maxS) (y := a) (by decide) (by decide) (by decide) (by decide)
  (by decide) (by decide) true 256 (by decide)
example : I.ilog true 256 maxS one = some .panic := by decide +kernel

end I256
