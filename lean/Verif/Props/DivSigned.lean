import Verif.Lemmas.DivForms
import Verif.Props.Div

/-!
# Signed division: C17-C19, C34, C51

`Int.tdiv`/`Int.tmod` truncate towards zero, `/` and `%` on `Int` are Euclidean (`0 ≤ r < |y|`),
`Int.fdiv`/`Int.fmod` round down.  Division works on the magnitudes, so all statements carry the
conditions of unsigned long division of `|x|` by `|y|` (see Verif/Props/Div.lean).
-/

namespace I256

open Sample

variable {w : Nat} {x y : Limbs w}

/-- `2^126 + 2^64 - 1`. -/
def Sample.e1 : Limbs 64 := [0xffffffffffffffff, 0x4000000000000000, 0, 0]
/-- `(2^128 - 2^64 - 1) * e1`. -/
def Sample.mult1 : Limbs 64 := [1, 0xc000000000000000, 0xbffffffffffffffd, 0x4000000000000000]
/-- `-(2^128 - 2^64 - 1) * e1`. -/
def Sample.mult1n : Limbs 64 := [0xffffffffffffffff, 0x3fffffffffffffff, 0x4000000000000002, 0xbfffffffffffffff]

section nonzero
variable (hw : 1 < w) (hl : x.length = y.length) (h2 : 2 ≤ x.length) (he : x.length % 2 = 0)
  (hy : toInt y ≠ 0)
include hw hl h2 he hy

/-! ### C17: truncated division -/

/-- C17: the quotient is truncated towards zero, modulo `2^BITS`. -/
theorem C17_int_wrapping_div :
    Yields (DivPanics w x.length (toInt x).natAbs (toInt y).natAbs)
      (WrapS x.length ((toInt x).tdiv (toInt y))) (I.wrappingDiv x y) :=
  wrappingDivS hw hl h2 he hy

/-- C17: `overflowing_div` flags exactly the unrepresentable quotient, `MIN / -1`. -/
theorem C17_int_overflowing_div :
    Yields (DivPanics w x.length (toInt x).natAbs (toInt y).natAbs)
      (fun r => OverS x.length ((toInt x).tdiv (toInt y)) r ∧
        (r.2 = true ↔ toInt x = -2 ^ (w * x.length - 1) ∧ toInt y = -1)) (I.overflowingDiv x y) := by
  have hx := toInt_InS x
  have hY := toInt_InS y
  rw [show bits x = w * x.length from rfl] at hx
  rw [show bits y = w * y.length from rfl, ← hl] at hY
  have hpos : 0 < w * x.length := by positivity
  have hd := tdiv_InS hpos hx hY
  have h := formOver hw hl h2 he hd (wrappingDivS hw hl h2 he hy)
    (fun e => minNeg_noPanic (by omega) e) (fun c => by
      have := (wrappingDivS hw hl h2 he hy).2 (minNeg_noPanic (by omega) c.2)
      refine ⟨rfl, ?_⟩
      rw [c.1, c.2, Int.tdiv_neg, Int.tdiv_one, neg_neg]
      have h3 : ((2 ^ (w * x.length) : Nat) : Int) = 2 * 2 ^ (w * x.length - 1) := by
        push_cast; rw [← pow_succ']; congr 1; omega
      have h4 : (0:Int) < 2 ^ (w * x.length - 1) := by positivity
      rw [Int.bmod_def, h3, Int.emod_eq_of_lt (by positivity) (by omega), if_neg (by omega)]
      omega)
  exact h.mono fun r hr => ⟨hr, hr.2.trans (by rw [hd]; tauto)⟩

/-- C17: `checked_div` is `Some` of the quotient, `None` iff it is `MIN / -1`. -/
theorem C17_int_checked_div :
    Yields (DivPanics w x.length (toInt x).natAbs (toInt y).natAbs)
      (fun o => CheckS x.length ((toInt x).tdiv (toInt y)) o ∧
        (o = none ↔ toInt x = -2 ^ (w * x.length - 1) ∧ toInt y = -1)) (I.checkedDiv x y) := by
  have hx := toInt_InS x
  have hY := toInt_InS y
  rw [show bits x = w * x.length from rfl] at hx
  rw [show bits y = w * y.length from rfl, ← hl] at hY
  have hd := tdiv_InS (by positivity : 0 < w * x.length) hx hY
  refine (formCheck hw hl h2 he hd (wrappingDivS hw hl h2 he hy) hy
    (fun e => minNeg_noPanic (by omega) e)).mono fun o ho => ⟨ho, ?_⟩
  rw [show (toInt x = -2 ^ (w * x.length - 1) ∧ toInt y = -1) ↔ ¬ InS (w * x.length) _ by
    rw [hd]; tauto]
  constructor
  · rintro rfl hi
    obtain ⟨v, e, -⟩ := ho.1 hi
    cases e
  · exact ho.2

/-- C17: `saturating_div`: the nearest representable value, so `MIN / -1 = MAX`. -/
theorem C17_int_saturating_div :
    Yields (DivPanics w x.length (toInt x).natAbs (toInt y).natAbs)
      (SatS x.length ((toInt x).tdiv (toInt y))) (I.saturatingDiv x y) := by
  refine (C17_int_overflowing_div hw hl h2 he hy).map ?_
  rintro ⟨v, f⟩ ⟨⟨hv, hf⟩, hm⟩
  cases f
  · simp only [Bool.false_eq_true, false_iff, not_not] at hf
    exact SatS.some (by omega) (by omega) hf (hv.exact hf)
  · refine SatS.max (by omega) (by omega) (hf.1 rfl) ?_
    obtain ⟨e1, e2⟩ := hm.1 rfl
    rw [e1, e2, Int.tdiv_neg, Int.tdiv_one, neg_neg]
    positivity

/-- C17: `strict_div` and the operator `/`. -/
theorem C17_int_div (oc : Bool) :
    (DivPanics w x.length (toInt x).natAbs (toInt y).natAbs →
      I.div oc x y = .panic ∧ I.strictDiv x y = .panic) ∧
    (¬ DivPanics w x.length (toInt x).natAbs (toInt y).natAbs →
      OpS oc x.length ((toInt x).tdiv (toInt y)) (I.div oc x y) ∧
      StrictS x.length ((toInt x).tdiv (toInt y)) (I.strictDiv x y)) := by
  have hx := toInt_InS x
  have hY := toInt_InS y
  rw [show bits x = w * x.length from rfl] at hx
  rw [show bits y = w * y.length from rfl, ← hl] at hY
  have hd := tdiv_InS (by positivity : 0 < w * x.length) hx hY
  have h1 := formOp hw hl h2 he hd (wrappingDivS hw hl h2 he hy) hy
    (fun e => minNeg_noPanic (by omega) e) oc
  have h2 := formStrict hw hl h2 he hd (wrappingDivS hw hl h2 he hy) hy
    (fun e => minNeg_noPanic (by omega) e)
  exact ⟨fun p => ⟨h1.1 p, h2.1 p⟩, fun p => ⟨h1.2 p, h2.2 p⟩⟩

/-- C17, partial: the remainder is `x - y * trunc(x / y)`, with the stray part added away from zero.
The full claim, without `strayRem`, is false (`C17_int_rem_false`). -/
theorem C17_int_rem_partial :
    Yields (DivPanics w x.length (toInt x).natAbs (toInt y).natAbs)
      (ExactS x.length ((toInt x).tmod (toInt y) + (toInt x).sign *
          strayRem w x.length (toInt x).natAbs (toInt y).natAbs)) (I.wrappingRem x y) ∧
    Yields (DivPanics w x.length (toInt x).natAbs (toInt y).natAbs)
      (fun r => WrapS x.length ((toInt x).tdiv (toInt y)) r.1 ∧
        ExactS x.length ((toInt x).tmod (toInt y) + (toInt x).sign *
          strayRem w x.length (toInt x).natAbs (toInt y).natAbs) r.2) (I.wrappingDivRem x y) :=
  ⟨wrappingRemS hw hl h2 he hy, wrappingDivRemS' hw hl h2 he hy⟩

/-- C17, partial: the other forms of the remainder, when no estimate is corrected.  As in the standard
library, `MIN % -1` counts as overflow although the remainder is zero. -/
theorem C17_int_rem_forms_partial
    (hd : DivExact w x.length (toInt x).natAbs (toInt y).natAbs) (oc : Bool) :
    (∃ v, I.wrappingRem x y = .ok v ∧ ExactS x.length ((toInt x).tmod (toInt y)) v) ∧
    (∃ v f, I.overflowingRem x y = .ok (v, f) ∧ ExactS x.length ((toInt x).tmod (toInt y)) v ∧
      (f = true ↔ toInt x = -2 ^ (w * x.length - 1) ∧ toInt y = -1)) ∧
    (¬ (toInt x = -2 ^ (w * x.length - 1) ∧ toInt y = -1) → ∃ v, I.checkedRem x y = .ok (some v) ∧
      I.strictRem x y = .ok v ∧ I.rem oc x y = .ok v ∧
      ExactS x.length ((toInt x).tmod (toInt y)) v) ∧
    (toInt x = -2 ^ (w * x.length - 1) ∧ toInt y = -1 → I.checkedRem x y = .ok none ∧
      I.strictRem x y = .panic ∧ I.rem true x y = .panic ∧ ∃ v, I.rem false x y = .ok v ∧
      ExactS x.length 0 v) := by
  obtain ⟨v, e, hv⟩ := wrappingRemS_exact hw hl h2 he hy hd
  refine ⟨⟨v, e, hv⟩, ?_, fun c => ⟨v, ?_, ?_, ?_, hv⟩, fun c => ⟨?_, ?_, ?_, v, ?_, ?_⟩⟩
  · rw [I.overflowingRem, isDivOverflow_eq hw hl h2 he, e, Res.map_ok]
    simp only [decide_eq_true_eq]
    by_cases c : toInt x = -2 ^ (w * x.length - 1) ∧ toInt y = -1
    · rw [if_pos c]
      have hz := ofU8S (w := w) (N := x.length) (v := 0) (by omega) (by omega) (by positivity)
      refine ⟨_, _, rfl, ⟨hz.1, hz.2.trans ?_⟩, ?_⟩
      · rw [c.2, Int.tmod_neg, Int.tmod_one]; rfl
      · rw [eqMin_iff (by omega) (length_ne (n := 1) (by omega)) he]
        exact ⟨fun _ => c, fun _ => c.1⟩
    · rw [if_neg c]
      exact ⟨_, _, rfl, hv, by simpa using c⟩
  · rw [I.checkedRem, checkedS_eq hw hl h2 he, if_neg (by tauto), e, Res.map_ok]
  · rw [I.strictRem, I.checkedRem, strictS_eq hw hl h2 he, if_neg (by tauto), e]
  · rw [I.rem, I.checkedRem, opS_eq hw hl h2 he, if_neg (by tauto), e]
  · rw [I.checkedRem, checkedS_eq hw hl h2 he, if_pos (.inr c)]
  · rw [I.strictRem, I.checkedRem, strictS_eq hw hl h2 he, if_pos (.inr c)]
  · rw [I.rem, I.checkedRem, opS_eq hw hl h2 he, if_pos ⟨rfl, .inr c⟩]
  · rw [I.rem, I.checkedRem, opS_eq hw hl h2 he, if_neg (by simp), e]
  · refine ⟨hv.1, hv.2.trans ?_⟩
    rw [c.2, Int.tmod_neg, Int.tmod_one]

/-- C17, partial: `div_rem` pairs, when no estimate is corrected. -/
theorem C17_int_div_rem_partial
    (hd : DivExact w x.length (toInt x).natAbs (toInt y).natAbs) (oc : Bool) :
    (∃ q r f, I.overflowingDivRem x y = .ok ((q, r), f) ∧
      OverS x.length ((toInt x).tdiv (toInt y)) (q, f) ∧
      ExactS x.length ((toInt x).tmod (toInt y)) r) ∧
    (¬ (toInt x = -2 ^ (w * x.length - 1) ∧ toInt y = -1) →
      ∃ q r, I.checkedDivRem x y = .ok (some (q, r)) ∧ I.divRem oc x y = .ok (q, r) ∧
      ExactS x.length ((toInt x).tdiv (toInt y)) q ∧ ExactS x.length ((toInt x).tmod (toInt y)) r) ∧
    (toInt x = -2 ^ (w * x.length - 1) ∧ toInt y = -1 → I.checkedDivRem x y = .ok none ∧
      I.divRem true x y = .panic) := by
  have hx := toInt_InS x
  have hY := toInt_InS y
  rw [show bits x = w * x.length from rfl] at hx
  rw [show bits y = w * y.length from rfl, ← hl] at hY
  have hi := tdiv_InS (by positivity : 0 < w * x.length) hx hY
  obtain ⟨⟨q, r⟩, e, hq, hr⟩ := (wrappingDivRemS' hw hl h2 he hy).2 hd.1
  rw [hd.2] at hr
  simp only [Nat.cast_zero, mul_zero, add_zero] at hr hq
  refine ⟨?_, fun c => ⟨q, r, ?_, ?_, hq.exact (hi.2 c), hr⟩, fun c => ⟨?_, ?_⟩⟩
  · by_cases c : toInt x = -2 ^ (w * x.length - 1) ∧ toInt y = -1
    · obtain ⟨⟨v, f⟩, eo, ho, -⟩ := (C17_int_overflowing_div hw hl h2 he hy).2 hd.1
      have hc := isDivOverflow_eq hw hl h2 he
      rw [I.overflowingDiv, hc, if_pos (by simpa using c)] at eo
      cases eo
      rw [I.overflowingDivRem, hc, if_pos (by simpa using c)]
      have hz := ofU8S (w := w) (N := x.length) (v := 0) (by omega) (by omega) (by positivity)
      refine ⟨_, _, _, rfl, ho, hz.1, hz.2.trans ?_⟩
      rw [c.2, Int.tmod_neg, Int.tmod_one]; rfl
    · rw [I.overflowingDivRem, isDivOverflow_eq hw hl h2 he, if_neg (by simpa using c), e, Res.map_ok]
      exact ⟨_, _, _, rfl, ⟨hq, by simpa using hi.2 c⟩, hr⟩
  · rw [I.checkedDivRem, checkedS_eq hw hl h2 he, if_neg (by tauto), e, Res.map_ok]
  · rw [I.divRem, I.checkedDivRem, opS_eq hw hl h2 he, if_neg (by tauto), e]
  · rw [I.checkedDivRem, checkedS_eq hw hl h2 he, if_pos (.inr c)]
  · rw [I.divRem, I.checkedDivRem, opS_eq hw hl h2 he, if_pos ⟨rfl, .inr c⟩]

/-! ### C18: Euclidean division -/

/-- C18, partial: the complete characterisation of `wrapping_div_euclid` and `wrapping_rem_euclid`. The
quotient is the Euclidean one except that it is off by one when `x` is a negative multiple of `y` and
the remainder was spoilt. The full claim is false (`C18_int_euclid_false`). -/
theorem C18_int_wrapping_euclid_partial :
    Yields (DivPanics w x.length (toInt x).natAbs (toInt y).natAbs)
      (WrapS x.length (if toInt x < 0 ∧ toInt y ∣ toInt x ∧
          strayRem w x.length (toInt x).natAbs (toInt y).natAbs ≠ 0
        then toInt x / toInt y - (toInt y).sign else toInt x / toInt y))
      (I.wrappingDivEuclid x y) ∧
    Yields (DivPanics w x.length (toInt x).natAbs (toInt y).natAbs)
      (ExactS x.length (toInt x % toInt y +
        (toInt x).sign * strayRem w x.length (toInt x).natAbs (toInt y).natAbs +
        if toInt x < 0 ∧ toInt y ∣ toInt x ∧
          strayRem w x.length (toInt x).natAbs (toInt y).natAbs ≠ 0 then |toInt y| else 0))
      (I.wrappingRemEuclid x y) :=
  ⟨wrappingDivEuclidS hw hl h2 he hy, wrappingRemEuclidS hw hl h2 he hy⟩

/-- C18, partial: when no estimate is corrected, all forms of the Euclidean quotient are right. -/
theorem C18_int_div_euclid_partial
    (hd : DivExact w x.length (toInt x).natAbs (toInt y).natAbs) (oc : Bool) :
    (∃ v, I.wrappingDivEuclid x y = .ok v ∧ WrapS x.length (toInt x / toInt y) v) ∧
    (∃ r, I.overflowingDivEuclid x y = .ok r ∧ OverS x.length (toInt x / toInt y) r) ∧
    (∃ o, I.checkedDivEuclid x y = .ok o ∧ CheckS x.length (toInt x / toInt y) o) ∧
    StrictS x.length (toInt x / toInt y) (I.strictDivEuclid x y) ∧
    OpS oc x.length (toInt x / toInt y) (I.divEuclid oc x y) := by
  have hx := toInt_InS x
  have hY := toInt_InS y
  rw [show bits x = w * x.length from rfl] at hx
  rw [show bits y = w * y.length from rfl, ← hl] at hY
  have hpos : 1 < w * x.length := by nlinarith
  have hi := ediv_InS hpos hx hY hy
  have h : Yields False (WrapS x.length (toInt x / toInt y)) (I.wrappingDivEuclid x y) := by
    have h := wrappingDivEuclidS hw hl h2 he hy
    rw [hd.2] at h
    simp only [ne_eq, not_true, and_false, if_false] at h
    exact ⟨False.elim, fun _ => h.2 hd.1⟩
  have hP : toInt y = -1 → ¬ False := fun _ => id
  refine ⟨h.2 id, (formOver hw hl h2 he hi h hP fun c => ?_).2 id,
    (formCheck hw hl h2 he hi h hy hP).2 id, (formStrict hw hl h2 he hi h hy hP).2 id,
    (formOp hw hl h2 he hi h hy hP oc).2 id⟩
  refine ⟨rfl, ?_⟩
  rw [c.1, c.2, Int.ediv_neg, Int.ediv_one, neg_neg]
  have h3 : ((2 ^ (w * x.length) : Nat) : Int) = 2 * 2 ^ (w * x.length - 1) := by
    push_cast; rw [← pow_succ']; congr 1; omega
  have h4 : (0:Int) < 2 ^ (w * x.length - 1) := by positivity
  rw [Int.bmod_def, h3, Int.emod_eq_of_lt (by positivity) (by omega), if_neg (by omega)]
  omega

/-- C18, partial: when no estimate is corrected, all forms of the Euclidean remainder are right. -/
theorem C18_int_rem_euclid_partial
    (hd : DivExact w x.length (toInt x).natAbs (toInt y).natAbs) (oc : Bool) :
    (∃ v, I.wrappingRemEuclid x y = .ok v ∧ ExactS x.length (toInt x % toInt y) v) ∧
    (∃ v f, I.overflowingRemEuclid x y = .ok (v, f) ∧ ExactS x.length (toInt x % toInt y) v ∧
      (f = true ↔ toInt x = -2 ^ (w * x.length - 1) ∧ toInt y = -1)) ∧
    (¬ (toInt x = -2 ^ (w * x.length - 1) ∧ toInt y = -1) → ∃ v, I.checkedRemEuclid x y = .ok (some v) ∧
      I.strictRemEuclid x y = .ok v ∧ I.remEuclid oc x y = .ok v ∧
      ExactS x.length (toInt x % toInt y) v) ∧
    (toInt x = -2 ^ (w * x.length - 1) ∧ toInt y = -1 → I.checkedRemEuclid x y = .ok none ∧
      I.strictRemEuclid x y = .panic ∧ I.remEuclid true x y = .panic) := by
  have h := wrappingRemEuclidS hw hl h2 he hy
  rw [hd.2] at h
  simp only [ne_eq, not_true, and_false, if_false, Nat.cast_zero, mul_zero, add_zero] at h
  obtain ⟨v, e, hv⟩ := h.2 hd.1
  refine ⟨⟨v, e, hv⟩, ?_, fun c => ⟨v, ?_, ?_, ?_, hv⟩, fun c => ⟨?_, ?_, ?_⟩⟩
  · rw [I.overflowingRemEuclid, isDivOverflow_eq hw hl h2 he, e, Res.map_ok]
    simp only [decide_eq_true_eq]
    by_cases c : toInt x = -2 ^ (w * x.length - 1) ∧ toInt y = -1
    · rw [if_pos c]
      have hz := ofU8S (w := w) (N := x.length) (v := 0) (by omega) (by omega) (by positivity)
      refine ⟨_, _, rfl, ⟨hz.1, hz.2.trans ?_⟩, ?_⟩
      · rw [c.2]; simp
      · rw [eqMin_iff (by omega) (length_ne (n := 1) (by omega)) he]
        exact ⟨fun _ => c, fun _ => c.1⟩
    · rw [if_neg c]
      exact ⟨_, _, rfl, hv, by simpa using c⟩
  · rw [I.checkedRemEuclid, checkedS_eq hw hl h2 he, if_neg (by tauto), e, Res.map_ok]
  · rw [I.strictRemEuclid, I.checkedRemEuclid, strictS_eq hw hl h2 he, if_neg (by tauto), e]
  · rw [I.remEuclid, I.checkedRemEuclid, opS_eq hw hl h2 he, if_neg (by tauto), e]
  · rw [I.checkedRemEuclid, checkedS_eq hw hl h2 he, if_pos (.inr c)]
  · rw [I.strictRemEuclid, I.checkedRemEuclid, strictS_eq hw hl h2 he, if_pos (.inr c)]
  · rw [I.remEuclid, I.checkedRemEuclid, opS_eq hw hl h2 he, if_pos ⟨rfl, .inr c⟩]

/-! ### C19: rounding down and up -/

/-- C19, partial: signed `div_floor` is `⌊x / y⌋` modulo `2^BITS`, except that it is one less when `y`
divides `x`, the signs differ and the remainder was spoilt. The full claim is false
(`C19_int_false`). -/
theorem C19_int_div_floor_partial :
    Yields (DivPanics w x.length (toInt x).natAbs (toInt y).natAbs)
      (WrapS x.length ((toInt x).fdiv (toInt y) - if toInt y ∣ toInt x ∧
          strayRem w x.length (toInt x).natAbs (toInt y).natAbs ≠ 0 ∧ ¬ (toInt x < 0 ↔ toInt y < 0)
        then 1 else 0))
      (I.divFloor x y) := divFloorS hw hl h2 he hy

/-- C19, partial: signed `div_ceil` is `⌈x / y⌉ = -⌊-x / y⌋` modulo `2^BITS`, except that it is one more
when `y` divides `x`, the signs agree and the remainder was spoilt. The full claim is false
(`C19_int_false`). -/
theorem C19_int_div_ceil_partial {k : Nat} (hk : w = 2 ^ k) (h32 : w * x.length < 2 ^ 32)
    (oc : Bool) :
    Yields (DivPanics w x.length (toInt x).natAbs (toInt y).natAbs)
      (WrapS x.length (-((-toInt x).fdiv (toInt y)) + if toInt y ∣ toInt x ∧
          strayRem w x.length (toInt x).natAbs (toInt y).natAbs ≠ 0 ∧ (toInt x < 0 ↔ toInt y < 0)
        then 1 else 0))
      (I.divCeil oc x y) := divCeilS hk hw hl h2 he h32 hy oc

/-! ### C34: multiples -/

/-- C34, partial: when no estimate is corrected, signed `next_multiple_of` is `x + (-x mod y)` with the
sign of the modulus that of `y`: the least multiple of `y` at least `x` if `y > 0`, the greatest one at
most `x` if `y < 0` (`next_mul_int`). -/
theorem C34_int_next_multiple_of_partial (h4 : 4 ≤ x.length)
    (hd : toInt y = -1 ∨ DivExact w x.length (toInt x).natAbs (toInt y).natAbs) (oc : Bool) :
    OpS oc x.length (toInt x + (-toInt x).fmod (toInt y)) (I.nextMultipleOf oc x y) ∧
    ∃ o, I.checkedNextMultipleOf oc x y = .ok o ∧
      CheckS x.length (toInt x + (-toInt x).fmod (toInt y)) o :=
  ⟨nextMultipleOfS hw hl h4 he hy hd oc, checkedNextMultipleOfS hw hl h2 he hy hd oc⟩

end nonzero

example := C17_int_wrapping_div (x := top) (y := m2) (by decide) (by decide) (by decide) (by decide)
  (by decide)
example := C17_int_overflowing_div (x := top) (y := ones) (by decide) (by decide) (by decide) (by decide)
  (by decide)
example := C17_int_checked_div (x := top) (y := m2) (by decide) (by decide) (by decide) (by decide)
  (by decide)
example := C17_int_saturating_div (x := top) (y := ones) (by decide) (by decide) (by decide) (by decide)
  (by decide)
example := C17_int_div (x := top) (y := d7) (by decide) (by decide) (by decide) (by decide)
  (by decide) true
example := C17_int_rem_partial (x := top) (y := d7) (by decide) (by decide) (by decide) (by decide)
  (by decide)
example := C17_int_rem_forms_partial (x := top) (y := d7) (by decide) (by decide) (by decide) (by decide)
  (by decide) (by decide +kernel) true
example := C17_int_div_rem_partial (x := top) (y := ones) (by decide) (by decide) (by decide) (by decide)
  (by decide) (by decide +kernel) true
example : I.wrappingDiv top ones = .ok top ∧ I.overflowingDiv top ones = .ok (top, true) ∧
    I.checkedDiv top ones = .ok none ∧ I.saturatingDiv top ones = .ok maxS ∧
    I.div true top ones = .panic ∧ I.wrappingRem top ones = .ok zero := by decide +kernel
/-- `-7 / 2 = -3`, `-7 % 2 = -1`. -/
example : I.wrappingDivRem ([-7, -1, -1, -1] : Limbs 64) [2, 0, 0, 0] =
    .ok ([-3, -1, -1, -1], [-1, -1, -1, -1]) := by decide +kernel

example := C18_int_wrapping_euclid_partial (x := top) (y := d7) (by decide) (by decide) (by decide)
  (by decide) (by decide)
example := C18_int_div_euclid_partial (x := top) (y := d7) (by decide) (by decide) (by decide)
  (by decide) (by decide) (by decide +kernel) true
example := C18_int_rem_euclid_partial (x := top) (y := d7) (by decide) (by decide) (by decide)
  (by decide) (by decide) (by decide +kernel) true
/-- `-7 = 4 * -2 + 1`. -/
example : I.divEuclid true ([-7, -1, -1, -1] : Limbs 64) m2 = .ok [4, 0, 0, 0] ∧
    I.remEuclid true ([-7, -1, -1, -1] : Limbs 64) m2 = .ok one := by decide +kernel

example := C19_int_div_floor_partial (x := top) (y := d7) (by decide) (by decide) (by decide)
  (by decide) (by decide)
example := C19_int_div_ceil_partial (x := top) (y := d7) (by decide) (by decide) (by decide)
  (by decide) (by decide) (k := 6) (by decide) (by decide) true
/-- `⌊-7 / 2⌋ = -4`, `⌈-7 / 2⌉ = -3`, `⌊-7 / -2⌋ = 3`, `⌈-7 / -2⌉ = 4`. -/
example : I.divFloor ([-7, -1, -1, -1] : Limbs 64) [2, 0, 0, 0] = .ok [-4, -1, -1, -1] ∧
    I.divCeil true ([-7, -1, -1, -1] : Limbs 64) [2, 0, 0, 0] = .ok [-3, -1, -1, -1] ∧
    I.divFloor ([-7, -1, -1, -1] : Limbs 64) m2 = .ok [3, 0, 0, 0] ∧
    I.divCeil true ([-7, -1, -1, -1] : Limbs 64) m2 = .ok [4, 0, 0, 0] := by decide +kernel

example := C34_int_next_multiple_of_partial (x := top) (y := d7) (by decide) (by decide) (by decide)
  (by decide) (by decide) (by decide) (.inr (by decide +kernel)) true
/-- The next multiple of 5 from -7 is -5, of -5 it is -10. -/
example : I.nextMultipleOf true ([-7, -1, -1, -1] : Limbs 64) [5, 0, 0, 0] = .ok [-5, -1, -1, -1] ∧
    I.checkedNextMultipleOf true ([-7, -1, -1, -1] : Limbs 64) [-5, -1, -1, -1] =
      .ok (some [-10, -1, -1, -1]) ∧
    I.checkedNextMultipleOf true maxS [2, 0, 0, 0] = .ok none := by decide +kernel

/-- C14 is false for the signed types too. -/
theorem C14_int_div_false : ∃ x y : Limbs 64, x.length = 4 ∧ y.length = 4 ∧ toInt y ≠ 0 ∧
    I.wrappingDiv x y = .panic ∧ I.checkedDiv x y = .panic ∧ I.wrappingRem x y = .panic :=
  ⟨n3, d3, by decide +kernel⟩

/-- C17 is false for the remainder: `(3 * 2^189) % (2^189 + 1)` is larger than the divisor. -/
theorem C17_int_rem_false : ∃ x y r : Limbs 64, x.length = 4 ∧ y.length = 4 ∧ toInt y ≠ 0 ∧
    I.wrappingRem x y = .ok r ∧ toInt r ≠ (toInt x).tmod (toInt y) ∧ toInt y < toInt r :=
  ⟨n2, d2, [0xfffffffffffffffe, 0xffffffffffffffff, 0x5fffffffffffffff, 0], by decide +kernel⟩

/-- C18 is false: an exact negative multiple gets a quotient that is one too small, and the remainder
is negative. -/
theorem C18_int_euclid_false : ∃ x y q r : Limbs 64, x.length = 4 ∧ y.length = 4 ∧ toInt y ≠ 0 ∧
    I.wrappingDivEuclid x y = .ok q ∧ I.wrappingRemEuclid x y = .ok r ∧
    toInt q = toInt x / toInt y - 1 ∧ toInt r < 0 :=
  ⟨mult1n, e1, [0, 1, 0xffffffffffffffff, 0xffffffffffffffff], [0xffffffffffffffff, 0x4000000000000000, 0x8000000000000000, 0xffffffffffffffff], by decide +kernel⟩

/-- C19 is false: `div_floor` of an exact negative multiple is one too small, `div_ceil` of an exact
positive multiple one too large. -/
theorem C19_int_false : ∃ x x' y v v' : Limbs 64, toInt y ≠ 0 ∧ toInt x % toInt y = 0 ∧
    toInt x' % toInt y = 0 ∧ I.divFloor x y = .ok v ∧ toInt v = toInt x / toInt y - 1 ∧
    I.divCeil true x' y = .ok v' ∧ toInt v' = toInt x' / toInt y + 1 :=
  ⟨mult1n, mult1, e1, [0, 1, 0xffffffffffffffff, 0xffffffffffffffff], [0, 0xffffffffffffffff, 0, 0], by decide +kernel⟩

/-! ### C15: division by zero -/

/-- C15, partial, signed: as for the unsigned types. -/
theorem C15_int_div_zero_partial (hw : 1 < w) (hl : x.length = y.length) (h2 : 2 ≤ x.length)
    (he : x.length % 2 = 0) (hy : toInt y = 0) :
    (toInt x ≠ 0 → ∀ oc, ∀ f ∈ [I.wrappingDiv, I.wrappingDivEuclid, I.saturatingDiv, I.divFloor,
      I.divCeil oc, I.wrappingRem, I.wrappingRemEuclid, I.div oc, I.rem oc, I.divEuclid oc,
      I.remEuclid oc], f x y = .panic) ∧
    (∀ f ∈ [I.checkedDiv, I.checkedDivEuclid, I.checkedRem, I.checkedRemEuclid], f x y = .ok none) ∧
    (∀ f ∈ [I.strictDiv, I.strictDivEuclid, I.strictRem, I.strictRemEuclid, I.div true, I.rem true,
      I.divEuclid true, I.remEuclid true], f x y = .panic) ∧
    I.checkedDivRem x y = .ok none ∧ I.divRem true x y = .panic ∧
    ∀ oc, I.checkedNextMultipleOf oc x y = .ok none := by
  refine ⟨fun hx oc f hf => ?_, fun f hf => ?_, fun f hf => ?_, ?_, ?_, fun oc => ?_⟩
  · obtain ⟨xl, xv⟩ := unsignedAbs_natAbs (by omega : 0 < w) h2 he
    obtain ⟨yl, yv⟩ := unsignedAbs_natAbs (x := y) (by omega : 0 < w) (by omega) (by omega)
    have hp := (Div.full_zero (by omega : 0 < w) (x := I.unsignedAbs x) (y := I.unsignedAbs y)
      (by omega) (by omega) (by rw [yv, hy]; rfl)).1 (by omega)
    have hw : I.wrappingDivRem x y = .panic := by rw [I.wrappingDivRem, hp]; rfl
    have ho : I.isDivOverflow x y = false := by
      rw [isDivOverflow_eq ‹_› hl h2 he]; simp [hy]
    simp only [List.mem_cons, List.not_mem_nil, or_false] at hf
    rcases hf with rfl | rfl | rfl | rfl | rfl | rfl | rfl | rfl | rfl | rfl | rfl
    · rw [I.wrappingDiv, hw, Res.map_panic]
    · rw [I.wrappingDivEuclid, hw, Res.map_panic]
    · rw [I.saturatingDiv, I.overflowingDiv, ho, I.wrappingDiv, hw]; rfl
    · rw [I.divFloor, hw, Res.map_panic]
    · rw [I.divCeil, hw, Res.bind_panic]
    · rw [I.wrappingRem, hw, Res.map_panic]
    · rw [I.wrappingRemEuclid, I.wrappingRem, hw]; rfl
    · rw [I.div, I.checkedDiv, opS_eq ‹_› hl h2 he, I.wrappingDiv, hw, Res.map_panic, ite_self]
    · rw [I.rem, I.checkedRem, opS_eq ‹_› hl h2 he, I.wrappingRem, hw, Res.map_panic, ite_self]
    · rw [I.divEuclid, I.checkedDivEuclid, opS_eq ‹_› hl h2 he, I.wrappingDivEuclid, hw, Res.map_panic,
        ite_self]
    · rw [I.remEuclid, I.checkedRemEuclid, opS_eq ‹_› hl h2 he, I.wrappingRemEuclid, I.wrappingRem, hw,
        Res.map_panic, Res.map_panic, ite_self]
  · simp only [List.mem_cons, List.not_mem_nil, or_false] at hf
    rcases hf with rfl | rfl | rfl | rfl <;>
      simp only [I.checkedDiv, I.checkedRem, I.checkedDivEuclid, I.checkedRemEuclid,
        checkedS_eq hw hl h2 he, hy, true_or, if_true]
  · simp only [List.mem_cons, List.not_mem_nil, or_false] at hf
    rcases hf with rfl | rfl | rfl | rfl | rfl | rfl | rfl | rfl <;>
      simp only [I.strictDiv, I.strictDivEuclid, I.strictRem, I.strictRemEuclid, I.div, I.rem,
        I.divEuclid, I.remEuclid, I.checkedDiv, I.checkedRem, I.checkedDivEuclid, I.checkedRemEuclid,
        strictS_eq hw hl h2 he, opS_eq hw hl h2 he, hy, true_or, and_true, if_true]
  · rw [I.checkedDivRem, checkedS_eq hw hl h2 he, if_pos (.inl hy)]
  · rw [I.divRem, I.checkedDivRem, opS_eq hw hl h2 he, if_pos ⟨rfl, .inl hy⟩]
  · exact checkedNextMultipleOfS_zero hw hl h2 he hy oc

example := (C15_int_div_zero_partial (x := top) (y := zero) (by decide) (by decide) (by decide)
  (by decide) (by decide)).1 (by decide) true I.wrappingDiv (by simp)

/-- C15 is false for the signed types too: `0 / 0 = 1`. -/
theorem C15_int_div_zero_false : I.wrappingDivRem zero zero = .ok (one, zero) ∧
    I.div false zero zero = .ok one ∧ I.overflowingDiv zero zero = .ok (one, false) := by
  decide +kernel

/-! ### C51: signed numbers divided by scalars -/

/-- C51: a signed number divided by an unsigned limb: the quotient is rounded down and the remainder
is in `[0, n)`; never panics. -/
theorem C51_int_div_ulimb (hw : 1 < w) (h2 : 2 ≤ x.length) (he : x.length % 2 = 0) {n : BitVec w}
    (hn : n ≠ 0) (oc : Bool) :
    ∃ q r, ExactS x.length (toInt x / n.toNat) q ∧ (r.toNat : Int) = toInt x % n.toNat ∧
      I.wrappingDivRemULimb oc x n = .ok (q, r) ∧ I.divRemULimb oc x n = .ok (q, r) ∧
      I.checkedDivRemULimb oc x n = .ok (some (q, r)) ∧
      I.overflowingDivRemULimb oc x n = .ok ((q, r), false) ∧
      I.divULimb oc x n = .ok q ∧ I.remULimb oc x n = .ok r ∧
      I.wrappingDivULimb oc x n = .ok q ∧ I.wrappingRemULimb oc x n = .ok r ∧
      I.checkedDivULimb oc x n = .ok (some q) ∧ I.checkedRemULimb oc x n = .ok (some r) ∧
      I.overflowingDivULimb oc x n = .ok (q, false) ∧
      I.overflowingRemULimb oc x n = .ok (r, false) := by
  obtain ⟨q, r, e, hq, hr⟩ := limbU hw h2 he hn oc
  have hz : isZeroScalar n = false := by simpa [isZeroScalar] using hn
  have hc : I.checkedDivRemULimb oc x n = .ok (some (q, r)) := by
    rw [I.checkedDivRemULimb, hz, checkedBy_false, e, Res.map_ok]
  have ho : I.divRemULimb oc x n = .ok (q, r) := by
    rw [I.divRemULimb, hc, e]; cases oc <;> rfl
  have hv : I.overflowingDivRemULimb oc x n = .ok ((q, r), false) := by
    rw [I.overflowingDivRemULimb, e, Res.map_ok]
  refine ⟨q, r, hq, hr, e, ho, hc, hv, ?_, ?_, ?_, ?_, ?_, ?_, ?_, ?_⟩
  · rw [I.divULimb, ho, Res.map_ok]
  · rw [I.remULimb, ho, Res.map_ok]
  · rw [I.wrappingDivULimb, e, Res.map_ok]
  · rw [I.wrappingRemULimb, e, Res.map_ok]
  · rw [I.checkedDivULimb, hc, Res.map_ok]; rfl
  · rw [I.checkedRemULimb, hc, Res.map_ok]; rfl
  · rw [I.overflowingDivULimb, hv, Res.map_ok]
  · rw [I.overflowingRemULimb, hv, Res.map_ok]

example := C51_int_div_ulimb (x := top) (by decide) (by decide) (by decide) (n := 10#64) (by decide) true
/-- `-7 = 2 * -4 + 1`. -/
example : I.divRemULimb true ([-7, -1, -1, -1] : Limbs 64) 2 = .ok ([-4, -1, -1, -1], 1) := by
  decide +kernel

/-- C51: a signed number divided by an unsigned double limb: exact, or a panic when long division on
two limbs has to correct an estimate. -/
theorem C51_int_div_uwide (hw : 1 < w) (h2 : 2 ≤ x.length) (he : x.length % 2 = 0)
    {n : BitVec (w + w)} (hn : n ≠ 0) (oc : Bool) :
    (∀ f ∈ [I.wrappingDivRemUWide oc, I.divRemUWide oc],
      Yields (DivPanics w 2 (toInt x).natAbs n.toNat)
        (fun p => ExactS x.length (toInt x / n.toNat) p.1 ∧ (p.2.toNat : Int) = toInt x % n.toNat)
        (f x n)) ∧
    Yields (DivPanics w 2 (toInt x).natAbs n.toNat)
      (fun o => ∃ p, o = some p ∧ ExactS x.length (toInt x / n.toNat) p.1 ∧
        (p.2.toNat : Int) = toInt x % n.toNat) (I.checkedDivRemUWide oc x n) ∧
    Yields (DivPanics w 2 (toInt x).natAbs n.toNat)
      (fun p => p.2 = false ∧ ExactS x.length (toInt x / n.toNat) p.1.1 ∧
        (p.1.2.toNat : Int) = toInt x % n.toNat) (I.overflowingDivRemUWide oc x n) ∧
    (∀ f ∈ [I.wrappingDivUWide oc, I.divUWide oc], Yields (DivPanics w 2 (toInt x).natAbs n.toNat)
      (ExactS x.length (toInt x / n.toNat)) (f x n)) ∧
    (∀ f ∈ [I.wrappingRemUWide oc, I.remUWide oc], Yields (DivPanics w 2 (toInt x).natAbs n.toNat)
      (fun r => (r.toNat : Int) = toInt x % n.toNat) (f x n)) := by
  have h := wideU hw h2 he hn oc
  have hz : isZeroScalar n = false := by simpa [isZeroScalar] using hn
  have hce : I.checkedDivRemUWide oc x n = (I.wrappingDivRemUWide oc x n).map some := by
    rw [I.checkedDivRemUWide, hz, checkedBy_false]
  have hoe : I.divRemUWide oc x n = I.wrappingDivRemUWide oc x n := by
    rw [I.divRemUWide, hce, opOfR_checked]
  refine ⟨?_, ?_, h.map fun p hp => ⟨rfl, hp⟩, ?_, ?_⟩
  · intro f hf
    simp only [List.mem_cons, List.not_mem_nil, or_false] at hf
    rcases hf with rfl | rfl
    · exact h
    · rw [hoe]; exact h
  · rw [hce]; exact h.some
  · intro f hf
    simp only [List.mem_cons, List.not_mem_nil, or_false] at hf
    rcases hf with rfl | rfl
    · exact h.map fun p hp => hp.1
    · rw [I.divUWide, hoe]; exact h.map fun p hp => hp.1
  · intro f hf
    simp only [List.mem_cons, List.not_mem_nil, or_false] at hf
    rcases hf with rfl | rfl
    · exact h.map fun p hp => hp.2
    · rw [I.remUWide, hoe]; exact h.map fun p hp => hp.2

example := C51_int_div_uwide (x := top) (by decide) (by decide) (by decide)
  (n := (0x2000000000000000#64 ++ 1#64)) (by decide) true
example : I.divRemUWide true ([-7, -1, -1, -1] : Limbs 64) (1#64 ++ 0#64) =
    .ok ([-1, -1, -1, -1], (0#64 ++ (-7 : BitVec 64))) := by decide +kernel

/-- C51: a signed number divided by a signed limb truncates, like `C17`; the only overflow is
`MIN / -1`; never panics. -/
theorem C51_int_div_ilimb (hw : 1 < w) (h2 : 2 ≤ x.length) (he : x.length % 2 = 0) {n : BitVec w}
    (hn : n ≠ 0) :
    (∃ q r, I.wrappingDivRemILimb x n = .ok (q, r) ∧ I.wrappingDivILimb x n = .ok q ∧
      I.wrappingRemILimb x n = .ok r ∧ WrapS x.length ((toInt x).tdiv n.toInt) q ∧
      r.toInt = (toInt x).tmod n.toInt) ∧
    (∃ q r f, I.overflowingDivRemILimb x n = .ok ((q, r), f) ∧
      I.overflowingDivILimb x n = .ok (q, f) ∧ I.overflowingRemILimb x n = .ok (r, f) ∧
      I.checkedDivRemILimb x n = .ok (if f then none else some (q, r)) ∧
      I.checkedDivILimb x n = .ok (if f then none else some q) ∧
      I.checkedRemILimb x n = .ok (if f then none else some r) ∧
      I.divRemILimb true x n = (if f then .panic else .ok (q, r)) ∧
      OverS x.length ((toInt x).tdiv n.toInt) (q, f) ∧ r.toInt = (toInt x).tmod n.toInt) := by
  obtain ⟨q, r, e, hq, hr⟩ := limbS hw h2 he hn
  refine ⟨⟨q, r, e, ?_, ?_, hq, hr⟩, ?_⟩
  · rw [I.wrappingDivILimb, e, Res.map_ok]
  · rw [I.wrappingRemILimb, e, Res.map_ok]
  have hv : InS (w * x.length) n.toInt := InS_mono (by nlinarith) (bv_InS n)
  obtain ⟨⟨⟨q', r'⟩, f⟩, e', ho, hr'⟩ := (formOverScalar (P := False) hw h2 he (by omega) hv (fun _ => id)
    ⟨False.elim, fun _ => ⟨(q, r), e, hq, hr⟩⟩).2 id
  have e1 : I.overflowingDivRemILimb x n = .ok ((q', r'), f) := e'
  have e2 : I.checkedDivRemILimb x n = .ok (if f then none else some (q', r')) := by
    rw [I.checkedDivRemILimb, I.checkedDivRemSigned, if_neg (by simpa using hn), e', Res.map_ok]
    cases f <;> rfl
  refine ⟨q', r', f, e1, ?_, ?_, e2, ?_, ?_, ?_, ho, hr'⟩
  · rw [I.overflowingDivILimb, e1, Res.map_ok]
  · rw [I.overflowingRemILimb, e1, Res.map_ok]
  · rw [I.checkedDivILimb, e2, Res.map_ok]; cases f <;> rfl
  · rw [I.checkedRemILimb, e2, Res.map_ok]; cases f <;> rfl
  · rw [I.divRemILimb, e2]; cases f <;> rfl

example := C51_int_div_ilimb (x := top) (by decide) (by decide) (by decide) (n := (-3 : BitVec 64)) (by decide)
example : I.overflowingDivRemILimb top (-1) = .ok ((top, 0), true) ∧
    I.wrappingDivRemILimb ([-7, -1, -1, -1] : Limbs 64) 2 = .ok ([-3, -1, -1, -1], -1) := by
  decide +kernel

/-- C51: a signed number divided by a signed double limb. -/
theorem C51_int_div_iwide (hw : 1 < w) (h2 : 2 ≤ x.length) (he : x.length % 2 = 0)
    {n : BitVec (w + w)} (hn : n ≠ 0) :
    Yields (DivPanics w 2 (toInt x).natAbs n.toInt.natAbs)
      (fun p => WrapS x.length ((toInt x).tdiv n.toInt) p.1 ∧ p.2.toInt = (toInt x).tmod n.toInt)
      (I.wrappingDivRemIWide x n) ∧
    Yields (DivPanics w 2 (toInt x).natAbs n.toInt.natAbs)
      (fun p => OverS x.length ((toInt x).tdiv n.toInt) (p.1.1, p.2) ∧
        p.1.2.toInt = (toInt x).tmod n.toInt) (I.overflowingDivRemIWide x n) ∧
    Yields (DivPanics w 2 (toInt x).natAbs n.toInt.natAbs)
      (fun o => CheckS x.length ((toInt x).tdiv n.toInt) (o.map (·.1)) ∧
        ∀ p, o = some p → p.2.toInt = (toInt x).tmod n.toInt) (I.checkedDivRemIWide x n) := by
  have h := wideS hw h2 he hn
  have hv : InS (w * x.length) n.toInt := InS_mono (by nlinarith) (bv_InS n)
  have ho := formOverScalar hw h2 he (by omega : 0 < w + w) hv
    (fun e => minNeg_noPanic (by omega) e) h
  refine ⟨h, ho, ?_⟩
  rw [I.checkedDivRemIWide, I.checkedDivRemSigned, if_neg (by simpa using hn)]
  refine ho.map ?_
  rintro ⟨⟨q, r⟩, f⟩ ⟨hq, hr⟩
  have := hq.check
  cases f
  · exact ⟨this, fun p hp => by cases hp; exact hr⟩
  · exact ⟨this, fun p hp => by cases hp⟩

example := C51_int_div_iwide (x := top) (by decide) (by decide) (by decide)
  (n := ((-3 : BitVec 64) ++ 5#64)) (by decide)
example : I.checkedDivRemIWide top (-1) = .ok none := by decide +kernel

/-- C51: a zero scalar divisor: `None` from the checked forms; the others panic for a limb, and for a
double limb if the numerator is not zero. -/
theorem C51_int_div_scalar_zero (hw : 1 < w) (h2 : 2 ≤ x.length) (he : x.length % 2 = 0) (oc : Bool) :
    I.checkedDivRemULimb oc x 0 = .ok none ∧ I.checkedDivRemUWide oc x 0 = .ok none ∧
    I.checkedDivRemILimb x 0 = .ok none ∧ I.checkedDivRemIWide x 0 = .ok none ∧
    I.divRemULimb true x 0 = .panic ∧ I.divRemUWide true x 0 = .panic ∧
    I.divRemILimb true x 0 = .panic ∧ I.divRemIWide true x 0 = .panic ∧
    I.wrappingDivRemULimb oc x 0 = .panic ∧ I.wrappingDivRemILimb x 0 = .panic ∧
    (toInt x ≠ 0 → I.wrappingDivRemUWide oc x 0 = .panic ∧ I.wrappingDivRemIWide x 0 = .panic) := by
  obtain ⟨xl, xv⟩ := unsignedAbs_natAbs (by omega : 0 < w) h2 he
  have hl := Div.limb_zero (x := I.unsignedAbs x) (length_ne (n := 1) (by omega))
  have p0 : ∀ n, I.primAbs (0 : BitVec n) = 0 := by intro n; simp [I.primAbs]
  refine ⟨rfl, rfl, rfl, rfl, rfl, rfl, rfl, rfl, ?_, ?_, fun hx => ?_⟩
  · rw [I.wrappingDivRemULimb, hl]; rfl
  · rw [I.wrappingDivRemILimb, p0, hl]; rfl
  · have hd := (Div.wideDiv_zero (by omega : 0 < w) (x := I.unsignedAbs x) (by omega)).1 (by omega)
    rw [I.wrappingDivRemUWide, I.wrappingDivRemIWide, p0, hd]
    exact ⟨rfl, rfl⟩

example := (C51_int_div_scalar_zero (x := top) (by decide) (by decide) (by decide) true)

end I256
