import Verif.Model.Style
import Verif.Lemmas.Prog

/-!
# Lemmas about programs written with methods
-/

namespace I256

variable {w N : Nat} {x y : Limbs w} {sg : Bool} {s : Nat → Limbs w}

/-- The forms of one operation compared with the operator in both builds. -/
structure Styles (wr : Res (Limbs w)) (ch : Res (Option (Limbs w))) (st : Res (Limbs w)) (op : Bool → Res (Limbs w)) :
    Prop where
  wrap : wr = op false
  strict : st = op true
  check : ChecksLike ch (op true)
  panic : ch = .panic → wr = .panic

theorem Agree.styles {wr : Res (Limbs w)} {ov : Res (Limbs w × Bool)} {ch : Res (Option (Limbs w))}
    {st : Res (Limbs w)} {op : Bool → Res (Limbs w)} (h : Agree wr ov ch st op) : Styles wr ch st op := by
  unfold Agree at h
  split at h
  · obtain ⟨h1, h2, h3, h4⟩ := h
    exact ⟨by rw [h1, h4], by rw [h3, h4], by rw [h4]; exact Or.inr h2, fun _ => h1⟩
  · obtain ⟨h1, h2, h3, h4⟩ := h
    exact ⟨by rw [h1, h4], by rw [h3, h4], by rw [h4]; exact h2, fun h => by rw [h2] at h; cases h⟩
  · obtain ⟨h1, h2, h3, h4, h5⟩ := h
    exact ⟨by rw [h1, h5], by rw [h3, h4], by rw [h4]; exact Or.inl h2, fun h => by rw [h2] at h; cases h⟩

theorem AgreeZero.styles {wr : Res (Limbs w)} {ov : Res (Limbs w × Bool)} {ch : Res (Option (Limbs w))}
    {st : Res (Limbs w)} {op : Bool → Res (Limbs w)} (h : AgreeZero wr ov ch st op) : Styles wr ch st op := by
  obtain ⟨h1, h2, h3, h4, -⟩ := h
  exact ⟨h4.symm, by rw [h2, h3], by rw [h3]; exact Or.inl h1, fun h => by rw [h1] at h; cases h⟩

theorem Agree.shiftStyles {v : Limbs w} {B : Nat} (hB : B < 2 ^ 32) (a : BitVec 32) :
    Styles (.ok v) (.ok (if a.toNat < B then some v else none))
      (unwrapOrPanic (if a.toNat < B then some v else none))
      (fun oc => if oc && !primInRange false B a then .panic else .ok v) :=
  (Agree.shift hB a).styles

section operations
variable (T : IsType w N) (hx : x.length = N) (hy : y.length = N)
include T hx

theorem styles_shl (n : BitVec 32) : Styles (.ok (wrappingShl x n.toNat)) (.ok (checkedShl x n.toNat))
    (strictShl x n.toNat) (shlPrim · false x n) := by
  subst hx
  exact (C80_shift (x := x) T.small n).1.styles

theorem styles_shr (n : BitVec 32) : Styles (.ok (wrappingShr sg x n.toNat)) (.ok (checkedShr sg x n.toNat))
    (strictShr sg x n.toNat) (shrPrim · false sg x n) := by
  subst hx
  have e : primAsU32 false n = n.toNat := by simp [primAsU32]
  unfold shrPrim
  rw [e]
  exact Agree.shiftStyles (B := bits x) T.small n

theorem styles_neg : Styles (.ok (I.wrappingNeg x)) (.ok (I.checkedNeg x)) (I.strictNeg x) (I.neg · x) := by
  subst hx
  exact (C80_int T.one T.even T.four rfl (by decide) (y := x) (e := 0)).2.2.2.2.1.styles

theorem styles_pow (e : BitVec 32) :
    Styles (.ok (if sg then I.wrappingPow x e.toNat else U.wrappingPow x e.toNat))
      (.ok (if sg then I.checkedPow x e.toNat else U.checkedPow x e.toNat))
      (if sg then I.strictPow x e.toNat else U.strictPow x e.toNat)
      (fun oc => if sg then I.pow oc x e.toNat else U.pow oc x e.toNat) := by
  subst hx
  cases sg
  · exact (C80_uint T.pos T.even T.four rfl e.isLt (y := x)).2.2.2.styles
  · exact (C80_int T.one T.even T.four rfl e.isLt (y := x)).2.2.2.1.styles

include hy

theorem styles_add : Styles (.ok (if sg then I.wrappingAdd x y else U.wrappingAdd x y))
    (.ok (if sg then I.checkedAdd x y else U.checkedAdd x y)) (if sg then I.strictAdd x y else U.strictAdd x y)
    (fun oc => if sg then I.add oc x y else U.add oc x y) := by
  subst hx
  cases sg
  · exact (C80_uint T.pos T.even T.four hy.symm (by decide) (e := 0)).1.styles
  · exact (C80_int T.one T.even T.four hy.symm (by decide) (e := 0)).1.styles

theorem styles_sub : Styles (.ok (if sg then I.wrappingSub x y else U.wrappingSub x y))
    (.ok (if sg then I.checkedSub x y else U.checkedSub x y)) (if sg then I.strictSub x y else U.strictSub x y)
    (fun oc => if sg then I.sub oc x y else U.sub oc x y) := by
  subst hx
  cases sg
  · exact (C80_uint T.pos T.even T.four hy.symm (by decide) (e := 0)).2.1.styles
  · exact (C80_int T.one T.even T.four hy.symm (by decide) (e := 0)).2.1.styles

theorem styles_mul : Styles (.ok (if sg then I.wrappingMul x y else U.wrappingMul x y))
    (.ok (if sg then I.checkedMul x y else U.checkedMul x y)) (if sg then I.strictMul x y else U.strictMul x y)
    (fun oc => if sg then I.mul oc x y else U.mul oc x y) := by
  subst hx
  cases sg
  · exact (C80_uint T.pos T.even T.four hy.symm (by decide) (e := 0)).2.2.1.styles
  · exact (C80_int T.one T.even T.four hy.symm (by decide) (e := 0)).2.2.1.styles

theorem styles_div : Styles (if sg then I.wrappingDiv x y else U.wrappingDiv x y)
    (if sg then I.checkedDiv x y else U.checkedDiv x y) (if sg then I.strictDiv x y else U.strictDiv x y)
    (fun oc => if sg then I.div oc x y else U.div oc x y) := by
  subst hx
  have h4 := T.four
  by_cases h0 : toNat y = 0
  · have h := C80_div_zero T.one (by omega) T.even hy.symm h0
    cases sg
    · exact h.1.1.styles
    · exact h.2.1.styles
  · cases sg
    · exact (C80_uint_div (by omega) T.even hy.symm h0).1.styles
    · have h0' : toInt y ≠ 0 := by rw [Ne, toInt_eq_zero_iff]; exact h0
      exact (C80_int_div T.one (by omega) T.even hy.symm h0').1.styles

theorem styles_rem : Styles (if sg then I.wrappingRem x y else U.wrappingRem x y)
    (if sg then I.checkedRem x y else U.checkedRem x y) (if sg then I.strictRem x y else U.strictRem x y)
    (fun oc => if sg then I.rem oc x y else U.rem oc x y) := by
  subst hx
  have h4 := T.four
  by_cases h0 : toNat y = 0
  · have h := C80_div_zero T.one (by omega) T.even hy.symm h0
    cases sg
    · exact h.1.2.1.styles
    · exact h.2.2.1.styles
  · cases sg
    · exact (C80_uint_div (by omega) T.even hy.symm h0).2.1.styles
    · have h0' : toInt y ≠ 0 := by rw [Ne, toInt_eq_zero_iff]; exact h0
      exact (C80_int_div T.one (by omega) T.even hy.symm h0').2.1.styles

end operations

/-! ## Expressions -/

/-- An evaluation keeps the number of limbs. -/
theorem Expr.eval_length (T : IsType w N) (hs : ∀ i, (s i).length = N) (oc : Bool) (e : Expr sg) {v : Limbs w}
    (h : e.eval oc s = .ok v) : v.length = N := by
  have g := e.eval_actual T hs oc
  cases ho : e.actual oc w N (fun i => value sg (s i)) with
  | none => rw [ho] at g; rw [show e.eval oc s = .panic from g] at h; simp at h
  | some z =>
    rw [ho] at g
    obtain ⟨v', e', h', -⟩ := g
    rw [e'] at h; cases h; exact h'

theorem bind_congr' {α β : Type} {r r' : Res α} {f g : α → Res β} (h : r = r') (hf : ∀ x, r' = .ok x → f x = g x) :
    r.bind f = r'.bind g := by
  subst h
  cases r with
  | panic => rfl
  | ok x => exact hf x rfl

theorem Expr.wrapping_eval (T : IsType w N) (hs : ∀ i, (s i).length = N) (e : Expr sg) :
    e.wrapping s = e.eval false s := by
  have L : ∀ (a : Expr sg) {x}, a.eval false s = .ok x → x.length = N := fun a _ h => a.eval_length T hs false h
  induction e with
  | var i => rfl
  | add a b iha ihb => exact bind_congr' iha fun x ex => bind_congr' ihb fun y ey => (styles_add T (L a ex) (L b ey)).wrap
  | sub a b iha ihb => exact bind_congr' iha fun x ex => bind_congr' ihb fun y ey => (styles_sub T (L a ex) (L b ey)).wrap
  | mul a b iha ihb => exact bind_congr' iha fun x ex => bind_congr' ihb fun y ey => (styles_mul T (L a ex) (L b ey)).wrap
  | div a b iha ihb => exact bind_congr' iha fun x ex => bind_congr' ihb fun y ey => (styles_div T (L a ex) (L b ey)).wrap
  | rem a b iha ihb => exact bind_congr' iha fun x ex => bind_congr' ihb fun y ey => (styles_rem T (L a ex) (L b ey)).wrap
  | and a b iha ihb => exact bind_congr' iha fun x ex => bind_congr' ihb fun y ey => rfl
  | or a b iha ihb => exact bind_congr' iha fun x ex => bind_congr' ihb fun y ey => rfl
  | xor a b iha ihb => exact bind_congr' iha fun x ex => bind_congr' ihb fun y ey => rfl
  | not a iha => exact bind_congr' iha fun x ex => rfl
  | neg h a iha => exact bind_congr' iha fun x ex => (styles_neg T (L a ex)).wrap
  | shl a n iha => exact bind_congr' iha fun x ex => (styles_shl T (L a ex) n).wrap
  | shr a n iha => exact bind_congr' iha fun x ex => (styles_shr T (L a ex) n).wrap
  | pow a n iha => exact bind_congr' iha fun x ex => (styles_pow T (L a ex) n).wrap

theorem Expr.strict_eval (T : IsType w N) (hs : ∀ i, (s i).length = N) (e : Expr sg) :
    e.strict s = e.eval true s := by
  have L : ∀ (a : Expr sg) {x}, a.eval true s = .ok x → x.length = N := fun a _ h => a.eval_length T hs true h
  induction e with
  | var i => rfl
  | add a b iha ihb => exact bind_congr' iha fun x ex => bind_congr' ihb fun y ey => (styles_add T (L a ex) (L b ey)).strict
  | sub a b iha ihb => exact bind_congr' iha fun x ex => bind_congr' ihb fun y ey => (styles_sub T (L a ex) (L b ey)).strict
  | mul a b iha ihb => exact bind_congr' iha fun x ex => bind_congr' ihb fun y ey => (styles_mul T (L a ex) (L b ey)).strict
  | div a b iha ihb => exact bind_congr' iha fun x ex => bind_congr' ihb fun y ey => (styles_div T (L a ex) (L b ey)).strict
  | rem a b iha ihb => exact bind_congr' iha fun x ex => bind_congr' ihb fun y ey => (styles_rem T (L a ex) (L b ey)).strict
  | and a b iha ihb => exact bind_congr' iha fun x ex => bind_congr' ihb fun y ey => rfl
  | or a b iha ihb => exact bind_congr' iha fun x ex => bind_congr' ihb fun y ey => rfl
  | xor a b iha ihb => exact bind_congr' iha fun x ex => bind_congr' ihb fun y ey => rfl
  | not a iha => exact bind_congr' iha fun x ex => rfl
  | neg h a iha => exact bind_congr' iha fun x ex => (styles_neg T (L a ex)).strict
  | shl a n iha => exact bind_congr' iha fun x ex => (styles_shl T (L a ex) n).strict
  | shr a n iha => exact bind_congr' iha fun x ex => (styles_shr T (L a ex) n).strict
  | pow a n iha => exact bind_congr' iha fun x ex => (styles_pow T (L a ex) n).strict

theorem ChecksLike.bind {α β : Type} {c : Res (Option α)} {r : Res α} {f : α → Res (Option β)} {g : α → Res β}
    (h : ChecksLike c r) (hf : ∀ x, r = .ok x → ChecksLike (f x) (g x)) : ChecksLike (c.orNone f) (r.bind g) := by
  cases r with
  | ok x => rw [show c = .ok (some x) from h]; exact hf x rfl
  | panic => rcases h with rfl | rfl; exacts [Or.inl rfl, Or.inr rfl]

theorem Expr.checked_eval (T : IsType w N) (hs : ∀ i, (s i).length = N) (e : Expr sg) :
    ChecksLike (e.checked s) (e.eval true s) := by
  have L : ∀ (a : Expr sg) {x}, a.eval true s = .ok x → x.length = N := fun a _ h => a.eval_length T hs true h
  induction e with
  | var i => rfl
  | add a b iha ihb => exact iha.bind fun x ex => ihb.bind fun y ey => (styles_add T (L a ex) (L b ey)).check
  | sub a b iha ihb => exact iha.bind fun x ex => ihb.bind fun y ey => (styles_sub T (L a ex) (L b ey)).check
  | mul a b iha ihb => exact iha.bind fun x ex => ihb.bind fun y ey => (styles_mul T (L a ex) (L b ey)).check
  | div a b iha ihb => exact iha.bind fun x ex => ihb.bind fun y ey => (styles_div T (L a ex) (L b ey)).check
  | rem a b iha ihb => exact iha.bind fun x ex => ihb.bind fun y ey => (styles_rem T (L a ex) (L b ey)).check
  | and a b iha ihb => exact iha.bind fun x ex => ihb.bind fun y ey => rfl
  | or a b iha ihb => exact iha.bind fun x ex => ihb.bind fun y ey => rfl
  | xor a b iha ihb => exact iha.bind fun x ex => ihb.bind fun y ey => rfl
  | not a iha => exact iha.bind fun x ex => rfl
  | neg h a iha => exact iha.bind fun x ex => (styles_neg T (L a ex)).check
  | shl a n iha => exact iha.bind fun x ex => (styles_shl T (L a ex) n).check
  | shr a n iha => exact iha.bind fun x ex => (styles_shr T (L a ex) n).check
  | pow a n iha => exact iha.bind fun x ex => (styles_pow T (L a ex) n).check

/-! ## Checked programs on the integers -/

theorem ChecksLike.gives {o : Option Int} {c : Res (Option (Limbs w))} {r : Res (Limbs w)} (h : ChecksLike c r)
    (g : ExprGives sg N o r) (hp : c ≠ .panic) : ExprChecks sg N o c := by
  cases o with
  | none =>
    rw [show r = .panic from g] at h
    exact h.resolve_right hp
  | some z =>
    obtain ⟨v, rfl, g⟩ := g
    exact ⟨v, h, g⟩

theorem ExprChecks.one {oa : Option Int} {ra : Res (Option (Limbs w))} {f : Int → Option Int}
    {g : Limbs w → Res (Option (Limbs w))} (ha : ExprChecks sg N oa ra)
    (h : ∀ x : Limbs w, x.length = N → oa = some (value sg x) → ExprChecks sg N (f (value sg x)) (g x)) :
    ExprChecks sg N (oa.bind f) (ra.orNone g) := by
  cases oa with
  | none => rw [show ra = .ok none from ha]; rfl
  | some z =>
    obtain ⟨x, rfl, hx, rfl⟩ := ha
    exact h x hx rfl

theorem ExprChecks.two {oa ob : Option Int} {ra rb : Res (Option (Limbs w))} {f : Int → Int → Option Int}
    {g : Limbs w → Limbs w → Res (Option (Limbs w))} (ha : ExprChecks sg N oa ra) (hb : ExprChecks sg N ob rb)
    (h : ∀ x y : Limbs w, x.length = N → y.length = N → oa = some (value sg x) → ob = some (value sg y) →
      ExprChecks sg N (f (value sg x) (value sg y)) (g x y)) :
    ExprChecks sg N (oa.bind fun x => ob.bind fun y => f x y) (ra.orNone fun x => rb.orNone fun y => g x y) :=
  ha.one fun x hx ex => hb.one fun y hy ey => h x y hx hy ex ey

theorem ExprChecks.of_ok {o : Option Int} {v : Limbs w} (h : ExprGives sg N o (.ok v)) :
    ExprChecks sg N o (.ok (some v)) := by
  cases o with
  | none => cases h
  | some z => obtain ⟨v, e, h⟩ := h; cases e; exact ⟨v, rfl, h⟩

section checked
variable (T : IsType w N) (hx : x.length = N) (hy : y.length = N)
include T hx hy

theorem checkedDiv_ok (hg : ¬ DivPanics w N (value sg x).natAbs (value sg y).natAbs) :
    (if sg then I.checkedDiv x y else U.checkedDiv x y) ≠ .panic ∧
    (if sg then I.checkedRem x y else U.checkedRem x y) ≠ .panic := by
  have h4 := T.four
  by_cases h0 : value sg y = 0
  · have h0' : toNat y = 0 := by
      cases sg
      · simpa [value] using h0
      · exact (toInt_eq_zero_iff y).1 (by simpa [value] using h0)
    subst hx
    have h := C80_div_zero T.one (by omega) T.even hy.symm h0'
    cases sg
    · exact ⟨fun e => by simpa [h.1.1.1] using e, fun e => by simpa [h.1.2.1.1] using e⟩
    · exact ⟨fun e => by simpa [h.2.1.1] using e, fun e => by simpa [h.2.2.1.1] using e⟩
  · constructor
    · intro e
      have h1 := (styles_div T hx hy).panic e
      have h2 := actual_div (sg := sg) T hx hy false
      rw [if_neg h0, if_neg hg] at h2
      rw [(styles_div T hx hy).wrap] at h1
      obtain ⟨v, e, -⟩ := h2
      rw [e] at h1
      cases h1
    · intro e
      have h1 := (styles_rem T hx hy).panic e
      have h2 := actual_rem (sg := sg) T hx hy false
      rw [if_neg h0, if_neg (by simpa using hg)] at h2
      rw [(styles_rem T hx hy).wrap] at h1
      obtain ⟨v, e, -⟩ := h2
      rw [e] at h1
      cases h1

end checked

theorem Expr.checked_exact (T : IsType w N) (hs : ∀ i, (s i).length = N) (e : Expr sg)
    (ht : e.Tame w N fun i => value sg (s i)) :
    ExprChecks sg N (e.exact (w * N) fun i => value sg (s i)) (e.checked s) := by
  have k : ∀ {o : Option (Limbs w)}, (Res.ok o : Res (Option (Limbs w))) ≠ .panic := by intro o h; cases h
  induction e with
  | var i => exact ⟨_, rfl, hs i, rfl⟩
  | add a b iha ihb =>
    exact (iha ht.1).two (ihb ht.2) fun x y hx hy _ _ => (styles_add T hx hy).check.gives (gives_add T hx hy) k
  | sub a b iha ihb =>
    exact (iha ht.1).two (ihb ht.2) fun x y hx hy _ _ => (styles_sub T hx hy).check.gives (gives_sub T hx hy) k
  | mul a b iha ihb =>
    exact (iha ht.1).two (ihb ht.2.1) fun x y hx hy ex ey =>
      (styles_mul T hx hy).check.gives (gives_mul T hx hy (ht.2.2.get ex ey)) k
  | div a b iha ihb =>
    exact (iha ht.1).two (ihb ht.2.1) fun x y hx hy ex ey =>
      (styles_div T hx hy).check.gives (gives_div T hx hy (ht.2.2.get ex ey))
        (checkedDiv_ok T hx hy (ht.2.2.get ex ey)).1
  | rem a b iha ihb =>
    exact (iha ht.1).two (ihb ht.2.1) fun x y hx hy ex ey =>
      (styles_rem T hx hy).check.gives (gives_rem T hx hy (ht.2.2.get ex ey))
        (checkedDiv_ok T hx hy (ht.2.2.get ex ey).1).2
  | and a b iha ihb => exact (iha ht.1).two (ihb ht.2) fun x y hx hy _ _ => .of_ok (gives_bits T hx hy).1
  | or a b iha ihb => exact (iha ht.1).two (ihb ht.2) fun x y hx hy _ _ => .of_ok (gives_bits T hx hy).2.1
  | xor a b iha ihb => exact (iha ht.1).two (ihb ht.2) fun x y hx hy _ _ => .of_ok (gives_bits T hx hy).2.2
  | not a iha => exact (iha ht).one fun x hx _ => .of_ok (gives_not T hx)
  | neg h a iha => exact (iha ht).one fun x hx _ => (styles_neg T hx).check.gives (gives_neg T hx h) k
  | shl a n iha => exact (iha ht).one fun x hx _ => (styles_shl T hx n).check.gives (gives_shl T hx n) k
  | shr a n iha => exact (iha ht).one fun x hx _ => (styles_shr T hx n).check.gives (gives_shr T hx n) k
  | pow a n iha =>
    exact (iha ht.1).one fun x hx ex => (styles_pow T hx n).check.gives (gives_pow T hx n (ht.2.get ex rfl)) k

/-! ## Programs without division never panic -/

theorem Res.orNone_ok {α β : Type} {r : Res (Option α)} {f : α → Res (Option β)} (h : ∃ o, r = .ok o)
    (hf : ∀ x, ∃ o, f x = .ok o) : ∃ o, r.orNone f = .ok o := by
  obtain ⟨o, rfl⟩ := h
  cases o with
  | none => exact ⟨none, rfl⟩
  | some x => exact hf x

theorem Res.bind_isOk {α β : Type} {r : Res α} {f : α → Res β} (h : ∃ o, r = .ok o)
    (hf : ∀ x, ∃ o, f x = .ok o) : ∃ o, r.bind f = .ok o := by
  obtain ⟨x, rfl⟩ := h
  exact hf x

theorem Expr.noDiv_ok (e : Expr sg) (h : e.NoDiv) :
    (∃ o, e.checked s = .ok o) ∧ (∃ v, e.wrapping s = .ok v) ∧ ∃ v, e.saturating s = .ok v := by
  induction e with
  | var i => exact ⟨⟨_, rfl⟩, ⟨_, rfl⟩, ⟨_, rfl⟩⟩
  | add a b iha ihb | sub a b iha ihb | mul a b iha ihb | and a b iha ihb | or a b iha ihb | xor a b iha ihb =>
    obtain ⟨a1, a2, a3⟩ := iha h.1
    obtain ⟨b1, b2, b3⟩ := ihb h.2
    exact ⟨Res.orNone_ok a1 fun x => Res.orNone_ok b1 fun y => ⟨_, rfl⟩,
      Res.bind_isOk a2 fun x => Res.bind_isOk b2 fun y => ⟨_, rfl⟩,
      Res.bind_isOk a3 fun x => Res.bind_isOk b3 fun y => ⟨_, rfl⟩⟩
  | not a iha | neg _ a iha | shl a n iha | shr a n iha | pow a n iha =>
    obtain ⟨a1, a2, a3⟩ := iha h
    exact ⟨Res.orNone_ok a1 fun x => ⟨_, rfl⟩, Res.bind_isOk a2 fun x => ⟨_, rfl⟩,
      Res.bind_isOk a3 fun x => ⟨_, rfl⟩⟩
  | div | rem => exact h.elim

/-! ## Saturating programs -/

/-- A value that denotes `z`. -/
def HasValue (sg : Bool) (N : Nat) (z : Int) (r : Res (Limbs w)) : Prop :=
  ∃ v, r = .ok v ∧ v.length = N ∧ value sg v = z

theorem HasValue.one {z : Int} {ra : Res (Limbs w)} {f : Int → Int} {g : Limbs w → Res (Limbs w)}
    (ha : HasValue sg N z ra)
    (h : ∀ x : Limbs w, x.length = N → z = value sg x → HasValue sg N (f (value sg x)) (g x)) :
    HasValue sg N (f z) (ra.bind g) := by
  obtain ⟨x, rfl, hx, rfl⟩ := ha
  exact h x hx rfl

theorem HasValue.two {p q : Int} {ra rb : Res (Limbs w)} {f : Int → Int → Int}
    {g : Limbs w → Limbs w → Res (Limbs w)} (ha : HasValue sg N p ra) (hb : HasValue sg N q rb)
    (h : ∀ x y : Limbs w, x.length = N → y.length = N → p = value sg x → q = value sg y →
      HasValue sg N (f (value sg x) (value sg y)) (g x y)) :
    HasValue sg N (f p q) (ra.bind fun x => rb.bind fun y => g x y) := by
  obtain ⟨x, rfl, hx, rfl⟩ := ha
  obtain ⟨y, rfl, hy, rfl⟩ := hb
  exact h x y hx hy rfl rfl

theorem HasValue.of_gives {z : Int} {r : Res (Limbs w)} (h : ExprGives sg N (some z) r) : HasValue sg N z r := h

theorem HasValue.satU {z : Int} {v : Limbs w} (h : SatU N z v) : HasValue false N (clamp false (w * N) z) (.ok v) :=
  ⟨v, rfl, h.1, by simpa [value, clamp] using h.2⟩

theorem HasValue.satS {z : Int} {v : Limbs w} (h : SatS N z v) : HasValue true N (clamp true (w * N) z) (.ok v) :=
  ⟨v, rfl, h.1, by simpa [value, clamp] using h.2⟩

section saturating
variable (T : IsType w N) (hx : x.length = N) (hy : y.length = N)
include T hx

theorem sat_neg (hs : sg = true) : HasValue sg N (clamp sg (w * N) (-value sg x)) (.ok (I.saturatingNeg x)) := by
  subst hx hs
  have h4 := T.four
  exact .satS (C36_int_saturating_neg T.one (by omega))

theorem sat_shl (n : BitVec 32) : HasValue sg N (reduce sg (w * N) (value sg x * 2 ^ (n.toNat % (w * N))))
    (.ok (wrappingShl x n.toNat)) := by
  have h := actual_shl (sg := sg) T hx false n
  rw [if_neg (by simp)] at h
  rw [(styles_shl T hx n).wrap]
  exact h

theorem sat_shr (n : BitVec 32) : HasValue sg N (value sg x / 2 ^ (n.toNat % (w * N)))
    (.ok (wrappingShr sg x n.toNat)) := by
  have h := actual_shr (sg := sg) T hx false n
  rw [if_neg (by simp)] at h
  rw [(styles_shr T hx n).wrap]
  exact h

theorem sat_pow (e : BitVec 32) (hg : sg = true → ¬ Mul.Gap w N (value sg x ^ e.toNat)) :
    HasValue sg N (clamp sg (w * N) (value sg x ^ e.toNat))
      (.ok (if sg then I.saturatingPow x e.toNat else U.saturatingPow x e.toNat)) := by
  subst hx
  have h4 := T.four
  cases sg
  · exact .satU (C11_uint_pow T.pos (by rintro rfl; simp at h4) e.isLt).2.1
  · exact .satS (C11_int_pow_partial T.one h4 T.even e.isLt (hg rfl)).2.2.1

include hy

theorem sat_add : HasValue sg N (clamp sg (w * N) (value sg x + value sg y))
    (.ok (if sg then I.saturatingAdd x y else U.saturatingAdd x y)) := by
  subst hx
  have h4 := T.four
  cases sg
  · exact .satU (C02_uint_saturating_add T.pos hy.symm)
  · exact .satS (C03_int_saturating_add T.one (by rintro rfl; simp at h4) hy.symm)

theorem sat_sub : HasValue sg N (clamp sg (w * N) (value sg x - value sg y))
    (.ok (if sg then I.saturatingSub x y else U.saturatingSub x y)) := by
  subst hx
  have h4 := T.four
  cases sg
  · exact .satU (C02_uint_saturating_sub T.pos hy.symm)
  · exact .satS (C03_int_saturating_sub T.one (by rintro rfl; simp at h4) hy.symm)

theorem sat_mul (hg : sg = true → ¬ Mul.Gap w N (value sg x * value sg y)) :
    HasValue sg N (clamp sg (w * N) (value sg x * value sg y))
      (.ok (if sg then I.saturatingMul x y else U.saturatingMul x y)) := by
  subst hx
  have h4 := T.four
  cases sg
  · exact .satU (C07_uint_saturating_strict_mul T.pos hy.symm T.even h4).1
  · exact .satS (C08_int_mul_partial T.pos (by rintro rfl; simp at h4) hy.symm true (hg rfl)).2.2.1

theorem sat_div (h0 : value sg y ≠ 0) (hg : ¬ DivPanics w N (value sg x).natAbs (value sg y).natAbs) :
    HasValue sg N (clamp sg (w * N) ((value sg x).tdiv (value sg y)))
      (if sg then I.saturatingDiv x y else U.saturatingDiv x y) := by
  subst hx
  have h4 := T.four
  cases sg
  · have h0' : toNat y ≠ 0 := by simpa [value] using h0
    have f : InU (w * x.length) ((toNat x : Int).tdiv (toNat y)) := by
      simpa [Fits] using fits_ediv (x := x) y
    obtain ⟨v, e, h⟩ := (C12_uint_div T.pos hy.symm (by omega) T.even h0' true U.saturatingDiv (by simp)).2
      (by simpa [value] using hg)
    refine ⟨v, e, h.1, ?_⟩
    have h2 := h.2
    rw [← Int.tdiv_eq_ediv_of_nonneg (by omega)] at h2
    have := f.2
    simp only [value, clamp, Bool.false_eq_true, if_false]
    rw [min_eq_left (by omega), max_eq_right f.1, h2]
  · have h0' : toInt y ≠ 0 := by simpa [value] using h0
    obtain ⟨v, e, h⟩ := (C17_int_saturating_div T.one hy.symm (by omega) T.even h0').2 (by simpa [value] using hg)
    simp only [if_true]
    rw [e]
    exact .satS h

theorem sat_rem (h0 : value sg y ≠ 0) (hg : DivExact w N (value sg x).natAbs (value sg y).natAbs) :
    HasValue sg N ((value sg x).tmod (value sg y)) (if sg then I.wrappingRem x y else U.wrappingRem x y) := by
  have h := actual_rem (sg := sg) T hx hy false
  rw [if_neg h0, if_neg (by simpa using hg.1), hg.2] at h
  rw [(styles_rem T hx hy).wrap]
  simp only [Nat.cast_zero, Int.mul_zero, Int.add_zero] at h
  exact h

end saturating

theorem Expr.saturating_clamped (T : IsType w N) (hs : ∀ i, (s i).length = N) (e : Expr sg)
    (ht : e.Safe w N fun i => value sg (s i)) :
    HasValue sg N (e.clamped (w * N) fun i => value sg (s i)) (e.saturating s) := by
  induction e with
  | var i => exact ⟨_, rfl, hs i, rfl⟩
  | add a b iha ihb =>
    exact (iha ht.1).two (f := fun p q => clamp sg (w * N) (p + q)) (ihb ht.2) fun x y hx hy _ _ => sat_add T hx hy
  | sub a b iha ihb =>
    exact (iha ht.1).two (f := fun p q => clamp sg (w * N) (p - q)) (ihb ht.2) fun x y hx hy _ _ => sat_sub T hx hy
  | mul a b iha ihb =>
    refine (iha ht.1).two (f := fun p q => clamp sg (w * N) (p * q)) (ihb ht.2.1) fun x y hx hy ex ey => ?_
    have h := ht.2.2
    rw [ex, ey] at h
    exact sat_mul T hx hy h
  | div a b iha ihb =>
    refine (iha ht.1).two (f := fun p q => clamp sg (w * N) (p.tdiv q)) (ihb ht.2.1) fun x y hx hy ex ey => ?_
    have h := ht.2.2
    rw [ex, ey] at h
    exact sat_div T hx hy h.1 h.2
  | rem a b iha ihb =>
    refine (iha ht.1).two (f := Int.tmod) (ihb ht.2.1) fun x y hx hy ex ey => ?_
    have h := ht.2.2
    rw [ex, ey] at h
    exact sat_rem T hx hy h.1 h.2
  | and a b iha ihb => exact (iha ht.1).two (ihb ht.2) fun x y hx hy _ _ => (gives_bits T hx hy).1
  | or a b iha ihb => exact (iha ht.1).two (ihb ht.2) fun x y hx hy _ _ => (gives_bits T hx hy).2.1
  | xor a b iha ihb => exact (iha ht.1).two (ihb ht.2) fun x y hx hy _ _ => (gives_bits T hx hy).2.2
  | not a iha =>
    exact (iha ht).one (f := fun p => (if sg then -1 else 2 ^ (w * N) - 1) - p) fun x hx _ => gives_not T hx
  | neg h a iha => exact (iha ht).one (f := fun p => clamp sg (w * N) (-p)) fun x hx _ => sat_neg T hx h
  | shl a n iha =>
    exact (iha ht).one (f := fun p => reduce sg (w * N) (p * 2 ^ (n.toNat % (w * N)))) fun x hx _ => sat_shl T hx n
  | shr a n iha => exact (iha ht).one (f := fun p => p / 2 ^ (n.toNat % (w * N))) fun x hx _ => sat_shr T hx n
  | pow a n iha =>
    refine (iha ht.1).one (f := fun p => clamp sg (w * N) (p ^ n.toNat)) fun x hx ex => ?_
    have h := ht.2
    rw [ex] at h
    exact sat_pow T hx n h

end I256
