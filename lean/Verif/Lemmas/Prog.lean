import Verif.Model.Prog
import Verif.Lemmas.Widen
import Verif.Props.FormsAgree
import Verif.Props.GapAll
import Verif.Props.ShiftAll
import Verif.Props.DivForms
import Verif.Props.BitVecs
import Verif.Props.DivZero

/-!
# Lemmas about straight-line programs
-/

namespace I256

variable {w N : Nat} {x y v : Limbs w} {sg : Bool}

/-! ## Combining the operands -/

theorem ExprGives.one {oa : Option Int} {ra : Res (Limbs w)} {f : Int → Option Int} {g : Limbs w → Res (Limbs w)}
    (ha : ExprGives sg N oa ra)
    (h : ∀ x : Limbs w, x.length = N → oa = some (value sg x) → ExprGives sg N (f (value sg x)) (g x)) :
    ExprGives sg N (oa.bind f) (ra.bind g) := by
  cases oa with
  | none => rw [show ra = .panic from ha]; rfl
  | some z =>
    obtain ⟨x, rfl, hx, rfl⟩ := ha
    exact h x hx rfl

theorem ExprGives.two {oa ob : Option Int} {ra rb : Res (Limbs w)} {f : Int → Int → Option Int}
    {g : Limbs w → Limbs w → Res (Limbs w)} (ha : ExprGives sg N oa ra) (hb : ExprGives sg N ob rb)
    (h : ∀ x y : Limbs w, x.length = N → y.length = N → oa = some (value sg x) → ob = some (value sg y) →
      ExprGives sg N (f (value sg x) (value sg y)) (g x y)) :
    ExprGives sg N (oa.bind fun x => ob.bind fun y => f x y) (ra.bind fun x => rb.bind fun y => g x y) :=
  ha.one fun x hx ex => hb.one fun y hy ey => h x y hx hy ex ey

/-- A value that both builds return. -/
def Stable (N : Nat) (t f : Res (Limbs w)) : Prop := ∀ v, t = .ok v → f = .ok v ∧ v.length = N

theorem Stable.one {ta fa : Res (Limbs w)} {t f : Limbs w → Res (Limbs w)} (ha : Stable N ta fa)
    (h : ∀ x, x.length = N → Stable N (t x) (f x)) : Stable N (ta.bind t) (fa.bind f) := by
  intro v e
  cases ta with
  | panic => simp at e
  | ok x =>
    obtain ⟨rfl, hx⟩ := ha x rfl
    exact h x hx v e

theorem Stable.two {ta fa tb fb : Res (Limbs w)} {t f : Limbs w → Limbs w → Res (Limbs w)}
    (ha : Stable N ta fa) (hb : Stable N tb fb)
    (h : ∀ x y, x.length = N → y.length = N → Stable N (t x y) (f x y)) :
    Stable N (ta.bind fun x => tb.bind fun y => t x y) (fa.bind fun x => fb.bind fun y => f x y) :=
  ha.one fun x hx => hb.one fun y hy => h x y hx hy

/-! ## The operations -/

theorem Agree.stable {wr ov ch st} {op : Bool → Res (Limbs w)} (h : Agree wr ov ch st op)
    (hn : ∀ v, op false = .ok v → v.length = N) : Stable N (op true) (op false) := by
  intro v e
  unfold Agree at h
  split at h
  · rw [h.2.2.2 true] at e; simp at e
  · rw [h.2.2.2 true] at e
    rw [h.2.2.2 false, e]
    exact ⟨rfl, hn v (by rw [h.2.2.2 false, e])⟩
  · rw [h.2.2.2.1] at e; simp at e

theorem OpU.length {z : Int} {r : Res (Limbs w)} (h : OpU false N z r) (hv : r = .ok v) : v.length = N := by
  obtain ⟨v', rfl, h'⟩ := h
  cases hv; exact h'.1

theorem OpS.length {z : Int} {r : Res (Limbs w)} (h : OpS false N z r) (hv : r = .ok v) : v.length = N := by
  obtain ⟨v', rfl, h'⟩ := h
  cases hv; exact h'.1

theorem OpG.length {z : Int} {r : Res (Limbs w)} (h : OpG false N z r) (hv : r = .ok v) : v.length = N := by
  obtain ⟨v', rfl, h'⟩ := h
  cases hv; exact h'.1

theorem Yields.get {α : Type} {P : Prop} {Q : α → Prop} {r : Res α} {v : α} (h : Yields P Q r)
    (hv : r = .ok v) : Q v := by
  by_cases hp : P
  · rw [h.1 hp] at hv; simp at hv
  · obtain ⟨v', e, hq⟩ := h.2 hp
    rw [e] at hv; cases hv; exact hq

theorem gives_opU {z : Int} {r : Res (Limbs w)} (h : OpU true N z r) :
    ExprGives false N (keep false (w * N) z) r := by
  unfold keep Fits
  by_cases hz : InU (w * N) z
  · obtain ⟨v, rfl, h1, h2⟩ := h.1 hz
    simpa [hz, ExprGives, value] using ⟨h1, h2⟩
  · simpa [hz, ExprGives] using h.2 hz

theorem gives_opS {z : Int} {r : Res (Limbs w)} (h : OpS true N z r) :
    ExprGives true N (keep true (w * N) z) r := by
  unfold keep Fits
  by_cases hz : InS (w * N) z
  · obtain ⟨v, rfl, h1, h2⟩ := h.1 hz
    simpa [hz, ExprGives, value] using ⟨h1, h2⟩
  · simpa [hz, ExprGives] using h.2 hz

/-- The only signed quotient that does not fit. -/
theorem fits_tdiv (T : IsType w x.length) (h0 : toInt y ≠ 0) : Fits true (w * x.length) ((toInt x).tdiv (toInt y)) ↔
    ¬ (toInt x = -2 ^ (w * x.length - 1) ∧ toInt y = -1) := by
  have h3 := toInt_InS x
  have hb : (2 : Int) ^ (w * x.length) = 2 * 2 ^ (w * x.length - 1) := by
    have := T.b128
    rw [← pow_succ', show w * x.length - 1 + 1 = w * x.length by omega]
  rw [bits] at h3
  simp only [Fits, if_true, InS] at h3 ⊢
  rw [hb] at h3 ⊢
  generalize (2 : Int) ^ (w * x.length - 1) = P at *
  constructor
  · rintro hh ⟨e1, e2⟩
    rw [e1, e2] at hh
    simp only [Int.tdiv_neg, Int.tdiv_one] at hh
    omega
  · intro hh
    have h5 : ((toInt x).tdiv (toInt y)).natAbs ≤ (toInt x).natAbs := Int.natAbs_tdiv_le_natAbs _ _
    by_cases e2 : toInt y = -1
    · rw [e2, Int.tdiv_neg, Int.tdiv_one]
      have : toInt x ≠ -P := fun e => hh ⟨e, e2⟩
      omega
    · by_cases e3 : toInt y = 1
      · rw [e3, Int.tdiv_one]; omega
      · have h6 : 2 * ((toInt x).tdiv (toInt y)).natAbs ≤ (toInt x).natAbs := by
          rw [Int.natAbs_tdiv]
          have : 2 ≤ (toInt y).natAbs := by omega
          calc 2 * ((toInt x).natAbs / (toInt y).natAbs) ≤ (toInt y).natAbs * ((toInt x).natAbs / (toInt y).natAbs) :=
                Nat.mul_le_mul_right _ this
            _ ≤ _ := Nat.mul_div_le _ _
        omega

theorem fits_ediv (y : Limbs w) : Fits false (w * x.length) ((toNat x : Int).tdiv (toNat y)) := by
  rw [Int.tdiv_eq_ediv_of_nonneg (by omega)]
  have h3 := toNat_lt_int x
  have h5 : (toNat x : Int) / toNat y ≤ toNat x := Int.ediv_le_self _ (by omega)
  have h6 : (0 : Int) ≤ (toNat x : Int) / toNat y := Int.ediv_nonneg (by omega) (by omega)
  rw [bits] at h3
  simp only [Fits, Bool.false_eq_true, if_false]
  exact ⟨h6, by omega⟩

section operations
variable (T : IsType w N) (hx : x.length = N) (hy : y.length = N)
include T hx

theorem sameBits_value : SameBits (BitVec.ofInt (w * N) (value sg x)) x := by
  cases sg
  · exact .of_exactU rfl ⟨hx, rfl⟩
  · exact .of_exactS rfl ⟨hx, rfl⟩

theorem gives_same {f : BitVec (w * N) → BitVec (w * N) → BitVec (w * N)} {a b : Int}
    (h : SameBits (f (BitVec.ofInt _ a) (BitVec.ofInt _ b)) v) (hl : v.length = N) :
    ExprGives sg N (some (onBits sg (w * N) f a b)) (.ok v) := by
  refine ⟨v, rfl, hl, ?_⟩
  cases sg
  · simp [value, onBits, h.toNat]
  · simp [value, onBits, h.toInt]

include hy

theorem gives_bits :
    ExprGives sg N (some (onBits sg (w * N) (· &&& ·) (value sg x) (value sg y))) (.ok (Bits.and x y)) ∧
    ExprGives sg N (some (onBits sg (w * N) (· ||| ·) (value sg x) (value sg y))) (.ok (Bits.or x y)) ∧
    ExprGives sg N (some (onBits sg (w * N) (· ^^^ ·) (value sg x) (value sg y))) (.ok (Bits.xor x y)) := by
  have h4 := T.four
  have h2 := T.even
  obtain ⟨h, i, j⟩ := C97_bitwise T.one (by omega) (by omega) (sameBits_value (sg := sg) T hx)
    (sameBits_value (sg := sg) T hy)
  have hl : x.length = y.length := by omega
  exact ⟨gives_same T hx h ((C23_and hl).1.trans hx), gives_same T hx i ((C23_or hl).1.trans hx),
    gives_same T hx j ((C23_xor hl).1.trans hx)⟩

theorem gives_add : ExprGives sg N (keep sg (w * N) (value sg x + value sg y))
    (if sg then I.add true x y else U.add true x y) := by
  subst hx
  have h4 := T.four
  cases sg
  · exact gives_opU (C42_uint_add_sub T.pos hy.symm true).1
  · exact gives_opS (C42_int_add_sub T.one (by rintro rfl; simp at h4) hy.symm true).1

theorem gives_sub : ExprGives sg N (keep sg (w * N) (value sg x - value sg y))
    (if sg then I.sub true x y else U.sub true x y) := by
  subst hx
  have h4 := T.four
  cases sg
  · exact gives_opU (C42_uint_add_sub T.pos hy.symm true).2
  · exact gives_opS (C42_int_add_sub T.one (by rintro rfl; simp at h4) hy.symm true).2

theorem gives_mul (hg : sg = true → ¬ Mul.Gap w N (value sg x * value sg y)) :
    ExprGives sg N (keep sg (w * N) (value sg x * value sg y))
      (if sg then I.mul true x y else U.mul true x y) := by
  subst hx
  have h4 := T.four
  cases sg
  · exact gives_opU (C42_uint_mul T.pos hy.symm T.even h4 true)
  · exact gives_opS (C42_int_mul_partial T.pos (by rintro rfl; simp at h4) hy.symm true fun _ => hg rfl)

theorem gives_div (hg : ¬ DivPanics w N (value sg x).natAbs (value sg y).natAbs) :
    ExprGives sg N (if value sg y = 0 then none else keep sg (w * N) ((value sg x).tdiv (value sg y)))
      (if sg then I.div true x y else U.div true x y) := by
  subst hx
  have h4 := T.four
  split
  · rename_i h0
    cases sg
    · exact (C15_uint_div_zero_partial T.pos hy.symm (by omega) T.even (by simpa [value] using h0)).2.2.1
        (U.div true) (by simp)
    · exact (C15_int_div_zero_partial T.one hy.symm (by omega) T.even (by simpa [value] using h0)).2.2.1
        (I.div true) (by simp)
  · rename_i h0
    cases sg
    · have h0' : toNat y ≠ 0 := by simpa [value] using h0
      obtain ⟨v, e, h⟩ := (C12_uint_div T.pos hy.symm (by omega) T.even h0' true (U.div true) (by simp)).2
        (by simpa [value] using hg)
      have hz : InU (w * x.length) ((toNat x : Int) / toNat y) := by
        have := h.2
        have h3 := toNat_lt_int v
        rw [bits, h.1] at h3
        exact ⟨by omega, by omega⟩
      simp only [value, Bool.false_eq_true, if_false] at *
      rw [Int.tdiv_eq_ediv_of_nonneg (by omega), keep, if_pos (by simpa [Fits] using hz)]
      exact ⟨v, e, h.1, by simpa [value] using h.2⟩
    · have h0' : toInt y ≠ 0 := by simpa [value] using h0
      exact gives_opS ((C17_int_div T.one hy.symm (by omega) T.even h0' true).2
        (by simpa [value] using hg)).1

theorem gives_rem (hg : DivExact w N (value sg x).natAbs (value sg y).natAbs) :
    ExprGives sg N (if value sg y = 0 ∨ ¬ Fits sg (w * N) ((value sg x).tdiv (value sg y)) then none
        else some ((value sg x).tmod (value sg y)))
      (if sg then I.rem true x y else U.rem true x y) := by
  subst hx
  have h4 := T.four
  by_cases h0 : value sg y = 0
  · rw [if_pos (Or.inl h0)]
    cases sg
    · exact (C15_uint_div_zero_partial T.pos hy.symm (by omega) T.even (by simpa [value] using h0)).2.2.1
        (U.rem true) (by simp)
    · exact (C15_int_div_zero_partial T.one hy.symm (by omega) T.even (by simpa [value] using h0)).2.2.1
        (I.rem true) (by simp)
  · cases sg
    · have h0' : toNat y ≠ 0 := by simpa [value] using h0
      simp only [value, Bool.false_eq_true, if_false, Int.natAbs_natCast] at *
      obtain ⟨v, e, h⟩ := (C13_uint_rem_partial T.pos hy.symm (by omega) T.even h0' true (U.rem true)
        (by simp)).2 hg.1
      rw [hg.2] at h
      have hz := fits_ediv (x := x) y
      rw [if_neg (by tauto), Int.tmod_eq_emod_of_nonneg (by omega)]
      exact ⟨v, e, h.1, by simpa [value] using h.2⟩
    · have h0' : toInt y ≠ 0 := by simpa [value] using h0
      simp only [value, if_true] at *
      have h := (C17_int_rem_all_partial T.one hy.symm (by omega) T.even h0' rfl true).2.2.2
      rw [hg.2] at h
      have key := fits_tdiv T h0'
      by_cases hc : toInt x = -2 ^ (w * x.length - 1) ∧ toInt y = -1
      · rw [if_pos (Or.inr (by tauto))]
        exact h.1 (Or.inr ⟨rfl, hc⟩)
      · rw [if_neg (by tauto)]
        obtain ⟨v, e, h⟩ := h.2 (by have := hg.1; tauto)
        exact ⟨v, e, h.1, by simpa [value] using h.2⟩

omit hy

theorem gives_not : ExprGives sg N (some ((if sg then -1 else 2 ^ (w * N) - 1) - value sg x)) (.ok (Bits.not x)) := by
  subst hx
  have h4 := T.four
  obtain ⟨h1, -, h2, h3⟩ := C23_not (x := x) T.pos
  cases sg
  · exact ⟨_, rfl, h1, by simpa [value, bits] using h2⟩
  · exact ⟨_, rfl, h1, by simpa [value] using h3 (by rintro rfl; simp at h4)⟩

theorem gives_neg (hs : sg = true) : ExprGives sg N (keep sg (w * N) (-value sg x)) (I.neg true x) := by
  subst hx hs
  have h4 := T.four
  exact gives_opS (C36_int_neg T.pos (by omega) T.even true).2.2.2.2

theorem gives_pow (e : BitVec 32) (hg : sg = true → ¬ Mul.Gap w N (value sg x ^ e.toNat)) :
    ExprGives sg N (keep sg (w * N) (value sg x ^ e.toNat))
      (if sg then I.pow true x e.toNat else U.pow true x e.toNat) := by
  subst hx
  have h4 := T.four
  cases sg
  · exact gives_opU (C42_uint_pow T.pos (by rintro rfl; simp at h4) e.isLt true)
  · exact gives_opS (C42_int_pow_partial T.one h4 T.even e.isLt true fun _ => hg rfl)

theorem rejects_iff (s : BitVec 32) (oc : Bool) :
    ShiftRejects oc (castLimit false 32 (w * N)) (primVal false s) ↔ oc = true ∧ ¬ s.toNat < w * N := by
  have h := T.small
  have h' : ((w * N : Nat) : Int) % 2 ^ 32 = (w * N : Nat) := Int.emod_eq_of_lt (by omega) (by exact_mod_cast h)
  simp only [ShiftRejects, castLimit, primVal, Bool.false_eq_true, if_false, h']
  exact and_congr_right fun _ => by omega

omit T hx in
theorem places_eq (n : Nat) (s : BitVec 32) : shiftPlaces n (primVal false s) = s.toNat % n := by
  have := s.isLt
  simp only [shiftPlaces, primVal, Bool.false_eq_true, if_false]
  rw [Int.emod_eq_of_lt (by omega) (by exact_mod_cast this), Int.toNat_natCast]

theorem gives_shl (s : BitVec 32) :
    ExprGives sg N (if s.toNat < w * N then some (reduce sg (w * N) (value sg x * 2 ^ s.toNat)) else none)
      (shlPrim true false x s) := by
  subst hx
  have h4 := T.four
  obtain ⟨k, hk⟩ := T.pow
  obtain ⟨h, -⟩ := C38_all_partial hk T.even (by rintro rfl; simp at h4) true false s
  have hr := rejects_iff T rfl s true
  rw [places_eq] at h
  split
  · rename_i hs
    obtain ⟨v, e, h5, h6⟩ := h.2 (by rw [hr]; tauto)
    rw [Nat.mod_eq_of_lt hs] at h5 h6
    refine ⟨v, e, h5.1, ?_⟩
    cases sg
    · simpa [value, reduce] using h5.2
    · simpa [value, reduce] using h6.2
  · exact h.1 (by rw [hr]; tauto)

theorem gives_shr (s : BitVec 32) :
    ExprGives sg N (if s.toNat < w * N then some (value sg x / 2 ^ s.toNat) else none)
      (shrPrim true false sg x s) := by
  subst hx
  have h4 := T.four
  obtain ⟨k, hk⟩ := T.pow
  obtain ⟨-, h, h'⟩ := C38_all_partial hk T.even (by rintro rfl; simp at h4) true false s
  have hr := rejects_iff T rfl s true
  rw [places_eq] at h h'
  split
  · rename_i hs
    rw [Nat.mod_eq_of_lt hs] at h h'
    cases sg
    · obtain ⟨v, e, h5⟩ := h.2 (by rw [hr]; tauto)
      exact ⟨v, e, h5.1, by simpa [value] using h5.2⟩
    · obtain ⟨v, e, h5⟩ := h'.2 (by rw [hr]; tauto)
      exact ⟨v, e, h5.1, by simpa [value] using h5.2⟩
  · cases sg
    · exact h.1 (by rw [hr]; tauto)
    · exact h'.1 (by rw [hr]; tauto)

/-! ## Debug and release builds -/

theorem stable_shl (s : BitVec 32) : Stable N (shlPrim true false x s) (shlPrim false false x s) := by
  subst hx
  have h4 := T.four
  obtain ⟨k, hk⟩ := T.pow
  obtain ⟨h, -⟩ := C38_all_partial hk T.even (by rintro rfl; simp at h4) true false s
  intro v e
  refine ⟨?_, (h.get e).1.1⟩
  unfold shlPrim at e ⊢
  split at e
  · simp at e
  · simpa using e

theorem stable_shr (s : BitVec 32) : Stable N (shrPrim true false sg x s) (shrPrim false false sg x s) := by
  subst hx
  have h4 := T.four
  obtain ⟨k, hk⟩ := T.pow
  obtain ⟨-, h, h'⟩ := C38_all_partial hk T.even (by rintro rfl; simp at h4) true false s
  intro v e
  refine ⟨?_, ?_⟩
  · unfold shrPrim at e ⊢
    split at e
    · simp at e
    · simpa using e
  · cases sg
    · exact (h.get e).1
    · exact (h'.get e).1

theorem stable_pow (e : BitVec 32) : Stable N (if sg then I.pow true x e.toNat else U.pow true x e.toNat)
    (if sg then I.pow false x e.toNat else U.pow false x e.toNat) := by
  subst hx
  have h4 := T.four
  cases sg
  · exact (C80_uint T.pos T.even h4 rfl e.isLt (y := x)).2.2.2.stable fun v hv =>
      (C42_uint_pow T.pos (by rintro rfl; simp at h4) e.isLt false).length hv
  · exact (C80_int T.one T.even h4 rfl e.isLt (y := x)).2.2.2.1.stable fun v hv =>
      (C42_int_mul_pow_all_partial T.one h4 T.even rfl e.isLt false (y := x)).2.length hv

theorem stable_neg : Stable N (I.neg true x) (I.neg false x) := by
  subst hx
  have h4 := T.four
  exact (C80_int T.one T.even h4 rfl (by decide) (y := x) (e := 0)).2.2.2.2.1.stable fun v hv =>
      (C36_int_neg T.pos (by omega) T.even false).2.2.2.2.length hv

include hy

theorem stable_add : Stable N (if sg then I.add true x y else U.add true x y)
    (if sg then I.add false x y else U.add false x y) := by
  subst hx
  have h4 := T.four
  cases sg
  · exact (C80_uint T.pos T.even h4 hy.symm (by decide) (e := 0)).1.stable fun v hv =>
      (C42_uint_add_sub T.pos hy.symm false).1.length hv
  · exact (C80_int T.one T.even h4 hy.symm (by decide) (e := 0)).1.stable fun v hv =>
      (C42_int_add_sub T.one (by rintro rfl; simp at h4) hy.symm false).1.length hv

theorem stable_sub : Stable N (if sg then I.sub true x y else U.sub true x y)
    (if sg then I.sub false x y else U.sub false x y) := by
  subst hx
  have h4 := T.four
  cases sg
  · exact (C80_uint T.pos T.even h4 hy.symm (by decide) (e := 0)).2.1.stable fun v hv =>
      (C42_uint_add_sub T.pos hy.symm false).2.length hv
  · exact (C80_int T.one T.even h4 hy.symm (by decide) (e := 0)).2.1.stable fun v hv =>
      (C42_int_add_sub T.one (by rintro rfl; simp at h4) hy.symm false).2.length hv

theorem stable_mul : Stable N (if sg then I.mul true x y else U.mul true x y)
    (if sg then I.mul false x y else U.mul false x y) := by
  subst hx
  have h4 := T.four
  cases sg
  · exact (C80_uint T.pos T.even h4 hy.symm (by decide) (e := 0)).2.2.1.stable fun v hv =>
      (C42_uint_mul T.pos hy.symm T.even h4 false).length hv
  · exact (C80_int T.one T.even h4 hy.symm (by decide) (e := 0)).2.2.1.stable fun v hv =>
      (C42_int_mul_pow_all_partial T.one h4 T.even hy.symm (by decide) false (e := 0)).1.length hv

theorem stable_div : Stable N (if sg then I.div true x y else U.div true x y)
    (if sg then I.div false x y else U.div false x y) := by
  subst hx
  have h4 := T.four
  by_cases h0 : toNat y = 0
  · have h := C80_div_zero T.one (by omega) T.even hy.symm h0
    intro v e
    cases sg
    · cases e.symm.trans h.1.1.2.2.1
    · cases e.symm.trans h.2.1.2.2.1
  · cases sg
    · exact (C80_uint_div (by omega) T.even hy.symm h0).1.stable fun v hv =>
        ((C12_uint_div T.pos hy.symm (by omega) T.even h0 false (U.div false) (by simp)).get hv).1
    · have h0' : toInt y ≠ 0 := by rw [Ne, toInt_eq_zero_iff]; exact h0
      refine (C80_int_div T.one (by omega) T.even hy.symm h0').1.stable fun v hv => ?_
      have h := C17_int_div T.one hy.symm (by omega) T.even h0' false
      by_cases hp : DivPanics w x.length (toInt x).natAbs (toInt y).natAbs
      · rw [(h.1 hp).1] at hv; simp at hv
      · exact (h.2 hp).1.length hv

theorem stable_rem : Stable N (if sg then I.rem true x y else U.rem true x y)
    (if sg then I.rem false x y else U.rem false x y) := by
  subst hx
  have h4 := T.four
  by_cases h0 : toNat y = 0
  · have h := C80_div_zero T.one (by omega) T.even hy.symm h0
    intro v e
    cases sg
    · cases e.symm.trans h.1.2.1.2.2.1
    · cases e.symm.trans h.2.2.1.2.2.1
  · cases sg
    · exact (C80_uint_div (by omega) T.even hy.symm h0).2.1.stable fun v hv =>
        ((C13_uint_rem_partial T.pos hy.symm (by omega) T.even h0 false (U.rem false) (by simp)).get hv).1
    · have h0' : toInt y ≠ 0 := by rw [Ne, toInt_eq_zero_iff]; exact h0
      exact (C80_int_div T.one (by omega) T.even hy.symm h0').2.1.stable fun v hv =>
        ((C17_int_rem_all_partial T.one hy.symm (by omega) T.even h0' rfl false).2.2.2.get hv).1

end operations

/-! ## The actual results, in both builds -/

theorem settle_opU {oc : Bool} {z : Int} {r : Res (Limbs w)} (h : OpU oc N z r) :
    ExprGives false N (settle oc false (w * N) z) r := by
  cases oc
  · obtain ⟨v, e, h1, h2⟩ := h
    exact ⟨v, e, h1, h2⟩
  · exact gives_opU h

theorem settle_opS {oc : Bool} {z : Int} {r : Res (Limbs w)} (h : OpS oc N z r) :
    ExprGives true N (settle oc true (w * N) z) r := by
  cases oc
  · obtain ⟨v, e, h1, h2⟩ := h
    exact ⟨v, e, h1, h2⟩
  · exact gives_opS h

theorem settle_opG {oc : Bool} {z : Int} {r : Res (Limbs w)} (h : OpG oc N z r) :
    ExprGives true N (settleMul oc true w N z) r := by
  cases oc
  · obtain ⟨v, e, h1, h2⟩ := h
    exact ⟨v, e, h1, h2⟩
  · by_cases hp : Passes w N z
    · obtain ⟨v, e, h1, h2⟩ := h.1 hp
      simp only [settleMul, Bool.and_self, if_true, if_pos hp]
      exact ⟨v, e, h1, h2⟩
    · simp only [settleMul, Bool.and_self, if_true, if_neg hp]
      exact h.2 hp

theorem ExprGives.of_yields {P : Prop} {Q : Limbs w → Prop} {r : Res (Limbs w)} {o : Option Int}
    (h : Yields P Q r) (hp : P → o = none) (hq : ¬ P → ∀ v, Q v → ∃ z, o = some z ∧ v.length = N ∧ value sg v = z) :
    ExprGives sg N o r := by
  by_cases hP : P
  · rw [hp hP]; exact h.1 hP
  · obtain ⟨v, e, q⟩ := h.2 hP
    obtain ⟨z, rfl, h1, h2⟩ := hq hP v q
    exact ⟨v, e, h1, h2⟩

section actual
variable (T : IsType w N) (hx : x.length = N) (hy : y.length = N) (oc : Bool)
include T hx

theorem actual_shl (s : BitVec 32) :
    ExprGives sg N (if oc = true ∧ ¬ s.toNat < w * N then none
        else some (reduce sg (w * N) (value sg x * 2 ^ (s.toNat % (w * N)))))
      (shlPrim oc false x s) := by
  subst hx
  have h4 := T.four
  obtain ⟨k, hk⟩ := T.pow
  obtain ⟨h, -⟩ := C38_all_partial hk T.even (by rintro rfl; simp at h4) oc false s
  have hr := rejects_iff T rfl s oc
  rw [places_eq] at h
  refine .of_yields h (fun hp => if_pos (hr.1 hp)) fun hp v hv => ⟨_, if_neg (mt hr.2 hp), hv.1.1, ?_⟩
  cases sg
  · simpa [value, reduce] using hv.1.2
  · simpa [value, reduce] using hv.2.2

theorem actual_shr (s : BitVec 32) :
    ExprGives sg N (if oc = true ∧ ¬ s.toNat < w * N then none
        else some (value sg x / 2 ^ (s.toNat % (w * N))))
      (shrPrim oc false sg x s) := by
  subst hx
  have h4 := T.four
  obtain ⟨k, hk⟩ := T.pow
  obtain ⟨-, h, h'⟩ := C38_all_partial hk T.even (by rintro rfl; simp at h4) oc false s
  have hr := rejects_iff T rfl s oc
  rw [places_eq] at h h'
  cases sg
  · exact .of_yields h (fun hp => if_pos (hr.1 hp)) fun hp v hv =>
      ⟨_, if_neg (mt hr.2 hp), hv.1, by simpa [value] using hv.2⟩
  · exact .of_yields h' (fun hp => if_pos (hr.1 hp)) fun hp v hv =>
      ⟨_, if_neg (mt hr.2 hp), hv.1, by simpa [value] using hv.2⟩

theorem actual_pow (e : BitVec 32) : ExprGives sg N (settleMul oc sg w N (value sg x ^ e.toNat))
    (if sg then I.pow oc x e.toNat else U.pow oc x e.toNat) := by
  subst hx
  have h4 := T.four
  cases sg
  · exact settle_opU (C42_uint_pow T.pos (by rintro rfl; simp at h4) e.isLt oc)
  · exact settle_opG (C42_int_mul_pow_all_partial T.one h4 T.even rfl e.isLt oc (y := x)).2

theorem actual_neg (hs : sg = true) : ExprGives sg N (settle oc sg (w * N) (-value sg x)) (I.neg oc x) := by
  subst hx hs
  have h4 := T.four
  exact settle_opS (C36_int_neg T.pos (by omega) T.even oc).2.2.2.2

include hy

theorem actual_add : ExprGives sg N (settle oc sg (w * N) (value sg x + value sg y))
    (if sg then I.add oc x y else U.add oc x y) := by
  subst hx
  have h4 := T.four
  cases sg
  · exact settle_opU (C42_uint_add_sub T.pos hy.symm oc).1
  · exact settle_opS (C42_int_add_sub T.one (by rintro rfl; simp at h4) hy.symm oc).1

theorem actual_sub : ExprGives sg N (settle oc sg (w * N) (value sg x - value sg y))
    (if sg then I.sub oc x y else U.sub oc x y) := by
  subst hx
  have h4 := T.four
  cases sg
  · exact settle_opU (C42_uint_add_sub T.pos hy.symm oc).2
  · exact settle_opS (C42_int_add_sub T.one (by rintro rfl; simp at h4) hy.symm oc).2

theorem actual_mul : ExprGives sg N (settleMul oc sg w N (value sg x * value sg y))
    (if sg then I.mul oc x y else U.mul oc x y) := by
  subst hx
  have h4 := T.four
  cases sg
  · exact settle_opU (C42_uint_mul T.pos hy.symm T.even h4 oc)
  · exact settle_opG (C42_int_mul_pow_all_partial T.one h4 T.even hy.symm (by decide) oc (e := 0)).1

theorem actual_div : ExprGives sg N
    (if value sg y = 0 then if oc = true ∨ value sg x ≠ 0 then none else some 1
      else if DivPanics w N (value sg x).natAbs (value sg y).natAbs then none
      else settle oc sg (w * N) ((value sg x).tdiv (value sg y)))
    (if sg then I.div oc x y else U.div oc x y) := by
  subst hx
  have h4 := T.four
  by_cases h0 : value sg y = 0
  · rw [if_pos h0]
    cases oc
    · cases sg
      · have h0' : toNat y = 0 := by simpa [value] using h0
        refine .of_yields ((C15_uint_div_zero_all_partial T.pos hy.symm (by omega) T.even h0').1 (U.div false)
          (by simp)) (fun hp => if_pos (Or.inr (by simpa [value] using hp))) fun hp v hv =>
          ⟨1, if_neg (by simpa [value] using hp), hv.1, by simpa [value] using hv.2⟩
      · have h0' : toInt y = 0 := by simpa [value] using h0
        refine .of_yields ((C15_int_div_zero_all_partial T.one hy.symm (by omega) T.even h0').1 (I.div false)
          (by simp)) (fun hp => if_pos (Or.inr (by simpa [value] using hp))) fun hp v hv =>
          ⟨1, if_neg (by simpa [value] using hp), hv.1, by simpa [value] using hv.2⟩
    · rw [if_pos (Or.inl rfl)]
      cases sg
      · exact (C15_uint_div_zero_partial T.pos hy.symm (by omega) T.even (by simpa [value] using h0)).2.2.1
          (U.div true) (by simp)
      · exact (C15_int_div_zero_partial T.one hy.symm (by omega) T.even (by simpa [value] using h0)).2.2.1
          (I.div true) (by simp)
  · rw [if_neg h0]
    cases sg
    · have h0' : toNat y ≠ 0 := by simpa [value] using h0
      have fit := fits_ediv (x := x) y
      simp only [value, Bool.false_eq_true, if_false, Int.natAbs_natCast] at *
      refine .of_yields (C12_uint_div T.pos hy.symm (by omega) T.even h0' oc (U.div oc) (by simp))
        (fun hp => if_pos hp) fun hp v hv => ⟨(toNat x : Int).tdiv (toNat y), ?_, hv.1, ?_⟩
      · rw [if_neg hp, settle, keep, if_pos fit]
        have f : InU (w * x.length) ((toNat x : Int).tdiv (toNat y)) := by simpa [Fits] using fit
        cases oc
        · simp only [reduce, Bool.false_eq_true, if_false]
          rw [Int.emod_eq_of_lt f.1 f.2]
        · rfl
      · rw [Int.tdiv_eq_ediv_of_nonneg (by omega)]
        simpa [value] using hv.2
    · have h0' : toInt y ≠ 0 := by simpa [value] using h0
      have h := C17_int_div T.one hy.symm (by omega) T.even h0' oc
      simp only [value, if_true] at *
      split
      · rename_i hp; exact (h.1 hp).1
      · rename_i hp; exact settle_opS (h.2 hp).1

theorem actual_rem : ExprGives sg N
    (if value sg y = 0 then if oc = true ∨ value sg x ≠ 0 then none else some 0
      else if DivPanics w N (value sg x).natAbs (value sg y).natAbs ∨
        oc = true ∧ ¬ Fits sg (w * N) ((value sg x).tdiv (value sg y)) then none
      else some ((value sg x).tmod (value sg y) +
        (value sg x).sign * strayRem w N (value sg x).natAbs (value sg y).natAbs))
    (if sg then I.rem oc x y else U.rem oc x y) := by
  subst hx
  have h4 := T.four
  by_cases h0 : value sg y = 0
  · rw [if_pos h0]
    cases oc
    · cases sg
      · have h0' : toNat y = 0 := by simpa [value] using h0
        refine .of_yields ((C15_uint_div_zero_all_partial T.pos hy.symm (by omega) T.even h0').2.1 (U.rem false)
          (by simp)) (fun hp => if_pos (Or.inr (by simpa [value] using hp))) fun hp v hv =>
          ⟨0, if_neg (by simpa [value] using hp), hv.1, by simpa [value] using hv.2⟩
      · have h0' : toInt y = 0 := by simpa [value] using h0
        refine .of_yields ((C15_int_div_zero_all_partial T.one hy.symm (by omega) T.even h0').2.1 (I.rem false)
          (by simp)) (fun hp => if_pos (Or.inr (by simpa [value] using hp))) fun hp v hv =>
          ⟨0, if_neg (by simpa [value] using hp), hv.1, by simpa [value] using hv.2⟩
    · rw [if_pos (Or.inl rfl)]
      cases sg
      · exact (C15_uint_div_zero_partial T.pos hy.symm (by omega) T.even (by simpa [value] using h0)).2.2.1
          (U.rem true) (by simp)
      · exact (C15_int_div_zero_partial T.one hy.symm (by omega) T.even (by simpa [value] using h0)).2.2.1
          (I.rem true) (by simp)
  · rw [if_neg h0]
    cases sg
    · have h0' : toNat y ≠ 0 := by simpa [value] using h0
      have fit := fits_ediv (x := x) y
      simp only [value, Bool.false_eq_true, if_false, Int.natAbs_natCast] at *
      refine .of_yields (C13_uint_rem_partial T.pos hy.symm (by omega) T.even h0' oc (U.rem oc) (by simp))
        (fun hp => if_pos (Or.inl hp)) fun hp v hv => ⟨_, if_neg (by tauto), hv.1, ?_⟩
      rw [Int.tmod_eq_emod_of_nonneg (by omega)]
      simp only [value, Bool.false_eq_true, if_false]
      rw [hv.2]
      by_cases hz : toNat x = 0
      · have : strayRem w x.length (toNat x) (toNat y) = 0 := by
          have hf : ∀ k, flagNum w (addBack w (toNat x) (toNat y)) k = 0 := by
            rw [hz]
            intro k
            induction k with
            | zero => rfl
            | succ k ih => simp [flagNum, ih, addBack]
          rw [strayRem, hf, Nat.mul_zero]
        rw [this]; simp
      · rw [Int.sign_eq_one_of_pos (by omega)]; omega
    · have h0' : toInt y ≠ 0 := by simpa [value] using h0
      have h := (C17_int_rem_all_partial T.one hy.symm (by omega) T.even h0' rfl oc).2.2.2
      have key := fits_tdiv T h0'
      simp only [value, if_true] at *
      exact .of_yields h (fun hp => if_pos (by tauto)) fun hp v hv =>
        ⟨_, if_neg (by tauto), hv.1, by simpa [value] using hv.2⟩

end actual

/-! ## Expressions -/

theorem Both.get {P : Int → Int → Prop} {oa ob : Option Int} {a b : Int} (h : Both P oa ob)
    (ha : oa = some a) (hb : ob = some b) : P a b := by subst ha hb; exact h

variable {s : Nat → Limbs w}

theorem update_length (hs : ∀ i, (s i).length = N) {x : Limbs w} (hx : x.length = N)
    (j : Nat) : ∀ i, (Function.update s j x i).length = N := by
  intro i
  by_cases h : i = j
  · subst h; simpa using hx
  · simpa [h] using hs i

theorem value_update (s : Nat → Limbs w) (x : Limbs w) (j : Nat) :
    (fun i => value sg (Function.update s j x i)) = Function.update (fun i => value sg (s i)) j (value sg x) := by
  funext i
  by_cases h : i = j
  · subst h; simp
  · simp [h]

theorem Expr.eval_exact (T : IsType w N) (hs : ∀ i, (s i).length = N) (e : Expr sg)
    (ht : e.Tame w N fun i => value sg (s i)) :
    ExprGives sg N (e.exact (w * N) fun i => value sg (s i)) (e.eval true s) := by
  induction e with
  | var i => exact ⟨_, rfl, hs i, rfl⟩
  | add a b iha ihb => exact (iha ht.1).two (ihb ht.2) fun x y hx hy _ _ => gives_add T hx hy
  | sub a b iha ihb => exact (iha ht.1).two (ihb ht.2) fun x y hx hy _ _ => gives_sub T hx hy
  | mul a b iha ihb =>
    exact (iha ht.1).two (ihb ht.2.1) fun x y hx hy ex ey => gives_mul T hx hy (ht.2.2.get ex ey)
  | div a b iha ihb =>
    exact (iha ht.1).two (ihb ht.2.1) fun x y hx hy ex ey => gives_div T hx hy (ht.2.2.get ex ey)
  | rem a b iha ihb =>
    exact (iha ht.1).two (ihb ht.2.1) fun x y hx hy ex ey => gives_rem T hx hy (ht.2.2.get ex ey)
  | and a b iha ihb => exact (iha ht.1).two (ihb ht.2) fun x y hx hy _ _ => (gives_bits T hx hy).1
  | or a b iha ihb => exact (iha ht.1).two (ihb ht.2) fun x y hx hy _ _ => (gives_bits T hx hy).2.1
  | xor a b iha ihb => exact (iha ht.1).two (ihb ht.2) fun x y hx hy _ _ => (gives_bits T hx hy).2.2
  | not a iha => exact (iha ht).one fun x hx _ => gives_not T hx
  | neg h a iha => exact (iha ht).one fun x hx _ => gives_neg T hx h
  | shl a n iha => exact (iha ht).one fun x hx _ => gives_shl T hx n
  | shr a n iha => exact (iha ht).one fun x hx _ => gives_shr T hx n
  | pow a n iha => exact (iha ht.1).one fun x hx ex => gives_pow T hx n (ht.2.get ex rfl)

theorem Expr.eval_actual (T : IsType w N) (hs : ∀ i, (s i).length = N) (oc : Bool) (e : Expr sg) :
    ExprGives sg N (e.actual oc w N fun i => value sg (s i)) (e.eval oc s) := by
  induction e with
  | var i => exact ⟨_, rfl, hs i, rfl⟩
  | add a b iha ihb => exact iha.two ihb fun x y hx hy _ _ => actual_add T hx hy oc
  | sub a b iha ihb => exact iha.two ihb fun x y hx hy _ _ => actual_sub T hx hy oc
  | mul a b iha ihb => exact iha.two ihb fun x y hx hy _ _ => actual_mul T hx hy oc
  | div a b iha ihb => exact iha.two ihb fun x y hx hy _ _ => actual_div T hx hy oc
  | rem a b iha ihb => exact iha.two ihb fun x y hx hy _ _ => actual_rem T hx hy oc
  | and a b iha ihb => exact iha.two ihb fun x y hx hy _ _ => (gives_bits T hx hy).1
  | or a b iha ihb => exact iha.two ihb fun x y hx hy _ _ => (gives_bits T hx hy).2.1
  | xor a b iha ihb => exact iha.two ihb fun x y hx hy _ _ => (gives_bits T hx hy).2.2
  | not a iha => exact iha.one fun x hx _ => gives_not T hx
  | neg h a iha => exact iha.one fun x hx _ => actual_neg T hx oc h
  | shl a n iha => exact iha.one fun x hx _ => actual_shl T hx oc n
  | shr a n iha => exact iha.one fun x hx _ => actual_shr T hx oc n
  | pow a n iha => exact iha.one fun x hx _ => actual_pow T hx oc n

theorem Expr.eval_stable (T : IsType w N) (hs : ∀ i, (s i).length = N) (e : Expr sg) :
    Stable N (e.eval true s) (e.eval false s) := by
  have L : ∀ {x y : Limbs w}, x.length = N → y.length = N → x.length = y.length := by
    intro x y h h'; rw [h, h']
  have ok : ∀ v : Limbs w, v.length = N → Stable N (.ok v) (.ok v) := by
    intro v hv u e; cases e; exact ⟨rfl, hv⟩
  induction e with
  | var i => exact ok _ (hs i)
  | add a b iha ihb => exact iha.two ihb fun x y hx hy => stable_add T hx hy
  | sub a b iha ihb => exact iha.two ihb fun x y hx hy => stable_sub T hx hy
  | mul a b iha ihb => exact iha.two ihb fun x y hx hy => stable_mul T hx hy
  | div a b iha ihb => exact iha.two ihb fun x y hx hy => stable_div T hx hy
  | rem a b iha ihb => exact iha.two ihb fun x y hx hy => stable_rem T hx hy
  | and a b iha ihb => exact iha.two ihb fun x y hx hy => ok _ ((C23_and (L hx hy)).1.trans hx)
  | or a b iha ihb => exact iha.two ihb fun x y hx hy => ok _ ((C23_or (L hx hy)).1.trans hx)
  | xor a b iha ihb => exact iha.two ihb fun x y hx hy => ok _ ((C23_xor (L hx hy)).1.trans hx)
  | not a iha => exact iha.one fun x hx => ok _ ((C23_not T.pos).1.trans hx)
  | neg h a iha => exact iha.one fun x hx => stable_neg T hx
  | shl a n iha => exact iha.one fun x hx => stable_shl T hx n
  | shr a n iha => exact iha.one fun x hx => stable_shr T hx n
  | pow a n iha => exact iha.one fun x hx => stable_pow T hx n

/-- A value that is congruent to `z`. -/
def Congr (N : Nat) (z : Int) (r : Res (Limbs w)) : Prop :=
  ∃ v, r = .ok v ∧ v.length = N ∧ (toNat v : Int) ≡ z [ZMOD 2 ^ (w * N)]

theorem Congr.of_wrapU {z z' : Int} {r : Res (Limbs w)} (h : ∃ v, r = .ok v ∧ WrapU N z v)
    (hz : z ≡ z' [ZMOD 2 ^ (w * N)]) : Congr N z' r := by
  obtain ⟨v, e, h⟩ := h
  exact ⟨v, e, h.1, h.modEq.trans hz⟩

theorem Congr.of_wrapS {z z' : Int} {r : Res (Limbs w)} (h : ∃ v, r = .ok v ∧ WrapS N z v)
    (hz : z ≡ z' [ZMOD 2 ^ (w * N)]) : Congr N z' r := by
  obtain ⟨v, e, h⟩ := h
  exact .of_wrapU ⟨v, e, h.wrapU⟩ hz

theorem value_modEq (hx : x.length = N) : (toInt x : Int) ≡ toNat x [ZMOD 2 ^ (w * N)] := by
  subst hx; exact toInt_modEq x

theorem Expr.eval_poly (T : IsType w N) (hs : ∀ i, (s i).length = N) {env : Nat → Int}
    (hv : ∀ i, (toNat (s i) : Int) ≡ env i [ZMOD 2 ^ (w * N)]) (e : Expr sg) (hr : e.Ring) :
    Congr N (e.poly (w * N) env) (e.eval false s) := by
  have h4 := T.four
  have h2 := T.even
  have two : ∀ {a b : Expr sg} {ra rb : Res (Limbs w)} {g : Limbs w → Limbs w → Res (Limbs w)}
      {f : Int → Int → Int}, Congr N (a.poly (w * N) env) ra → Congr N (b.poly (w * N) env) rb →
      (∀ x y : Limbs w, x.length = N → y.length = N → ∀ p q : Int, (toNat x : Int) ≡ p [ZMOD 2 ^ (w * N)] →
        (toNat y : Int) ≡ q [ZMOD 2 ^ (w * N)] → (toInt x : Int) ≡ p [ZMOD 2 ^ (w * N)] →
        (toInt y : Int) ≡ q [ZMOD 2 ^ (w * N)] → Congr N (f p q) (g x y)) →
      Congr N (f (a.poly (w * N) env) (b.poly (w * N) env)) (ra.bind fun x => rb.bind fun y => g x y) := by
    intro a b ra rb g f ha hb h
    obtain ⟨x, rfl, hx, ex⟩ := ha
    obtain ⟨y, rfl, hy, ey⟩ := hb
    exact h x y hx hy _ _ ex ey ((value_modEq hx).trans ex) ((value_modEq hy).trans ey)
  have one : ∀ {a : Expr sg} {ra : Res (Limbs w)} {g : Limbs w → Res (Limbs w)}
      {f : Int → Int}, Congr N (a.poly (w * N) env) ra →
      (∀ x : Limbs w, x.length = N → ∀ p : Int, (toNat x : Int) ≡ p [ZMOD 2 ^ (w * N)] →
        (toInt x : Int) ≡ p [ZMOD 2 ^ (w * N)] → Congr N (f p) (g x)) →
      Congr N (f (a.poly (w * N) env)) (ra.bind g) := by
    intro a ra g f ha h
    obtain ⟨x, rfl, hx, ex⟩ := ha
    exact h x hx _ ex ((value_modEq hx).trans ex)
  have nil : ∀ {x : Limbs w}, x.length = N → x ≠ [] := by rintro x hx rfl; simp at hx; omega
  induction e with
  | var i => exact ⟨_, rfl, hs i, hv i⟩
  | add a b iha ihb =>
    refine two (f := (· + ·)) (iha hr.1) (ihb hr.2) fun x y hx hy p q ux uy sx sy => ?_
    subst hx
    cases sg
    · exact .of_wrapU (C42_uint_add_sub T.pos hy.symm false).1 (ux.add uy)
    · exact .of_wrapS (C42_int_add_sub T.one (nil rfl) hy.symm false).1 (sx.add sy)
  | sub a b iha ihb =>
    refine two (f := (· - ·)) (iha hr.1) (ihb hr.2) fun x y hx hy p q ux uy sx sy => ?_
    subst hx
    cases sg
    · exact .of_wrapU (C42_uint_add_sub T.pos hy.symm false).2 (ux.sub uy)
    · exact .of_wrapS (C42_int_add_sub T.one (nil rfl) hy.symm false).2 (sx.sub sy)
  | mul a b iha ihb =>
    refine two (f := (· * ·)) (iha hr.1) (ihb hr.2) fun x y hx hy p q ux uy sx sy => ?_
    subst hx
    cases sg
    · exact .of_wrapU (C42_uint_mul T.pos hy.symm h2 h4 false) (ux.mul uy)
    · exact .of_wrapS (C42_int_mul_partial T.pos (nil rfl) hy.symm false (by simp)) (sx.mul sy)
  | not a iha =>
    refine one (f := (-1 - ·)) (iha hr) fun x hx p ux sx => ?_
    subst hx
    obtain ⟨l, -, -, h⟩ := C23_not (x := x) T.pos
    refine ⟨_, rfl, l, (value_modEq l).symm.trans ?_⟩
    rw [h (nil rfl)]
    exact (Int.ModEq.refl _).sub sx
  | neg h a iha =>
    refine one (f := (- ·)) (iha hr) fun x hx p ux sx => ?_
    subst hx
    exact .of_wrapS (C36_int_neg T.pos (by omega) h2 false).2.2.2.2 sx.neg
  | shl a n iha =>
    refine one (f := (· * 2 ^ (n.toNat % (w * N)))) (iha hr) fun x hx p ux sx => ?_
    subst hx
    obtain ⟨k, hk⟩ := T.pow
    obtain ⟨h, -⟩ := C38_all_partial hk h2 (nil rfl) false false n
    obtain ⟨v, e, h5, -⟩ := h.2 (by simp [ShiftRejects])
    rw [places_eq] at h5
    exact .of_wrapU ⟨v, e, h5⟩ (ux.mul_right _)
  | pow a n iha =>
    refine one (f := (· ^ n.toNat)) (iha hr) fun x hx p ux sx => ?_
    subst hx
    cases sg
    · exact .of_wrapU (C42_uint_pow T.pos (nil rfl) n.isLt false) (ux.pow _)
    · exact .of_wrapS (C42_int_pow_partial T.one h4 h2 n.isLt false (by simp)) (sx.pow _)
  | div | rem | and | or | xor | shr => exact hr.elim

end I256
