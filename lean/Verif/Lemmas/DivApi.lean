import Verif.Lemmas.DivTop
import Verif.Lemmas.NegAbs
import Verif.Model.DivApi

/-!
# Division API
-/

namespace I256

variable {w : Nat}

theorem checkedBy_false {α : Type} (r : Res α) : checkedBy false r = r.map some := rfl
theorem checkedBy_true {α : Type} (r : Res α) : checkedBy true r = .ok none := rfl

theorem map_some_unwrap {α : Type} (r : Res α) : (r.map some).bind unwrapOrPanic = r := by
  cases r <;> rfl

theorem opOfR_checked {α : Type} (oc : Bool) (r : Res α) : opOfR oc r (r.map some) = r := by
  unfold opOfR
  rw [map_some_unwrap]
  split <;> rfl

theorem Yields.some {α : Type} {P : Prop} {Q : α → Prop} {r : Res α} (h : Yields P Q r) :
    Yields P (fun o => ∃ v, o = Option.some v ∧ Q v) (r.map Option.some) :=
  h.map fun v hv => ⟨v, rfl, hv⟩

theorem DivExact.of_clean {N x y : Nat} (h : Clean w x y) : DivExact w N x y :=
  ⟨h.noPanic, h.stray⟩

theorem eqZero_iff {y : Limbs w} (h2 : y.length % 2 = 0) (hy : 2 ≤ y.length) :
    Ord.eqConst y (ofU8 y.length 0) = true ↔ toNat y = 0 := by
  have h0 := ofU8U (w := w) (N := y.length) (v := 0) (by omega) (by positivity)
  rw [Ord.eqConst_iff h0.1.symm h2]
  have h1 : toNat (ofU8 y.length 0 : Limbs w) = 0 := by have := h0.2; omega
  constructor
  · intro h; rw [h, h1]
  · intro h; exact toNat_inj h0.1.symm (by rw [h, h1])

theorem isDivNoneU {y : Limbs w} (h2 : y.length % 2 = 0) (hy : 2 ≤ y.length)
    (h0 : toNat y ≠ 0) : U.isDivNone y = false := by
  by_contra hc
  exact h0 ((eqZero_iff h2 hy).1 (by simpa [U.isDivNone] using hc))

theorem isDivNoneU_zero {y : Limbs w} (h2 : y.length % 2 = 0) (hy : 2 ≤ y.length)
    (h0 : toNat y = 0) : U.isDivNone y = true := (eqZero_iff h2 hy).2 h0

/-- `wrapping_div_rem`, unsigned. -/
theorem wrappingDivRemU (hw : 0 < w) {x y : Limbs w} (hl : x.length = y.length) (h2 : 2 ≤ x.length)
    (hy : toNat y ≠ 0) :
    Yields (DivPanics w x.length (toNat x) (toNat y))
      (fun r => ExactU x.length (toNat x / toNat y) r.1 ∧
        ExactU x.length (toNat x % toNat y + strayRem w x.length (toNat x) (toNat y)) r.2)
      (U.wrappingDivRem x y) := by
  refine (Div.full_spec hw hl h2 hy).mono ?_
  rintro ⟨q, r⟩ ⟨⟨ql, qv⟩, rl, rv⟩
  exact ⟨⟨ql, by rw [qv]; push_cast; rfl⟩, rl, by rw [rv]; push_cast; rfl⟩

theorem wrappingDivU (hw : 0 < w) {x y : Limbs w} (hl : x.length = y.length) (h2 : 2 ≤ x.length)
    (hy : toNat y ≠ 0) :
    Yields (DivPanics w x.length (toNat x) (toNat y)) (ExactU x.length (toNat x / toNat y))
      (U.wrappingDiv x y) :=
  (wrappingDivRemU hw hl h2 hy).map fun _ h => h.1

theorem wrappingRemU (hw : 0 < w) {x y : Limbs w} (hl : x.length = y.length) (h2 : 2 ≤ x.length)
    (hy : toNat y ≠ 0) :
    Yields (DivPanics w x.length (toNat x) (toNat y))
      (ExactU x.length (toNat x % toNat y + strayRem w x.length (toNat x) (toNat y)))
      (U.wrappingRem x y) :=
  (wrappingDivRemU hw hl h2 hy).map fun _ h => h.2

/-! ### Signed -/

/-- The signed remainder computed from the unsigned one. -/
theorem tmod_natAbs (x y : Int) (k : Nat) (hk : x = 0 → k = 0) :
    (if x < 0 then -((x.natAbs % y.natAbs + k : Nat) : Int) else ((x.natAbs % y.natAbs + k : Nat) : Int))
      = x.tmod y + x.sign * k := by
  have key : ∀ a b : Nat, Int.tmod (a : Int) (b : Int) = ((a % b : Nat) : Int) := by
    intro a b; simp [Int.tmod]
  rcases Int.lt_trichotomy x 0 with h | h | h
  · rw [if_pos h, Int.sign_eq_neg_one_of_neg h]
    have hx : x = -(x.natAbs : Int) := by omega
    have : x.tmod y = -((x.natAbs % y.natAbs : Nat) : Int) := by
      conv_lhs => rw [hx, Int.neg_tmod]
      rcases Int.natAbs_eq y with hy | hy
      · conv_lhs => rw [hy]
        rw [key]
      · conv_lhs => rw [hy, Int.tmod_neg]
        rw [key]
    rw [this]; push_cast; ring
  · subst h; simp [hk rfl]
  · rw [if_neg (by omega), Int.sign_eq_one_of_pos h]
    have hx : x = (x.natAbs : Int) := by omega
    have : x.tmod y = ((x.natAbs % y.natAbs : Nat) : Int) := by
      conv_lhs => rw [hx]
      rcases Int.natAbs_eq y with hy | hy
      · conv_lhs => rw [hy]
        rw [key]
      · conv_lhs => rw [hy, Int.tmod_neg]
        rw [key]
    rw [this]; push_cast; ring

theorem tdiv_natAbs (x y : Int) :
    (if decide (x < 0) != decide (y < 0) then -((x.natAbs / y.natAbs : Nat) : Int)
      else ((x.natAbs / y.natAbs : Nat) : Int)) = x.tdiv y := by
  have key : ∀ a b : Nat, Int.tdiv (a : Int) (b : Int) = ((a / b : Nat) : Int) := by
    intro a b; simp [Int.tdiv]
  by_cases hx : x < 0 <;> by_cases hy : y < 0
  · have e1 : x = -(x.natAbs : Int) := by omega
    have e2 : y = -(y.natAbs : Int) := by omega
    conv_rhs => rw [e1, e2, Int.neg_tdiv, Int.tdiv_neg, key]
    simp [hx, hy]
  · have e1 : x = -(x.natAbs : Int) := by omega
    have e2 : y = (y.natAbs : Int) := by omega
    conv_rhs => rw [e1, e2, Int.neg_tdiv, key]
    simp [hx, hy]
  · have e1 : x = (x.natAbs : Int) := by omega
    have e2 : y = -(y.natAbs : Int) := by omega
    conv_rhs => rw [e1, e2, Int.tdiv_neg, key]
    simp [hx, hy]
  · have e1 : x = (x.natAbs : Int) := by omega
    have e2 : y = (y.natAbs : Int) := by omega
    conv_rhs => rw [e1, e2, key]
    simp [hx, hy]

theorem unsignedAbs_natAbs (hw : 0 < w) {x : Limbs w} (h2 : 2 ≤ x.length) (he : x.length % 2 = 0) :
    (I.unsignedAbs x).length = x.length ∧ toNat (I.unsignedAbs x) = (toInt x).natAbs := by
  have h := unsignedAbsU hw h2 he
  exact ⟨h.1, by have := h.2; rw [Int.abs_eq_natAbs] at this; omega⟩

/-- `v` denotes `a` as an unsigned number; negating it or not gives the signed wrapped value. -/
theorem signAdjust (hw : 0 < w) {N a : Nat} {v : Limbs w} (c : Bool) (h2 : 2 ≤ N) (hv : v.length = N)
    (ha : toNat v = a) : WrapS N (if c then -(a : Int) else a) (if c then I.wrappingNeg v else v) := by
  have hself : WrapU N (a : Int) v := by
    refine ⟨hv, ?_⟩
    rw [ha, Int.emod_eq_of_lt (by omega)]
    have := toNat_lt_int v
    rw [bits, hv, ha] at this
    exact this
  cases c
  · simpa using hself.wrapS
  · have hn := wrappingNegS hw (x := v) (by omega)
    rw [hv] at hn
    simp only [if_true]
    refine (hn.wrapU.congr ?_).wrapS
    have h1 := toInt_modEq v
    rw [hv, ha] at h1
    exact h1.neg

theorem stray_zero_num {N y : Nat} : strayRem w N 0 y = 0 :=
  (addBack_clean_of_small (.inr (Nat.zero_le _))).stray

/-- `wrapping_div_rem`, signed. -/
theorem wrappingDivRemS (hw : 0 < w) {x y : Limbs w} (hl : x.length = y.length) (h2 : 2 ≤ x.length)
    (he : x.length % 2 = 0) (hy : toInt y ≠ 0) :
    Yields (DivPanics w x.length (toInt x).natAbs (toInt y).natAbs)
      (fun r => WrapS x.length ((toInt x).tdiv (toInt y)) r.1 ∧
        WrapS x.length ((toInt x).tmod (toInt y) + (toInt x).sign *
          strayRem w x.length (toInt x).natAbs (toInt y).natAbs) r.2)
      (I.wrappingDivRem x y) := by
  obtain ⟨xl, xv⟩ := unsignedAbs_natAbs hw h2 he
  obtain ⟨yl, yv⟩ := unsignedAbs_natAbs hw (x := y) (by omega) (by omega)
  have hxe : x ≠ [] := by intro h; rw [h] at h2; simp at h2
  have hye : y ≠ [] := by intro h; rw [hl, h] at h2; simp at h2
  have h := Div.full_spec hw (x := I.unsignedAbs x) (y := I.unsignedAbs y) (by omega) (by omega)
    (by rw [yv]; omega)
  rw [xl, xv, yv] at h
  refine h.map ?_
  rintro ⟨q, r⟩ ⟨⟨ql, qv⟩, rl, rv⟩
  simp only at ql qv rl rv ⊢
  constructor
  · have := signAdjust hw (I.isNegative x != I.isNegative y) h2 ql qv
    rw [isNegative_eq hw hxe, isNegative_eq hw hye] at this ⊢
    rw [tdiv_natAbs] at this
    exact this
  · have := signAdjust hw (I.isNegative x) h2 rl rv
    rw [isNegative_eq hw hxe] at this ⊢
    simp only [decide_eq_true_eq] at this ⊢
    rw [tmod_natAbs _ _ _ (fun h0 => by rw [h0]; exact stray_zero_num)] at this
    exact this

/-- The only quotient that does not fit is `MIN / -1`. -/
theorem tdiv_InS {n : Nat} (hn : 0 < n) {x y : Int} (hx : InS n x) (hy : InS n y) :
    InS n (x.tdiv y) ↔ ¬ (x = -2 ^ (n - 1) ∧ y = -1) := by
  have hP : (2:Int) ^ n = 2 * 2 ^ (n - 1) := by rw [← pow_succ']; congr 1; omega
  have hP0 : (0:Int) < 2 ^ (n - 1) := by positivity
  unfold InS at *
  generalize (2:Int) ^ n = P at *
  generalize (2:Int) ^ (n - 1) = Q at *
  have hb : (x.tdiv y).natAbs ≤ x.natAbs := by
    rw [Int.natAbs_tdiv]; exact Nat.div_le_self _ _
  constructor
  · rintro ⟨h1, h2⟩ ⟨hx', hy'⟩
    rw [hx', hy', Int.tdiv_neg, Int.tdiv_one] at h2
    omega
  · intro h
    by_cases hxm : x = -Q
    · have hy1 : y ≠ -1 := fun e => h ⟨hxm, e⟩
      by_cases hlt : (x.tdiv y).natAbs < x.natAbs
      · omega
      · -- the magnitude is not reduced: y = ±1 or x = 0
        have he : (x.tdiv y).natAbs = x.natAbs := by omega
        rw [Int.natAbs_tdiv] at he
        change x.natAbs / y.natAbs = x.natAbs at he
        have hx0 : x.natAbs ≠ 0 := by omega
        have hya : y.natAbs = 1 := by
          rcases Nat.lt_or_ge y.natAbs 1 with h' | h'
          · have : y.natAbs = 0 := by omega
            rw [this, Nat.div_zero] at he; omega
          · rcases Nat.lt_or_ge 1 y.natAbs with h'' | h''
            · have := Nat.div_lt_self (n := x.natAbs) (by omega) h''
              omega
            · omega
        have : y = 1 := by omega
        rw [this, Int.tdiv_one]
        omega
    · omega

theorem isDivOverflow_iff (hw : 1 < w) {x y : Limbs w} (hl : x.length = y.length) (h2 : 2 ≤ x.length)
    (he : x.length % 2 = 0) :
    I.isDivOverflow x y = true ↔ toInt x = -2 ^ (w * x.length - 1) ∧ toInt y = -1 := by
  have hxe : x ≠ [] := by intro h; rw [h] at h2; simp at h2
  have h1 := ofI8S (w := w) (N := y.length) (v := -1) (by omega) (by
    have h2w : (4:Int) ≤ 2 ^ w := by
      calc (4:Int) = 2 ^ 2 := by norm_num
        _ ≤ 2 ^ w := pow_le_pow_right₀ (by norm_num) (by omega)
    constructor <;> omega)
  rw [I.isDivOverflow, Bool.and_eq_true, eqMin_iff (by omega) hxe he,
    Ord.eqConst_iff h1.1.symm (by omega)]
  constructor
  · rintro ⟨a, b⟩; exact ⟨a, by rw [b]; exact h1.2⟩
  · rintro ⟨a, b⟩; exact ⟨a, toInt_inj h1.1.symm (by rw [b, h1.2])⟩

theorem isDivOverflow_eq (hw : 1 < w) {x y : Limbs w} (hl : x.length = y.length)
    (h2 : 2 ≤ x.length) (he : x.length % 2 = 0) :
    I.isDivOverflow x y = decide (toInt x = -2 ^ (w * x.length - 1) ∧ toInt y = -1) := by
  rw [Bool.eq_iff_iff, isDivOverflow_iff hw hl h2 he]; simp

theorem toInt_eq_zero_iff (x : Limbs w) : toInt x = 0 ↔ toNat x = 0 := by
  have h := toNat_lt x
  have hp : 0 < 2 ^ bits x := by positivity
  constructor
  · intro h0
    rcases toInt_cases x with ⟨h1, h2⟩ | ⟨h1, h2⟩ <;> omega
  · intro h0
    rw [toInt, if_pos (by omega), h0]; rfl

/-- `MIN / -1` never reaches long division. -/
theorem clean_neg_one (hw : 0 < w) {x : Nat} {y : Int} (hy : y = -1) : Clean w x y.natAbs := by
  apply addBack_clean_of_small
  left
  subst hy
  have : nLimbs w 1 = 0 + 1 := nLimbs_unique hw (k := 0) (by simp) (by
    simpa using one_lt_two_pow' hw)
  simp only [Int.natAbs_neg, Int.natAbs_one, this]
  omega

end I256
