import Verif.Lemmas.DivMisc

/-!
# Signed `next_multiple_of`
-/

namespace I256

variable {w : Nat}

theorem fmod_of_tmod (x y : Int) (hy : y ≠ 0) :
    x.fmod y = if x.tmod y ≠ 0 ∧ ¬ (x < 0 ↔ y < 0) then x.tmod y + y else x.tmod y := by
  have h1 := Int.mul_fdiv_add_fmod x y
  have h2 := Int.mul_tdiv_add_tmod x y
  rw [fdiv_of_tdiv x y hy] at h1
  split
  · rename_i h
    rw [if_pos h, Int.mul_sub, Int.mul_one] at h1
    omega
  · rename_i h
    rw [if_neg h] at h1
    omega

/-- `next_multiple_of` for a positive `y`: the least multiple that is at least `x`; for a negative
`y`: the greatest multiple that is at most `x`. -/
theorem next_fmod (x y : Int) (hy : y ≠ 0) :
    (-x).fmod y = if x.fmod y = 0 then 0 else y - x.fmod y := by
  rw [fmod_of_tmod x y hy, fmod_of_tmod (-x) y hy, Int.neg_tmod]
  obtain ⟨h1, h2, h3⟩ := tmod_bounds x y hy
  by_cases ht : x.tmod y = 0
  · simp [ht]
  · have hx : x ≠ 0 := by rintro rfl; simp at ht
    generalize x.tmod y = t at *
    by_cases hs : x < 0 ↔ y < 0
    · rw [if_pos ⟨by omega, by omega⟩, if_neg (c := t ≠ 0 ∧ _) (by tauto), if_neg (by omega)]
      omega
    · rw [if_neg (c := -t ≠ 0 ∧ _) (by omega), if_pos (c := t ≠ 0 ∧ _) ⟨ht, hs⟩, if_neg (by omega)]
      omega

theorem fmod_bounds (x y : Int) (hy : y ≠ 0) :
    (0 < y → 0 ≤ x.fmod y ∧ x.fmod y < y) ∧ (y < 0 → y < x.fmod y ∧ x.fmod y ≤ 0) := by
  rw [fmod_of_tmod x y hy]
  obtain ⟨h1, h2, h3⟩ := tmod_bounds x y hy
  split <;> omega

/-- What `next_multiple_of` is: a multiple of `y`, and the nearest one in the direction of the sign
of `y`. -/
theorem next_mul_int (x y : Int) (hy : y ≠ 0) :
    y ∣ x + (-x).fmod y ∧
    (0 < y → x ≤ x + (-x).fmod y ∧ ∀ m, y ∣ m → x ≤ m → x + (-x).fmod y ≤ m) ∧
    (y < 0 → x + (-x).fmod y ≤ x ∧ ∀ m, y ∣ m → m ≤ x → m ≤ x + (-x).fmod y) := by
  obtain ⟨b1, b2⟩ := fmod_bounds (-x) y hy
  have h := Int.mul_fdiv_add_fmod (-x) y
  have hd : x + (-x).fmod y = y * -((-x).fdiv y) := by linarith
  refine ⟨⟨_, hd⟩, fun hp => ⟨by have := b1 hp; omega, ?_⟩, fun hn => ⟨by have := b2 hn; omega, ?_⟩⟩
  · rintro m ⟨c, rfl⟩ hm
    by_contra hc
    rw [hd] at hc
    have h1 : c < -((-x).fdiv y) := by
      by_contra hle
      exact hc (Int.mul_le_mul_of_nonneg_left (by omega) (by omega))
    have h2 : y * c ≤ y * (-((-x).fdiv y) - 1) := Int.mul_le_mul_of_nonneg_left (by omega) (by omega)
    rw [Int.mul_sub, ← hd, Int.mul_one] at h2
    have := b1 hp
    omega
  · rintro m ⟨c, rfl⟩ hm
    by_contra hc
    rw [hd] at hc
    have h1 : c < -((-x).fdiv y) := by
      by_contra hle
      exact hc (Int.mul_le_mul_of_nonpos_left (by omega) (by omega))
    have h2 : y * (-((-x).fdiv y) - 1) ≤ y * c := Int.mul_le_mul_of_nonpos_left (by omega) (by omega)
    rw [Int.mul_sub, ← hd, Int.mul_one] at h2
    have := b2 hn
    omega

theorem isDivNoneS (hw : 1 < w) {x y : Limbs w} (hl : x.length = y.length) (h2 : 2 ≤ x.length)
    (he : x.length % 2 = 0) :
    I.isDivNone x y = decide (toInt y = 0 ∨ (toInt x = -2 ^ (w * x.length - 1) ∧ toInt y = -1)) := by
  rw [I.isDivNone, isDivOverflow_eq hw hl h2 he, eqZeroS (by omega) (by omega)]
  simp

/-- `checked_*`, signed. -/
theorem checkedS_eq (hw : 1 < w) {x y : Limbs w} (hl : x.length = y.length) (h2 : 2 ≤ x.length)
    (he : x.length % 2 = 0) {α : Type} (r : Res α) :
    checkedBy (I.isDivNone x y) r =
      if toInt y = 0 ∨ (toInt x = -2 ^ (w * x.length - 1) ∧ toInt y = -1) then .ok none
      else r.map some := by
  rw [isDivNoneS hw hl h2 he]
  unfold checkedBy
  simp only [decide_eq_true_eq]

theorem strictS_eq (hw : 1 < w) {x y : Limbs w} (hl : x.length = y.length) (h2 : 2 ≤ x.length)
    (he : x.length % 2 = 0) {α : Type} (r : Res α) :
    (checkedBy (I.isDivNone x y) r).bind unwrapOrPanic =
      if toInt y = 0 ∨ (toInt x = -2 ^ (w * x.length - 1) ∧ toInt y = -1) then .panic else r := by
  rw [checkedS_eq hw hl h2 he]
  split
  · rfl
  · rw [map_some_unwrap]

theorem opS_eq (hw : 1 < w) {x y : Limbs w} (hl : x.length = y.length) (h2 : 2 ≤ x.length)
    (he : x.length % 2 = 0) {α : Type} (oc : Bool) (r : Res α) :
    opOfR oc r (checkedBy (I.isDivNone x y) r) =
      if oc = true ∧ (toInt y = 0 ∨ (toInt x = -2 ^ (w * x.length - 1) ∧ toInt y = -1)) then .panic
      else r := by
  unfold opOfR
  rw [strictS_eq hw hl h2 he]
  cases oc <;> simp

/-- The remainder when nothing is left over. -/
theorem wrappingRemS_exact (hw : 1 < w) {x y : Limbs w} (hl : x.length = y.length) (h2 : 2 ≤ x.length)
    (he : x.length % 2 = 0) (hy : toInt y ≠ 0)
    (hd : DivExact w x.length (toInt x).natAbs (toInt y).natAbs) :
    ∃ r, I.wrappingRem x y = .ok r ∧ ExactS x.length ((toInt x).tmod (toInt y)) r := by
  obtain ⟨r, e, rv⟩ := (wrappingRemS hw hl h2 he hy).2 hd.1
  refine ⟨r, e, ?_⟩
  rw [hd.2] at rv
  simpa using rv

theorem eqNegOne (hw : 1 < w) {y : Limbs w} (h2 : 2 ≤ y.length) (he : y.length % 2 = 0) :
    Ord.eqConst y (ofI8 y.length (-1)) = decide (toInt y = -1) := by
  have h1 := ofI8S (w := w) (N := y.length) (v := -1) (by omega) (by
    have h2w : (4:Int) ≤ 2 ^ w := by
      calc (4:Int) = 2 ^ 2 := by norm_num
        _ ≤ 2 ^ w := pow_le_pow_right₀ (by norm_num) (by omega)
    constructor <;> omega)
  rw [Bool.eq_iff_iff, Ord.eqConst_iff h1.1.symm he]
  simp only [decide_eq_true_eq]
  constructor
  · intro e; rw [e]; exact h1.2
  · intro e; exact toInt_inj h1.1.symm (by rw [e, h1.2])

/-- `r + y` or `r`, the remainder with the sign of `y`. -/
theorem adjust_fmod (hw : 1 < w) {N : Nat} {X : Int} {r y : Limbs w} (hyl : y.length = N) (h2 : 2 ≤ N)
    (hy : toInt y ≠ 0) (hr : ExactS N (X.tmod (toInt y)) r) (oc : Bool) (c : Bool)
    (hc : c = true ↔ (0 < toInt r ∧ toInt y < 0) ∨ (toInt r < 0 ∧ 0 < toInt y)) :
    ∃ m, (if c then I.add oc r y else .ok r) = .ok m ∧ ExactS N (X.fmod (toInt y)) m := by
  obtain ⟨h1, h2, h3⟩ := tmod_bounds X (toInt y) hy
  rw [hr.2] at hc
  rw [fmod_of_tmod _ _ hy]
  by_cases c0 : c = true
  · rw [if_pos c0, if_pos (by have := hc.1 c0; omega)]
    have ho := addOpS hw (x := r) (y := y) (length_ne (n := 1) (by rw [hr.1]; omega))
      (hr.1.trans hyl.symm) oc
    rw [hr.1, hr.2] at ho
    refine ho.exact ?_
    have i1 := toInt_InS r
    have i2 := toInt_InS y
    rw [bits, hr.1, hr.2] at i1
    rw [bits, hyl] at i2
    have := hc.1 c0
    unfold InS at *
    omega
  · rw [if_neg c0, if_neg]
    · exact ⟨r, rfl, hr⟩
    · rw [hc] at c0
      omega

theorem exact_self (x : Limbs w) : ExactS x.length (toInt x) x := ⟨rfl, rfl⟩

theorem op_self (x : Limbs w) (oc : Bool) : OpS oc x.length (toInt x) (.ok x) := by
  cases oc
  · exact ⟨x, rfl, (exact_self x).wrap⟩
  · exact ⟨fun _ => ⟨x, rfl, exact_self x⟩, fun h => absurd (toInt_InS x) h⟩

theorem check_self (x : Limbs w) : CheckS x.length (toInt x) (some x) :=
  ⟨fun _ => ⟨x, rfl, exact_self x⟩, fun h => absurd (toInt_InS x) h⟩

theorem sub_fmod (hw : 1 < w) {N : Nat} {X : Int} {m y : Limbs w} (hyl : y.length = N) (h2 : 2 ≤ N)
    (hy : toInt y ≠ 0) (hm : ExactS N (X.fmod (toInt y)) m) (h0 : toInt m ≠ 0) (oc : Bool) :
    ∃ d, I.sub oc y m = .ok d ∧ ExactS N ((-X).fmod (toInt y)) d := by
  obtain ⟨b1, b2⟩ := fmod_bounds X (toInt y) hy
  rw [next_fmod _ _ hy, if_neg (by rw [← hm.2]; exact h0)]
  have ho := subOpS hw (x := y) (y := m) (length_ne (n := 1) (by omega)) (hyl.trans hm.1.symm) oc
  rw [hyl, hm.2] at ho
  refine ho.exact ?_
  have i2 := toInt_InS y
  rw [bits, hyl] at i2
  unfold InS at *
  omega

theorem next_neg_one (x : Int) : x + (-x).fmod (-1) = x := by
  have := (fmod_bounds (-x) (-1) (by decide)).2 (by decide)
  omega

theorem nextMultipleOfS (hw : 1 < w) {x y : Limbs w} (hl : x.length = y.length) (h4 : 4 ≤ x.length)
    (he : x.length % 2 = 0) (hy : toInt y ≠ 0)
    (hd : toInt y = -1 ∨ DivExact w x.length (toInt x).natAbs (toInt y).natAbs) (oc : Bool) :
    OpS oc x.length (toInt x + (-toInt x).fmod (toInt y)) (I.nextMultipleOf oc x y) := by
  have hz := ofU8S (w := w) (N := x.length) (v := 0) (by omega) (by omega) (by positivity)
  rw [I.nextMultipleOf, eqNegOne hw (by omega) (by omega)]
  simp only [decide_eq_true_eq]
  by_cases h1 : toInt y = -1
  · rw [if_pos h1, h1, next_neg_one]
    exact op_self x oc
  · rw [if_neg h1]
    obtain ⟨r, er, hr⟩ := wrappingRemS_exact hw hl (by omega) he hy (hd.resolve_left h1)
    rw [I.rem, I.checkedRem, opS_eq hw hl (by omega) he, if_neg (by tauto), er, Res.bind_ok]
    obtain ⟨m, em, hm⟩ := adjust_fmod hw hl.symm (by omega) hy hr oc
      ((Ord.gt true r (ofU8 x.length 0) && Ord.lt true y (ofU8 x.length 0)) ||
        (Ord.lt true r (ofU8 x.length 0) && Ord.gt true y (ofU8 x.length 0))) (by
      have g1 := Ord.le_iff (by omega : 0 < w) true (x := r) (hr.1.trans hz.1.symm) (by rw [hr.1]; omega)
        (by rw [hr.1]; omega)
      have g2 := Ord.le_iff (by omega : 0 < w) true (x := y) (hl.symm.trans hz.1.symm) (by omega) (by omega)
      have g3 := Ord.lt_iff (by omega : 0 < w) true (x := r) (hr.1.trans hz.1.symm) (by rw [hr.1]; omega)
        (by rw [hr.1]; omega)
      have g4 := Ord.lt_iff (by omega : 0 < w) true (x := y) (hl.symm.trans hz.1.symm) (by omega) (by omega)
      simp only [Ord.val, if_true, hz.2, Nat.cast_zero] at g1 g2 g3 g4
      rw [Bool.or_eq_true, Bool.and_eq_true, Bool.and_eq_true, g3, g4, Ord.gt, Ord.gt,
        Bool.not_eq_true', Bool.not_eq_true', ← Bool.not_eq_true, ← Bool.not_eq_true, g1, g2]
      omega)
    rw [em, Res.bind_ok]
    have hmz : Ord.eqConst m (ofU8 x.length 0) = decide (toInt m = 0) := by
      rw [← hm.1]; exact eqZeroS (by rw [hm.1]; omega) (by rw [hm.1]; omega)
    rw [hmz]
    simp only [decide_eq_true_eq]
    by_cases h0 : toInt m = 0
    · rw [if_pos h0, next_fmod _ _ hy, if_pos (by rw [← hm.2]; exact h0), add_zero]
      exact op_self x oc
    · rw [if_neg h0]
      obtain ⟨d, ed, hdd⟩ := sub_fmod hw hl.symm (by omega) hy hm h0 oc
      rw [ed, Res.bind_ok]
      have := addOpS hw (x := x) (y := d) (length_ne (n := 1) (by omega)) hdd.1.symm oc
      rwa [hdd.2] at this

theorem checkedNextMultipleOfS (hw : 1 < w) {x y : Limbs w} (hl : x.length = y.length)
    (h2 : 2 ≤ x.length) (he : x.length % 2 = 0) (hy : toInt y ≠ 0)
    (hd : toInt y = -1 ∨ DivExact w x.length (toInt x).natAbs (toInt y).natAbs) (oc : Bool) :
    ∃ o, I.checkedNextMultipleOf oc x y = .ok o ∧
      CheckS x.length (toInt x + (-toInt x).fmod (toInt y)) o := by
  rw [I.checkedNextMultipleOf, eqNegOne hw (by omega) (by omega)]
  simp only [decide_eq_true_eq]
  by_cases h1 : toInt y = -1
  · rw [if_pos h1, h1, next_neg_one]
    exact ⟨_, rfl, check_self x⟩
  · rw [if_neg h1]
    obtain ⟨r, er, hr⟩ := wrappingRemS_exact hw hl h2 he hy (hd.resolve_left h1)
    rw [I.checkedRem, checkedS_eq hw hl (by omega) he, if_neg (by tauto), er, Res.map_ok, Res.bind_ok]
    simp only
    obtain ⟨m, em, hm⟩ := adjust_fmod hw hl.symm h2 hy hr oc
      ((I.isPositive r && I.isNegative y) || (I.isNegative r && I.isPositive y)) (by
      have rne : r ≠ [] := length_ne (n := 1) (by rw [hr.1]; omega)
      have yne : y ≠ [] := length_ne (n := 1) (by omega)
      rw [Bool.or_eq_true, Bool.and_eq_true, Bool.and_eq_true, isPositive_iff (by omega) rne,
        isNegative_iff (by omega) rne, isPositive_iff (by omega) yne, isNegative_iff (by omega) yne])
    rw [em, Res.bind_ok]
    have hmz : Ord.eqConst m (ofU8 x.length 0) = decide (toInt m = 0) := by
      rw [← hm.1]; exact eqZeroS (by rw [hm.1]; omega) (by rw [hm.1]; omega)
    rw [hmz]
    simp only [decide_eq_true_eq]
    by_cases h0 : toInt m = 0
    · rw [if_pos h0, next_fmod _ _ hy, if_pos (by rw [← hm.2]; exact h0), add_zero]
      exact ⟨_, rfl, check_self x⟩
    · rw [if_neg h0]
      obtain ⟨d, ed, hdd⟩ := sub_fmod hw hl.symm (by omega) hy hm h0 oc
      rw [ed, Res.map_ok]
      have := (Add.overS hw (x := x) (y := d) (length_ne (n := 1) (by omega)) hdd.1.symm).check
      rw [hdd.2] at this
      exact ⟨_, rfl, this⟩

theorem checkedNextMultipleOfS_zero (hw : 1 < w) {x y : Limbs w} (hl : x.length = y.length)
    (h2 : 2 ≤ x.length) (he : x.length % 2 = 0) (hy : toInt y = 0) (oc : Bool) :
    I.checkedNextMultipleOf oc x y = .ok none := by
  rw [I.checkedNextMultipleOf, eqNegOne hw (by omega) (by omega)]
  simp only [decide_eq_true_eq]
  rw [if_neg (by omega), I.checkedRem, checkedS_eq hw hl (by omega) he, if_pos (.inl hy), Res.bind_ok]

end I256
