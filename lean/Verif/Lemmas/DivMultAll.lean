import Verif.Lemmas.DivMult
import Verif.Lemmas.DivMisc

/-!
# `next_multiple_of` for all operands

What the functions return when long division leaves stray bits in the remainder.
-/

namespace I256

variable {w : Nat}

theorem checkedNextMultipleOfU_all (hw : 0 < w) {x y : Limbs w} (hl : x.length = y.length)
    (h2 : 2 ≤ x.length) (he : x.length % 2 = 0) (hy : toNat y ≠ 0) {R : Nat}
    (hR : R = toNat x % toNat y + strayRem w x.length (toNat x) (toNat y)) :
    Yields (DivPanics w x.length (toNat x) (toNat y))
      (CheckU x.length (if R = 0 then toNat x else toNat x + ((toNat y : Int) - R) % 2 ^ (w * x.length)))
      (U.checkedNextMultipleOf x y) := by
  rw [U.checkedNextMultipleOf, U.checkedRem, checkedU_eq hl h2 he hy]
  refine ((wrappingRemU hw hl h2 hy).some).map ?_
  rintro _ ⟨r, rfl, rl, rv⟩
  have rv' : toNat r = R := by rw [hR]; exact_mod_cast rv
  simp only
  by_cases h0 : R = 0
  · rw [if_pos h0, if_pos ((minU_iff rl).2 (by omega))]
    exact ⟨fun _ => ⟨x, rfl, rfl, rfl⟩, fun h => absurd (InU_toNat x) h⟩
  · rw [if_neg h0, if_neg (fun h => h0 (by have := (minU_iff rl).1 h; omega))]
    have hs := Sub.wrapU hw (x := y) (y := r) (by omega)
    rw [← hl] at hs
    have ha := (Add.overU hw (x := x) (y := U.wrappingSub y r) hs.1.symm).check
    rw [show (toNat (U.wrappingSub y r) : Int) = ((toNat y : Int) - toNat r) % 2 ^ (w * x.length)
      from hs.2, rv'] at ha
    exact ha

theorem nextMultipleOfU_all (hw : 0 < w) {x y : Limbs w} (hl : x.length = y.length)
    (h2 : 2 ≤ x.length) (he : x.length % 2 = 0) (hy : toNat y ≠ 0) {R : Nat}
    (hR : R = toNat x % toNat y + strayRem w x.length (toNat x) (toNat y)) (oc : Bool) :
    Yields (DivPanics w x.length (toNat x) (toNat y) ∨
        oc = true ∧ R ≠ 0 ∧ (toNat y < R ∨ 2 ^ (w * x.length) ≤ toNat x + (toNat y - R)))
      (WrapU x.length (if R = 0 then toNat x else (toNat x : Int) + toNat y - R))
      (U.nextMultipleOf oc x y) := by
  rw [U.nextMultipleOf, U.rem, U.checkedRem, opU_eq hl h2 he hy]
  obtain ⟨hp, hn⟩ := wrappingRemU hw hl h2 hy
  by_cases h : DivPanics w x.length (toNat x) (toNat y)
  · rw [hp h, Res.bind_panic]
    exact ⟨fun _ => rfl, fun h' => absurd (.inl h) h'⟩
  obtain ⟨r, e, rl, rv⟩ := hn h
  have rv' : toNat r = R := by rw [hR]; exact_mod_cast rv
  rw [e, Res.bind_ok]
  by_cases h0 : R = 0
  · rw [if_pos h0, if_pos ((minU_iff rl).2 (by omega))]
    exact Yields.ok (by tauto) (ExactU.wrap ⟨rfl, rfl⟩)
  rw [if_neg h0, if_neg (fun h => h0 (by have := (minU_iff rl).1 h; omega))]
  have hs := subOpU hw (x := y) (y := r) (by omega) oc
  rw [← hl, rv'] at hs
  cases oc
  · obtain ⟨d, ed, hd⟩ := hs
    rw [ed, Res.bind_ok]
    obtain ⟨v, ev, hv⟩ := addOpU hw (x := x) (y := d) hd.1.symm false
    rw [ev]
    refine Yields.ok (by simp [h]) ⟨hv.1, ?_⟩
    rw [hv.2, hd.2, Int.add_emod_emod]
    congr 1
    ring
  · have hyl := InU_toNat y
    have hxl := InU_toNat x
    rw [bits, ← hl] at hyl
    rw [bits] at hxl
    unfold InU at hyl hxl
    by_cases hlt : toNat y < R
    · rw [hs.2 (by unfold InU; omega), Res.bind_panic]
      exact ⟨fun _ => rfl, fun h' => absurd (.inr ⟨rfl, h0, .inl hlt⟩) h'⟩
    · obtain ⟨d, ed, dl, dv⟩ := hs.1 (by unfold InU; omega)
      rw [ed, Res.bind_ok]
      have ha := addOpU hw (x := x) (y := d) dl.symm true
      rw [dv] at ha
      have hcast : ((2 ^ (w * x.length) : Nat) : Int) = 2 ^ (w * x.length) := by push_cast; rfl
      by_cases hb : 2 ^ (w * x.length) ≤ toNat x + (toNat y - R)
      · rw [ha.2 (by unfold InU; omega)]
        exact ⟨fun _ => rfl, fun h' => absurd (.inr ⟨rfl, h0, .inr hb⟩) h'⟩
      · obtain ⟨v, ev, hv⟩ := ha.1 (by unfold InU; omega)
        rw [ev]
        refine Yields.ok (by tauto) ?_
        have := hv.wrap
        rwa [← add_sub_assoc] at this

/-- The remainder with the sign of `y`, as the signed functions compute it. -/
theorem adjust_all (hw : 1 < w) {N : Nat} {r y : Limbs w} (hrl : r.length = N) (hyl : y.length = N)
    (h2 : 2 ≤ N) (oc : Bool) (c : Bool)
    (hc : c = true ↔ (0 < toInt r ∧ toInt y < 0) ∨ (toInt r < 0 ∧ 0 < toInt y)) :
    ∃ m, (if c then I.add oc r y else .ok r) = .ok m ∧
      ExactS N (if (0 < toInt r ∧ toInt y < 0) ∨ (toInt r < 0 ∧ 0 < toInt y) then toInt r + toInt y
        else toInt r) m := by
  by_cases c0 : c = true
  · rw [if_pos c0, if_pos (hc.1 c0)]
    have ho := addOpS hw (x := r) (y := y) (length_ne (n := 1) (by omega)) (hrl.trans hyl.symm) oc
    rw [hrl] at ho
    refine ho.exact ?_
    have i1 := toInt_InS r
    have i2 := toInt_InS y
    rw [bits, hrl] at i1
    rw [bits, hyl] at i2
    have := hc.1 c0
    unfold InS at *
    omega
  · rw [if_neg c0, if_neg (fun h => c0 (hc.2 h))]
    exact ⟨r, rfl, hrl, rfl⟩

theorem nextMultipleOfS_all (hw : 1 < w) {x y : Limbs w} (hl : x.length = y.length) (h4 : 4 ≤ x.length)
    (he : x.length % 2 = 0) (hy : toInt y ≠ 0) (h1 : toInt y ≠ -1) {R M : Int}
    (hR : R = (toInt x).tmod (toInt y) + (toInt x).sign *
      strayRem w x.length (toInt x).natAbs (toInt y).natAbs)
    (hM : M = if (0 < R ∧ toInt y < 0) ∨ (R < 0 ∧ 0 < toInt y) then R + toInt y else R) (oc : Bool) :
    Yields (DivPanics w x.length (toInt x).natAbs (toInt y).natAbs ∨
        oc = true ∧ M ≠ 0 ∧ (¬ InS (w * x.length) (toInt y - M) ∨
          ¬ InS (w * x.length) (toInt x + (toInt y - M))))
      (WrapS x.length (if M = 0 then toInt x else toInt x + (toInt y - M)))
      (I.nextMultipleOf oc x y) := by
  have hz := ofU8S (w := w) (N := x.length) (v := 0) (by omega) (by omega) (by positivity)
  rw [I.nextMultipleOf, eqNegOne hw (by omega) (by omega)]
  simp only [decide_eq_true_eq]
  rw [if_neg h1, I.rem, I.checkedRem, opS_eq hw hl (by omega) he,
    if_neg (c := oc = true ∧ (toInt y = 0 ∨ toInt x = -2 ^ (w * x.length - 1) ∧ toInt y = -1))
      (by tauto)]
  obtain ⟨hp, hn⟩ := wrappingRemS hw hl (by omega) he hy
  by_cases h : DivPanics w x.length (toInt x).natAbs (toInt y).natAbs
  · rw [hp h, Res.bind_panic]
    exact ⟨fun _ => rfl, fun h' => absurd (.inl h) h'⟩
  obtain ⟨r, e, hr⟩ := hn h
  rw [← hR] at hr
  rw [e, Res.bind_ok]
  obtain ⟨m, em, hm⟩ := adjust_all hw hr.1 hl.symm (by omega) oc
      ((Ord.gt true r (ofU8 x.length 0) && Ord.lt true y (ofU8 x.length 0)) ||
        (Ord.lt true r (ofU8 x.length 0) && Ord.gt true y (ofU8 x.length 0))) (by
      have g1 := Ord.le_iff (by omega : 0 < w) true (x := r) (hr.1.trans hz.1.symm) (by rw [hr.1]; omega)
        (by rw [hr.1]; omega)
      have g2 := Ord.le_iff (by omega : 0 < w) true (x := y) (hl.symm.trans hz.1.symm) (by omega) (by omega)
      have g3 := Ord.lt_iff (by omega : 0 < w) true (x := r) (hr.1.trans hz.1.symm) (by rw [hr.1]; omega)
        (by rw [hr.1]; omega)
      have g4 := Ord.lt_iff (by omega : 0 < w) true (x := y) (hl.symm.trans hz.1.symm) (by omega) (by omega)
      simp only [Ord.val, if_true, hz.2, Nat.cast_zero] at g1 g2 g3 g4
      rw [Bool.or_eq_true, Bool.and_eq_true, Bool.and_eq_true, g3, g4, Ord.gt, Ord.gt,
        Bool.not_eq_true', Bool.not_eq_true', ← Bool.not_eq_true, ← Bool.not_eq_true, g1, g2]
      omega)
  rw [hr.2, ← hM] at hm
  rw [em, Res.bind_ok]
  have hmz : Ord.eqConst m (ofU8 x.length 0) = decide (toInt m = 0) := by
    rw [← hm.1]; exact eqZeroS (by rw [hm.1]; omega) (by rw [hm.1]; omega)
  rw [hmz]
  simp only [decide_eq_true_eq, hm.2]
  by_cases h0 : M = 0
  · rw [if_pos h0, if_pos h0]
    exact Yields.ok (by tauto) (exact_self x).wrap
  rw [if_neg h0, if_neg h0]
  have hs := subOpS hw (x := y) (y := m) (length_ne (n := 1) (by omega)) (hl.symm.trans hm.1.symm) oc
  rw [← hl, hm.2] at hs
  cases oc
  · obtain ⟨d, ed, hd⟩ := hs
    rw [ed, Res.bind_ok]
    obtain ⟨v, ev, hv⟩ := addOpS hw (x := x) (y := d) (length_ne (n := 1) (by omega)) hd.1.symm false
    rw [ev]
    refine Yields.ok (by simp [h]) ⟨hv.1, ?_⟩
    rw [hv.2, hd.2]
    simp
  · by_cases hb : InS (w * x.length) (toInt y - M)
    · obtain ⟨d, ed, dl, dv⟩ := hs.1 hb
      rw [ed, Res.bind_ok]
      have ha := addOpS hw (x := x) (y := d) (length_ne (n := 1) (by omega)) dl.symm true
      rw [dv] at ha
      by_cases hc : InS (w * x.length) (toInt x + (toInt y - M))
      · obtain ⟨v, ev, hv⟩ := ha.1 hc
        rw [ev]
        exact Yields.ok (by tauto) hv.wrap
      · rw [ha.2 hc]
        exact ⟨fun _ => rfl, fun h' => absurd (.inr ⟨rfl, h0, .inr hc⟩) h'⟩
    · rw [hs.2 hb, Res.bind_panic]
      exact ⟨fun _ => rfl, fun h' => absurd (.inr ⟨rfl, h0, .inl hb⟩) h'⟩

theorem checkedNextMultipleOfS_all (hw : 1 < w) {x y : Limbs w} (hl : x.length = y.length)
    (h2 : 2 ≤ x.length) (he : x.length % 2 = 0) (hy : toInt y ≠ 0) (h1 : toInt y ≠ -1) {R M : Int}
    (hR : R = (toInt x).tmod (toInt y) + (toInt x).sign *
      strayRem w x.length (toInt x).natAbs (toInt y).natAbs)
    (hM : M = if (0 < R ∧ toInt y < 0) ∨ (R < 0 ∧ 0 < toInt y) then R + toInt y else R) (oc : Bool) :
    Yields (DivPanics w x.length (toInt x).natAbs (toInt y).natAbs ∨
        oc = true ∧ M ≠ 0 ∧ ¬ InS (w * x.length) (toInt y - M))
      (CheckS x.length (if M = 0 then toInt x else
        toInt x + Int.bmod (toInt y - M) (2 ^ (w * x.length))))
      (I.checkedNextMultipleOf oc x y) := by
  rw [I.checkedNextMultipleOf, eqNegOne hw (by omega) (by omega)]
  simp only [decide_eq_true_eq]
  rw [if_neg h1, I.checkedRem, checkedS_eq hw hl (by omega) he,
    if_neg (c := toInt y = 0 ∨ toInt x = -2 ^ (w * x.length - 1) ∧ toInt y = -1) (by tauto)]
  obtain ⟨hp, hn⟩ := wrappingRemS hw hl (by omega) he hy
  by_cases h : DivPanics w x.length (toInt x).natAbs (toInt y).natAbs
  · rw [hp h, Res.map_panic, Res.bind_panic]
    exact ⟨fun _ => rfl, fun h' => absurd (.inl h) h'⟩
  obtain ⟨r, e, hr⟩ := hn h
  rw [← hR] at hr
  rw [e, Res.map_ok, Res.bind_ok]
  simp only
  obtain ⟨m, em, hm⟩ := adjust_all hw hr.1 hl.symm (by omega) oc
      ((I.isPositive r && I.isNegative y) || (I.isNegative r && I.isPositive y)) (by
      have rne : r ≠ [] := length_ne (n := 1) (by rw [hr.1]; omega)
      have yne : y ≠ [] := length_ne (n := 1) (by omega)
      rw [Bool.or_eq_true, Bool.and_eq_true, Bool.and_eq_true, isPositive_iff (by omega) rne,
        isNegative_iff (by omega) rne, isPositive_iff (by omega) yne, isNegative_iff (by omega) yne])
  rw [hr.2, ← hM] at hm
  rw [em, Res.bind_ok]
  have hmz : Ord.eqConst m (ofU8 x.length 0) = decide (toInt m = 0) := by
    rw [← hm.1]; exact eqZeroS (by rw [hm.1]; omega) (by rw [hm.1]; omega)
  rw [hmz]
  simp only [decide_eq_true_eq, hm.2]
  by_cases h0 : M = 0
  · rw [if_pos h0, if_pos h0]
    exact Yields.ok (by tauto) (check_self x)
  rw [if_neg h0, if_neg h0]
  have hs := subOpS hw (x := y) (y := m) (length_ne (n := 1) (by omega)) (hl.symm.trans hm.1.symm) oc
  rw [← hl, hm.2] at hs
  have key : ∀ d : Limbs w, WrapS x.length (toInt y - M) d →
      CheckS x.length (toInt x + Int.bmod (toInt y - M) (2 ^ (w * x.length))) (I.checkedAdd x d) := by
    intro d hd
    have := (Add.overS hw (x := x) (y := d) (length_ne (n := 1) (by omega)) hd.1.symm).check
    rw [hd.2] at this
    exact this
  cases oc
  · obtain ⟨d, ed, hd⟩ := hs
    rw [ed, Res.map_ok]
    exact Yields.ok (by simp [h]) (key d hd)
  · by_cases hb : InS (w * x.length) (toInt y - M)
    · obtain ⟨d, ed, hd⟩ := hs.1 hb
      rw [ed, Res.map_ok]
      exact Yields.ok (by tauto) (key d hd.wrap)
    · rw [hs.2 hb, Res.map_panic]
      exact ⟨fun _ => rfl, fun h' => absurd (.inr ⟨rfl, h0, hb⟩) h'⟩

/-- The checked, strict and operator forms of a division function. -/
theorem formsAll (hw : 1 < w) {x y : Limbs w} (hl : x.length = y.length) (h2 : 2 ≤ x.length)
    (he : x.length % 2 = 0) (hy : toInt y ≠ 0) {α : Type} {P : Prop} {Q : α → Prop} {r : Res α} (h : Yields P Q r)
    (hP : toInt y = -1 → ¬ P) (oc : Bool) :
    Yields P (fun o => (toInt x = -2 ^ (w * x.length - 1) ∧ toInt y = -1 → o = none) ∧
      (¬ (toInt x = -2 ^ (w * x.length - 1) ∧ toInt y = -1) → ∃ v, o = some v ∧ Q v))
      (checkedBy (I.isDivNone x y) r) ∧
    Yields (P ∨ toInt x = -2 ^ (w * x.length - 1) ∧ toInt y = -1) Q
      ((checkedBy (I.isDivNone x y) r).bind unwrapOrPanic) ∧
    Yields (P ∨ oc = true ∧ toInt x = -2 ^ (w * x.length - 1) ∧ toInt y = -1) Q
      (opOfR oc r (checkedBy (I.isDivNone x y) r)) := by
  rw [strictS_eq hw hl h2 he, opS_eq hw hl h2 he, checkedS_eq hw hl h2 he]
  by_cases c : toInt x = -2 ^ (w * x.length - 1) ∧ toInt y = -1
  · have hp := hP c.2
    rw [if_pos (.inr c), if_pos (.inr c)]
    refine ⟨Yields.ok hp ⟨fun _ => rfl, fun h => absurd c h⟩,
      ⟨fun _ => rfl, fun h => absurd (.inr c) h⟩, ?_⟩
    cases oc
    · rw [if_neg (by simp)]
      exact h.congr (by simp)
    · rw [if_pos ⟨rfl, .inr c⟩]
      exact ⟨fun _ => rfl, fun h => absurd (.inr ⟨rfl, c⟩) h⟩
  · rw [if_neg (by tauto), if_neg (by tauto), if_neg (by tauto)]
    exact ⟨h.map fun v hv => ⟨fun h => absurd h c, fun _ => ⟨v, rfl, hv⟩⟩, h.congr (by tauto),
      h.congr (by tauto)⟩

end I256
